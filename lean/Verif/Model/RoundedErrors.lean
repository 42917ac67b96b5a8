import Verif.Model.RoundedFit

/-!
# Angular errors in floating-point arithmetic

`PCAOrientation.angular_errors` in attitude/orientation/pca.py with the default options of
`noise_axes` and `sampling_axes` in attitude/error/axes.py, with the rounding of each operation.  As in
`Verif.Model.Rounding` overflow and underflow are left out, and the numbers `n - 1` and `n - 2` are
taken to be exact, which they are for up to 2^53 points.
-/

namespace Attitude.RoundedErrors

open Attitude Rounding RoundedFit

/-- `eigenvalues`, pca.py L249-254. -/
noncomputable def flEigenvalues (rnd : ℝ → ℝ) (n : ℕ) (s : Vec 3) : Vec 3 :=
  fun j => rnd (rnd (s j ^ 2) / ((n : ℝ) - 1))

/-- `sampling_covariance`, axes.py L24-29, and `noise_covariance`, axes.py L31-40. -/
noncomputable def flCovariance (rnd : ℝ → ℝ) (sampling : Bool) (n : ℕ) (ev : Vec 3) : Vec 3 :=
  fun j => if sampling then rnd (rnd (2 / ((n : ℝ) - 1)) * rnd (ev j ^ 2))
    else rnd (rnd (4 * ev j) * rnd (ev 2 / ((n : ℝ) - 2)))

/-- `statistical_axes`, axes.py L108-146, and `apply_error_scaling`, L42-53, for singular values `s`;
`z` is the number returned by `scipy.stats.f.ppf`. -/
noncomputable def flAxes (rnd : ℝ → ℝ) (sampling : Bool) (n : ℕ) (s : Vec 3) (z : ℝ) : Vec 3 :=
  let ev := flEigenvalues rnd n s
  let cov := flCovariance rnd sampling n ev
  let err : Vec 3 := fun j => rnd (z * rnd (Real.sqrt (cov j)))
  let nominal : Vec 3 := ![ev 0, ev 1, -ev 2]
  fun j => |rnd (nominal j - err j)|

/-- `angular_errors`, axes.py L67-77, and `N.degrees`, pca.py L303-307. -/
noncomputable def flAngularErrors (rnd : ℝ → ℝ) (lib : Libm) (h : Vec 3) : ℝ × ℝ :=
  let ax : Vec 3 := fun j => rnd (Real.sqrt (h j))
  (lib.atan2deg (ax 2) (ax 0), lib.atan2deg (ax 2) (ax 1))

/-- `PCAOrientation(a).angular_errors()`, pca.py L123-196 and L297-307. -/
noncomputable def flErrors (rnd : ℝ → ℝ) (lib : Libm) (svd : FlSvd) {n : ℕ} (t : Fin 3 → SumTree n)
    (a : Fin n → Vec 3) (sampling : Bool) (z : ℝ) : Except PyErr (ℝ × ℝ) := do
  let f ← flFit rnd svd t a
  .ok (flAngularErrors rnd lib (flAxes rnd sampling n f.1 z))

end Attitude.RoundedErrors
