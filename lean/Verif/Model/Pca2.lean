import Verif.Model.ErrorAxes

/-!
# Model of `PCAOrientation` for arrays of two columns

pca.py L229-232 mentions "2D cases": the same class with points in a plane.  Everything
that follows is `attitude/orientation/pca.py` read for an array of shape `(n, 2)`, with
`weights` and `axes` left at their defaults.
-/

namespace Attitude.Pca2

open Attitude

/-- The contract of `numpy.linalg.svd(A, full_matrices=False)` for an `(m, 2)` array.  External;
used at orientation/pca.py L186. -/
structure IsSVD2 {m : ℕ} (A U : Mat m 2) (s : Vec 2) (V : Mat 2 2) : Prop where
  recon : A = U * Matrix.diagonal s * V
  orthU : U.transpose * U = 1
  orthV : V * V.transpose = 1
  nonneg : 0 ≤ s 1
  le01 : s 1 ≤ s 0

/-- The decomposition used, a parameter as in `Pca.SvdFn`.  External; used at orientation/pca.py
L186. -/
abbrev SvdFn := (m : ℕ) → Mat m 2 → Mat m 2 × Vec 2 × Mat 2 2

/-- The backend meets its contract.  External; used at orientation/pca.py L186. -/
def SvdFn.Valid (svd : SvdFn) : Prop :=
  ∀ (m : ℕ) (A : Mat m 2), 2 ≤ m → IsSVD2 A (svd m A).1 (svd m A).2.1 (svd m A).2.2

/-- `arr.mean(axis=0)`, pca.py L153. -/
noncomputable def meanRows {n : ℕ} (a : Fin n → Vec 2) : Vec 2 := fun j => (∑ i, a i j) / n

/-- `centered`, coordinates/__init__.py L19-28. -/
noncomputable def centered {n : ℕ} (a : Fin n → Vec 2) : Fin n → Vec 2 :=
  fun i j => a i j - meanRows a j

/-- `numpy.cross` of two vectors of two components: a number (numpy before version 2
without a warning, later versions with one).  External; used at orientation/pca.py L217, L227 and
L229. -/
def cross2 (v w : Vec 2) : ℝ := v 0 * w 1 - v 1 * w 0

/-- Attributes of the object.  orientation/pca.py L151-172 and L212-217. -/
structure Fit (n : ℕ) where
  array : Fin n → Vec 2
  mean : Vec 2
  arr : Fin n → Vec 2
  U : Mat n 2
  s : Vec 2
  V : Mat 2 2
  normal : Vec 2
  offset : ℝ
  strike : ℝ
  dipDr : Option (Vec 2)

/-- L219-222: the last axis, reversed if its last component is negative. -/
noncomputable def upward (v : Vec 2) : Vec 2 := if v 1 < 0 then -v else v

/-- `__compute_derived_parameters`, pca.py L212-232.  `N.cross(self.strike, self.normal)`
of a number raises numpy's `AxisError`, which is a `ValueError`, so `dip_dr` is `None`. -/
noncomputable def derive {n : ℕ} (a : Fin n → Vec 2) (U : Mat n 2) (s : Vec 2) (V : Mat 2 2) :
    Fit n :=
  let nrm := upward (V 1)
  { array := a, mean := meanRows a, arr := centered a, U, s, V,
    normal := nrm,
    offset := cross2 (Matrix.diagonal s 0) (Matrix.diagonal s 1),
    strike := cross2 nrm ![0, 1],
    dipDr := none }

/-- `__init__`, pca.py L123-196: fewer than three rows are refused.  Weights of one do
not change the decomposition. -/
noncomputable def init (svd : SvdFn) {n : ℕ} (a : Fin n → Vec 2) : Except PyErr (Fit n) :=
  if n < 3 then .error .valueError
  else
    let (U, s, V) := svd n (Matrix.of (centered a))
    .ok (derive a U s V)

/-- `eigenvalues`, pca.py L249-254. -/
noncomputable def eigenvalues {n : ℕ} (f : Fit n) : Vec 2 := fun j => f.s j ^ 2 / ((n : ℝ) - 1)

/-- `rotated`, pca.py L256-262. -/
def rotated {n : ℕ} (f : Fit n) : Mat n 2 := Matrix.of f.arr * f.V.transpose

/-- `residuals`, pca.py L264-274. -/
def residuals {n : ℕ} (f : Fit n) : Mat n 2 :=
  let r : Mat n 2 := Matrix.of fun i j => if j = 1 then 0 else rotated f i j
  Matrix.of f.arr - r * f.V

/-- `numpy.var(·, axis=0)` (ddof 0).  External; used at orientation/pca.py L317. -/
noncomputable def varRows {n : ℕ} (a : Mat n 2) : Vec 2 :=
  fun j => (∑ i, (a i j - (∑ k, a k j) / n) ^ 2) / n

/-- `covariance_matrix` (the default, `'noise'`), pca.py L309-326. -/
noncomputable def covarianceMatrix {n : ℕ} (f : Fit n) : Mat 2 2 :=
  Matrix.of fun i j => 4 * Matrix.diagonal f.s i j * varRows (rotated f) j

/-- `explained_variance`, pca.py L328-337: the slice `v[0:2]` is the whole diagonal. -/
noncomputable def explainedVariance {n : ℕ} (f : Fit n) : Option ℝ :=
  let v : Vec 2 := fun j => covarianceMatrix f j j
  fdiv (v 0 + v 1) (v 0 + v 1)

/-- `self.axes[2]`, read by `coefficients` (L339-341), `azimuth` and `slope` (L343-352),
`_strike_dip`, `strike_dip` (L354-385) and `as_conic`: there are only two axes. -/
def axis {n : ℕ} (f : Fit n) (i : ℕ) : Except PyErr (Vec 2) :=
  if h : i < 2 then .ok (f.V ⟨i, h⟩) else .error .indexError

/-- `coefficients`, pca.py L339-341. -/
def coefficients {n : ℕ} (f : Fit n) : Except PyErr (Vec 2) := axis f 2

/-- `strike_dip`, pca.py L361-385; the code after L369 is not reached, the result of
`axis` stands in for it. -/
def strikeDip {n : ℕ} (f : Fit n) : Except PyErr (ℝ × ℝ) := do
  let v ← axis f 2
  .ok (v 0, v 1)

/-- `to_mapping`, base.py L91-96 called from pca.py L497-501: the first statement asks for
`strike_dip_rake`, which asks for `strike_dip`. -/
def toMapping {n : ℕ} (f : Fit n) : Except PyErr (ℝ × ℝ) := strikeDip f

/-- `hyperbolic_axes` with the default method, pca.py L284-286 and axes.py L108-146:
`noise_covariance` and `apply_error_scaling` on two eigenvalues. -/
noncomputable def hyperbolicAxes (Q : ErrorAxes.Quantiles) {n : ℕ} (f : Fit n) (cl : ℝ := 0.95) :
    Option (Vec 2) := do
  let z ← ErrorAxes.fisherStatistic Q n cl
  let ev := eigenvalues f
  let noise := ev 1 / ((n : ℝ) - 2)
  let err : Vec 2 := fun j => z * Real.sqrt (4 * ev j * noise)
  let nominal : Vec 2 := ![ev 0, -ev 1]
  some fun j => |nominal j - err j|

/-- `angular_errors`, pca.py L297-307 and axes.py L67-77, in degrees: `ax[:-1]` has one
component. -/
noncomputable def angularErrors (Q : ErrorAxes.Quantiles) {n : ℕ} (f : Fit n) : Option (List ℝ) := do
  let h ← hyperbolicAxes Q f
  some [degrees (arctan2 (Real.sqrt (h 1)) (Real.sqrt (h 0)))]

end Attitude.Pca2
