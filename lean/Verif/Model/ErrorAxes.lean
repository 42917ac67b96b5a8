import Verif.Model.Pca
import Mathlib.LinearAlgebra.Matrix.NonsingularInverse

/-!
# Model of `attitude/error/axes.py` and of the conversions in
`attitude/error/__init__.py`
-/

namespace Attitude.ErrorAxes

open Attitude

/-- The quantile functions of `scipy.stats`: `f.ppf`, `chi2.ppf`, `norm.ppf`.
They are parameters; theorems state which facts about them they use.  Imported at error/axes.py
L9. -/
structure Quantiles where
  /-- `f.ppf(p, dfn, dfd)` -/
  f : ℝ → ℕ → ℕ → ℝ
  /-- `chi2.ppf(p, df)` -/
  chi2 : ℝ → ℕ → ℝ
  /-- `norm.ppf(p)` -/
  norm : ℝ → ℝ

/-- What the functions of this file read from a fit.  `ev` is the `eigenvalues`
property (`none`: the object has no such attribute, e.g. `ReconstructedPlane`),
`s` the singular values, `hyp` the `hyperbolic_axes` attribute (`none` if not
finite).  Read at error/axes.py L27, L37 and L102-146. -/
structure FitData where
  n : ℕ
  ev : Option (Vec 3)
  s : Vec 3
  hyp : Option (Vec 3)

/-- Keyword arguments a caller may pass.  `other` lists the names of keyword
arguments that no function understands.  error/axes.py L121-123. -/
structure Kw where
  method : Option String := none
  confidenceLevel : Option ℝ := none
  dof : Option ℕ := none
  chisq : Option Bool := none
  varianceOnAllAxes : Option Bool := none
  other : List String := []

/-- Result of a computation that may raise or give `nan`/`inf`.  For the functions of
error/axes.py L12-226. -/
abbrev Res (α : Type) := Except PyErr (Option α)

/-- `sampling_covariance`, axes.py L24-29 (for `n ≥ 2`). -/
noncomputable def samplingCovariance (n : ℕ) (ev : Vec 3) : Vec 3 :=
  fun j => 2 / ((n : ℝ) - 1) * ev j ^ 2

/-- `noise_covariance`, axes.py L31-40 (for `n ≠ dof`). -/
noncomputable def noiseCovariance (n : ℕ) (ev : Vec 3) (dof : ℕ := 2) : Vec 3 :=
  let measurementNoise := ev 2 / ((n : ℝ) - dof)
  fun j => 4 * ev j * measurementNoise

/-- `apply_error_scaling`, axes.py L42-53 (for `n ≥ 2`).  The in-place updates
act on an array that the callers have just computed. -/
noncomputable def applyErrorScaling (nominal errors : Vec 3) (n : ℕ)
    (varianceOnAllAxes : Bool := true) : Vec 3 :=
  let last := if varianceOnAllAxes then nominal 2 else nominal 2 / ((n : ℝ) - 1)
  let nominal : Vec 3 := ![nominal 0, nominal 1, -last]
  fun j => |nominal j - errors j|

/-- `angular_errors`, axes.py L67-77, in radians, for non-negative axes.
`arctan2(√h2, √h_j)`; numpy returns 0 for `arctan2(0, 0)`, as does `Complex.arg`. -/
noncomputable def angularErrors (h : Vec 3) : ℝ × ℝ :=
  (arctan2 (Real.sqrt (h 2)) (Real.sqrt (h 0)), arctan2 (Real.sqrt (h 2)) (Real.sqrt (h 1)))

/-- `axis_angular_error`, axes.py L59-65; same formula as
`PCAOrientation.angular_error`, pca.py L288-295. -/
noncomputable def axisAngularError (h : Vec 3) (len : ℝ) : ℝ := arctan2 (h 2) len

/-- `fisher_statistic`, axes.py L102-106; `none` when scipy returns `nan` or
`inf` (non-positive degrees of freedom, or level outside `[0, 1)`). -/
noncomputable def fisherStatistic (Q : Quantiles) (n : ℕ) (cl : ℝ) (dof : ℕ := 2) : Option ℝ :=
  if 0 < dof ∧ dof < n ∧ 0 ≤ cl ∧ cl < 1 then some (Q.f cl dof (n - dof)) else none

/-- `chi2.ppf`, with the same convention.  error/axes.py L137 and L210. -/
noncomputable def chi2Statistic (Q : Quantiles) (cl : ℝ) (dof : ℕ) : Option ℝ :=
  if 0 < dof ∧ 0 ≤ cl ∧ cl < 1 then some (Q.chi2 cl dof) else none

/-- `statistical_axes`, axes.py L108-146.
* an unknown `method` leaves `cov` unbound (L127-130, used in L145);
* `dof` is popped (L123), so `noise_covariance` runs with its default;
* keyword arguments that are left over make `apply_error_scaling` raise. -/
noncomputable def statisticalAxes (Q : Quantiles) (fit : FitData) (kw : Kw) : Res (Vec 3) :=
  let method := kw.method.getD "noise"
  let cl := kw.confidenceLevel.getD 0.95
  let dof := kw.dof.getD 2
  match fit.ev with
  | none => .error .attributeError
  | some ev =>
    let cov : Option (Vec 3) :=
      if method = "sampling" then some (samplingCovariance fit.n ev)
      else if method = "noise" then some (noiseCovariance fit.n ev)
      else none
    let z := if kw.chisq.getD false then chi2Statistic Q cl dof
      else fisherStatistic Q fit.n cl dof
    match cov with
    | none => .error .unboundLocalError
    | some cov =>
      if kw.other ≠ [] then .error .typeError
      else match z with
        | none => .ok none
        | some z =>
          let err : Vec 3 := fun j => z * Real.sqrt (cov j)
          .ok (some (applyErrorScaling ev err fit.n (kw.varianceOnAllAxes.getD true)))

/-- `sampling_axes`, axes.py L148-156: passing `method` as well is a `TypeError`. -/
noncomputable def samplingAxes (Q : Quantiles) (fit : FitData) (kw : Kw) : Res (Vec 3) :=
  if kw.method.isSome then .error .typeError
  else statisticalAxes Q fit { kw with method := some "sampling" }

/-- `noise_axes`, axes.py L158-165. -/
noncomputable def noiseAxes (Q : Quantiles) (fit : FitData) (kw : Kw) : Res (Vec 3) :=
  if kw.method.isSome then .error .typeError
  else statisticalAxes Q fit { kw with method := some "noise" }

/-- `hyperbolic_axes`, axes.py L218-226: any exception is swallowed and the
stored axes are returned. -/
noncomputable def hyperbolicAxes (Q : Quantiles) (fit : FitData) (type : Option String) (kw : Kw) :
    Option (Vec 3) :=
  let r := if type.getD "noise" = "noise" then noiseAxes Q fit kw else samplingAxes Q fit kw
  match r with
  | .ok h => h
  | .error _ => fit.hyp

/-- `jolliffe_axes`, axes.py L80-100; `none` when the square root is of a
negative number or zero. -/
noncomputable def jolliffeAxes (Q : Quantiles) (n : ℕ) (e : Vec 3) (cl : ℝ) : Option (Vec 3) :=
  let l : Vec 3 := fun j => e j * ((n : ℝ) - 1) / n
  let z := Q.norm (cl / 2)
  let tau := Real.sqrt (2 / ((n : ℝ) - 1))
  let scalar := tau * z
  if 1 + scalar ≤ 0 then none
  else
    let lc : Vec 3 := fun j => l j / Real.sqrt (1 + scalar)
    some ![lc 0, lc 1, e 2 - lc 2]

/-- `francq_axes`, axes.py L167-179 (for `n ≥ 3`). -/
noncomputable def francqAxes (Q : Quantiles) (n : ℕ) (e : Vec 3) (cl : ℝ)
    (varianceOnAllAxes : Bool := true) : Option (Vec 3) := do
  let F ← fisherStatistic Q n cl
  let factor := 2 * F / ((n : ℝ) - 2)
  let h : Vec 3 := fun j => e j * Real.sqrt factor
  some (applyErrorScaling e h n varianceOnAllAxes)

/-- `babamoradi_axes`, axes.py L181-188 (for `n ≥ 3`). -/
noncomputable def babamoradiAxes (Q : Quantiles) (n : ℕ) (e : Vec 3) (cl : ℝ) :
    Option (Vec 3) := do
  let F ← fisherStatistic Q n cl
  let val := 2 * F / ((n : ℝ) - 2)
  let H : Vec 3 := fun j => Real.sqrt (e j * val * ((n : ℝ) ^ 2 - 1) / n)
  some fun j => H j ^ 2

/-- Design matrix of `regression_axes`, axes.py L192-194. -/
noncomputable def designMatrix {n : ℕ} (arr : Mat n 3) : Mat n 3 :=
  Matrix.of fun i j => if j = 2 then 1 else arr i j

/-- Regression coefficients of `regression_axes`, axes.py L196-203. -/
noncomputable def regressionCoefficients {n : ℕ} (arr : Mat n 3) : Vec 3 :=
  let X := designMatrix arr
  ((X.transpose * X)⁻¹ * X.transpose).mulVec fun i => arr i 2

/-- `regression_axes`, axes.py L190-216.  A singular normal matrix raises; a
zero standard error (division by zero) gives `none`. -/
noncomputable def regressionAxes (Q : Quantiles) {n : ℕ} (fit : Pca.Fit n) (cl : ℝ) :
    Res (Vec 3) :=
  let arr := Pca.rotated fit
  let X := designMatrix arr
  let y : Vec n := fun i => arr i 2
  if (X.transpose * X).det = 0 then .error .linAlgError
  else
    let inv := (X.transpose * X)⁻¹
    let B := regressionCoefficients arr
    let yhat := X.mulVec B
    let mse := (∑ i, (y i - yhat i) ^ 2) / n
    let varB : Vec 3 := fun j => mse * inv j j
    match chi2Statistic Q cl 2 with
    | none => .ok none
    | some sigma =>
      let h : Vec 3 := fun j => sigma * Real.sqrt (varB j)
      if h 0 = 0 ∨ h 1 = 0 then .ok none
      else .ok (some ![1 / h 0, 1 / h 1, h 2 ^ 2])

/-- What `error.axes` reads from a `PCAOrientation` (`n` L165, `eigenvalues`
L249, `singular_values`; `hyperbolic_axes` is `method(self)` with the default
`noise_axes`, L154, L284-286). -/
noncomputable def ofFit (Q : Quantiles) {n : ℕ} (f : Pca.Fit n) : FitData :=
  let base : FitData := { n := n, ev := some (Pca.eigenvalues f), s := f.s, hyp := none }
  { base with hyp := match noiseAxes Q base {} with
      | .ok h => h
      | .error _ => none }

/-- `PCAOrientation.angular_errors(degrees=False)`, pca.py L297-307, with the
default method. -/
noncomputable def fitAngularErrors (Q : Quantiles) {n : ℕ} (f : Pca.Fit n) : Option (ℝ × ℝ) :=
  match noiseAxes Q (ofFit Q f) {} with
  | .ok (some h) => some (angularErrors h)
  | _ => none

/-- `to_normal_errors`, error/__init__.py L37-43; `none` on division by zero. -/
noncomputable def toNormalErrors (a : Vec 3) : Option (Vec 3) :=
  if a 0 = 0 ∨ a 1 = 0 ∨ a 2 = 0 then none else some fun j => 1 / a j * a 2 ^ 2

/-- `from_normal_errors`, error/__init__.py L45-50; `none` on division by zero. -/
noncomputable def fromNormalErrors (a : Vec 3) : Option (Vec 3) :=
  if a 0 = 0 ∨ a 1 = 0 ∨ a 2 = 0 then none else some fun j => a 2 ^ 2 / a j

/-- `error_bounds`, error/__init__.py L8-10. -/
def errorBounds {n : ℕ} (nominal width : Vec n) : Vec n × Vec n :=
  (fun i => nominal i - width i, fun i => nominal i + width i)

end Attitude.ErrorAxes
