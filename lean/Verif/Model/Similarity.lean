import Verif.Model.Conics
import Verif.Model.Pca

/-!
# Model of the comparison of fits in `attitude/geom/__init__.py` and of the
module-level `covariance_matrix` of `attitude/orientation/pca.py`
-/

namespace Attitude.Similarity

open Attitude Pca Conics

/-- `N.linalg.norm` of a two-dimensional array (Frobenius norm).  External; used at
geom/__init__.py L14. -/
noncomputable def frobeniusNorm (A : Mat 3 3) : ℝ := Real.sqrt (∑ i, ∑ j, A i j ^ 2)

/-- `aligned_covariance`, geom/__init__.py L7-15; `none` when the covariance is
zero and the quotient is `nan`.  Only the two known values of `type` are
modelled. -/
noncomputable def alignedCovariance {n : ℕ} (f : Fit n) (type : CovType := .noise) :
    Option (Mat 3 3) :=
  let cov := covarianceMatrix f type
  let r := frobeniusNorm cov
  if r = 0 then none else some (f.V * Matrix.of fun i j => cov i j / r)

/-- `fit_similarity`, geom/__init__.py L23-42.  The decomposition of an array
with `nan` raises `LinAlgError`; the value is `none` (infinite or `nan`) when a
singular value is zero. -/
noncomputable def fitSimilarity (svd : SqSvd) {n m : ℕ} (f₁ : Fit n) (f₂ : Fit m) :
    Except PyErr (Option ℝ) :=
  match alignedCovariance f₁, alignedCovariance f₂ with
  | some cov1, some cov2 =>
    let cov2 := if f₂.V 2 2 < 0 then -cov2 else cov2
    let v0 := f₁.normal - f₂.normal
    let cov0 := cov1 + cov2
    let r := svd 3 cov0
    let s := r.2.1
    let rotated := r.2.2.mulVec v0
    if s 0 = 0 ∨ s 1 = 0 ∨ s 2 = 0 then .ok none
    else .ok (some (Real.sqrt (∑ i, rotated i ^ 2 / Real.sqrt (s i))))
  | _, _ => .error .linAlgError

/-- The function `covariance_matrix` of the module pca.py, L83-108; `none` when
`U` is not finite. -/
noncomputable def moduleCovariance {n : ℕ} (f : Fit n) : Option (Mat n n) := do
  let U ← (getU f).1
  let a := U * Matrix.diagonal f.s
  some (a * a.transpose)

/-- `test_SVD`, pca.py L73-81: whether the assertion holds (`allclose` is
equality of real numbers); `none` when `U` is not finite. -/
noncomputable def testSvd {n : ℕ} (f : Fit n) : Option Prop := do
  let U ← (getU f).1
  some (U * (Matrix.diagonal f.s * f.V) = Matrix.of f.arr)

end Attitude.Similarity
