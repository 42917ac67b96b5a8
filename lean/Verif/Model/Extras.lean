import Verif.Model.Conics
import Verif.Model.Pca

/-!
# Model of the module functions of `attitude/orientation/pca.py`, of
`attitude/geom/transform.py`, of `axis_aligned_transforms` in `attitude/geom/__init__.py`
and of `attitude/geom/symbolic_math.py`
-/

namespace Attitude.Extras

open Attitude Matrix Conics

/-! ## orientation/pca.py -/

/-- `augment`, pca.py L30-34, of an array of shape `(m, k)`: an identity matrix of size
`m + 1` whose first rows and columns are replaced.  Arrays with more than `m + 1` columns do
not fit. -/
def augmentMatrix {m k : ℕ} (A : Mat m k) : Except PyErr (Mat (m + 1) (m + 1)) :=
  if k ≤ m + 1 then
    .ok (Matrix.of fun i j =>
      if h : (i : ℕ) < m ∧ (j : ℕ) < k then A ⟨i, h.1⟩ ⟨j, h.2⟩ else if i = j then 1 else 0)
  else .error .valueError

/-- `augment_vector`, pca.py L36-37. -/
def augmentVector {m : ℕ} (v : Vec m) : Vec (m + 1) := Fin.snoc v 1

/-- `rotate_tensor`, pca.py L39-43. -/
def rotateTensor {m k : ℕ} (t : Mat m m) (T : Mat k m) : Mat k k := T * t * T.transpose

/-- `compose_affine`, pca.py L45-49: `reduce` is not defined in Python 3. -/
def composeAffine {m : ℕ} (_ : List (Mat m m)) : Except PyErr (Mat m m) := .error .nameError

/-- The contract of `numpy.linalg.lstsq(A, B)[0]`: the columns are least-squares solutions.
External; used at orientation/pca.py L69. -/
def IsLstsq {m k p : ℕ} (A : Mat m k) (B : Mat m p) (X : Mat k p) : Prop :=
  ∀ (Y : Mat k p), ∑ i, ∑ j, ((A * X) i j - B i j) ^ 2 ≤ ∑ i, ∑ j, ((A * Y) i j - B i j) ^ 2

/-- `axis_transform`, pca.py L57-71, for a backend `lstsq`. -/
def axisTransform (lstsq : Mat 3 3 → Mat 3 3 → Mat 3 3) (axes : Mat 3 3) : Mat 3 3 := lstsq 1 axes

/-- The value `rec` of `test_SVD`, pca.py L73-81. -/
def reconstruction {n : ℕ} (f : Pca.Fit n) (U : Mat n 3) : Mat n 3 := U * (Matrix.diagonal f.s * f.V)

/-- `covariance_matrix` (the function), pca.py L83-108. -/
def gram {n : ℕ} (f : Pca.Fit n) (U : Mat n 3) : Mat n n :=
  let a := U * Matrix.diagonal f.s
  a * a.transpose

/-- `random_pca`, pca.py L22-28, as the error it raises: `random_plane` is not imported. -/
def randomPca (scattered : Bool) : Except PyErr Unit :=
  if scattered then .ok () else .error .nameError

/-- `PCAOrientation.from_axes`, pca.py L114-121, called with `k` arguments: the class is the
only parameter; the result is `None`. -/
def fromAxes (k : ℕ) : Except PyErr Unit := if k = 0 then .ok () else .error .typeError

/-! ## geom/transform.py and geom/__init__.py -/

/-- `rotate_2D`, transform.py L3-9. -/
noncomputable def rotate2D (angle : ℝ) : Mat 2 2 :=
  !![Real.cos angle, -Real.sin angle; Real.sin angle, Real.cos angle]

/-- `axis_aligned_transforms`, geom/__init__.py L43-57. -/
def axisAlignedTransforms : Mat 2 3 × Mat 2 3 × Mat 2 3 :=
  let I : Mat 3 3 := 1
  (Matrix.of ![I 0, I 1], Matrix.of ![I 0, I 2], Matrix.of ![I 1, I 2])

/-! ## geom/symbolic_math.py

sympy matrices over the reals; `.inv()` of a singular matrix raises an error that is
represented by `linAlgError`. -/

/-- `center`, symbolic_math.py L8-11. -/
noncomputable def symCenter {d : ℕ} (C : Con d) : Except PyErr (Vec d) := do
  let ec ← inv (quad C)
  .ok (ec *ᵥ (-lin C))

/-- `dual`, symbolic_math.py L13-14. -/
noncomputable def symDual {d : ℕ} (C : Con d) : Except PyErr (Con d) := inv C

/-- `polar_plane`, symbolic_math.py L16-20. -/
def symPolarPlane {d : ℕ} (C : Con d) (point : Option (Vec d) := none) : Vec (d + 1) :=
  C *ᵥ augment (point.getD 0)

/-- `origin_distance`, symbolic_math.py L22-23; `none` for a zero normal (`nan` or `zoo`). -/
noncomputable def originDistance {d : ℕ} (p : Vec (d + 1)) : Option ℝ :=
  fdiv (p (Fin.last d)) (norm fun i : Fin d => p i.castSucc)

end Attitude.Extras
