import Verif.Model.Pca
import Verif.Model.Dem

/-!
# Principal component fits of points with missing coordinates

`Model/Pca.lean` has real coordinates.  Here a coordinate is a number or `nan` (`none`), for the
default weights.
-/

namespace Attitude.Missing

open Attitude

/-- `a - b` in floating-point arithmetic: `nan` if one of them is.  coordinates/__init__.py
L27-28. -/
def nsub (x y : Option ℝ) : Option ℝ := x.bind fun a => y.map fun b => a - b

open Classical in
/-- `arr.mean(axis=0)`, pca.py L157 and coordinates/__init__.py L27: `nan` in a column that
contains `nan`, and for an empty array. -/
noncomputable def mean {n : ℕ} (a : Fin n → Fin 3 → Option ℝ) (j : Fin 3) : Option ℝ :=
  if n = 0 ∨ ∃ i, a i j = none then none else some ((∑ i, (a i j).getD 0) / n)

/-- `centered`, coordinates/__init__.py L19-28. -/
noncomputable def centered {n : ℕ} (a : Fin n → Fin 3 → Option ℝ) : Fin n → Fin 3 → Option ℝ :=
  fun i j => nsub (a i j) (mean a j)

/-- Attributes of the object, as in `Pca.Fit`; the others are computed from these.
orientation/pca.py L151-165 and L212-217. -/
structure Fit (n : ℕ) where
  array : Fin n → Fin 3 → Option ℝ
  mean : Fin 3 → Option ℝ
  arr : Fin n → Fin 3 → Option ℝ
  s : Vec 3
  V : Mat 3 3
  normal : Vec 3

open Classical in
/-- `__run_svd`, pca.py L174-196.  `numpy.linalg.svd` raises `LinAlgError` for a matrix that
contains `nan`. -/
noncomputable def runSvd (svd : Pca.SvdFn) {n : ℕ} (arr : Fin n → Fin 3 → Option ℝ) :
    Except PyErr (Vec 3 × Mat 3 3) :=
  if n < 3 then .error .valueError
  else if ∃ i j, arr i j = none then .error .linAlgError
  else
    let res := svd n (Matrix.of fun i j => (arr i j).getD 0)
    .ok (res.2.1, res.2.2)

/-- `PCAOrientation.__init__`, pca.py L123-172, with default weights.  `.ok none` is an object
whose axes contain `nan`. -/
noncomputable def init (svd : Pca.SvdFn) {n : ℕ} (a : Fin n → Fin 3 → Option ℝ)
    (axes : Option (Mat 3 3)) : Except PyErr (Option (Fit n)) :=
  let arr := centered a
  match axes with
  | none => do
      let (s, V) ← runSvd svd arr
      .ok (some ⟨a, mean a, arr, s, V, Pca.upward (V 2)⟩)
  | some ax =>
      match Pca.loadSavedFit ax with
      | none => .ok none
      | some (s, V) => .ok (some ⟨a, mean a, arr, s, V, Pca.upward (V 2)⟩)

end Attitude.Missing
