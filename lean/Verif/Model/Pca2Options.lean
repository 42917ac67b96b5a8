import Verif.Model.Pca2

/-!
# Model of the arguments `weights` and `axes` of `PCAOrientation` for arrays of two columns

`attitude/orientation/pca.py` L123-210 read for an array of shape `(n, 2)`; see `Pca2` for the class without
these arguments.
-/

namespace Attitude.Pca2

open Attitude

/-- `__run_svd`, pca.py L174-196.  As in `Pca.runSvd` a zero weight makes the matrix non-finite, for which numpy
raises `LinAlgError`. -/
noncomputable def runSvd (svd : SvdFn) {n : ℕ} (arr : Fin n → Vec 2) (weights : Vec 2) :
    Except PyErr (Mat n 2 × Vec 2 × Mat 2 2) :=
  if n < 3 then .error .valueError
  else if weights 0 = 0 ∨ weights 1 = 0 then .error .linAlgError
  else
    let res := svd n (Matrix.of fun i j => arr i j / weights j)
    .ok (res.1, (fun j => res.2.1 j * weights j), res.2.2)

/-- `N.linalg.norm(axes, axis=0)`, pca.py L206. -/
noncomputable def columnNorms (axes : Mat 2 2) : Vec 2 := fun j => norm fun i => axes i j

/-- `__load_saved_fit`, pca.py L198-210: `singular_values` and `V`; `none` when a column is zero, in which case
`V` contains `nan`. -/
noncomputable def loadSavedFit (axes : Mat 2 2) : Option (Vec 2 × Mat 2 2) :=
  let s := columnNorms axes
  if s 0 = 0 ∨ s 1 = 0 then none
  else some (s, Matrix.of fun i j => axes i j / s j)

/-- The property `U` of an object made from saved axes, pca.py L239-247 (computed when it is first read; here
at once, which cannot be observed). -/
noncomputable def lazyU {n : ℕ} (arr : Fin n → Vec 2) (s : Vec 2) (V : Mat 2 2) : Mat n 2 :=
  Matrix.of arr * V.transpose * Matrix.diagonal fun j => 1 / s j

/-- `__init__`, pca.py L123-172.  `.ok none` is an object with `nan` in its axes or, for an array without rows,
in its mean. -/
noncomputable def initWith (svd : SvdFn) {n : ℕ} (a : Fin n → Vec 2) (weights : Option (Vec 2))
    (axes : Option (Mat 2 2)) : Except PyErr (Option (Fit n)) :=
  let w := weights.getD ![1, 1]
  match axes with
  | none => do
      let (U, s, V) ← runSvd svd (centered a) w
      .ok (some (derive a U s V))
  | some ax =>
      match loadSavedFit ax with
      | none => .ok none
      | some (s, V) => if n = 0 then .ok none else .ok (some (derive a (lazyU (centered a) s V) s V))

/-- `principal_axes`, base.py L75-77: `singular_values*axes` multiplies the columns. -/
def principalAxes {n : ℕ} (f : Fit n) : Mat 2 2 := Matrix.of fun i j => f.s j * f.V i j

end Attitude.Pca2
