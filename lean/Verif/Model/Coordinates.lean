import Verif.Model.Num

/-!
# Model of `attitude/coordinates/__init__.py`
-/

namespace Attitude.Coordinates

open Attitude

/-- `spherical` for one point, coordinates/__init__.py L3-9.  The point at the
origin divides by `r = 0`, giving `nan` for `theta`: that is `none`. -/
noncomputable def sphericalPt (c : Vec 3) : Option (ℝ × ℝ × ℝ) := do
  let r := norm c
  let q ← fdiv (c 2) r
  let theta := Real.arccos q
  let phi := arctan2 (c 1) (c 0)
  some (r, theta, phi)

/-- `cartesian` for one point, coordinates/__init__.py L11-17. -/
noncomputable def cartesianPt (s : ℝ × ℝ × ℝ) : Vec 3 :=
  let (r, theta, phi) := s
  let z := r * Real.cos theta
  let zc := r * Real.sin theta
  let x := zc * Real.sin phi
  let y := zc * Real.cos phi
  ![x, y, z]

/-- `spherical` for an array of shape `(3, n)`, coordinates/__init__.py L3-9:
`column_stack` makes the result of shape `(n, 3)`.  Entries are `none` when the
float is not finite. -/
noncomputable def sphericalArr {n : ℕ} (c : Fin 3 → Fin n → ℝ) : Fin n → Fin 3 → Option ℝ :=
  fun i =>
    let p : Vec 3 := fun j => c j i
    let r := norm p
    ![some r, (fdiv (p 2) r).map Real.arccos, some (arctan2 (p 1) (p 0))]

/-- Elementwise product of possibly non-finite floats.  The products of coordinates/__init__.py
L13-16. -/
def omul (a b : Option ℝ) : Option ℝ := do
  let x ← a
  let y ← b
  some (x * y)

/-- `cartesian` for an array of shape `(k, m)`, coordinates/__init__.py L11-17.
The unpacking `r,theta,phi = spherical` raises `ValueError` unless there are
exactly three rows. -/
noncomputable def cartesianArr {k m : ℕ} (a : Fin k → Fin m → Option ℝ) :
    Except PyErr (Fin 3 → Fin m → Option ℝ) :=
  if h : k = 3 then
    let r := a (Fin.cast h.symm 0)
    let theta := a (Fin.cast h.symm 1)
    let phi := a (Fin.cast h.symm 2)
    let z := fun i => omul (r i) ((theta i).map Real.cos)
    let zc := fun i => omul (r i) ((theta i).map Real.sin)
    let x := fun i => omul (zc i) ((phi i).map Real.sin)
    let y := fun i => omul (zc i) ((phi i).map Real.cos)
    .ok ![x, y, z]
  else .error .valueError

/-- Array transpose `.T` (numpy), used to state what a caller has to do.  The layout of the
arguments of coordinates/__init__.py L3-17. -/
def transposeArr {k m : ℕ} (a : Fin k → Fin m → Option ℝ) : Fin m → Fin k → Option ℝ :=
  fun i j => a j i

/-- `centered`, coordinates/__init__.py L19-28, for an array of shape `(n, 3)`.
With no rows `N.mean` is `nan` but the result has no rows either, so the
totalised mean is never used. -/
noncomputable def centered {n : ℕ} (a : Fin n → Vec 3) : Fin n → Vec 3 :=
  fun i j => a i j - meanRows a j

end Attitude.Coordinates
