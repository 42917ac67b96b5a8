import Verif.Model.Linear

/-!
# Model of `axes` in `attitude/orientation/linear/__init__.py`
-/

namespace Attitude.SlopeEllipse

open Attitude

/-- The numbers that `scipy.linalg.eig` returns for an array of two rows and columns.  They have the type of
complex numbers; arrays for which they are not real are not modelled.  External; used at
orientation/linear/__init__.py L13. -/
abbrev Eig := Mat 2 2 → ℝ × ℝ

/-- The contract of `scipy.linalg.eig` for symmetric arrays: the numbers are the roots of the characteristic
polynomial, in any order.  External; used at orientation/linear/__init__.py L13. -/
def Eig.Valid (eig : Eig) : Prop := ∀ M : Mat 2 2, M.transpose = M →
  ∀ x : ℝ, (x - (eig M).1) * (x - (eig M).2) = x ^ 2 - (M 0 0 + M 1 1) * x + (M 0 0 * M 1 1 - M 0 1 * M 1 0)

/-- `matrix[0:2,0:2]`, orientation/linear/__init__.py L13. -/
def block (m : Mat 3 3) : Mat 2 2 := !![m 0 0, m 0 1; m 1 0, m 1 1]

/-- `axes`, orientation/linear/__init__.py L9-13; `none` if a root is imaginary. -/
noncomputable def axes (eig : Eig) (m : Mat 3 3) : Option (ℝ × ℝ) :=
  let w := eig (block m)
  if w.1 < 0 ∨ w.2 < 0 then none else some (Real.sqrt w.1, Real.sqrt w.2)

end Attitude.SlopeEllipse
