import Verif.Model.Rounding

/-!
# Centering and fitting in floating-point arithmetic

`centered` in attitude/coordinates/__init__.py and the path from an array of points to `strike_dip`
in attitude/orientation/pca.py, with the rounding of each operation.  As in `Verif.Model.Rounding`
overflow and underflow are left out.
-/

namespace Attitude.RoundedFit

open Attitude Rounding

/-- An order in which `n` numbers are added: a sum of two sums, or a number.  numpy adds the rows of
an array one after the other or in blocks, depending on its layout in memory, so that theorems hold
for all orders.  For the mean of orientation/pca.py L157. -/
inductive SumTree (n : ℕ)
  | leaf (i : Fin n)
  | node (l r : SumTree n)

variable {n : ℕ}

/-- The numbers that are added.  For the mean of orientation/pca.py L157. -/
def SumTree.leaves : SumTree n → List (Fin n)
  | .leaf i => [i]
  | .node l r => l.leaves ++ r.leaves

/-- How many additions follow one another: `n - 1` if the numbers are added one after the other.
For the mean of orientation/pca.py L157. -/
def SumTree.depth : SumTree n → ℕ
  | .leaf _ => 0
  | .node l r => max l.depth r.depth + 1

/-- The sum, with a rounding after each addition.  For the mean of orientation/pca.py L157. -/
def SumTree.eval (rnd : ℝ → ℝ) (x : Fin n → ℝ) : SumTree n → ℝ
  | .leaf i => x i
  | .node l r => rnd (l.eval rnd x + r.eval rnd x)

/-- `N.mean(coordinates, axis=0)`, coordinates/__init__.py L27, for an array of shape `(n, 3)` that is
not empty: a sum for each column, and a division. -/
noncomputable def flMean (rnd : ℝ → ℝ) (t : Fin 3 → SumTree n) (a : Fin n → Vec 3) : Vec 3 :=
  fun j => rnd ((t j).eval rnd (fun i => a i j) / n)

/-- `centered`, coordinates/__init__.py L19-28. -/
noncomputable def flCentered (rnd : ℝ → ℝ) (t : Fin 3 → SumTree n) (a : Fin n → Vec 3) : Fin n → Vec 3 :=
  fun i j => rnd (a i j - flMean rnd t a j)

/-- `numpy.linalg.svd` in floating-point arithmetic: the singular values and `V`.  External; used
at orientation/pca.py L186. -/
abbrev FlSvd := (m : ℕ) → Mat m 3 → Vec 3 × Mat 3 3

/-- `PCAOrientation.__init__` without weights and axes, pca.py L123-196: `singular_values` and
`axes`.  The weights are one, so that dividing and multiplying by them is exact and left out. -/
noncomputable def flFit (rnd : ℝ → ℝ) (svd : FlSvd) (t : Fin 3 → SumTree n) (a : Fin n → Vec 3) :
    Except PyErr (Vec 3 × Mat 3 3) :=
  if n < 3 then .error .valueError else .ok (svd n (Matrix.of (flCentered rnd t a)))

/-- `PCAOrientation(a).strike_dip()`, pca.py L123-196 and L361-385. -/
noncomputable def flPlane (rnd : ℝ → ℝ) (lib : Libm) (svd : FlSvd) (t : Fin 3 → SumTree n)
    (a : Fin n → Vec 3) : Except PyErr (ℝ × Option ℝ) := do
  let f ← flFit rnd svd t a
  .ok (flStrikeDip rnd lib (f.2 2))

end Attitude.RoundedFit
