import Verif.Model.RoundedFit

/-!
# A regression in floating-point arithmetic

`Regression` in attitude/orientation/linear/regression.py, up to its coefficients, with the rounding
of each operation.  As in `Verif.Model.Rounding` overflow and underflow are left out.
-/

namespace Attitude.RoundedRegression

open Attitude Rounding RoundedFit

variable {n : ℕ}

/-- One number of a product of matrices, `N.dot`: a sum of products in the order `t`, with a rounding
after each operation (no fused operations).  External; used at orientation/linear/regression.py
L44-46 and L67-68. -/
noncomputable def flSumProd (rnd : ℝ → ℝ) (t : SumTree n) (x y : Fin n → ℝ) : ℝ :=
  t.eval rnd (fun i => rnd (x i * y i))

/-- `numpy.linalg.inv` of a matrix of shape `(3, 3)` in floating-point arithmetic; `none` is a
`LinAlgError`.  External; used at orientation/linear/regression.py L44. -/
abbrev FlInv := Mat 3 3 → Option (Mat 3 3)

/-- The columns of `self.C`, regression.py L9-13 and L25-29: two centred coordinates and ones. -/
noncomputable def flDesign (rnd : ℝ → ℝ) (t : Fin 3 → SumTree n) (a : Fin n → Vec 3) (j : Fin 3) : Fin n → ℝ :=
  if j = 2 then fun _ => 1 else fun i => flCentered rnd t a i j

/-- `matrix_squared(self.C)`, regression.py L15-17 and L44; `tG j k` is the order of the sum for the
entry `j`, `k`. -/
noncomputable def flNormal (rnd : ℝ → ℝ) (t : Fin 3 → SumTree n) (tG : Fin 3 → Fin 3 → SumTree n)
    (a : Fin n → Vec 3) : Mat 3 3 :=
  Matrix.of fun j k => flSumProd rnd (tG j k) (flDesign rnd t a j) (flDesign rnd t a k)

/-- `self.xy`, regression.py L45. -/
noncomputable def flXy (rnd : ℝ → ℝ) (t : Fin 3 → SumTree n) (tz : Fin 3 → SumTree n) (a : Fin n → Vec 3) : Vec 3 :=
  fun j => flSumProd rnd (tz j) (flDesign rnd t a j) fun i => flCentered rnd t a i 2

/-- `Regression(a).coefficients`, regression.py L20-47, for an array of shape `(n, 3)`. -/
noncomputable def flCoefficients (rnd : ℝ → ℝ) (inv : FlInv) (t : Fin 3 → SumTree n)
    (tG : Fin 3 → Fin 3 → SumTree n) (tz : Fin 3 → SumTree n) (tb : Fin 3 → SumTree 3)
    (a : Fin n → Vec 3) : Except PyErr (Vec 3) :=
  if n = 0 then .error .indexError
  else match inv (flNormal rnd t tG a) with
    | none => .error .linAlgError
    | some X => .ok fun j => flSumProd rnd (tb j) (X j) (flXy rnd t tz a)

end Attitude.RoundedRegression
