import Verif.Model.Rounding

/-!
# Model of `fixAngle` in floating-point arithmetic

`Model/FrontendView.lean` has `fixAngle` over real numbers.  Here every operation is rounded, and
the loops need not end.
-/

namespace Attitude.RoundedTurn

open Attitude Rounding

/-- `Math.PI`, used at hyperbola.ts L28-33: 3.141592653589793. -/
noncomputable def mathPi : ℝ := 884279719003555 / 2 ^ 48

/-- The first loop of `fixAngle`, hyperbola.ts L28-30, `none` if it has not ended after `k` more
turns.  A test of the condition, and a subtraction of `2 * Math.PI`, with rounding. -/
noncomputable def flAbove (rnd : ℝ → ℝ) : ℕ → ℝ → Option ℝ
  | 0, a => if a > mathPi then none else some a
  | k + 1, a => if a > mathPi then flAbove rnd k (rnd (a - rnd (2 * mathPi))) else some a

/-- The second loop of `fixAngle`, hyperbola.ts L31-33, `none` if it has not ended after `k` more
turns. -/
noncomputable def flBelow (rnd : ℝ → ℝ) : ℕ → ℝ → Option ℝ
  | 0, a => if a < -mathPi then none else some a
  | k + 1, a => if a < -mathPi then flBelow rnd k (rnd (a + rnd (2 * mathPi))) else some a

/-- `fixAngle`, hyperbola.ts L26-35, `none` if one of the loops has not ended after `k` turns. -/
noncomputable def flFixAngle (rnd : ℝ → ℝ) (k : ℕ) (a : ℝ) : Option ℝ :=
  (flAbove rnd k a).bind (flBelow rnd k)

end Attitude.RoundedTurn
