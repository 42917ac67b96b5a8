import Verif.Model.FrontendShapes
import Mathlib.Analysis.SpecialFunctions.Trigonometric.Arctan

/-!
# Model of hyperbola.ts

(`frontend/packages/attitude/src/hyperbola.ts`): planes seen in a vertical section.
DOM elements are not modelled: functions return the attributes that are set.
-/

namespace Attitude.Frontend

open Attitude

/-- The first loop of `fixAngle`, hyperbola.ts L28-30. -/
noncomputable def fixAbove (a : ℝ) : ℝ :=
  if a > Real.pi then fixAbove (a - 2 * Real.pi) else a
termination_by ⌈a / (2 * Real.pi)⌉.toNat
decreasing_by
  rename_i h
  have hp := Real.pi_pos
  have e : (a - 2 * Real.pi) / (2 * Real.pi) = a / (2 * Real.pi) - 1 := by field_simp
  rw [e, Int.ceil_sub_one]
  have : 0 < ⌈a / (2 * Real.pi)⌉ := Int.ceil_pos.2 (by
    have : 0 < a := by linarith
    positivity)
  omega

/-- The second loop of `fixAngle`, hyperbola.ts L31-33. -/
noncomputable def fixBelow (a : ℝ) : ℝ :=
  if a < -Real.pi then fixBelow (a + 2 * Real.pi) else a
termination_by ⌈-a / (2 * Real.pi)⌉.toNat
decreasing_by
  rename_i h
  have hp := Real.pi_pos
  have e : -(a + 2 * Real.pi) / (2 * Real.pi) = -a / (2 * Real.pi) - 1 := by field_simp; ring
  rw [e, Int.ceil_sub_one]
  have : 0 < ⌈-a / (2 * Real.pi)⌉ := Int.ceil_pos.2 (by
    have : 0 < -a := by linarith
    positivity)
  omega

/-- `fixAngle`, hyperbola.ts L26-35. -/
noncomputable def fixAngle (a : ℝ) : ℝ := fixBelow (fixAbove a)

/-- `PlaneData.dip`, hyperbola.ts L510-516, as a function of `axes[2]`; `none` is
`NaN`, from a zero vector. -/
noncomputable def dip (n : Vec 3) : Option (ℝ × ℝ) := do
  let q ← fdiv (n 2) (Attitude.norm n)
  some (Real.arccos q, fixAngle (arctan2 (n 0) (n 1)))

/-- `PlaneData.apparentDip`, hyperbola.ts L518-527, as a function of `axes[2]`.
`none` also for a vertical plane, where the code computes with the tangent of the
float nearest to π/2. -/
noncomputable def apparentDip (n : Vec 3) (azimuth : ℝ) : Option ℝ := do
  let (dip, _) ← dip n
  let dipDr := arctan2 (n 0) (n 1)
  let a := fixAngle (azimuth - dipDr)
  let sign : ℝ := if -Real.pi / 2 < a ∨ Real.pi / 2 > a then 1 else -1
  if n 2 = 0 then none
  else
    let d := Real.tan dip * Real.cos (azimuth - dipDr)
    some (sign * Real.arctan d)

/-- `scaleRatio`, hyperbola.ts L77. -/
def scaleRatio (scale : ℝ → ℝ) : ℝ := scale 1 - scale 0

/-- `screenRatio` of `getRatios`, hyperbola.ts L79-90; `none` for a constant vertical
scale. -/
noncomputable def screenRatio (x y : ℝ → ℝ) : Option ℝ := fdiv (scaleRatio x) (scaleRatio y)

/-- `Q.fromAxisAngle([0, 0, 1], v)` as the matrix that `dot` makes of it, hyperbola.ts
L37-48. -/
noncomputable def rotZ (v : ℝ) : Mat 3 3 :=
  !![Real.cos v, -Real.sin v, 0; Real.sin v, Real.cos v, 0; 0, 0, 1]

/-- `T`, hyperbola.ts L20-24. -/
def mapDown : Mat 3 2 := !![1, 0; 0, 0; 0, 1]

/-- The value of an SVG attribute `translate(x,y) rotate(angle)`.  hyperbola.ts L127 and
L288-289. -/
structure Placement where
  x : ℝ
  y : ℝ
  angle : ℝ

/-- The angle of `createTransform` (L124-125) and `hyperbolicErrors` (L270-271) in
hyperbola.ts. -/
noncomputable def screenAngle (n : Vec 3) (viewpoint : ℝ) (xs ys : ℝ → ℝ) : Option ℝ := do
  let v ← apparentDip n (-viewpoint + Real.pi / 2)
  let ratio ← screenRatio xs ys
  some (-arctan2 (Real.tan v) ratio * 180 / Real.pi)

/-- The function returned by `createTransform`, hyperbola.ts L98-131, for a plane (or
group) with the third axis `n` and data with the offset `offset`. -/
noncomputable def transform (viewpoint : ℝ) (xs ys : ℝ → ℝ) (n offset : Vec 3) :
    Option Placement := do
  let offs := Matrix.vecMul (Matrix.vecMul offset (rotZ viewpoint)) mapDown
  let v ← screenAngle n viewpoint xs ys
  some ⟨xs (offs 0), ys (offs 1), v⟩

/-- The positions that `digitizedLine` (hyperbola.ts L390-416) passes to its line
generator; `axes` is the identity unless set. -/
noncomputable def digitizedLine (viewpoint : ℝ) (axes : Mat 3 3) (offset : Vec 3)
    (centered : List (Vec 3)) : List (Vec 2) :=
  let R := axes.transpose
  let offs := Matrix.vecMul offset R
  centered.map fun row =>
    Matrix.vecMul (Matrix.vecMul (Matrix.vecMul row R + offs) (rotZ viewpoint)) mapDown

/-- The positions of `apparentDip` for a path element, hyperbola.ts L442-456, after
the line generator (L86-88) and before the transform. -/
noncomputable def apparentPath (viewpoint : ℝ) (xs ys : ℝ → ℝ) (axes : Mat 3 3)
    (centered : List (Vec 3)) : List (ℝ × ℝ) :=
  (centered.map fun row =>
    Matrix.vecMul (Matrix.vecMul (Matrix.vecMul row axes.transpose) (rotZ viewpoint)) mapDown).map
      fun d => (d 0 * scaleRatio xs, d 1 * scaleRatio ys)

/-- `__planeAngle`, hyperbola.ts L92-96; `none` if the first axis is vertical. -/
noncomputable def planeAngle (axes : Mat 3 3) (angle : ℝ) : Option ℝ := do
  let h : Vec 3 := ![axes 0 0, axes 0 1, 0]
  let c ← fdiv (vdot h ![1, 0, 0]) (Attitude.norm h * Attitude.norm ![1, 0, 0])
  some (angle - Real.arccos c)

/-- Semi-axes of the hyperbola of `hyperbolicErrors`, hyperbola.ts L170-185; `none`
if a length is not positive or the first axis is vertical. -/
noncomputable def semiAxes (viewpoint : ℝ) (R axes : Mat 3 3) (lengths : Vec 3) :
    Option (ℝ × ℝ) := do
  let ax := R.transpose * axes * R
  let a1 ← planeAngle ax viewpoint
  if ∃ i, lengths i ≤ 0 then none
  else
    let s := fun i => 1 / Real.sqrt (lengths i)
    let v : Vec 3 := ![s 0 * Real.cos a1, s 1 * Real.sin a1, s 2]
    some (1 / Attitude.norm ![v 0, v 1], 1 / |v 2|)

/-- The vertices of the polygon, hyperbola.ts L228-238, with `nCoords = 3`; `none` for
a constant horizontal scale. -/
noncomputable def polygon (a b width ratioX : ℝ) : Option (List (ℝ × ℝ)) := do
  let large ← fdiv width ratioX
  let limit := b / a * large
  let coords := [(-large, limit), (0, b), (large, limit)]
  let top := (coords.map fun p => (p.1, -p.2)).reverse
  some (coords ++ top)

/-- The placement of the hyperbola for an offset with three components, hyperbola.ts
L244-249 and L270-284. -/
noncomputable def hyperbolaPlacement (viewpoint : ℝ) (R : Mat 3 3) (xs ys : ℝ → ℝ) (n offset : Vec 3) :
    Option Placement := do
  let offs := Matrix.vecMul (Matrix.vecMul offset R) (rotZ (viewpoint + Real.pi))
  let center := (xs (offs 0) - xs 0, ys (offs 2) - ys 0)
  let v ← screenAngle n viewpoint xs ys
  some ⟨-center.1 + xs 0, ys 0 + center.2, v⟩

/-- The variables of a function made by `hyperbolicErrors` that its methods and the
drawing change: `scaleErrorAngles` and whether `lineGenerator` is the one of L278-280
that uses the horizontal scale for both coordinates. -/
structure HypState where
  scaleErrorAngles : Bool := true
  isotropic : Bool := false
  deriving DecidableEq

/-- A use of such a function: the setter (L355-361) or drawing. -/
inductive HypCall where
  | set (b : Bool)
  | draw

/-- Drawing replaces the line generator if `scaleErrorAngles` is false, hyperbola.ts
L277-281. -/
def HypState.step (s : HypState) : HypCall → HypState
  | .set b => { s with scaleErrorAngles := b }
  | .draw => if !s.scaleErrorAngles then { s with isotropic := true } else s

/-- The vertical scale applied to the polygon when drawing in state `s`.  hyperbola.ts L204 and
L277. -/
def HypState.verticalScale (s : HypState) (ratioX ratioY : ℝ) : ℝ :=
  if (s.step .draw).isotropic then ratioX else ratioY

end Attitude.Frontend
