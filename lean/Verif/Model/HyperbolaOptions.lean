import Verif.Model.FrontendView

/-!
# Model of the options of `hyperbolicErrors`, of its nominal line, and of its gradient
(`frontend/packages/attitude/src/hyperbola.ts`)

One function made by `hyperbolicErrors` and one element that it draws into.
-/

namespace Attitude.HyperbolaOptions

open Attitude Attitude.Frontend

/-- The variables that the methods change, with their initial values.  `α` are the values that
`alphaScale` is given.  hyperbola.ts L138-144. -/
structure Opts (α : Type) where
  width : ℝ := 400
  nominal : Bool := false
  alphaScale : Option α := none
  scaleErrorAngles : Bool := true

/-- A call of one of the four methods; `none` is `null` or no argument.  hyperbola.ts
L355-385. -/
inductive SetCall (α : Type) where
  | scaleErrorAngles (o : Option Bool)
  | width (o : Option ℝ)
  | nominal (o : Option Bool)
  | alphaScale (o : Option α)

/-- What a method returns: the function itself, or the value of the variable.  hyperbola.ts
L355-385. -/
inductive Returned (α : Type) where
  | self
  | bool (b : Bool)
  | number (x : ℝ)
  | scale (a : Option α)

/-- The four methods, hyperbola.ts L355-385. -/
def Opts.call {α : Type} (s : Opts α) : SetCall α → Opts α × Returned α
  | .scaleErrorAngles none => (s, .bool s.scaleErrorAngles)
  | .scaleErrorAngles (some b) => ({ s with scaleErrorAngles := b }, .self)
  | .width none => (s, .number s.width)
  | .width (some x) => ({ s with width := x }, .self)
  | .nominal none => (s, .bool s.nominal)
  | .nominal (some b) => ({ s with nominal := b }, .self)
  | .alphaScale none => (s, .scale s.alphaScale)
  | .alphaScale (some a) => ({ s with alphaScale := some a }, .self)

/-- The variables after some calls.  hyperbola.ts L355-385. -/
def Opts.calls {α : Type} (s : Opts α) (cs : List (SetCall α)) : Opts α :=
  cs.foldl (fun s c => (s.call c).1) s

/-- The `line.nominal` of an element: half of its length in pixels, as it runs from
`x1 = -largeNumber` to `x2 = largeNumber`.  hyperbola.ts L324-330. -/
structure NominalLine where
  half : ℝ

/-- An element as drawn: the half of the side of its mask, the horizontal ends of the border in
pixels, and its nominal line.  hyperbola.ts L283-330; the rest of the element is in FrontendView
and SideView. -/
structure Drawn where
  mask : ℝ
  ends : ℝ
  line : Option NominalLine

/-- `largeNumber`, hyperbola.ts L228; `none` for a constant horizontal scale, where it is
infinite. -/
noncomputable def largeNumber (width ratioX : ℝ) : Option ℝ := fdiv width ratioX

/-- `lim`, the half of the side of the mask, for semi-axes `a` and `b`.  hyperbola.ts L194-206
and L294-296. -/
noncomputable def maskLim {α : Type} (s : Opts α) (screenRatio a b : ℝ) : ℝ :=
  let cutAngle2 := if s.scaleErrorAngles then arctan2 b (a * screenRatio) else arctan2 b a
  |s.width / 2 * Real.cos cutAngle2|

/-- Drawing a hyperbola with semi-axes `a` and `b` into an element that was drawn before or not.
The mask is made once (L298-307).  The border goes through `lineGenerator`, which multiplies with
`ratioX` (L86 and L279); the nominal line does not (L324-330), and it is only touched if `nominal`
is true at the time.  hyperbola.ts L228-330. -/
noncomputable def draw {α : Type} (s : Opts α) (ratioX screenRatio a b : ℝ) (old : Option Drawn) :
    Option Drawn := do
  let large ← largeNumber s.width ratioX
  let mask := match old with
    | some e => e.mask
    | none => maskLim s screenRatio a b
  let line := if s.nominal then some ⟨large⟩ else old.bind (·.line)
  some ⟨mask, large * ratioX, line⟩

/-- What a page does with one function and one element: a call of a method, or drawing a
hyperbola with given semi-axes.  hyperbola.ts L156-385. -/
inductive Act (α : Type) where
  | set (c : SetCall α)
  | draw (a b : ℝ)

/-- One step, hyperbola.ts L156-385. -/
noncomputable def act {α : Type} (ratioX screenRatio : ℝ) (p : Opts α × Option Drawn) :
    Act α → Option (Opts α × Option Drawn)
  | .set c => some ((p.1.call c).1, p.2)
  | .draw a b => (draw p.1 ratioX screenRatio a b p.2).map fun e => (p.1, some e)

/-- A sequence of steps, hyperbola.ts L156-385. -/
noncomputable def acts {α : Type} (ratioX screenRatio : ℝ) (p : Opts α × Option Drawn) (l : List (Act α)) :
    Option (Opts α × Option Drawn) :=
  l.foldlM (act ratioX screenRatio) p

/-- A stop of the gradient: its offset, the level of its gray, and its opacity.  hyperbola.ts
L338-345. -/
structure Stop where
  offset : ℝ
  gray : ℤ
  opacity : ℝ

/-- `stop(ofs, op)`; `Math.round(x)` is `⌊x + 1/2⌋`.  hyperbola.ts L338-345. -/
noncomputable def stop (ofs op : ℝ) : Stop := ⟨ofs, ⌊op * 255 + 1 / 2⌋, op⟩

/-- The gradient of `setupGradient`, hyperbola.ts L333-353. -/
noncomputable def gradient : List Stop :=
  [stop 0 0, stop 0.2 0.1, stop 0.45 1, stop 0.55 1, stop 0.8 0.1, stop 1 0]

end Attitude.HyperbolaOptions
