import Verif.Model.FrontendShapes

/-!
# Model of the stereonet component of the frontend

(`frontend/packages/attitude/src/stereonet`).  DOM elements are not modelled: functions
return the attributes that are set, methods of the component change a state.
-/

namespace Attitude.Frontend

open Attitude

/-! ## Projection -/

/-- JavaScript's `x % 360`.  External; for the rotations of stereonet/index.ts L300-312. -/
noncomputable def rem360 (x : ℝ) : ℝ :=
  x - 360 * (if 0 ≤ x then (⌊x / 360⌋ : ℝ) else (⌈x / 360⌉ : ℝ))

/-- A rotation of a projection: longitude, latitude and roll in degrees.  stereonet/index.ts
L300-307. -/
structure Rotation where
  lambda : ℝ
  phi : ℝ
  gamma : ℝ

/-- `projection.rotate([λ, φ, γ])` of d3, where γ is zero unless given.  The conversion
of the stored angles to radians and back is exact here.  External; used at stereonet/index.ts
L300-307. -/
noncomputable def Rotation.of (lambda phi : ℝ) (gamma : Option ℝ := none) : Rotation :=
  ⟨rem360 lambda, rem360 phi, match gamma with | some g => rem360 g | none => 0⟩

/-- d3's rotation of a position (degrees) to one in radians.  External; used by the projection of
stereonet/index.ts L74-79. -/
noncomputable def Rotation.apply (r : Rotation) (p : ℝ × ℝ) : ℝ × ℝ :=
  let l := radians p.1 + radians r.lambda
  let f := radians p.2
  let x := Real.cos l * Real.cos f
  let y := Real.sin l * Real.cos f
  let z := Real.sin f
  let k := z * Real.cos (radians r.phi) + x * Real.sin (radians r.phi)
  (arctan2 (y * Real.cos (radians r.gamma) - k * Real.sin (radians r.gamma))
      (x * Real.cos (radians r.phi) - z * Real.sin (radians r.phi)),
    Real.arcsin (k * Real.cos (radians r.gamma) + y * Real.sin (radians r.gamma)))

/-- d3's `geoAzimuthalEqualArea` with a rotation, scale and center of the drawing (the
same in both directions); `none` for the point opposite to the center of the view.  External;
used at stereonet/index.ts L74-79. -/
noncomputable def project (r : Rotation) (scale center : ℝ) (p : ℝ × ℝ) : Option (ℝ × ℝ) :=
  let (l, f) := r.apply p
  let c := Real.cos l * Real.cos f
  if 1 + c = 0 then none
  else
    let k := Real.sqrt (2 / (1 + c))
    some (center + scale * (k * (Real.cos f * Real.sin l)), center - scale * (k * Real.sin f))

/-- The unit vector of a position in degrees (d3's `cartesian`).  External; used by
`geoDistance`, stereonet/labels.ts L107. -/
noncomputable def geoDirection (p : ℝ × ℝ) : Vec 3 :=
  ![Real.cos (radians p.1) * Real.cos (radians p.2), Real.sin (radians p.1) * Real.cos (radians p.2),
    Real.sin (radians p.2)]

/-! ## Labels -/

/-- `labels`, labels.ts L17-24. -/
def labels : List (String × (ℝ × ℝ)) :=
  [("N", (180, 0)), ("E", (90, 0)), ("S", (0, 0)), ("W", (-90, 0)), ("Up", (0, 90)),
    ("Down", (0, -90))]

/-- The module level `opts` of stereonet/index.ts L20-26. -/
def stereonetOpts : Opts :=
  { degrees := some true, traditionalLayout := some false, n := some 200, level := some 1 }

/-- Whether a label is shown, labels.ts L106-113, by its name and the angular distance
from the center of the view. -/
noncomputable def labelShown (name : String) (dist : ℝ) : Bool :=
  if (name = "Up" ∨ name = "Down") ∧ dist < Real.pi / 4 then false
  else if dist < 0.01 then false
  else if dist > Real.pi / 2 + 0.01 then false else true

/-- `proj.invert` of the center of the drawing, labels.ts L74: the position that a rotation
turns to the center (up to full turns). -/
def viewCenter (r : Rotation) : ℝ × ℝ := (-r.lambda, -r.phi)

/-- d3's `geoDistance` of two positions in degrees: the angle between them, in radians.
External; used at stereonet/labels.ts L107. -/
noncomputable def geoDistance (p q : ℝ × ℝ) : ℝ :=
  Real.arccos (vdot (geoDirection p) (geoDirection q))

/-- The labels that are shown after a rotation, labels.ts L72-114. -/
noncomputable def shownLabels (r : Rotation) : List String :=
  (labels.filter fun l => labelShown l.1 (geoDistance (viewCenter r) l.2)).map Prod.fst

/-- The attribute `text-anchor`, labels.ts L84-93. -/
noncomputable def labelAnchor (width x : ℝ) : String :=
  if x < width / 2 - 20 then "end" else if x < width / 2 + 20 then "middle" else "start"

/-- The attribute `transform` of the text, labels.ts L93-104. -/
noncomputable def labelTranslate (offsetAmount width : ℝ) (p : ℝ × ℝ) : ℝ × ℝ :=
  let offset := if p.1 < width / 2 then -offsetAmount else offsetAmount
  let offsetY := if p.2 > width / 2 + 20 then 7 else if p.2 < width / 2 - 20 then -9 else 0
  (p.1 + offset, p.2 + 2 + offsetY)

/-- Labels and their azimuths in stereonet/vertical.ts L34-38. -/
def azimuths : List (String × ℝ) := [("N", 0), ("E", 90), ("S", 180), ("W", 270)]

/-- The position of an azimuth label, stereonet/vertical.ts L54-64.  `padding` is 5 for all
labels. -/
noncomputable def azimuthLabel (size margin labelPadding : ℝ) (loc : ℝ) : ℝ × ℝ :=
  let innerRadius := size / 2 - margin
  let szm := innerRadius + margin
  let angle := (loc - 90) * Real.pi / 180
  let z := innerRadius + labelPadding + 5
  let x := szm + Real.cos angle * z
  let y := szm + Real.sin angle * z
  (x, if loc = 0 then y - 3 else y)

/-- The position of the label of a dip (degrees), stereonet/vertical.ts L68-77. -/
def dipLabel (d : ℝ) : ℝ × ℝ := (220, 90 - d)

/-- The option `startOffset` after a call of `vertical`, stereonet/vertical.ts L15-19; it also is
the one used for the label. -/
noncomputable def startOffset (o : Option ℝ) : ℝ := o.getD 10 + 100

/-! ## Dragging -/

/-- The variables of interaction.ts and the rotation of the stereonet.  stereonet/interaction.ts
L12-13. -/
structure Drag where
  rotation : Rotation
  start : Option ((ℝ × ℝ) × Rotation) := none

/-- Mouse events with page coordinates.  The events of stereonet/interaction.ts L17-52. -/
inductive Mouse where
  | down (p : ℝ × ℝ)
  | move (p : ℝ × ℝ)
  | up (p : ℝ × ℝ)

/-- The clamp of interaction.ts L36-37. -/
noncomputable def clampLatitude (x : ℝ) : ℝ := if x > 90 then 90 else if x < -90 then -90 else x

/-- `mousemove`, interaction.ts L26-40. -/
noncomputable def Drag.move (s : Drag) (m1 : ℝ × ℝ) : Drag :=
  match s.start with
  | none => s
  | some (m0, o0) =>
    let o1 := (o0.lambda + (m1.1 - m0.1) / 3, o0.phi + (m0.2 - m1.2) / 3)
    { s with rotation := Rotation.of o1.1 (clampLatitude o1.2) }

/-- The handlers `mousedown`, `mousemove` and `mouseup`, interaction.ts L17-47. -/
noncomputable def Drag.step (s : Drag) : Mouse → Drag
  | .down p => { s with start := some (p, s.rotation) }
  | .move p => s.move p
  | .up p => match s.start with
    | none => s
    | some _ => { s.move p with start := none }

/-! ## Settings -/

/-- The variables of a stereonet (stereonet/index.ts L45-85) that its methods change.
`labelled` is the rotation that the labels of `globalLabels` were last updated for. -/
structure Net where
  margin : ℝ := 20
  scale : ℝ := 300
  clipAngle : ℝ := 90
  shouldClip : Bool := true
  projScale : ℝ := 300
  projClip : ℝ := 90
  rotation : Rotation := ⟨0, 0, 0⟩
  drawn : Bool := false
  labelled : Option Rotation := none
  queue : List ℕ := []
  ran : List ℕ := []

/-- `__setScale`, stereonet/index.ts L169-197. -/
noncomputable def Net.setScale (s : Net) (n : Option ℝ) : Net :=
  let s := { s with scale := n.getD s.scale }
  let radius := if s.clipAngle = 90 then s.scale / 2.5 - s.margin else s.scale / 2 - s.margin
  if s.clipAngle < 89 then
    { s with projScale := radius / Real.sin (Real.pi / 180 * s.clipAngle),
             projClip := if s.shouldClip then s.clipAngle else s.projClip }
  else { s with projScale := radius }

/-- Methods of a stereonet.  stereonet/index.ts L275-382. -/
inductive NetCall where
  /-- `f.margin(m)` -/
  | margin (m : ℝ)
  /-- `f.size(n)` -/
  | size (n : ℝ)
  /-- `f.scale(n)` -/
  | scale (n : ℝ)
  /-- `f.clip(b)` -/
  | clip (b : Bool)
  /-- `f.center([l, p])` -/
  | center (l p : ℝ)
  /-- `f.center("vertical")` -/
  | centerVertical
  /-- `f.clipAngle(c)` -/
  | clipAngle (c : ℝ)
  /-- `f.rotate([l, p])` -/
  | rotate (l p : ℝ)
  /-- `f.call(fn)`, where functions are numbered -/
  | call (fn : ℕ)
  /-- `f.call(globalLabels())` on a drawn stereonet -/
  | addLabels
  /-- `f(el)` -/
  | draw

/-- The methods of stereonet/index.ts L218-271 and L273-396, and `updateLabels` of
labels.ts L72-114, which is called at once and on rotation.  The functions passed to
`call` have no effect on the state themselves. -/
noncomputable def Net.step (s : Net) : NetCall → Net
  | .margin m => { s with margin := m }
  | .size n => s.setScale (some n)
  | .scale n => { s with projScale := n }
  | .clip b => { s with shouldClip := b }
  | .center l p => { s with rotation := Rotation.of l p }
  | .centerVertical => { s with rotation := Rotation.of 0 90 }
  | .clipAngle c => { s with clipAngle := c, rotation := Rotation.of 0 (-90) }.setScale none
  | .rotate l p =>
    let r := Rotation.of l p
    { s with rotation := r, labelled := s.labelled.map fun _ => r }
  | .call fn => if s.drawn then { s with ran := s.ran ++ [fn] } else { s with queue := s.queue ++ [fn] }
  | .addLabels => { s with labelled := some s.rotation }
  | .draw =>
    let s := { s with drawn := true }.setScale none
    { s with ran := s.ran ++ s.queue }

/-- A sequence of calls.  The methods of stereonet/index.ts L275-382. -/
noncomputable def Net.run (s : Net) (l : List NetCall) : Net := l.foldl Net.step s

/-- The radius of the drawn net: azimuthal equal area distance of the clipping circle.  Follows
from the scale and the clip angle set at stereonet/index.ts L169-197 and L376-382. -/
noncomputable def Net.radius (s : Net) : ℝ := s.projScale * (2 * Real.sin (radians s.projClip / 2))

/-! ## Opacity -/

/-- JavaScript values that `getterSetter` is given in `opacityByCertainty`.  stereonet/index.ts
L28-43 and L484-487. -/
inductive Getter where
  /-- a number -/
  | num (x : ℝ)
  /-- an array -/
  | arr (l : List ℝ)
  /-- a d3 scale -/
  | scale
  /-- `(d) => d.max_angular_error ?? d.maxError` -/
  | angularError

/-- `p()` in `getterSetter` (stereonet/index.ts L28-43), for the values that occur:
numbers and arrays are not functions; a scale of `undefined` is `undefined` (here
`none`); reading a property of `undefined` is an error. -/
def Getter.get : Getter → Except JsErr (Option ℝ)
  | .num _ => .error .typeError
  | .arr _ => .error .typeError
  | .scale => .ok none
  | .angularError => .error .typeError

/-- The variables of `opacityByCertainty`, stereonet/index.ts L461-466: the domain of
the scale, and `maxOpacity`. -/
structure Opacity where
  domain : ℝ × ℝ := (0, 5)
  maxOpacity : ℝ := 5

/-- The setters `max` and `domain`, L486-487. -/
inductive OpacityCall where
  | max (v : ℝ)
  | domain (a b : ℝ)

/-- Effect of the setters.  stereonet/index.ts L28-43 and L484-487. -/
def Opacity.step (s : Opacity) : OpacityCall → Opacity
  | .max v => { s with maxOpacity := v }
  | .domain a b => { s with domain := (a, b) }

/-- `alphaScale(e)`: a clamped scale with range [0.8, 0.1].  `d3.scalePow` ignores the
argument 4, so that the exponent is 1.  `none` for an empty domain (where d3 returns the
middle of the range).  stereonet/index.ts L465-466. -/
noncomputable def Opacity.alpha (s : Opacity) (e : ℝ) : Option ℝ := do
  let t ← fdiv (e - s.domain.1) (s.domain.2 - s.domain.1)
  some (0.8 + (0.1 - 0.8) * max 0 (min 1 t))

/-- Opacity of fill and stroke, L467-480. -/
noncomputable def Opacity.paint (s : Opacity) (e : ℝ) : Option (ℝ × ℝ) := do
  let al ← s.alpha e
  some (al, al + 0.2)

end Attitude.Frontend
