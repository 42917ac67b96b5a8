import Verif.Model.Panels

/-!
# Model of rectangular stereonets

`rectangular` of `frontend/packages/attitude/src/stereonet/index.ts` and
`frontend/packages/plots/src/rectangular.ts`.
-/

namespace Attitude.Rectangle

open Attitude Frontend

/-- A `rect` element.  Made at stereonet/index.ts L318-344. -/
structure Rect where
  x : ℝ
  y : ℝ
  width : ℝ
  height : ℝ

/-- The argument of `rectangular`; `none` is a missing property.  stereonet/index.ts L318-325. -/
structure RectOpts where
  width : Option ℝ := none
  height : Option ℝ := none
  x : Option ℝ := none
  y : Option ℝ := none

/-- A stereonet with the variables that `rectangular` is concerned with: the translation of the
projection (d3 begins with half of 960 and 500), the rectangle that `__createNeatline` will make
(`none` is the default of L207-213, the outline of the sphere), the rectangle that was made, and
`__overrideNeatlineClip`.  `clipped` tells whether data and graticule have been clipped by the
outline. -/
structure RectNet where
  net : Net := {}
  translate : ℝ × ℝ := (480, 250)
  pending : Option Rect := none
  outline : Option Rect := none
  override : Bool := false
  clipped : Bool := false

/-- Calls of methods.  stereonet/index.ts L275-382. -/
inductive RectCall where
  /-- a method of `NetCall` -/
  | net (c : NetCall)
  /-- `f.center([l, p, g])` -/
  | center3 (l p g : ℝ)
  /-- `f.rectangular(opts)` -/
  | rectangular (o : RectOpts)
  /-- `f.projection().translate(p)` -/
  | translate (p : ℝ × ℝ)

/-- The methods that call `__setScale`, whose L183-188 sets the translation. -/
def setsScale : NetCall → Bool
  | .size _ => true
  | .clipAngle _ => true
  | .draw => true
  | _ => false

/-- `rectangular`, stereonet/index.ts L318-325: the variables of the closure. -/
def rectangle (n : Net) (o : RectOpts) : Rect :=
  ⟨o.x.getD n.margin, o.y.getD n.margin, o.width.getD (n.scale - 2 * n.margin),
    o.height.getD (n.scale - 2 * n.margin)⟩

/-- The methods of stereonet/index.ts with respect to the rectangle: L169-197 (`__setScale`),
L215-271 (`f`, which makes the outline after it has set the scale), L318-344 and L364-373. -/
noncomputable def RectNet.step (s : RectNet) : RectCall → RectNet
  | .net c =>
    let n := s.net.step c
    let s' := { s with net := n, translate := if setsScale c then (n.scale / 2, n.scale / 2) else s.translate }
    match c with
    | .draw => match s.pending with
      | none => { s' with outline := none, clipped := n.shouldClip || s.override }
      | some r => { s' with
          net := { n with projClip := 90 }
          translate := (r.width / 2 + n.margin, r.height / 2 + n.margin)
          outline := some r
          override := true
          clipped := true }
    | _ => s'
  | .center3 l p g => { s with net := { s.net with rotation := Rotation.of l p (some g) } }
  | .rectangular o => { s with pending := some (rectangle s.net o) }
  | .translate p => { s with translate := p }

/-- A sequence of calls.  The methods of stereonet/index.ts L275-382. -/
noncomputable def RectNet.run (s : RectNet) (l : List RectCall) : RectNet := l.foldl RectNet.step s

/-- The point that `centerPosition` inverts, stereonet/index.ts L309-312. -/
noncomputable def RectNet.centerPoint (s : RectNet) : ℝ × ℝ := (s.net.scale / 2, s.net.scale / 2)

/-! ## plots/src/rectangular.ts -/

/-- `innerSize`, rectangular.ts L18-23. -/
noncomputable def innerSize : ℝ × ℝ := (800 - 25 - 35, 390 - 25 - 10)

/-- `drawStereonet` up to the labels, rectangular.ts L25-48, without the graticule and the data
(`call(interaction)`, which the stereonet puts in its queue, has no effect on these variables). -/
noncomputable def plot : RectNet :=
  ({} : RectNet).run [.net (.size 800), .net (.margin 25), .net (.clipAngle 40), .center3 (-60) (-72) 70,
    .rectangular { width := some innerSize.1, height := some innerSize.2 }, .net .draw,
    .translate (260, innerSize.2 / 2 + 25)]

/-- A line along which labels are set, `alongLine`.  plots/src/graticule-labels.ts L39-42. -/
structure Segment where
  first : ℝ × ℝ
  last : ℝ × ℝ

/-- The line of the dip labels, rectangular.ts L51-54. -/
noncomputable def dipLine : Segment :=
  let z := innerSize.2 + 25
  ⟨(50, z), (innerSize.1, z)⟩

/-- The line of the azimuth labels, rectangular.ts L51 and L64-67. -/
noncomputable def azimuthLine : Segment :=
  let z := innerSize.2 + 25
  let x := innerSize.1 + 5
  ⟨(x, 5), (x, z)⟩

end Attitude.Rectangle
