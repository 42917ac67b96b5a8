import Verif.Model.Webapp
import Verif.Model.Rectangle

/-!
# Model of the objects that draw labels (`frontend/packages/plots/src/graticule-labels.ts`)

The intersections themselves are `Panels.intersections`.
-/

namespace Attitude.Labels

open Attitude Frontend Webapp Panels Rectangle

/-- The attribute `transform` of a text, `translate(x,y) rotate(r)`: graticule-labels.ts L105 and L122. -/
structure Transform where
  offset : ℝ × ℝ
  rotation : ℝ

/-- Where a transform puts a point: SVG applies the rotation, in degrees, first.  External; for
graticule-labels.ts L105 and L122. -/
noncomputable def Transform.apply (t : Transform) (p : ℝ × ℝ) : ℝ × ℝ :=
  (t.offset.1 + Real.cos (t.rotation * Real.pi / 180) * p.1 - Real.sin (t.rotation * Real.pi / 180) * p.2,
    t.offset.2 + Real.sin (t.rotation * Real.pi / 180) * p.1 + Real.cos (t.rotation * Real.pi / 180) * p.2)

/-- A group `g.label`, graticule-labels.ts L94-110: moved to the intersection, with a text and perhaps a
circle of radius 2 around its origin. -/
structure LabelGroup where
  translate : ℝ × ℝ
  text : Label
  transform : Transform
  circle : Bool

/-- A text of the class `axis-label`, graticule-labels.ts L119-124. -/
structure AxisLabel where
  text : String
  transform : Transform

/-- A group `g.labels`, graticule-labels.ts L88. -/
structure Group where
  labels : List LabelGroup
  axis : List AxisLabel := []

/-- The classes: `GraticuleLabels`, `AzimuthLabels` and `DipLabels`.  graticule-labels.ts L25-148. -/
inductive Class where
  | plain
  | azimuth
  | dip

/-- The property `type`, graticule-labels.ts L27, L131 and L140. -/
def Class.kind : Class → Kind
  | .plain => .lat
  | .azimuth => .lon
  | .dip => .lat

/-- The property `labelText`, graticule-labels.ts L31, L132 and L141. -/
def Class.labelText : Class → String
  | .plain => "Latitude"
  | .azimuth => "Dip azimuth"
  | .dip => "Dip"

/-- The method `format`, graticule-labels.ts L36-38, L133 and L143-146. -/
noncomputable def Class.format : Class → ℝ → Label
  | .plain, v => .deg v
  | .azimuth, v => formatAzimuthLabel v
  | .dip, v => formatDipLabel v

/-- The variables of an object, graticule-labels.ts L27-41 and L88, and what it has added to the page.
`groups` are the groups `g.labels` in the order in which they were added; the container is the last one.
`showCircles` can only be set from outside. -/
structure Obj where
  cls : Class
  showCircles : Bool := false
  offs : ℝ × ℝ := (0, 0)
  rot : ℝ := 0
  shape : Option Segment := none
  groups : List Group := []

/-- The methods, with `none` for an argument that is left out or `null`.  graticule-labels.ts L39-125. -/
inductive LabelCall where
  | alongLine (first last : ℝ × ℝ)
  | textOffset (o : Option (ℝ × ℝ))
  | textRotation (r : Option ℝ)
  | render
  | renderLabel (pos : Option (ℝ × ℝ))

/-- The group that `render` adds, graticule-labels.ts L88-110, for the intersections `pts`. -/
noncomputable def Obj.group (s : Obj) (pts : List ((ℝ × ℝ) × ℝ)) : Group :=
  { labels := pts.map fun p =>
      { translate := p.1, text := s.cls.format p.2, transform := ⟨s.offs, s.rot⟩, circle := s.showCircles } }

/-- What is drawn by `renderLabel`, graticule-labels.ts L115-125, into the container; without one it is
an error (`this.container` is `undefined`). -/
def addAxis (a : AxisLabel) : List Group → Except JsErr (List Group)
  | [] => .error .typeError
  | [g] => .ok [{ g with axis := g.axis ++ [a] }]
  | g :: gs => (addAxis a gs).map (g :: ·)

/-- A call.  `crossings` is `getIntersections` (graticule-labels.ts L60-85) for the line that was set; an
exception leaves the variables as they are, except that `render` has already added an empty group.
graticule-labels.ts L39-125. -/
noncomputable def Obj.step (crossings : Class → Option Segment → Except JsErr (List ((ℝ × ℝ) × ℝ))) (s : Obj) :
    LabelCall → Obj × Option JsErr
  | .alongLine a b => ({ s with shape := some ⟨a, b⟩ }, none)
  | .textOffset o => ({ s with offs := o.getD s.offs }, none)
  | .textRotation r => ({ s with rot := r.getD s.rot }, none)
  | .render => match crossings s.cls s.shape with
    | .ok pts => ({ s with groups := s.groups ++ [s.group pts] }, none)
    | .error e => ({ s with groups := s.groups ++ [{ labels := [] }] }, some e)
  | .renderLabel pos => match addAxis ⟨s.cls.labelText, ⟨pos.getD (0, 0), s.rot⟩⟩ s.groups with
    | .ok gs => ({ s with groups := gs }, none)
    | .error e => (s, some e)

/-- Calls in a row, up to the first exception.  The methods of graticule-labels.ts L39-125. -/
noncomputable def Obj.run (crossings : Class → Option Segment → Except JsErr (List ((ℝ × ℝ) × ℝ))) (s : Obj) :
    List LabelCall → Obj × Option JsErr
  | [] => (s, none)
  | c :: cs => match s.step crossings c with
    | (s', none) => s'.run crossings cs
    | (s', some e) => (s', some e)

/-- The dip labels of the rectangular plot, rectangular.ts L51-56, without the text added at L58-62. -/
noncomputable def dipCalls : List LabelCall :=
  [.alongLine dipLine.first dipLine.last, .textOffset (some (0, 15)), .render]

/-- The azimuth labels of the rectangular plot, rectangular.ts L64-67 and the call of `render` in L69. -/
noncomputable def azimuthCalls : List LabelCall :=
  [.alongLine azimuthLine.first azimuthLine.last, .textOffset (some (10, 0)), .render]

/-- `.select("text").attr("transform", "translate(15,0) rotate(-90)")`, rectangular.ts L69, for the labels of
a group. -/
def Group.turned (g : Group) : Group :=
  { g with labels := g.labels.map fun l => { l with transform := ⟨(15, 0), -90⟩ } }

/-- The titles that rectangular.ts adds itself, L58-62 and L71-78. -/
noncomputable def titles : List AxisLabel :=
  [⟨Class.dip.labelText, ⟨(25, innerSize.2 + 25 + 15), 0⟩⟩,
    ⟨Class.azimuth.labelText, ⟨(innerSize.1 + 5 + 30, innerSize.2 / 2 + 5), -90⟩⟩]

/-- The size of the picture, rectangular.ts L18 and L33-35. -/
def pictureSize : ℝ × ℝ := (800, 390)

end Attitude.Labels
