import Verif.Model.FrontendView
import Mathlib.Data.List.Sort

/-!
# Model of the constructor of `PlaneData` (frontend/packages/attitude/src/hyperbola.ts)
and of `SideViewComponent` (frontend/packages/notebook-ui/src/components/side-view.ts)

The scales of the side view are in `Verif.Model.NotebookUi`, placement and shape of what is
drawn in `Verif.Model.FrontendView`; here it is said which planes are drawn where and in
which order.  Colors are not modelled except for whether a trace is highlighted.
-/

namespace Attitude.SideView

open Attitude Frontend

/-- The properties of a measurement that are used; `none` is a missing property or `null`.
Axes and lengths are taken to be present, and numbers to be finite.  hyperbola.ts L487-491 and
side-view.ts L42-76. -/
structure Datum where
  uid : String
  memberOf : Option String := none
  members : Option (List String) := none
  mean : Option (Vec 3) := none
  center : Option (Vec 3) := none
  axes : Mat 3 3 := 1
  lengths : Vec 3 := 1
  extracted : Option (List (Vec 3)) := none
  centeredArray : Option (List (Vec 3)) := none

/-- The value of `PlaneData.mean`: `undefined`, an array of three `undefined` (the mean of no
points) or a position.  hyperbola.ts L488 and L502-504. -/
inductive Position where
  | missing
  | ofNothing
  | pos (v : Vec 3)

/-- A `PlaneData`.  hyperbola.ts L483-508. -/
structure Plane where
  data : Datum
  mean : Position
  array : Option (List (Vec 3))
  centered : Option (List (Vec 3))

/-- `[0, 1, 2].map((i) => mean(this.array, (d) => d[i]))`, hyperbola.ts L503. -/
noncomputable def meanOf : List (Vec 3) → Position
  | [] => .ofNothing
  | l => .pos fun i => (l.map fun d => d i).sum / l.length

/-- `this.array.map((d) => M.subtract(d, this.mean))`, hyperbola.ts L506.  The last two cases
occur for an empty array only, where nothing is subtracted. -/
def subtractMean (l : List (Vec 3)) : Position → List (Vec 3)
  | .pos m => l.map fun d => d - m
  | .ofNothing => l
  | .missing => l

/-- `new PlaneData(data, mean)`, hyperbola.ts L484-508.  Arrays are true in JavaScript whatever
they contain, so `||` takes the first one that is present. -/
noncomputable def planeData (d : Datum) (mean : Option (Vec 3) := none) : Plane :=
  let m := match mean.orElse fun _ => d.mean.orElse fun _ => d.center with
    | none => Position.missing
    | some v => .pos v
  match d.extracted with
  | none => ⟨d, m, none, d.centeredArray⟩
  | some l =>
    let m := match m with
      | .missing => meanOf l
      | m => m
    ⟨d, m, some l, some (d.centeredArray.getD (subtractMean l m))⟩

/-- A plane after `componentDidMount`: with its offset and the plane of its group, which
is given the same offset (side-view.ts L57 and L67-75). -/
structure Shown where
  plane : Plane
  offset : Vec 3
  group : Option Plane

/-- `p.data.center`, util.ts L45, of which the elements are read: it must exist. -/
def planeCenter (p : Plane) : Except JsErr PlaneCenter :=
  match p.data.center with
  | none => .error .typeError
  | some c => .ok ⟨c, none⟩

/-- `computeCentroidExtrema(this.singlePlanes)`, side-view.ts L50. -/
noncomputable def overallCenter (ps : List Plane) : Except JsErr (Vec 3) := do
  centroidExtrema (← ps.mapM planeCenter)

/-- `p.group` for a plane with the mean `m`, side-view.ts L68-75. -/
noncomputable def groupOf (data : List Datum) (d : Datum) (m : Vec 3) : Option Plane :=
  match d.memberOf with
  | none => none
  | some u => (data.find? fun g => g.uid = u).map fun g => planeData g (some m)

/-- The body of the loop of side-view.ts L55-76: `M.subtract` refuses `undefined`. -/
noncomputable def place (data : List Datum) (c : Vec 3) (p : Plane) : Except JsErr Shown :=
  match p.mean with
  | .pos m => .ok ⟨p, m - c, groupOf data p.data m⟩
  | _ => .error .typeError

/-- `this.singlePlanes`, side-view.ts L42-48. -/
noncomputable def singlePlanes (data : List Datum) : List Plane :=
  (data.filter fun d => d.members.isNone).map fun d => planeData d

/-- `componentDidMount` up to the scales, side-view.ts L38-76. -/
noncomputable def mount (data : List Datum) : Except JsErr (List Shown) := do
  let c ← overallCenter (singlePlanes data)
  (singlePlanes data).mapM (place data c)

/-- `d.__z` as set by `hyperbolicErrors` for the identity as `axes`, hyperbola.ts L245-256. -/
noncomputable def depth (angle : ℝ) (offset : Vec 3) : ℝ :=
  Matrix.vecMul (Matrix.vecMul offset (1 : Mat 3 3)) (rotZ (angle + Real.pi)) 1

/-- A hyperbola: the plane whose errors it shows and its offset.  side-view.ts L195-221. -/
structure Hyp where
  plane : Plane
  offset : Vec 3

/-- `.sort((a, b) => a.__z - b.__z)`, side-view.ts L209 and L221 (stable). -/
noncomputable def sorted (angle : ℝ) (l : List Hyp) : List Hyp :=
  l.insertionSort fun a b => depth angle a.offset ≤ depth angle b.offset

/-- `angle` of `updateAzimuth`, side-view.ts L185. -/
noncomputable def viewAngle (azimuth : ℝ) : ℝ := azimuth - Real.pi / 2

/-- The hyperbolas of the planes in the order in which they are drawn, side-view.ts
L195-209. -/
noncomputable def hyperbolas (azimuth : ℝ) (s : List Shown) : List Hyp :=
  sorted (viewAngle azimuth) (s.map fun p => ⟨p.plane, p.offset⟩)

/-- The hyperbolas of the groups, side-view.ts L211-221. -/
noncomputable def groupHyperbolas (azimuth : ℝ) (s : List Shown) : List Hyp :=
  sorted (viewAngle azimuth) (s.filterMap fun p => p.group.map fun g => ⟨g, p.offset⟩)

/-- A trace: the `uid` of its measurement, the third axis of the plane along which it is drawn
(hyperbola.ts L114-117 and L434-437) and the placement of createTransform. -/
structure Trace where
  uid : String
  normal : Vec 3
  placement : Option Placement

/-- The traces, side-view.ts L223-235. -/
noncomputable def traces (azimuth : ℝ) (xs ys : ℝ → ℝ) (s : List Shown) : List Trace :=
  (s.filter fun p => p.plane.centered.isSome).map fun p =>
    let n := (p.group.getD p.plane).data.axes 2
    ⟨p.plane.data.uid, n, transform (viewAngle azimuth) xs ys n p.offset⟩

/-- The number in the label "Distance along", side-view.ts L237-238, before it is rounded. -/
noncomputable def labelAngle (azimuth : ℝ) : ℝ :=
  fixAngle (viewAngle azimuth + Real.pi) * 180 / Real.pi

/-- The value of the scale of elevations at `e`, side-view.ts L135-138: it has the range of `y`
and the domain of `y` moved by the center; `y` has the domain from `-m` to `m`. -/
noncomputable def elevationScale (m r0 r1 c e : ℝ) : ℝ :=
  r0 + (e - (-m + c)) / ((m + c) - (-m + c)) * (r1 - r0)

/-- The properties of the component that can change.  side-view.ts L172-182. -/
structure Props where
  data : List Datum
  azimuth : ℝ
  /-- uids of the measurements under the mouse; `none` is `null`, an element `none` is
  `undefined` -/
  hovered : Option (List (Option String))

/-- The component: the planes of `componentDidMount`, the azimuth for which they were drawn
and the uids of the traces that are drawn in their bright color.  side-view.ts L38-256. -/
structure View where
  planes : List Shown
  azimuth : ℝ
  bright : List String

/-- The uids of the traces.  side-view.ts L223-235. -/
def View.traceIds (v : View) : List String :=
  (v.planes.filter fun p => p.plane.centered.isSome).map fun p => p.plane.data.uid

/-- `updateHovered`, side-view.ts L241-256: `null` changes nothing, a property of `undefined`
cannot be read. -/
def updateHovered (v : View) (hovered : Option (List (Option String))) : Except JsErr View :=
  match hovered with
  | none => .ok v
  | some l =>
    if none ∈ l then .error .typeError
    else .ok { v with bright := v.traceIds.filter fun u => some u ∈ l }

/-- `componentDidMount`, side-view.ts L38-170: it ends with `componentDidUpdate` without
previous properties, which draws everything. -/
noncomputable def didMount (p : Props) : Except JsErr View := do
  let s ← mount p.data
  updateHovered ⟨s, p.azimuth, []⟩ p.hovered

open Classical in
/-- `componentDidUpdate`, side-view.ts L172-182: the planes are those of `componentDidMount`.
Two arrays for `hovered` are taken to be the same if their elements are. -/
noncomputable def didUpdate (prev p : Props) (v : View) : Except JsErr View :=
  let v := if prev.azimuth ≠ p.azimuth then { v with azimuth := p.azimuth } else v
  if prev.hovered ≠ p.hovered then updateHovered v p.hovered else .ok v

/-- The component after it was given further properties.  side-view.ts L172-182. -/
noncomputable def runFrom (prev : Props) (v : View) : List Props → Except JsErr View
  | [] => .ok v
  | p :: ps => do runFrom p (← didUpdate prev p v) ps

/-- The component after it was mounted with `p` and given further properties.  side-view.ts
L38-182. -/
noncomputable def run (p : Props) (ps : List Props) : Except JsErr View := do
  runFrom p (← didMount p) ps

/-! ## Elements of the page -/

/-- An element `g.error-hyperbola`: its class `in-group`, half of the side of its mask, and the
plane whose hyperbola it shows.  side-view.ts L196-203 and hyperbola.ts L292-307. -/
structure Elem where
  inGroup : Bool
  mask : Option ℝ
  bound : Shown

/-- `lim` for the width 150, hyperbola.ts L170-206 and L294-296, with `scaleErrorAngles`; `none`
is `NaN`. -/
noncomputable def maskSize (azimuth ratio : ℝ) (d : Datum) : Option ℝ :=
  (semiAxes (viewAngle azimuth) 1 d.axes d.lengths).map fun ab =>
    |150 / 2 * Real.cos (arctan2 ab.2 (ab.1 * ratio))|

/-- The element that is bound to a plane: the one in the same place of the page, or a new one.
The class is set for new elements only (side-view.ts L196-203), and so is the mask
(hyperbola.ts L298-307). -/
noncomputable def bindElem (azimuth ratio : ℝ) (old : Option Elem) (p : Shown) : Elem :=
  match old with
  | some e => { e with bound := p }
  | none => ⟨p.group.isSome, maskSize azimuth ratio p.plane.data, p⟩

/-- `updateAzimuth` for the elements of the planes, side-view.ts L195-209: d3 binds the planes to
the elements in the order of the page, and `sort` puts the elements into a new order. -/
noncomputable def updateElems (ratio : ℝ) (s : List Shown) (old : List Elem) (azimuth : ℝ) : List Elem :=
  (s.mapIdx fun i p => bindElem azimuth ratio old[i]? p).insertionSort fun a b =>
    depth (viewAngle azimuth) a.bound.offset ≤ depth (viewAngle azimuth) b.bound.offset

/-- The elements after they were drawn for some azimuths.  side-view.ts L195-209. -/
noncomputable def elemsAfter (ratio : ℝ) (s : List Shown) (azimuths : List ℝ) : List Elem :=
  azimuths.foldl (updateElems ratio s) []

end Attitude.SideView
