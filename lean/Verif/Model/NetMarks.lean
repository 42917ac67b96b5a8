import Verif.Model.NotebookUi

/-!
# Model of the paths that `StereonetComponent` draws
(`frontend/packages/notebook-ui/src/components/stereonet.ts`)

NotebookUi has which measurements are drawn; here is what becomes of the `path` elements of each
of them: the datum that d3 keeps at an element, the attribute `d`, and whether the element
listens to the mouse.  Measurements are taken to be objects (not `undefined`) with axes.  Colors
are left out.
-/

namespace Attitude.NetMarks

open Attitude.NotebookUi

/-- What d3 knows of the measurements `D`: the shapes `G` of their error surface, nominal plane
and error ellipse (attitude/src/functions.ts L20-55 and L107-143), the shape of the measurement
itself if it were taken for GeoJSON (`none` if it has no `type`), and `max_angular_error` (`none`
is `undefined`).  components/stereonet.ts L139. -/
structure Shapes (D G : Type) where
  surface : D → G
  trace : D → G
  ellipse : D → G
  bare : D → Option G
  maxError : D → Option ℝ

/-- The datum of an element: a GeoJSON object, or a measurement.  functions.ts L93-105. -/
inductive Datum (D G : Type) where
  | shape (g : G)
  | own (d : D)

/-- The classes of paths.  functions.ts L95 and L105, stereonet/index.ts L145. -/
inductive Cls where
  | error
  | nominal
deriving DecidableEq

/-- A `path`: its class, its datum, the shape that its attribute `d` was made of (`none` if there
is no such attribute), and whether it has a listener for `mouseenter`.  components/stereonet.ts
L21-33 and L164-174. -/
structure PathEl (D G : Type) where
  cls : Cls
  datum : Datum D G
  d : Option G := none
  listens : Bool := false

/-- A `g.plane` or `g.normal` with its datum.  stereonet/index.ts L103-108 and L148-153. -/
structure GroupEl (D G : Type) where
  data : D
  paths : List (PathEl D G)

/-- The elements of the component: `g.planes`, `g.poles`, and both kinds in `g.hovered`.
components/stereonet.ts L97-162. -/
structure View (D G : Type) where
  planes : Option (List (GroupEl D G)) := none
  poles : Option (List (GroupEl D G)) := none
  hoveredPlanes : List (GroupEl D G) := []
  hoveredPoles : List (GroupEl D G) := []

section

variable {D G : Type} (sh : Shapes D G)

/-- `path(datum)` of `d3.geoPath`: `null` for an object that is not GeoJSON.  stereonet/index.ts
L205. -/
def geoPath : Datum D G → Option G
  | .shape g => some g
  | .own d => sh.bare d

/-- Changes of all paths of a group.  For stereonet/index.ts L205. -/
def GroupEl.mapPaths (f : PathEl D G → PathEl D G) (g : GroupEl D G) : GroupEl D G :=
  { g with paths := g.paths.map f }

/-- Changes of all paths.  For stereonet/index.ts L205 and components/stereonet.ts L166-169. -/
def View.mapPaths (f : PathEl D G → PathEl D G) (v : View D G) : View D G :=
  { planes := v.planes.map (List.map (GroupEl.mapPaths f))
    poles := v.poles.map (List.map (GroupEl.mapPaths f))
    hoveredPlanes := v.hoveredPlanes.map (GroupEl.mapPaths f)
    hoveredPoles := v.hoveredPoles.map (GroupEl.mapPaths f) }

/-- A path gets the attribute `d` from its datum, or loses it.  stereonet/index.ts L205. -/
def PathEl.redraw (p : PathEl D G) : PathEl D G := { p with d := geoPath sh p.datum }

/-- `__redraw`, stereonet/index.ts L201-206. -/
def redraw (v : View D G) : View D G := v.mapPaths (PathEl.redraw sh)

/-- `d3.select(group).select("path.<cls>")`: besides finding the element, d3 copies the datum of
the group to it (`selection_select`, attitude/lib/attitude.js L54-67).  There is at most one path
of a class in a group.  components/stereonet.ts L22-28 and L143. -/
def GroupEl.select (c : Cls) (g : GroupEl D G) : GroupEl D G :=
  g.mapPaths fun p => if p.cls = c then { p with datum := .own g.data } else p

/-- `d3.select(group).select("path.<cls>").remove()`.  components/stereonet.ts L110 and L140. -/
def GroupEl.removePath (c : Cls) (g : GroupEl D G) : GroupEl D G :=
  { g with paths := (g.select c).paths.filter fun p => p.cls ≠ c }

/-- A new `g.plane`, functions.ts L88-106. -/
def newPlane (d : D) : GroupEl D G :=
  ⟨d, [{ cls := .error, datum := .shape (sh.surface d) }, { cls := .nominal, datum := .shape (sh.trace d) }]⟩

/-- A new `g.normal`, stereonet/index.ts L144-153. -/
def newNormal (d : D) : GroupEl D G :=
  ⟨d, [{ cls := .error, datum := .shape (sh.ellipse d) }]⟩

/-- `setHoveredFill` without the styles: both paths are selected.  components/stereonet.ts
L21-33. -/
def setHoveredFill (g : GroupEl D G) : GroupEl D G := (g.select .error).select .nominal

/-- `d.max_angular_error > 45`, false for `undefined`.  components/stereonet.ts L139. -/
noncomputable def tooLarge (d : D) : Bool :=
  match sh.maxError d with
  | some e => decide (45 < e)
  | none => false

/-- The last function of `updatePlanes`, components/stereonet.ts L138-144. -/
noncomputable def finishPlane (g : GroupEl D G) : GroupEl D G :=
  let g1 := if tooLarge sh g.data then g.removePath .error else g
  g1.select .nominal

/-- `updatePlanes`, components/stereonet.ts L125-146. -/
noncomputable def updatePlanes (p : NetProps D) (v : View D G) : View D G :=
  if p.drawPlanes then
    let v1 := redraw sh { v with planes := some (p.data.items.map (newPlane sh)) }
    { v1 with planes := v1.planes.map (List.map (finishPlane sh)) }
  else { v with planes := none }

/-- `updatePoles`, components/stereonet.ts L148-162. -/
def updatePoles (p : NetProps D) (v : View D G) : View D G :=
  if p.drawPoles then redraw sh { v with poles := some (p.data.items.map (newNormal sh)) }
  else { v with poles := none }

/-- The planes of `updateHovered`, components/stereonet.ts L106-115. -/
def hoverPlanes (xs : List D) (v : View D G) : View D G :=
  let v1 := redraw sh { v with hoveredPlanes := xs.map (newPlane sh) }
  { v1 with hoveredPlanes := v1.hoveredPlanes.map fun g => setHoveredFill (g.removePath .nominal) }

/-- The poles of `updateHovered`, components/stereonet.ts L116-122. -/
def hoverPoles (xs : List D) (v : View D G) : View D G :=
  let v1 := redraw sh { v with hoveredPoles := xs.map (newNormal sh) }
  { v1 with hoveredPoles := v1.hoveredPoles.map setHoveredFill }

/-- `updateHovered`, components/stereonet.ts L97-123. -/
def updateHovered (p : NetProps D) (v : View D G) : View D G :=
  let v0 : View D G := { v with hoveredPlanes := [], hoveredPoles := [] }
  match p.hovered with
  | none => v0
  | some a =>
    if a.items.length = 0 then v0
    else
      let v1 := if p.drawPlanes then hoverPlanes sh a.items v0 else v0
      if p.drawPoles then hoverPoles sh a.items v1 else v1

/-- An error path listens, whatever it did before.  components/stereonet.ts L166-173. -/
def PathEl.listen (p : PathEl D G) : PathEl D G := if p.cls = .error then { p with listens := true } else p

/-- `__finishUpdate`, components/stereonet.ts L164-174. -/
def finishUpdate (v : View D G) : View D G := (redraw sh v).mapPaths PathEl.listen

/-- `componentDidMount`, components/stereonet.ts L51-70. -/
noncomputable def mount (p : NetProps D) : View D G :=
  finishUpdate sh (updatePlanes sh p (updatePoles sh p {}))

/-- `componentDidUpdate`, components/stereonet.ts L72-95, with the comparisons of
NotebookUi.didUpdate. -/
noncomputable def didUpdate (prev p : NetProps D) (v : View D G) : View D G :=
  let dataChanged := p.data.id ≠ prev.data.id
  let drawPlanes := if dataChanged then none else some p.drawPlanes
  let drawPoles := if dataChanged then none else some p.drawPoles
  let planesChanged := some prev.drawPlanes ≠ drawPlanes
  let polesChanged := some prev.drawPoles ≠ drawPoles
  let v1 := if planesChanged then updatePlanes sh p v else v
  let v2 := if polesChanged then updatePoles sh p v1 else v1
  let hovered := if planesChanged ∨ polesChanged then none else p.hovered.map Arr.id
  let v3 := if prev.center.id ≠ p.center.id then redraw sh v2 else v2
  let v4 := finishUpdate sh v3
  if prev.hovered.map Arr.id ≠ hovered then updateHovered sh p v4 else v4

/-- What happens to the component: it is given properties, or the net is rotated by the mouse
(stereonet/index.ts L300-307).  components/stereonet.ts L51-95. -/
inductive Event (D : Type) where
  | update (p : NetProps D)
  | rotate

/-- One event; the state is the last properties and the elements.  components/stereonet.ts
L72-95, stereonet/index.ts L300-307. -/
noncomputable def step (s : NetProps D × View D G) : Event D → NetProps D × View D G
  | .update p => (p, didUpdate sh s.1 p s.2)
  | .rotate => (s.1, redraw sh s.2)

/-- The component after it was mounted with `p` and after some events.  components/stereonet.ts
L51-95. -/
noncomputable def run (p : NetProps D) (es : List (Event D)) : NetProps D × View D G :=
  es.foldl (step sh) (p, mount sh p)

end

end Attitude.NetMarks
