import Mathlib.Analysis.Real.Sqrt
import Verif.Model.FrontendShapes

/-!
# Model of the user interface for notebooks (`frontend/packages/notebook-ui/src`)

The DOM and React are not modelled: a state holds what the components keep between events,
and what they have drawn.  JavaScript objects are compared by identity: arrays carry a number
that stands for it, and measurements are their position in the list of the page.
-/

namespace Attitude.NotebookUi

open Attitude Frontend

/-- An array and its identity.  For `===` and `!==` of arrays in components/stereonet.ts L72-95. -/
structure Arr (α : Type) where
  id : ℕ
  items : List α

/-- A measurement or group, as made by `to_mapping` and `create_groups`.  Read at
notebook-ui/src/index.ts L60-67 and L121-180. -/
structure Item where
  uid : String
  memberOf : Option String := none
  members : Option (List String) := none

/-! ## components/stereonet.ts -/

/-- The properties of `StereonetComponent`, stereonet.ts L35-45. -/
structure NetProps (α : Type) where
  data : Arr α
  drawPlanes : Bool := true
  drawPoles : Bool := false
  hovered : Option (Arr α)
  center : Arr ℝ

/-- What is drawn: the elements `g.planes`, `g.poles` and, in `g.hovered`, planes and poles;
and the center that was last set.  components/stereonet.ts L51-162. -/
structure Drawn (α : Type) where
  planes : Option (List α) := none
  poles : Option (List α) := none
  hoveredPlanes : List α := []
  hoveredPoles : List α := []
  center : Option (List ℝ) := none

/-- `updatePlanes`, stereonet.ts L125-146. -/
def updatePlanes {α : Type} (p : NetProps α) (d : Drawn α) : Drawn α :=
  { d with planes := if p.drawPlanes then some p.data.items else none }

/-- `updatePoles`, stereonet.ts L148-162. -/
def updatePoles {α : Type} (p : NetProps α) (d : Drawn α) : Drawn α :=
  { d with poles := if p.drawPoles then some p.data.items else none }

/-- `updateHovered`, stereonet.ts L97-123. -/
def updateHovered {α : Type} (p : NetProps α) (d : Drawn α) : Drawn α :=
  match p.hovered with
  | none => { d with hoveredPlanes := [], hoveredPoles := [] }
  | some a =>
    { d with
      hoveredPlanes := if p.drawPlanes then a.items else [],
      hoveredPoles := if p.drawPoles then a.items else [] }

/-- `componentDidMount`, stereonet.ts L51-70. -/
def mount {α : Type} (p : NetProps α) : Drawn α := updatePlanes p (updatePoles p {})

/-- `componentDidUpdate`, stereonet.ts L72-95. -/
def didUpdate {α : Type} (prev p : NetProps α) (d : Drawn α) : Drawn α :=
  let dataChanged := p.data.id ≠ prev.data.id
  let drawPlanes := if dataChanged then none else some p.drawPlanes
  let drawPoles := if dataChanged then none else some p.drawPoles
  let planesChanged := some prev.drawPlanes ≠ drawPlanes
  let polesChanged := some prev.drawPoles ≠ drawPoles
  let d1 := if planesChanged then updatePlanes p d else d
  let d2 := if polesChanged then updatePoles p d1 else d1
  let hovered := if planesChanged ∨ polesChanged then none else p.hovered.map Arr.id
  let d3 := if prev.center.id ≠ p.center.id then { d2 with center := some p.center.items } else d2
  if prev.hovered.map Arr.id ≠ hovered then updateHovered p d3 else d3

/-- The handler of `mouseenter` on an error path, stereonet.ts L164-174: without the property
`onHover` (it has no default) it is a call of `undefined`. -/
def mouseenter {β : Type} (onHover : Option (ℕ → β)) (d : ℕ) : Except JsErr β :=
  match onHover with
  | none => .error .typeError
  | some f => .ok (f d)

/-! ## index.ts -/

/-- The state of `AttitudeUI` (index.ts L52-58) and of `InteractiveStereonetComponent`
(stereonet.ts L181-189) together with the drawing; `fresh` numbers new arrays.  `hovered`
can hold `undefined` for measurements that are not found. -/
structure Ui where
  showGroups : Bool := true
  zoomed : Bool := false
  hovered : Option (Arr (Option ℕ)) := none
  selection : Arr ℕ := ⟨1, []⟩
  drawPlanes : Bool := false
  drawPoles : Bool := true
  center : Arr ℝ := ⟨2, [0, 0]⟩
  fresh : ℕ := 3
  drawn : Drawn (Option ℕ) := {}

/-- Statements of the constructor of a class that extends another, as far as they concern `this`: a use
of it, or the call of `super`.  notebook-ui/src/index.ts L47-59. -/
inductive CtorStmt where
  | useThis
  | callSuper
deriving DecidableEq

/-- JavaScript's rules for such a constructor: `this` can be used after `super` only, `super` can be
called once, and it has to be called before the end.  `initialized` is whether it has been.  External;
for notebook-ui/src/index.ts L47-59. -/
def runCtor (initialized : Bool) : List CtorStmt → Except JsErr Unit
  | [] => if initialized then .ok () else .error .referenceError
  | .useThis :: l => if initialized then runCtor initialized l else .error .referenceError
  | .callSuper :: l => if initialized then .error .referenceError else runCtor true l

/-- The statements of the constructor of `AttitudeUI`: three methods are bound (L48-50), then `super`
(L51), then the state is set (L52).  notebook-ui/src/index.ts L47-59. -/
def attitudeUiCtor : List CtorStmt := [.useThis, .useThis, .useThis, .callSuper, .useThis]

/-- The constructor of `AttitudeUI`, index.ts L47-59. -/
def construct : Except JsErr Ui := do
  runCtor false attitudeUiCtor
  .ok {}

section

variable (items : List Item)

/-- `attitudes.find((d) => uid === d.uid)`.  notebook-ui/src/index.ts L64. -/
def find (uid : String) : Option ℕ := items.findIdx? fun d => d.uid = uid

/-- `findAttitudes`, index.ts L60-67. -/
def findAttitudes (uids : List String) : List (Option ℕ) := uids.map (find items)

/-- `getData`, index.ts L121-128: the list of the page is array 0. -/
def getData (s : Ui) : Arr (Option ℕ) :=
  if s.zoomed then ⟨s.selection.id, s.selection.items.map some⟩
  else ⟨0, (List.range items.length).map some⟩

/-- The properties of the stereonet, index.ts L102-109 and stereonet.ts L190-200. -/
def netProps (s : Ui) : NetProps (Option ℕ) :=
  { data := getData items s, drawPlanes := s.drawPlanes, drawPoles := s.drawPoles,
    hovered := s.hovered, center := s.center }

/-- `render` followed by `componentDidUpdate`, after a change of the state.
notebook-ui/src/index.ts L69-119 and components/stereonet.ts L72-95. -/
def rerender (prev s : Ui) : Ui :=
  { s with drawn := didUpdate (netProps items prev) (netProps items s) s.drawn }

/-- The measurements that are highlighted, `onHover` in index.ts L136-155. -/
def hoveredItems (d : ℕ) : List (Option ℕ) :=
  let d' := match (items[d]?.bind Item.memberOf).bind (find items) with
    | some g => g
    | none => d
  match items[d']?.bind Item.members with
  | some ms => some d' :: findAttitudes items ms
  | none => [some d']

/-- One step of the loop of `updateSelection`, index.ts L166-180. -/
def toggle (allowGroups : Bool) (sel : List ℕ) (d : ℕ) : List ℕ :=
  if (items[d]?.bind Item.members).isSome ∧ ¬ allowGroups then sel
  else if d ∈ sel then sel.erase d else sel ++ [d]

/-- Whether the button to show only the selection can be used, list.ts L50-57. -/
def zoomEnabled (s : Ui) : Bool := !(s.selection.items.isEmpty && !items.isEmpty)

/-- What a user can do.  notebook-ui/src/index.ts L81-96 and L130-180, components/stereonet.ts
L201-230. -/
inductive Event where
  /-- the mouse enters a measurement or (`none`) leaves the page -/
  | hover (d : Option ℕ)
  /-- a click on a measurement in the list -/
  | click (d : ℕ)
  /-- "Clear selection" -/
  | clear
  /-- "Show only selection" or "Show all data" -/
  | zoom
  /-- the switch "Show groups" -/
  | groups
  /-- the switches of the stereonet -/
  | planes
  | poles
  /-- "Vertical" -/
  | vertical

/-- The change of the state by an event; `updateSelection` changes the array in place.
notebook-ui/src/index.ts L81-96 and L130-180, components/stereonet.ts L201-230. -/
def change (allowGroups : Bool) (s : Ui) : Event → Ui
  | .hover none => { s with hovered := none }
  | .hover (some d) => { s with hovered := some ⟨s.fresh, hoveredItems items d⟩, fresh := s.fresh + 1 }
  | .click d => { s with selection := ⟨s.selection.id, toggle items allowGroups s.selection.items d⟩ }
  | .clear =>
    if s.selection.items.isEmpty then s else { s with selection := ⟨s.fresh, []⟩, fresh := s.fresh + 1 }
  | .zoom => if zoomEnabled items s then { s with zoomed := !s.zoomed } else s
  | .groups => { s with showGroups := !s.showGroups }
  | .planes => { s with drawPlanes := !s.drawPlanes }
  | .poles => { s with drawPoles := !s.drawPoles }
  | .vertical => { s with center := ⟨s.fresh, [0, -90]⟩, fresh := s.fresh + 1 }

/-- The handlers of the page.  notebook-ui/src/index.ts L81-96 and L130-180,
components/stereonet.ts L201-230. -/
def step (allowGroups : Bool) (s : Ui) (e : Event) : Ui := rerender items s (change items allowGroups s e)

/-- The page before the first event.  notebook-ui/src/index.ts L52-58 and components/stereonet.ts
L181-200. -/
def start : Ui := { ({} : Ui) with drawn := mount (netProps items {}) }

/-- The page after events.  For the handlers of notebook-ui/src/index.ts L81-180. -/
def run (allowGroups : Bool) (es : List Event) : Ui := es.foldl (step items allowGroups) (start items)

/-! ## components/list.ts -/

/-- `hovered.find((hov) => hov.uid === d.uid)`, list.ts L73-75. -/
def isHovered (uid : String) : List (Option ℕ) → Except JsErr Bool
  | [] => .ok false
  | none :: _ => .error .typeError
  | some j :: t => if (items[j]?.map Item.uid) = some uid then .ok true else isHovered uid t

/-- An item of the list: whether it is marked as selected and as hovered; `none` if it is not
shown.  `createListItem`, list.ts L65-99. -/
def listItem (s : Ui) (d : Item) : Except JsErr (Option (Bool × Bool)) := do
  if d.members.isSome && !s.showGroups then .ok none
  else
    let selected := s.selection.items.any fun j => (items[j]?.map Item.uid) = some d.uid
    let hov ← match s.hovered with
      | none => .ok false
      | some a => isHovered items d.uid a.items
    .ok (some (selected, hov))

end

/-! ## components/side-view.ts -/

/-- A linear scale of d3 with a domain symmetric about zero: half of the domain's width and
the two ends of the range.  `half` is `none` for a domain of `NaN`s.  External; made at
side-view.ts L52-112. -/
structure Scale where
  half : Option ℝ
  r0 : ℝ
  r1 : ℝ

/-- The value of a scale whose domain is not empty.  External; made at side-view.ts L52-112. -/
noncomputable def Scale.eval (s : Scale) (v : ℝ) : Option ℝ :=
  s.half.bind fun m => if m = 0 then none else some (s.r0 + (v + m) / (2 * m) * (s.r1 - s.r0))

/-- The scales of the side view, side-view.ts L52-112, for the offsets of the planes (distance
in the horizontal plane, absolute height).  If a plane is off the center horizontally, `xsize`
is assigned a function, and `xsize *= 1.1` is `NaN`; otherwise it is zero and both scales
become undefined.  Vertical offsets are assumed not to be all zero. -/
noncomputable def sideScales (offsets : List (ℝ × ℝ)) : Scale × Scale :=
  let ysize := (offsets.map Prod.snd).foldl max 0 * 1.1
  let width : ℝ := 800 - 50 - 100
  let height : ℝ := 300 - 5 - 35
  open Classical in
  if ∃ o ∈ offsets, 0 < o.1 then
    let yRatio := 2 * ysize / height
    (⟨some (width * yRatio / 2), 0, width⟩, ⟨some ysize, height, 0⟩)
  else (⟨some 0, 0, width⟩, ⟨none, height, 0⟩)

end Attitude.NotebookUi
