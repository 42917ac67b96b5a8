import Mathlib.Data.List.Basic
import Mathlib.Logic.Function.Basic
import Mathlib.Data.Int.Notation

/-!
# Model of what is added to a stereonet and of its listeners
(`frontend/packages/attitude/src/stereonet/index.ts`, `labels.ts`)

`drawPlanes` and `drawEllipses` (the methods `planes` and `ellipses` of a stereonet), with the
options objects that they change, and `on` with the listeners it registers.  The data join and
the dispatcher belong to d3; their code is in
`frontend/packages/attitude/lib/d3v4+jetpack.js` ("d3" below).  How one plane or one ellipse is
drawn is in `Verif.Model.FrontendShapes`.
-/

namespace Attitude.NetData

/-! ## Planes and ellipses -/

/-- A selector of a container that the methods accept, such as `g.planes`.  stereonet/index.ts
L87-167. -/
abbrev Selector := String

/-- Colors by their text; `chroma` is not modelled.  stereonet/index.ts L87-167. -/
abbrev Color := String

/-- An element `g.plane` or `g.normal`: what its paths were drawn for and in which color, and the
datum that d3 has bound to it since.  stereonet/index.ts L87-167. -/
structure Elem (D : Type) where
  drawn : D
  fill : Color
  bound : D

/-- The two kinds of elements: `g.plane` (index.ts L106) and `g.normal` (index.ts L149). -/
inductive Kind where
  | plane
  | normal
deriving DecidableEq

/-- An object given as the second argument: `color` (a text or a function, here always a
function) and `selector`; `none` is a missing property.  stereonet/index.ts L87-167. -/
structure Options (D : Type) where
  color : Option (D → Color) := none
  selector : Option Selector := none

/-- A stereonet, as far as data are concerned: whether it has been drawn into an element
(`el`, index.ts L50), what is in each container (nothing if there is no such container), the
containers in order, and the objects that the caller has made. -/
structure Net (D : Type) where
  ready : Bool := false
  containers : List Selector := []
  elems : Selector → Kind → List (Elem D) := fun _ _ => []
  objects : ℕ → Options D := fun _ => {}

/-- `.data(data).enter().append("g")`, index.ts L106-110 and L149-153, with d3 L1136-1160 for the
elements `old` that are there: they are bound to the data at their positions, and elements
are made for the data beyond. -/
def join {D : Type} (color : D → Color) (old : List (Elem D)) (data : List D) : List (Elem D) :=
  old.mapIdx (fun i e => { e with bound := (data[i]?).getD e.bound })
    ++ (data.drop old.length).map fun d => ⟨d, color d, d⟩

/-- `dataArea.selectAppend(selector)`, index.ts L101 and L138: the container is made at the end if
there is none. -/
def selectAppend (l : List Selector) (s : Selector) : List Selector := if s ∈ l then l else l ++ [s]

/-- The default color of each kind, index.ts L92 and L131; `own` is the property `color` of a
datum, `none` if it is missing or empty. -/
def defaultColor {D : Type} (own : D → Option Color) : Kind → D → Color
  | .plane, _ => "#aaaaaa"
  | .normal, d => (own d).getD "#aaaaaa"

/-- The default container of each kind, index.ts L98 and L136. -/
def defaultSelector : Kind → Selector
  | .plane => "g.planes"
  | .normal => "g.poles"

/-- The object that is used: the one of the caller or a new one (index.ts L88-90, L130). -/
def optionsOf {D : Type} (n : Net D) : Option ℕ → Options D
  | none => {}
  | some k => n.objects k

/-- The object of the caller after it has been changed.  stereonet/index.ts L87-167, which set
missing properties of it. -/
def store {D : Type} (n : Net D) (o : Options D) : Option ℕ → ℕ → Options D
  | none => n.objects
  | some k => Function.update n.objects k o

/-- `drawPlanes`, index.ts L87-128, and `drawEllipses`, index.ts L130-167.  The result is the net
and the number of elements in the selection that is returned; `none` is the exception "Stereonet
must be initialized to an element before adding data".  The color is set before the exception, the
container after it. -/
def draw {D : Type} (own : D → Option Color) (kind : Kind) (n : Net D) (data : List D)
    (o : Option ℕ) : Net D × Option ℕ :=
  let color := (optionsOf n o).color.getD (defaultColor own kind)
  let o1 : Options D := { optionsOf n o with color := some color }
  if n.ready = false then ({ n with objects := store n o1 o }, none)
  else
    let s := o1.selector.getD (defaultSelector kind)
    let old := n.elems s kind
    ({ n with
        objects := store n { o1 with selector := some s } o
        containers := selectAppend n.containers s
        elems := fun s' k' => if s' = s ∧ k' = kind then join color old data else n.elems s' k' },
      some (data.length - old.length))

/-- `stereonet.dataArea().select(selector).remove()`, as in
notebook-ui/src/components/stereonet.ts L99, L129, L152, for a net that has been drawn. -/
def remove {D : Type} (n : Net D) (s : Selector) : Net D :=
  { n with
    containers := n.containers.filter (· ≠ s)
    elems := fun s' k' => if s' = s then [] else n.elems s' k' }

/-! ## Listeners -/

/-- Who is called when the net is rotated: a set of labels (`updateLabels`, labels.ts L72-114,
numbered by the calls of `globalLabels`) or a function of the user. -/
inductive Callback where
  | labels (k : ℕ)
  | user (k : ℕ)
deriving DecidableEq

/-- The types of events of a stereonet: `rotate` and `redraw` (index.ts L208). -/
inductive EventType where
  | rotate
  | redraw
deriving DecidableEq

/-- The first argument of `on`: a known type with the name after the dot (empty if there is no
dot), or anything else.  Texts with blanks between words are among the latter, because the prefix
`uid` is put before the first word only (d3 L749-756). -/
inductive Typename where
  | known (t : EventType) (name : String)
  | unknown
deriving DecidableEq

/-- The listeners of each type, in the order in which they are called.  `dispatch`,
stereonet/index.ts L208. -/
abbrev Listeners := EventType → List (String × Callback)

/-- `set`, d3 L807-816. -/
def setCallback : List (String × Callback) → String → Option Callback → List (String × Callback)
  | l, name, cb => l.eraseP (fun c => c.1 = name) ++ (cb.map fun c => (name, c)).toList

/-- `f.on = (event, callback) => dispatch.on(uid + event, callback)`, index.ts L316, with d3
L760-781; a missing callback is `undefined`, which is passed on.  `none` is the exception "unknown
type". -/
def on (l : Listeners) (tn : Typename) (cb : Option Callback) : Option Listeners :=
  match tn with
  | .known t name => some (Function.update l t (setCallback (l t) name cb))
  | .unknown => none

/-- What happens to a net that has been drawn.  stereonet/index.ts L300-316 and labels.ts
L50-134. -/
inductive Event where
  /-- `stereonet.on(event, callback)` -/
  | on (tn : Typename) (cb : Option ℕ)
  /-- `stereonet.call(globalLabels())`, labels.ts L50-134 -/
  | labels
  /-- `stereonet.rotate(coords)`, index.ts L300-307, also by dragging -/
  | rotate (coords : ℤ × ℤ)
  /-- `stereonet.center(coords)`, index.ts L365-374 -/
  | center (coords : ℤ × ℤ)

/-- Listeners, the number of sets of labels, the rotation of the projection, for each set of
labels the rotation for which it was last placed, and the calls of functions of the user with
the rotation at that time.  Rotations are whole degrees.  stereonet/index.ts L208 and L300-316,
labels.ts L72-132. -/
structure State where
  listeners : Listeners := fun _ => []
  sets : ℕ := 0
  rotation : ℤ × ℤ := (0, 0)
  placed : ℕ → Option (ℤ × ℤ) := fun _ => none
  calls : List (ℕ × (ℤ × ℤ)) := []

/-- A listener is called, d3 L788-792. -/
def State.call (s : State) : Callback → State
  | .labels k => { s with placed := Function.update s.placed k (some s.rotation) }
  | .user k => { s with calls := s.calls ++ [(k, s.rotation)] }

/-- Effects of events.  After an exception nothing is changed.  stereonet/index.ts L300-316 and
labels.ts L50-134. -/
def step (s : State) : Event → State
  | .on tn cb =>
    match NetData.on s.listeners tn (cb.map .user) with
    | some l => { s with listeners := l }
    | none => s
  | .labels =>
    let s1 := { s with sets := s.sets + 1, placed := Function.update s.placed s.sets (some s.rotation) }
    match NetData.on s1.listeners (.known .rotate "") (some (.labels s.sets)) with
    | some l => { s1 with listeners := l }
    | none => s1
  | .rotate c => ((s.listeners .rotate).map (·.2)).foldl State.call { s with rotation := c }
  | .center c => { s with rotation := c }

/-- A net after events.  For the events of stereonet/index.ts L300-316 and labels.ts L50-134. -/
def run (es : List Event) : State := es.foldl step {}

end Attitude.NetData
