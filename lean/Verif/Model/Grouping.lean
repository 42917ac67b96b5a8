import Verif.Model.Num

/-!
# Model of `attitude/orientation/grouped.py`

Objects live in a heap; an address is a natural number.  Shallow copies, object
identity and in-place attribute updates are modelled explicitly, because the
properties of interest are about sharing.
-/

namespace Attitude.Grouping

open Attitude

/-- A list of points: the rows of an `(n, 3)` array.  The arrays of orientation/grouped.py
L14-18. -/
abbrev Points := List (Vec 3)

/-- Mean over the rows; `none` is the `nan` of an empty array.  orientation/grouped.py L27. -/
noncomputable def meanPts (p : Points) : Option (Vec 3) :=
  if p = [] then none else some fun j => (p.map fun v => v j).sum / p.length

/-- `centered`, coordinates/__init__.py L19-28, for a list of rows. -/
noncomputable def centeredPts (p : Points) : Points :=
  match meanPts p with
  | none => []
  | some m => p.map fun v j => v j - m j

/-- The attributes of an orientation object that grouping uses.
* `array`: `self.array` (pca.py L155); `none` when the attribute does not exist,
  as for a `ReconstructedPlane`;
* `mean`: `self.mean`;
* `uid`: the `hash` property (base.py L79-81); `none` when computing it raises
  `AttributeError` because the fit was never computed;
* `memberOf`: `self.member_of`, an address;
* `members`: `self.members`, only present on groups (grouped.py L24);
* `disabled`. -/
structure Obj where
  array : Option Points := none
  mean : Option (Vec 3) := none
  uid : Option String := none
  memberOf : Option ℕ := none
  members : Option (List ℕ) := none
  disabled : Bool := false

/-- The heap: addresses below `next` are allocated.  The objects whose attributes
orientation/grouped.py L22-24 and L47-64 read and set. -/
structure Heap where
  next : ℕ
  obj : ℕ → Obj

/-- Replace the object at an address.  For the assignments of orientation/grouped.py L22, L47 and
L51. -/
def Heap.set (h : Heap) (a : ℕ) (o : Obj) : Heap :=
  { h with obj := fun b => if b = a then o else h.obj b }

/-- Allocate a new object.  For the objects made at orientation/grouped.py L11-27. -/
def Heap.alloc (h : Heap) (o : Obj) : Heap :=
  { next := h.next + 1, obj := fun b => if b = h.next then o else h.obj b }

/-- `o.member_of = g`.  orientation/grouped.py L22, L47 and L51. -/
def Heap.setMemberOf (h : Heap) (a : ℕ) (g : Option ℕ) : Heap :=
  h.set a { h.obj a with memberOf := g }

/-- The hash of a fit as a function of the fitted array: the fit is a function
of the array, and the hash a function of the fit (base.py L79-81). -/
abbrev HashFn := Points → String

/-- `PCAOrientation(arr)` for a plain measurement, pca.py L123-172: an object on
success; fewer than three rows raise `ValueError` (L178-179). -/
noncomputable def newMeasurement (H : HashFn) (h : Heap) (p : Points) : Except PyErr ℕ × Heap :=
  if p.length < 3 then (.error .valueError, h)
  else (.ok h.next, h.alloc { array := some p, mean := meanPts p, uid := some (H p) })

/-- `[o.array for o in orientations]`, grouped.py L14: raises `AttributeError`
when an object has no array. -/
def arraysOf (h : Heap) : List ℕ → Except PyErr (List Points)
  | [] => .ok []
  | o :: os =>
    match (h.obj o).array with
    | none => .error .attributeError
    | some p =>
      match arraysOf h os with
      | .error e => .error e
      | .ok ps => .ok (p :: ps)

/-- `N.vstack`, which raises `ValueError` for an empty list.  External; used at
orientation/grouped.py L14 and L18. -/
def vstack (l : List Points) : Except PyErr Points :=
  if l = [] then .error .valueError else .ok l.flatten

/-- The loop of grouped.py L19-22: membership is set one object at a time. -/
def markMembers (g : ℕ) : List ℕ → Heap → Except PyErr Unit × Heap
  | [], h => (.ok (), h)
  | o :: os, h =>
    if (h.obj o).members.isSome then (.error .groupedPlaneError, h)
    else markMembers g os (h.setMemberOf o (some g))

/-- `GroupedOrientation(*orientations, same_plane=..)`, grouped.py L12-27.
`extraKw` says that some other keyword argument is passed that
`PCAOrientation.__init__` does not accept (`weights` and `axes` are not
modelled). -/
noncomputable def newGroup (H : HashFn) (h : Heap) (os : List ℕ) (samePlane extraKw : Bool) :
    Except PyErr ℕ × Heap :=
  let self := h.next
  let h := h.alloc {}
  match arraysOf h os with
  | .error e => (.error e, h)
  | .ok ps =>
    match vstack ps with
    | .error e => (.error e, h)
    | .ok allValues =>
      let array := if samePlane then allValues else (ps.map centeredPts).flatten
      match markMembers self os h with
      | (.error e, h) => (.error e, h)
      | (.ok (), h) =>
        let h := h.set self { h.obj self with members := some os }
        if extraKw then (.error .typeError, h)
        else
          -- `PCAOrientation.__init__`, pca.py L151-158
          let h := h.set self { h.obj self with
            memberOf := none, disabled := false, array := some array, mean := meanPts array }
          if array.length < 3 then (.error .valueError, h)
          else
            (.ok self, h.set self { h.obj self with uid := some (H array),
                                                    mean := meanPts allValues })

/-- `[copy(o) for o in orientations]`, grouped.py L43: shallow copies. -/
def copyAll : List ℕ → Heap → List ℕ × Heap
  | [], h => ([], h)
  | o :: os, h =>
    let r := copyAll os (h.alloc (h.obj o))
    (h.next :: r.1, r.2)

/-- `for a in o.members: a.member_of = o`, grouped.py L50-51. -/
def pointTo (g : ℕ) : List ℕ → Heap → Heap
  | [], h => h
  | a :: as, h => pointTo g as (h.setMemberOf a (some g))

/-- The loop of grouped.py L45-53: returns `grouped` and the heap. -/
def resetMembership : List ℕ → Heap → List ℕ × Heap
  | [], h => ([], h)
  | o :: os, h =>
    let h := h.setMemberOf o none
    match (h.obj o).members with
    | none => resetMembership os h
    | some ms =>
      let r := resetMembership os (pointTo o ms h)
      (ms ++ r.1, r.2)

/-- `next(x for x in orientations if x.hash == uid)`, grouped.py L57 and L62-64. -/
def firstWith (h : Heap) (uid : String) : List ℕ → Except PyErr ℕ
  | [] => .error .keyError
  | x :: xs =>
    match (h.obj x).uid with
    | none => .error .attributeError
    | some u => if u = uid then .ok x else firstWith h uid xs

/-- `find`, grouped.py L55-64. -/
def find (h : Heap) (collection grouped : List ℕ) (uid : String) : Except PyErr ℕ :=
  match firstWith h uid collection with
  | .error e => .error e
  | .ok x => if x ∈ grouped then .error .groupedPlaneError else .ok x

/-- `[find(uid) for uid in uid_list]`, grouped.py L67. -/
def findAll (h : Heap) (collection grouped : List ℕ) : List String → Except PyErr (List ℕ)
  | [] => .ok []
  | u :: us =>
    match find h collection grouped u with
    | .error e => .error e
    | .ok x =>
      match findAll h collection grouped us with
      | .error e => .error e
      | .ok xs => .ok (x :: xs)

/-- The loop of grouped.py L66-69.  Returns the outcome, the list
`orientations` and the heap. -/
noncomputable def buildGroups (H : HashFn) (grouped : List ℕ) (samePlane extraKw : Bool) :
    List (List String) → List ℕ → Heap → Except PyErr Unit × List ℕ × Heap
  | [], l, h => (.ok (), l, h)
  | us :: gs, l, h =>
    match findAll h l grouped us with
    | .error e => (.error e, l, h)
    | .ok vals =>
      match newGroup H h vals samePlane extraKw with
      | (.error e, h) => (.error e, l, h)
      | (.ok g, h) => buildGroups H grouped samePlane extraKw gs (l ++ [g]) h

/-- What a call of `create_groups` does.  orientation/grouped.py L35-71. -/
structure Outcome where
  /-- the returned list, or the exception -/
  result : Except PyErr (List ℕ)
  /-- the content of the caller's list afterwards -/
  callerList : List ℕ
  heap : Heap

/-- `create_groups(orientations, *groups, copy=.., same_plane=..)`, grouped.py
L35-71.  With `copy=False` the caller's list itself is extended (L69). -/
noncomputable def createGroups (H : HashFn) (h : Heap) (l : List ℕ) (groups : List (List String))
    (copy : Bool := true) (samePlane extraKw : Bool := false) : Outcome :=
  let c := if copy then copyAll l h else (l, h)
  let r := resetMembership c.1 c.2
  let b := buildGroups H r.1 samePlane extraKw groups c.1 r.2
  { result := match b.1 with
      | .error e => .error e
      | .ok () => .ok b.2.1
    callerList := if copy then l else b.2.1
    heap := b.2.2 }

/-- `disable_orientations(orientations, *to_disable)`, grouped.py L73-81. -/
def disableOrientations : List ℕ → List String → Heap → Except PyErr Unit × Heap
  | _, [], h => (.ok (), h)
  | l, u :: us, h =>
    match firstWith h u l with
    | .error e => (.error e, h)
    | .ok x => disableOrientations l us (h.set x { h.obj x with disabled := true })

/-- The `member_of` entry that `to_mapping` adds, pca.py L511-512: the uid of the
group, an exception when the group's hash cannot be computed, or nothing. -/
def mappingMemberOf (h : Heap) (a : ℕ) : Except PyErr (Option String) :=
  match (h.obj a).memberOf with
  | none => .ok none
  | some g =>
    match (h.obj g).uid with
    | none => .error .attributeError
    | some u => .ok (some u)

/-- One operation of a program that uses the module.  orientation/grouped.py L11-81. -/
inductive Op
  | measure (p : Points)
  | group (os : List ℕ) (samePlane extraKw : Bool)
  | create (l : List ℕ) (groups : List (List String)) (copy samePlane extraKw : Bool)
  | disable (l : List ℕ) (uids : List String)

/-- The heap after an operation, whether it raised or not.  orientation/grouped.py L11-81. -/
noncomputable def Op.exec (H : HashFn) (h : Heap) : Op → Heap
  | .measure p => (newMeasurement H h p).2
  | .group os sp ex => (newGroup H h os sp ex).2
  | .create l gs c sp ex => (createGroups H h l gs c sp ex).heap
  | .disable l us => (disableOrientations l us h).2

/-- An operation only mentions existing objects.  A condition on callers of
orientation/grouped.py L11-81. -/
def Op.Valid (h : Heap) : Op → Prop
  | .measure _ => True
  | .group os _ _ => ∀ o ∈ os, o < h.next
  | .create l _ _ _ _ => ∀ o ∈ l, o < h.next
  | .disable l _ => ∀ o ∈ l, o < h.next

/-- Heaps that some program can produce.  For callers of orientation/grouped.py L11-81. -/
inductive Reachable (H : HashFn) : Heap → Prop
  | empty : Reachable H ⟨0, fun _ => {}⟩
  | step {h : Heap} (op : Op) : Reachable H h → op.Valid h → Reachable H (op.exec H h)

end Attitude.Grouping
