import Verif.Model.Frontend

/-!
# Model of functions.ts, util.ts and reconstruct.ts

(`frontend/packages/attitude/src`).
-/

namespace Attitude.Frontend

open Attitude

/-- The JavaScript exceptions that occur.  For example at functions.ts L68-81, where a property
is missing. -/
inductive JsErr where
  | typeError
  | referenceError
  deriving DecidableEq

/-! ## reconstruct.ts -/

/-- `Orientation`, reconstruct.ts L4-10. -/
structure Orientation where
  strike : ℝ
  dip : ℝ
  rake : ℝ
  maxError : ℝ
  minError : ℝ

/-- `hyp` of `reconstructErrors`, reconstruct.ts L24-29.  The division by zero for an
error of zero is not modelled (it is zero here and infinite in the code). -/
noncomputable def reconstructedLengths (p : Orientation) : Vec 3 :=
  let e := fun d : ℝ => d / 2 * Real.pi / 180
  ![1 / Real.tan (e p.minError) ^ 2, 1 / Real.tan (e p.maxError) ^ 2, 1]

/-- `reconstructErrors`, reconstruct.ts L12-35.  The axes come from functions of
modules that are not part of the repository (`attitude/src/matrix`,
`attitude/src/versor`): `rot` is a parameter. -/
noncomputable def reconstructErrors (rot : Orientation → Mat 3 3) (p : Orientation) :
    Vec 3 × Mat 3 3 :=
  (reconstructedLengths p, rot p)

/-! ## functions.ts -/

/-- `createErrorSurface`, functions.ts L24-46: the coordinates of the polygon, and the
object `d` afterwards, whose arrays are reversed in place (the coordinates are these
arrays, not copies).  `contains` is d3's `geoContains` for polygons.  An empty nominal
curve makes `geoContains` read a property of `undefined`. -/
def errorSurface {α : Type} (contains : List (List α) → α → Bool) (d : Combined α) :
    Except JsErr (List (List α) × Combined α) :=
  match d.nominal with
  | [] => .error .typeError
  | p :: _ =>
    let d := { d with upper := d.upper.reverse }
    let e := [d.lower, d.upper]
    if contains e p then .ok (e, d)
    else
      let d := { d with lower := d.lower.reverse, upper := d.upper.reverse }
      .ok ([d.lower, d.upper], d)

/-- `flipAxesIfNeeded`, functions.ts L56-61 (in place). -/
noncomputable def flipAxes (axes : Mat 3 3) : Mat 3 3 :=
  if axes 2 2 < 0 then Matrix.of ![axes 0, axes 1, fun j => -axes 2 j] else axes

/-- The properties that `constructAxes` reads; `none` is a missing one.  A strike is
taken to come with the other four numbers.  functions.ts L68-81. -/
structure PlaneProps where
  hyperbolicAxes : Option (Vec 3) := none
  axes : Option (Mat 3 3) := none
  covariance : Option (Vec 3) := none
  orientation : Option Orientation := none

/-- `constructAxes`, functions.ts L68-81: lengths (may be missing) and axes, and the
properties afterwards (their axes are flipped in place). -/
noncomputable def constructAxes (rot : Orientation → Mat 3 3) (p : PlaneProps) :
    Except JsErr ((Option (Vec 3) × Mat 3 3) × PlaneProps) :=
  let hyp := p.hyperbolicAxes.orElse fun _ => p.covariance
  match hyp, p.orientation with
  | none, some q =>
      let (h, a) := reconstructErrors rot q
      .ok ((some h, flipAxes a), p)
  | hyp, _ =>
      match p.axes with
      | none => .error .typeError
      | some a => .ok ((hyp, flipAxes a), { p with axes := some (flipAxes a) })

/-- What `createGroupedPlane` draws, functions.ts L83-107: the error polygon, whether
it is "unconstrained", the nominal line if wanted; and the properties and options
afterwards. -/
noncomputable def groupedPlane (rot : Orientation → Mat 3 3)
    (contains : List (List (Option (ℝ × ℝ))) → Option (ℝ × ℝ) → Bool) (wantNominal : Bool)
    (p : PlaneProps) (o : Opts) :
    Except JsErr ((List (List (Option (ℝ × ℝ))) × Bool × Option (List (Option (ℝ × ℝ)))) ×
      PlaneProps × Opts) := do
  let ((hyp, axes), p) ← constructAxes rot p
  match hyp with
  | none => .error .typeError
  | some h =>
    let (e, o) := combinedErrors h (some axes) o
    let (s, e) ← errorSurface contains e
    .ok ((s, decide (h 2 > h 1), if wantNominal then some e.nominal else none), p, o)

/-- One polygon of `__createErrorEllipse`, functions.ts L119-139: the ring and its
area.  `area` is d3's `geoArea` of the polygon with one ring. -/
noncomputable def windEllipse {α : Type} (area : List α → ℝ) (errors : List α) : List α × ℝ :=
  let a := area errors
  if a > 2 * Real.pi then (errors.reverse, area errors.reverse) else (errors, a)

/-- The function returned by `__createErrorEllipse`, functions.ts L113-147: the two
polygons with the properties of the first, and the options afterwards.  `none` where
`normalErrors` is not modelled. -/
noncomputable def errorEllipse (rot : Orientation → Mat 3 3)
    (area : List (Option (ℝ × ℝ)) → ℝ) (o : Opts) (p : PlaneProps) :
    Except JsErr (Option ((List (List (Option (ℝ × ℝ))) × ℝ × Option ℝ) × Opts)) := do
  let ((hyp, axes), _) ← constructAxes rot p
  match hyp with
  | none => .error .typeError
  | some h => .ok (do
      let (c, o) ← normalErrors h (some axes) { o with sheet := some "upper" }
      let u := windEllipse area c
      let level := o.level
      let (c, o) ← normalErrors h (some axes) { o with sheet := some "lower" }
      let l := windEllipse area c
      some (([u.1, l.1], u.2, level), o))

/-! ## util.ts -/

/-- `cloneOptions`, util.ts L11-17: objects are association lists, `truthy` is
JavaScript's truth value. -/
def cloneOptions {V : Type} (truthy : V → Bool) (obj newProps : List (String × V)) :
    List (String × V) :=
  obj.map fun kv =>
    (kv.1, match newProps.lookup kv.1 with
      | none => kv.2
      | some w => if truthy w then w else kv.2)

/-- A value of the `level` option.  functions.ts L149-170. -/
inductive Level where
  | num (x : ℝ)
  | arr (l : List ℝ)

/-- Truth of a level: arrays are true, numbers if not zero.  For the tests of the option in
math.ts L103-115 and L164-169. -/
noncomputable def Level.truthy : Level → Bool
  | .num x => decide (x ≠ 0)
  | .arr _ => true

/-- The levels of the functions returned by `createErrorEllipse`, functions.ts
L149-170: one for every level of an array (`.inl`), otherwise a single one.  Only
the level of the options is followed. -/
noncomputable def ellipseLevels (level : Option Level) : List Level ⊕ Level :=
  let level := level.getD (.num 1)
  let fnAtLevel := fun l : Level =>
    ((cloneOptions Level.truthy [("level", level)] [("level", l)]).lookup "level").getD level
  match level with
  | .arr ls => .inl (ls.map fun l => fnAtLevel (.num l))
  | .num x => .inr (fnAtLevel (.num x))

/-- The part of a `PlaneData` that the centroids use: center and, if known, number
of points.  util.ts L19-57. -/
structure PlaneCenter where
  center : Vec 3
  length : Option ℕ

/-- `computeCentroidAverage`, util.ts L19-38: the final line uses the name `d3`, which
util.ts does not define (it imports only `sum`). -/
def centroidAverage (_planes : List PlaneCenter) : Except JsErr (Vec 3) := .error .referenceError

/-- The loop of `computeCentroidExtrema` for one coordinate, util.ts L42-55. -/
noncomputable def extrema (ext : Option (ℝ × ℝ)) (c : ℝ) : Option (ℝ × ℝ) :=
  let (mn, mx) := ext.getD (c, c)
  some (if c < mn then c else mn, if c > mx then c else mx)

/-- `computeCentroidExtrema`, util.ts L40-57: without planes `null` is
destructured. -/
noncomputable def centroidExtrema (planes : List PlaneCenter) : Except JsErr (Vec 3) :=
  let ext := fun i : Fin 3 => planes.foldl (fun e p => extrema e (p.center i)) none
  match ext 0, ext 1, ext 2 with
  | some a, some b, some c => .ok ![(a.1 + a.2) / 2, (b.1 + b.2) / 2, (c.1 + c.2) / 2]
  | _, _, _ => .error .typeError

end Attitude.Frontend
