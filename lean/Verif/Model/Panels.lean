import Mathlib.Algebra.Order.Floor.Ring
import Mathlib.Algebra.Order.Archimedean.Real.Basic
import Verif.Model.FrontendStereonet

/-!
# Model of the data panel of the notebook interface and of the labels at the edge of plots

`frontend/packages/notebook-ui/src/components/data-panel.ts`, `getIntersections` of
`frontend/packages/plots/src/graticule-labels.ts`, the graticule of
`frontend/packages/attitude/src/stereonet/index.ts` and
`frontend/packages/attitude/src/stereonet/horizontal.ts`.
-/

namespace Attitude.Panels

open Attitude Frontend

/-! ## data-panel.ts -/

/-- A property of a measurement: missing, `null`, `NaN` or a number.  Read at
components/data-panel.ts L15 and L57. -/
inductive JsVal where
  | undefined
  | null
  | nan
  | num (x : ℝ)

/-- JavaScript's `toFixed(1)` of a number that is not negative, in tenths: the closest one, the
larger if there are two.  External; used by `fmt`, components/data-panel.ts L11. -/
noncomputable def tenths (x : ℝ) : ℕ := ⌊x * 10 + 1 / 2⌋₊

/-- The text of `fmt`, data-panel.ts L11, as a number of tenths; `none` is "NaN".  d3's format
converts its argument to a number, writes the absolute value with `toFixed(1)` and puts the sign
in front (unless the digits are zero).  The width of 3 never needs padding. -/
noncomputable def fmt : JsVal → Option ℤ
  | .num x => some (if x < 0 then -(tenths |x| : ℤ) else (tenths |x| : ℤ))
  | .nan => none
  | _ => some 0

/-- `AngularMeasurement.render`, data-panel.ts L14-20: `undefined` and `null` become the empty
string, which as a number is zero. -/
noncomputable def angularMeasurement (datum : JsVal) : Option ℤ :=
  match datum with
  | .undefined => fmt (.num 0)
  | .null => fmt (.num 0)
  | d => fmt d

/-- `v < 0.01`.  components/data-panel.ts L58. -/
def JsVal.small : JsVal → Prop
  | .undefined => False
  | .null => True
  | .nan => False
  | .num x => x < 1 / 100

/-- What the panel reads from a measurement.  components/data-panel.ts L34 and L57. -/
structure Measurement where
  uid : String
  members : Option (List String) := none
  strike : JsVal
  dip : JsVal
  minError : JsVal
  maxError : JsVal

/-- What the panel shows.  `errors` is `none` for "No errors recorded".  components/data-panel.ts
L27-30 and L43-65. -/
inductive Panel where
  | prompt
  | plane (uid : String) (groupOf : Option ℕ) (strike dip : Option ℤ)
      (errors : Option (Option ℤ × Option ℤ))

open Classical in
/-- `angularErrors`, data-panel.ts L56-65. -/
noncomputable def angularErrors (a : Measurement) : Option (Option ℤ × Option ℤ) :=
  if a.minError.small ∧ a.maxError.small then none
  else some (angularMeasurement a.minError, angularMeasurement a.maxError)

/-- `DataPanelComponent.render`, data-panel.ts L24-54.  The argument is `hovered` of the page
(index.ts L98): nothing, or an array whose members can be `undefined`. -/
noncomputable def render : Option (List (Option Measurement)) → Except JsErr Panel
  | none => .ok .prompt
  | some [] => .ok .prompt
  | some (none :: _) => .error .typeError
  | some (some a :: _) =>
    let members := a.members.getD []
    .ok (.plane a.uid (if members.length > 0 then some members.length else none)
      (angularMeasurement a.strike) (angularMeasurement a.dip) (angularErrors a))

/-! ## The graticule -/

/-- d3's `range(start, stop, step)`.  External; used by the graticule of stereonet/index.ts
L346-361. -/
noncomputable def range (start stop step : ℝ) : List ℝ :=
  (List.range ⌈(stop - start) / step⌉₊).map fun i : ℕ => start + (i : ℝ) * step

/-- JavaScript's `x % m`.  External; used by the graticule of stereonet/index.ts L346-361. -/
noncomputable def jsRem (x m : ℝ) : ℝ :=
  x - m * (if 0 ≤ x / m then (⌊x / m⌋ : ℝ) else (⌈x / m⌉ : ℝ))

/-- A line of d3's `geoGraticule` along a meridian: vertices every 90 degrees and the end.
External; used by stereonet/index.ts L346-361. -/
noncomputable def meridian (y0 y1 x : ℝ) : List (ℝ × ℝ) :=
  (range y0 (y1 - 1 / 1000000) 90 ++ [y1]).map fun y => (x, y)

/-- A line of d3's `geoGraticule` along a parallel: vertices every 2.5 degrees and the end.
External; used by stereonet/index.ts L346-361. -/
noncomputable def parallel (x0 x1 y : ℝ) : List (ℝ × ℝ) :=
  (range x0 (x1 - 1 / 1000000) (5 / 2) ++ [x1]).map fun x => (x, y)

/-- The multiples of `step` from `x0` to before `x1`: `range(ceil(x0 / step) * step, x1, step)`.
External; used by the graticule of stereonet/index.ts L346-361. -/
noncomputable def multiples (x0 x1 step : ℝ) : List ℝ := range (⌈x0 / step⌉ * step) x1 step

open Classical in
/-- The coordinates of the graticule set by `graticule(lon, lat)`, stereonet/index.ts L346-361,
as d3's `geoGraticule` makes them. -/
noncomputable def graticule (lon lat : ℝ) : List (List (ℝ × ℝ)) :=
  let s : ℝ := 1 / 100000
  (multiples (-180) 180 90).map (meridian (-90 + s) (90 - s)) ++
  ((multiples (-90 + s) (90 - s) lat).map (parallel (-180) 180) ++
  ((((multiples (-180) 180 lon).filter fun x => |jsRem x 90| > 1 / 1000000).map
    (meridian (-90 + lat - s) (90 - lat + s))) ++
  (((multiples (-90 + lat - s) (90 - lat + s) lat).filter fun y => |jsRem y lat| > 1 / 1000000).map
    (parallel (-180) 180))))

/-! ## graticule-labels.ts -/

/-- The property `type`, graticule-labels.ts L27 and L129-141. -/
inductive Kind where
  | lon
  | lat

/-- `d[ix]`, graticule-labels.ts L6. -/
def Kind.get : Kind → ℝ × ℝ → ℝ
  | .lon => Prod.fst
  | .lat => Prod.snd

open Classical in
/-- The filter of graticule-labels.ts L65; a line with a single vertex would be an error. -/
noncomputable def selected (k : Kind) (lines : List (List (ℝ × ℝ))) :
    Except JsErr (List (ℝ × List (ℝ × ℝ))) :=
  lines.foldr (fun l acc => do
    let rest ← acc
    match l with
    | p :: q :: _ => .ok (if k.get p = k.get q then (k.get p, l) :: rest else rest)
    | _ => .error .typeError) (.ok [])

/-- `getIntersections`, graticule-labels.ts L60-85: the labels, each a point and its value.
`path` projects a line; it is `none` for lines that are not visible, for which `parseData`
throws.  `intersect` gives the intersections with the line along which labels are set (the
libraries d3 and kld-intersections). -/
noncomputable def intersections {P : Type} (path : List (ℝ × ℝ) → Option P)
    (intersect : P → List (ℝ × ℝ)) (k : Kind) (lines : List (List (ℝ × ℝ))) :
    Except JsErr (List ((ℝ × ℝ) × ℝ)) := do
  let values ← selected k lines
  .ok (values.flatMap fun v => match path v.2 with
    | none => []
    | some p => (intersect p).map fun pt => (pt, v.1))

/-! ## horizontal.ts -/

/-- Where `horizontal` puts its texts, horizontal.ts L41-86, without the offsets `dx` and `dy` of
a few pixels. -/
noncomputable def horizontalTexts (size margin : ℝ) : List (String × (ℝ × ℝ)) :=
  [("E", (margin + (size - 2 * margin), size / 2)), ("W", (margin, size / 2)),
    ("Vertical", (size / 2, margin))]

end Attitude.Panels
