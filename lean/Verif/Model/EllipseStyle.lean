import Verif.Model.StoredSheet
import Verif.Model.SheetPlot

/-!
# Model of the styles of ellipses in the clipped plot (`frontend/packages/plots/src/vertical.ts`)
-/

namespace Attitude.Webapp

open Attitude.Frontend (JsErr)

/-- What `translucentEllipseStyle` reads of a datum: vertical.ts L11, L22 and L27.  `none` is missing or
`null`; the values are numbers, a text for the color and a Boolean for `in_group`. -/
structure StyleData where
  max_angular_error : Option ℝ := none
  maxError : Option ℝ := none
  color : Option Value := none
  in_group : Bool := false

/-- The attributes it sets, vertical.ts L23-29: `fill` is `none` for "transparent", otherwise a color and its
alpha; `dashed` if there is a `stroke-dasharray`. -/
structure EllipseStyle (C : Type) where
  fill : Option (C × ℝ)
  stroke : C × ℝ
  dashed : Bool

/-- `chroma(d.color ?? "#aaaaaa")`, vertical.ts L22; a text that chroma does not know is an error
(an `Error`, here not distinguished from a `TypeError`). -/
def styleColor (ch : Chroma) (d : StyleData) : Except JsErr ch.Color :=
  match ch.parse (d.color.getD (.str "#aaaaaa".toList)) with
  | some c => .ok c
  | none => .error .typeError

/-- `translucentEllipseStyle`, vertical.ts L7-30. -/
noncomputable def translucentEllipseStyle (ch : Chroma) (d : StyleData) :
    Except JsErr (EllipseStyle ch.Color) := do
  let maxError := d.max_angular_error <|> d.maxError
  let color ← styleColor ch d
  let fill := some (color, ellipseAlpha 1 maxError)
  let stroke := (color, ellipseAlpha 2 maxError)
  if d.in_group then .ok ⟨none, stroke, true⟩ else .ok ⟨fill, stroke, false⟩

/-- What `buildPlot` has drawn, vertical.ts L32-56: for each ellipse its style if it has been set, whether the
labels were added (L52) and the paths computed (L53), and the exception with which it ends. -/
structure ClippedPlot (C : Type) where
  styles : List (Option (EllipseStyle C))
  labels : Bool
  paths : Bool
  error : Option JsErr

/-- `each(translucentEllipseStyle)`, vertical.ts L49: the styles up to the first exception. -/
noncomputable def eachStyle (ch : Chroma) : List StyleData → List (Option (EllipseStyle ch.Color)) × Option JsErr
  | [] => ([], none)
  | d :: ds => match translucentEllipseStyle ch d with
    | .ok s => let r := eachStyle ch ds; (some s :: r.1, r.2)
    | .error e => (none :: ds.map fun _ => none, some e)

/-- `buildPlot` with respect to styles, vertical.ts L32-56, for data of which all ellipses can be made. -/
noncomputable def buildPlot (ch : Chroma) (data : List StyleData) : ClippedPlot ch.Color :=
  match eachStyle ch data with
  | (styles, none) => ⟨styles, true, true, none⟩
  | (styles, some e) => ⟨styles, false, false, some e⟩

/-- An element of `cleanedData` (app.ts L138-140) as read by `translucentEllipseStyle`, vertical.ts L11, L22
and L27: there is no `max_angular_error` and no `in_group`. -/
noncomputable def toStyle (o : List (String × Out)) : StyleData :=
  { maxError := (number? o "maxError").map fun (x : ℚ) => (x : ℝ)
    color := match o.lookup "color" with
      | some (.color .null) => none
      | some (.color v) => some v
      | _ => none }

end Attitude.Webapp
