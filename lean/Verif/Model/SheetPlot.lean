import Verif.Model.Versor
import Verif.Model.Webapp
import Verif.Model.FrontendStereonet

/-!
# From rows of the spreadsheet to shapes on the stereonet

The data of the web application (app.ts L138-140) are the properties that functions.ts
reads: `PlotTabs` (app.ts L98-130) passes them on, and the shapes are made by
`createGroupedPlane` and `createErrorEllipse` of functions.ts.
-/

namespace Attitude.Webapp

open Attitude

/-- A number of an orientation as destructured in reconstruct.ts L16; `none` if it is missing or a colour. -/
def number? (o : List (String × Out)) (key : String) : Option ℚ :=
  match o.lookup key with
  | some (.number x) => some x
  | _ => none

/-- An element of `cleanedData` as read by `reconstructErrors`, reconstruct.ts L16.  `none` if
one of the five numbers is missing. -/
noncomputable def toOrientation (o : List (String × Out)) : Option Frontend.Orientation := do
  let strike ← number? o "strike"
  let dip ← number? o "dip"
  let rake ← number? o "rake"
  let maxError ← number? o "maxError"
  let minError ← number? o "minError"
  some ⟨strike, dip, rake, maxError, minError⟩

/-- An element of `cleanedData` as read by `constructAxes`, functions.ts L68-81: there are no
axes and no lengths. -/
noncomputable def toProps (o : List (String × Out)) : Frontend.PlaneProps :=
  { orientation := toOrientation o }

/-- The stereonet of `buildPlot`, plots/src/vertical.ts L32-41, after it has been drawn into an element, with
the defaults of L34.  Of the later calls (L46-52) `ellipses` is `ellipses` below; `vertical` adds labels and
`draw` repeats the paths. -/
noncomputable def clippedNet (clipAngle : ℝ) : Frontend.Net :=
  ({} : Frontend.Net).run [.margin 25, .clipAngle clipAngle, .size 400, .draw]

/-- The polygons that `drawEllipses` makes for its data in order, stereonet/index.ts L140-153.  One object
with the options is shared by all of them and changed by each.  `none` where `normalErrors` is not modelled;
the first error ends the loop. -/
noncomputable def ellipses (area : List (Option (ℝ × ℝ)) → ℝ) : Frontend.Opts → List Frontend.PlaneProps →
    Except Frontend.JsErr (Option (List (List (List (Option (ℝ × ℝ))))))
  | _, [] => .ok (some [])
  | o, p :: ps =>
    match Frontend.errorEllipse (Frontend.orientationAxes true) area o p with
    | .error e => .error e
    | .ok none => .ok none
    | .ok (some ((s, _, _), o')) =>
      match ellipses area o' ps with
      | .error e => .error e
      | .ok r => .ok (r.map fun r => s :: r)

end Attitude.Webapp
