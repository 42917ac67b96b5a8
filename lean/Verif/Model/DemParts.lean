import Verif.Model.Dem

/-!
# Extraction of several lines at once

Models `coords_array` and `extract_line` of `attitude/helpers/dem.py` for geometries
with several parts.
-/

namespace Attitude.Dem

open Attitude

/-- `coords_array`, dem.py L52-57.  A geometry with several parts has no `coords`
(`NotImplementedError`), so those of the parts are stacked; `N.vstack` of no arrays
raises `ValueError`. -/
def coordsArray : Geometry → Except PyErr (List (ℝ × ℝ))
  | .point p => .ok [p]
  | .lineString l => .ok l
  | .multiLineString [] => .error .valueError
  | .multiLineString ls => .ok ls.flatten

/-- `extract_line`, dem.py L59-103, for a `MultiLineString` with the parts `parts`
(third coordinate `none` for two-dimensional parts; parts of different dimension are
not modelled).  `transform` and `interpolate` go through the parts; `subdivide` is
taken to do so as well. -/
noncomputable def extractLines (subdivide : List (ℝ × ℝ) → List (ℝ × ℝ)) (dem : Raster) (T : Affine)
    (parts : List (List (ℝ × ℝ × Option ℝ))) : Except PyErr (List (ℝ × ℝ × Option ℝ)) := do
  let _coordsIn ← coordsArray (.multiLineString (parts.map fun g => g.map fun p => (p.1, p.2.1)))
  let I ← T.inv
  if parts.any (fun g => g.any fun p => p.2.2.isSome) then .error .typeError
  else
    let px := parts.map fun g => subdivide (g.map fun p => I.app (p.1, p.2.1))
    let coordsPx ← coordsArray (.multiLineString px)
    match coordsPx with
    | [] => .error .valueError
    | p :: l =>
        let w := lineWindow p l
        let band := dem.read w
        let shift := Affine.translation (-(w.2.1 : ℝ)) (-(w.1.1 : ℝ))
        let extracted ← interpolate band (.multiLineString (px.map fun g => g.map shift.app))
        let geom ← coordsArray (.multiLineString (px.map fun g => g.map T.app))
        .ok (List.zipWith (fun e g => (g.1, g.2, e.2.2)) extracted.flatten geom)

end Attitude.Dem
