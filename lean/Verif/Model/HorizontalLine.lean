import Verif.Model.FrontendStereonet

/-!
# Model of the line of horizontal directions on the stereonet
-/

namespace Attitude.HorizontalLine

open Attitude Frontend

/-- `__horizontalLine`, stereonet/labels.ts L26-38: the coordinates of the line. -/
def horizontalLine : List (ℝ × ℝ) := [(180, 0), (-90, 0), (0, 0), (90, 0), (180, 0)]

/-- The parts of a line between one position and the next.  External (d3's `geoStream` of a
`LineString`); used for the path at stereonet/labels.ts L40-48. -/
def edges (l : List (ℝ × ℝ)) : List ((ℝ × ℝ) × (ℝ × ℝ)) := l.zip l.tail

/-- The directions on the shorter great arc between two positions.  External (d3 draws lines along
great arcs); used for the path at stereonet/labels.ts L40-48.  For positions that are not opposite
to each other. -/
def arc (p q : ℝ × ℝ) : Set (Vec 3) :=
  {x | Attitude.norm x = 1 ∧
    ∃ s t : ℝ, 0 ≤ s ∧ 0 ≤ t ∧ x = s • geoDirection p + t • geoDirection q}

/-- The directions that the path of a line goes through, before rotation and clipping.  The path of
stereonet/labels.ts L40-48. -/
def linePoints (l : List (ℝ × ℝ)) : Set (Vec 3) := {x | ∃ e ∈ edges l, x ∈ arc e.1 e.2}

end Attitude.HorizontalLine
