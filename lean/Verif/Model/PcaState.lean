import Verif.Model.Pca

/-!
# Queries on a `PCAOrientation` object as state transitions

Several functions flip the object's axes in place (`axes *= -1`) when the third
axis points down.  `axes` and `V` are one array, and `normal` may be a view of
its last row, so the flip is visible through all of them.
-/

namespace Attitude.Pca

open Attitude

/-- `axes *= -1` on the array shared by `axes`, `V` and possibly `normal`.  orientation/pca.py
L405, stereonet.py L52 and L132, display/polar.py L30. -/
def negateAxes {n : ℕ} (f : Fit n) : Fit n :=
  { f with
    V := -f.V
    normal := if f.normalIsView then -f.normal else f.normal }

/-- The conditional flip in `as_conic` (pca.py L404-405), `normal_errors`
(stereonet.py L51-52), `iterative_normal_errors` (stereonet.py L131-132) and
`pole_error` (display/polar.py L29-30). -/
noncomputable def flipDown {n : ℕ} (f : Fit n) : Fit n :=
  if f.V 2 2 < 0 then negateAxes f else f

/-- The queries a caller can make on a fit.  orientation/pca.py L240-514. -/
inductive Query
  /-- `as_conic`, pca.py L402-420; also run by `_ellipse` and `error_ellipse`
  (L439-477) -/
  | asConic
  | errorEllipse
  /-- `stereonet.normal_errors(fit.axes, ...)`, stereonet.py L42-70 -/
  | normalErrors
  /-- `stereonet.iterative_normal_errors(fit.axes, ...)`, stereonet.py L120-161 -/
  | iterativeNormalErrors
  /-- `display.polar.pole_error(ax, fit)`, display/polar.py L19-59 -/
  | poleError
  /-- the `U` property, pca.py L239-247 -/
  | readU
  /-- `plane_errors`, `error_coords`, pca.py L457-461: no update -/
  | planeErrors
  /-- `strike_dip`, `rake`, `residuals`, `rotated`, `eigenvalues`,
  `angular_errors`, `hash`, `to_mapping`: no update -/
  | readOnly
  deriving DecidableEq

/-- Effect of one query on the object.  orientation/pca.py L240-514. -/
noncomputable def step {n : ℕ} (f : Fit n) : Query → Fit n
  | .asConic => flipDown f
  | .errorEllipse => flipDown f
  | .normalErrors => flipDown f
  | .iterativeNormalErrors => flipDown f
  | .poleError => flipDown f
  | .readU => (getU f).2
  | .planeErrors => f
  | .readOnly => f

/-- Effect of a sequence of queries.  For callers of orientation/pca.py L240-514. -/
noncomputable def run {n : ℕ} (f : Fit n) (qs : List Query) : Fit n := qs.foldl step f

end Attitude.Pca
