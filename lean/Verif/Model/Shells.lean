import Verif.Model.Display

/-!
# Error shells of reconstructed planes

attitude/orientation/reconstructed.py L9-37 (`ErrorShell`), display/stereonet.py L55-61 and
display/polar.py L61-63 (`uncertain_pole`).

Not modelled: the conversion of the rings to `shapely` polygons and `cartopy` features
(reconstructed.py L25-27 and L35-37), whose vertices are the rings given here; keyword
arguments of the two methods, which are not read; planes with other than two angular errors.
-/

namespace Attitude.Shells

open Attitude Matrix Stereonet

/-- `ErrorShell`, reconstructed.py L9-15. -/
structure ErrorShell where
  axes : Mat 3 3
  covariance : Mat 3 3

/-- The attributes of a `ReconstructedPlane` read by `ErrorShell`, reconstructed.py L82 and
L88-90: `covariance_matrix` is `N.diag(self.hyperbolic_axes)`.  `none` when an axis is
infinite or the plane does not have two angular errors. -/
noncomputable def ofPlane (p : Reconstructed.Plane) : Option ErrorShell :=
  match p.hyperbolicAxes with
  | some [a, b, c] => some { axes := p.axes, covariance := Matrix.diagonal ![a, b, c] }
  | _ => none

/-- `ErrorShell.cartopy_girdle`, reconstructed.py L17-27: exterior ring and hole of the
polygon, in degrees. -/
noncomputable def ErrorShell.cartopyGirdle (e : ErrorShell) : Except PyErr (Curve × Curve) := do
  let up ← planeErrors e.axes e.covariance "upper" { traditional := false }
  let low ← planeErrors e.axes e.covariance "lower" { traditional := false }
  .ok (curveDegrees up, curveDegrees low)

/-- `ErrorShell.cartopy_normal`, reconstructed.py L29-37: ring of the polygon, in degrees,
and the shell afterwards (`normal_errors` changes the axes in place, stereonet.py L51-52). -/
noncomputable def ErrorShell.cartopyNormal (e : ErrorShell) : Except PyErr (Curve × ErrorShell) := do
  let (c, axes') ← normalErrors e.axes e.covariance { traditional := false }
  .ok (curveDegrees c, { e with axes := axes' })

/-- The vertices drawn by `uncertain_pole`, display/stereonet.py L55-61. -/
noncomputable def uncertainPole (strike dip rake e₁ e₂ : ℝ) :
    Option (Except PyErr (Curve × Mat 3 3)) := do
  let fit ← Reconstructed.reconstruct strike dip rake [e₁, e₂]
  let shell ← ofPlane fit
  some (poleVertices shell.axes shell.covariance)

/-- The vertices drawn by `uncertain_pole`, display/polar.py L61-63. -/
noncomputable def polarUncertainPole (strike dip rake e₁ e₂ : ℝ) : Option (Curve × Mat 3 3) := do
  let fit ← Reconstructed.reconstruct strike dip rake [e₁, e₂]
  let shell ← ofPlane fit
  some (Display.polarPoleError shell.axes shell.covariance)

end Attitude.Shells
