import Verif.Model.ErrorAxes
import Mathlib.Analysis.SpecialFunctions.Trigonometric.Inverse

/-!
# Model of `PCAOrientation.angular_error` and of `distance_from_group`,
`attitude/orientation/pca.py` and `attitude/__dustbin/__report/__init__.py`
-/

namespace Attitude.GroupDistance

open Attitude ErrorAxes

/-- `PCAOrientation.angular_error`, pca.py L288-295, in radians; `m` is the result of `self.method(self)`. -/
noncomputable def angularError (m : Res (Vec 3)) (len : ℝ) : Res ℝ :=
  m.map fun o => o.map fun h => axisAngularError h len

/-- What `distance_from_group` reads from a fit: `axes`, `singular_values` and, in `angular_error`, the hyperbolic
axes, here finite.  __dustbin/__report/__init__.py L14-31. -/
structure Component where
  axes : Mat 3 3
  s : Vec 3
  hyp : Vec 3

/-- `fv`, `v1` and `l` for one of the two fits, __dustbin/__report/__init__.py L21-23 and L26-28; `none` if the
vector has no direction. -/
noncomputable def inPlaneLength (inplane : Vec 3) (c : Component) : Option ℝ :=
  let fv := cross inplane (c.axes 2)
  (vdivOpt fv (norm fv)).map fun v => vdot v (c.axes 0) * c.s 0

/-- `mean` in radians, __dustbin/__report/__init__.py L16-17.  An argument of `arccos` above one, which rounding
errors can give, is not modelled. -/
noncomputable def meanAngle (f p : Component) : ℝ := Real.arccos |vdot (f.axes 2) (p.axes 2)|

/-- `std` in radians, __dustbin/__report/__init__.py L20-30. -/
noncomputable def stdAngle (f p : Component) : Option ℝ :=
  let inplane := cross (f.axes 2) (p.axes 2)
  (inPlaneLength inplane f).bind fun l₁ => (inPlaneLength inplane p).map fun l₂ =>
    axisAngularError f.hyp l₁ + axisAngularError p.hyp l₂

/-- What `distance_from_group` yields for each fit, __dustbin/__report/__init__.py L14-31: two angles in degrees
and their ratio. -/
noncomputable def distanceFromGroup (components : List Component) (p : Component) :
    List (ℝ × Option ℝ × Option ℝ) :=
  components.map fun f => (degrees (meanAngle f p), (stdAngle f p).map degrees,
    (stdAngle f p).bind fun std => fdiv (meanAngle f p) std)

end Attitude.GroupDistance
