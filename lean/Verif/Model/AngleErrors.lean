import Verif.Model.Linear

/-!
# Model of the uncertainties that go with strike and dip of a `LinearOrientation`
-/

namespace Attitude.AngleErrors

open Attitude Linear

/-- `BaseOrientation.errors`, orientation/base.py L48-49: the first two standard errors, as
degrees. -/
noncomputable def errors (o : LinearOrientation) : ℝ × ℝ :=
  (degrees (orientationErrors o 0), degrees (orientationErrors o 1))

/-- `LinearOrientation.strike_dip(uncertainties=True)`, orientation/linear/__init__.py L27-31. -/
noncomputable def strikeDipErrors (o : LinearOrientation) : (ℝ × ℝ) × (ℝ × ℝ) :=
  ((degrees o.azimuth, degrees o.slope), errors o)

/-- `dip_direction(uncertainties=True)`, orientation/base.py L38-43, which adds 90 degrees to the
first number of `strike_dip()`. -/
noncomputable def dipDirectionErrors (o : LinearOrientation) : (ℝ × ℝ) × (ℝ × ℝ) :=
  (((strikeDip o).1 + 90, (strikeDip o).2), errors o)

end Attitude.AngleErrors
