import Verif.Model.ErrorAxes
import Verif.Model.Stereonet

/-!
# Model of `pca_to_mapping` in `attitude/error/__init__.py` and of `error_asymptotes` in
`attitude/display/plot/__init__.py`
-/

namespace Attitude.ErrorMapping

open Attitude ErrorAxes

/-- The dictionary that `pca_to_mapping` returns; `covariance` is `none` where the list has
`nan` or `inf`.  error/__init__.py L23-35. -/
structure PcaMapping (V : Type) where
  axes : Mat 3 3
  covariance : Option (Vec 3)
  extra : List (String × V)

/-- `pca_to_mapping`, error/__init__.py L23-35.  `method` is taken out of the keyword
arguments (L31), the others are `extra`; one that is called `axes` or `covariance` is given
twice to `dict`, which raises `TypeError`, after `method` was called. -/
noncomputable def pcaToMapping (Q : Quantiles) {V : Type} {n : ℕ} (pca : Pca.Fit n)
    (method : Option (FitData → Res (Vec 3)) := none) (extra : List (String × V) := []) :
    Except PyErr (PcaMapping V) := do
  let m := method.getD fun fit => samplingAxes Q fit {}
  let covariance ← m (ofFit Q pca)
  if extra.any (fun e => e.1 == "axes" || e.1 == "covariance") then .error .typeError
  else .ok { axes := pca.V, covariance, extra }

/-- The method `plane_errors(self, **kwargs)`, pca.py L457-458, called with positional
arguments and keyword arguments: it accepts no positional ones. -/
noncomputable def planeErrorsMethod (axes cov : Mat 3 3) (positional : List String)
    (sheet : Option String) (o : Stereonet.Options) : Except PyErr Stereonet.Curve :=
  if positional ≠ [] then .error .typeError
  else Stereonet.planeErrors axes cov (sheet.getD "upper") o

/-- `error_asymptotes`, plot/__init__.py L150-163: the curves that are drawn.  Each result is
unpacked into two values, but is a list with one entry per angle. -/
noncomputable def errorAsymptotes (axes cov : Mat 3 3) : Except PyErr (List Stereonet.Curve) := do
  let upper ← planeErrorsMethod axes cov ["upper"] none { n := some 1000 }
  if upper.length ≠ 2 then .error .valueError
  else
    let lower ← planeErrorsMethod axes cov ["lower"] none { n := some 1000 }
    if lower.length ≠ 2 then .error .valueError
    else .ok [upper, lower]

end Attitude.ErrorMapping
