import Verif.Model.Num

/-!
# Model of attribute lookup in the classes of orientations

Which attributes of `self` each method and property reads, with default arguments, and where they
are found.  The values are in the other models.
-/

namespace Attitude.Inherited

open Attitude

/-- Classes of orientation/base.py L30, pca.py L110, linear/__init__.py L14 and reconstructed.py L9
and L39. -/
inductive Cls
  | base
  | pca
  | linear
  | shell
  | recon
  deriving DecidableEq

/-- Names of attributes.  `dipDirectionErrors` and `strikeDipErrors` are `dip_direction` and
`strike_dip` called with `uncertainties=True`; `baseToMapping` is `super().to_mapping`, pca.py L514;
`statisticalAxes` stands for the call of `self.method`, error/axes.py L108-146; `private*` are the
names with two underscores of reconstructed.py L59-62.  Names that nothing here reads are left
out. -/
inductive Attr
  | disabled | dipDirection | dipDirectionErrors | gradient | errors | rotatedCovariance
  | standardErrors | ellipse | errorEllipse | principalAxes | hash | center | centeredArray
  | toMapping | baseToMapping
  | strikeDip | strikeDipErrors | strikeDipRake | angularErrors | axes | hyperbolicAxes | azimuth
  | slope | coefficients | covarianceMatrix | singularValues
  | covarianceOfType | sigma | n | rotated | arr | V | method | statisticalAxes | eigenvalues | mean
  | offset | dipDr | rake | rakeRadians | asConic | memberOf
  | fit | rotation
  | cartopyGirdle | cartopyNormal | privateStrike | privateDip | privateRake | privateErrors | normal
  deriving DecidableEq

/-- The order in which Python looks for a method.  orientation/base.py L30, pca.py L110,
linear/__init__.py L14, reconstructed.py L9 and L39. -/
def mro : Cls → List Cls
  | .base => [.base]
  | .pca => [.pca, .base]
  | .linear => [.linear, .base]
  | .shell => [.shell]
  | .recon => [.recon, .shell, .base]

/-- Attributes that `__init__` sets: pca.py L151-172 and L195-232, linear/__init__.py L15-25,
reconstructed.py L13-15 and L46-90. -/
def instanceAttrs : Cls → List Attr
  | .base => []
  | .pca => [.memberOf, .disabled, .method, .mean, .arr, .n, .singularValues, .V, .axes, .sigma,
      .offset, .normal, .dipDr]
  | .linear => [.fit, .azimuth, .rotation, .coefficients, .slope, .covarianceMatrix]
  | .shell => [.axes, .covarianceMatrix]
  | .recon => [.privateStrike, .privateDip, .privateErrors, .privateRake, .normal, .axes,
      .hyperbolicAxes, .covarianceMatrix]

/-- What a method, property or class attribute of a class reads from `self`, in order; `none` if
the class does not define it.  base.py L36-129, pca.py L239-514, linear/__init__.py L27-31,
reconstructed.py L17-37 and L92-101.  `to_mapping` catches the error of `disabled` (base.py
L100-103), so it is not listed there. -/
def body : Cls → Attr → Option (List Attr)
  | .base, .disabled => some []
  | .base, .dipDirection => some [.strikeDip]
  | .base, .dipDirectionErrors => some [.strikeDip, .errors]
  | .base, .gradient => some [.azimuth, .slope]
  | .base, .errors => some [.standardErrors]
  | .base, .rotatedCovariance => some [.azimuth, .covarianceMatrix]
  | .base, .standardErrors => some [.rotatedCovariance]
  | .base, .ellipse => some [.coefficients, .covarianceMatrix]
  | .base, .errorEllipse => some [.ellipse, .azimuth]
  | .base, .principalAxes => some [.singularValues, .axes]
  | .base, .hash => some [.principalAxes]
  | .base, .center => some []
  | .base, .centeredArray => some []
  | .base, .toMapping => some [.strikeDipRake, .angularErrors, .hash, .axes, .hyperbolicAxes]
  | .base, .baseToMapping => some [.strikeDipRake, .angularErrors, .hash, .axes, .hyperbolicAxes]
  | .pca, .eigenvalues => some [.singularValues, .n]
  | .pca, .rotated => some [.arr, .V]
  | .pca, .center => some [.mean]
  | .pca, .centeredArray => some [.arr]
  | .pca, .statisticalAxes => some [.method, .eigenvalues, .n]
  | .pca, .hyperbolicAxes => some [.statisticalAxes]
  | .pca, .angularErrors => some [.statisticalAxes]
  | .pca, .covarianceOfType => some [.sigma, .rotated]
  | .pca, .covarianceMatrix => some [.covarianceOfType]
  | .pca, .coefficients => some [.axes]
  | .pca, .azimuth => some [.coefficients]
  | .pca, .slope => some [.coefficients]
  | .pca, .strikeDip => some [.axes]
  | .pca, .rakeRadians => some [.dipDr, .axes]
  | .pca, .rake => some [.rakeRadians]
  | .pca, .strikeDipRake => some [.strikeDip, .rake]
  | .pca, .asConic => some [.axes, .covarianceMatrix, .offset]
  | .pca, .ellipse => some [.asConic]
  | .pca, .errorEllipse => some [.ellipse]
  | .pca, .toMapping => some [.centeredArray, .center, .memberOf, .baseToMapping]
  | .linear, .strikeDip => some [.azimuth, .slope]
  | .linear, .strikeDipErrors => some [.azimuth, .slope, .errors]
  | .shell, .cartopyGirdle => some [.covarianceMatrix, .axes]
  | .shell, .cartopyNormal => some [.covarianceMatrix, .axes]
  | .recon, .strikeDipRake => some [.privateStrike, .privateDip, .privateRake]
  | .recon, .angularErrors => some [.privateErrors]
  | .recon, .hash => some [.hyperbolicAxes, .axes]
  | _, _ => none

/-- How the use of an attribute can fail: the attribute does not exist, or the recursion limit of
Python is reached.  External; for the attributes of orientation/base.py L30-129. -/
inductive Failure
  | attributeError (a : Attr)
  | recursionError
  deriving DecidableEq

/-- Where an attribute of an instance comes from: what the first class in the order says about it.
Python's attribute lookup (external), for orientation/base.py L30-129.  No name here is both set by
`__init__` and a property. -/
def find (c : Cls) (a : Attr) : Option (List Attr) :=
  if a ∈ instanceAttrs c then some [] else (mro c).findSome? fun k => body k a

/-- Read (and call, if it is a method) attributes of an instance one after the other, with a limit
for the depth.  Uses of orientation/base.py L30-129. -/
def uses (c : Cls) : ℕ → List Attr → Except Failure Unit
  | _, [] => .ok ()
  | 0, _ :: _ => .error .recursionError
  | k + 1, a :: as =>
    match find c a with
    | none => .error (.attributeError a)
    | some reads =>
      match uses c k reads with
      | .error e => .error e
      | .ok () => uses c (k + 1) as
termination_by k as => (k, as.length)

/-- Read, and call if it is a method, one attribute, orientation/base.py L30-129. -/
def use (c : Cls) (limit : ℕ) (a : Attr) : Except Failure Unit := uses c limit [a]

end Attitude.Inherited
