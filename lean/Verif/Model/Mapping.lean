import Verif.Model.Num

/-!
# Model of the `to_mapping` methods

base.py L91-119, pca.py L479-514 and grouped.py L29-32.  JSON values are an
abstract type `V`.
-/

namespace Attitude.Mapping

open Attitude

/-- A python `dict` with string keys.  For `values` and `mapping`, orientation/base.py L91-107
and orientation/pca.py L479-514. -/
abbrev Dict (V : Type) := String → Option V

/-- `d[k] = v`.  External; used at orientation/pca.py L512. -/
def put {V : Type} (d : Dict V) (k : String) (v : V) : Dict V := fun j => if j = k then some v else d j

/-- `d.setdefault(k, v)`.  External; used at orientation/pca.py L509-510. -/
def setDefault {V : Type} (d : Dict V) (k : String) (v : V) : Dict V :=
  fun j => if j = k then some ((d k).getD v) else d j

/-- The values that the methods compute from the fit.  orientation/base.py L96-107 and
orientation/pca.py L509-510. -/
structure Computed (V : Type) where
  uid : V
  axes : V
  hyperbolicAxes : V
  maxAngularError : V
  minAngularError : V
  strike : V
  dip : V
  rake : V
  disabled : V
  centeredArray : V
  center : V
  /-- python's `None` -/
  none : V
  /-- a string as a JSON value -/
  str : String → V
  /-- a list of strings as a JSON value -/
  strs : List String → V

/-- The object on which the method is called.
* `reconstructed k`: a `ReconstructedPlane` built with `k` angular errors;
* `pca m`: a `PCAOrientation`; `m` is `none` for `member_of = None`, otherwise the
  hash of the group, `some none` when computing that hash raises `AttributeError`;
* `group m us`: a `GroupedOrientation` whose members have the uids `us`.  orientation/base.py
L91, orientation/pca.py L511-512 and orientation/grouped.py L29-32. -/
inductive Kind
  | reconstructed (numErrors : ℕ)
  | pca (memberOf : Option (Option String))
  | group (memberOf : Option (Option String)) (members : List String)

/-- `BaseOrientation.to_mapping`, base.py L91-119.  Line 97 unpacks two angular
errors. -/
def baseMapping {V : Type} (c : Computed V) (numErrors : ℕ) (values : Dict V) :
    Except PyErr (Dict V) :=
  if numErrors = 2 then
    let mapping := put (put (put (put (put (put (put (put (put (fun _ => Option.none)
      "uid" c.uid) "axes" c.axes) "hyperbolic_axes" c.hyperbolicAxes)
      "max_angular_error" c.maxAngularError) "min_angular_error" c.minAngularError)
      "strike" c.strike) "dip" c.dip) "rake" c.rake) "disabled" c.disabled
    .ok fun k => (values k).orElse fun _ => mapping k
  else .error .valueError

/-- `PCAOrientation.to_mapping`, pca.py L479-514. -/
def pcaMapping {V : Type} (c : Computed V) (memberOf : Option (Option String)) (values : Dict V) :
    Except PyErr (Dict V) :=
  let values := setDefault values "centered_array" c.centeredArray
  let values := setDefault values "center" c.center
  match memberOf with
  | Option.none => baseMapping c 2 values
  | some Option.none => .error .attributeError
  | some (some u) => baseMapping c 2 (put values "member_of" (c.str u))

/-- `to_mapping(**values)` for every kind of object; for groups grouped.py L29-32.
A keyword argument named `self` cannot be passed to a method. -/
def toMapping {V : Type} (c : Computed V) (o : Kind) (values : Dict V) : Except PyErr (Dict V) :=
  if (values "self").isSome then .error .typeError
  else
    match o with
    | .reconstructed k => baseMapping c k values
    | .pca m => pcaMapping c m values
    | .group m us =>
      let values := setDefault values "centered_array" c.none
      let values := put values "members" (c.strs us)
      pcaMapping c m values

end Attitude.Mapping
