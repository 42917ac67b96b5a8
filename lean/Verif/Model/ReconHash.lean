import Verif.Model.Reconstructed

/-!
# Model of the identity of reconstructed planes, `ReconstructedPlane.hash`
-/

namespace Attitude.ReconHash

open Attitude Reconstructed

/-- Entry `j` of a one-dimensional array broadcast to three columns: an array of one
element is repeated.  numpy broadcasting (external), used at reconstructed.py L101. -/
def broadcastAt (h : List ℝ) (j : Fin 3) : ℝ :=
  if h.length = 1 then h.headD 0 else h.getD j 0

/-- `self.hyperbolic_axes*self.axes`, the array whose bytes `ReconstructedPlane.hash`
gives to `hash_array`, orientation/reconstructed.py L99-101.  `hyperbolic_axes` has one element
more than there are angular errors (L62, L88-89); numpy broadcasts one or three elements over
the columns of the 3 by 3 array and raises `ValueError` otherwise.  `none` when an element is
not finite.  The digest of the bytes (orientation/base.py L7-8) is left out. -/
def hashInput (p : Plane) : Except PyErr (Option (Mat 3 3)) :=
  if p.angularErrors.length + 1 = 1 ∨ p.angularErrors.length + 1 = 3 then
    .ok (p.hyperbolicAxes.map fun h => Matrix.of fun i j => broadcastAt h j * p.axes i j)
  else
    .error .valueError

/-- `ReconstructedPlane(strike, dip, rake, *angular_errors, normal_error=ne)` followed by the
argument of the digest in `.hash`, orientation/reconstructed.py L46-90 and L99-101. -/
noncomputable def hashOf (strike dip rake : ℝ) (angularErrors : List ℝ) (ne : ℝ) :
    Except PyErr (Option (Mat 3 3)) :=
  match reconstruct strike dip rake angularErrors ne with
  | none => .ok none
  | some p => hashInput p

end Attitude.ReconHash
