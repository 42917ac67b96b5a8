import Verif.Model.Rotations

/-!
# Model of `attitude/orientation/reconstructed.py` and of the functions of
`mplstereonet.stereonet_math` it calls
-/

namespace Attitude.Reconstructed

open Attitude Rotations

/-- `mplstereonet.stereonet_math._rotate(lon, lat, theta)` about the `x` axis
(external; transcribed from its source): degrees in, radians out.  Used through `M.pole` and
`M.rake`, orientation/reconstructed.py L63 and L69. -/
noncomputable def rotateX (lon lat theta : ℝ) : Option (ℝ × ℝ) :=
  let (x, y, z) := sph2cart (radians lon) (radians lat)
  let t := radians theta
  cart2sph x (y * Real.cos t + z * Real.sin t) (-y * Real.sin t + z * Real.cos t)

/-- `mplstereonet.stereonet_math.pole(strike, dip)` (external; transcribed).  Used at
orientation/reconstructed.py L63. -/
noncomputable def pole (strike dip : ℝ) : Option (ℝ × ℝ) :=
  let p := if dip > 90 then (strike + 180, 180 - dip) else (strike, dip)
  rotateX (-p.2) 0 p.1

/-- `mplstereonet.stereonet_math.rake(strike, dip, rake_angle)` (external;
transcribed).  Used at orientation/reconstructed.py L69. -/
noncomputable def rakePoint (strike dip rake : ℝ) : Option (ℝ × ℝ) :=
  let r := if rake < 0 then rake + 180 else rake
  rotateX (90 - dip) (90 - r) strike

/-- The local function `vec`, reconstructed.py L48-53: `roll(·, -1) * [-1, -1, 1]`. -/
noncomputable def vec (p : ℝ × ℝ) : Vec 3 :=
  let (x, y, z) := sph2cart p.1 p.2
  ![-y, -z, x]

/-- The attributes of a `ReconstructedPlane`.  `hyperbolicAxes` is `none` when a
length is not finite.  orientation/reconstructed.py L55-90. -/
structure Plane where
  strike : ℝ
  dip : ℝ
  rake : ℝ
  angularErrors : List ℝ
  normal : Vec 3
  axes : Mat 3 3
  hyperbolicAxes : Option (List ℝ)

/-- `normal_error/N.tan(errors[::-1])` followed by `normal_error`,
reconstructed.py L62 and L88-89. -/
noncomputable def lengths (normalError : ℝ) (errors : List ℝ) : Option (List ℝ) := do
  let l ← (errors.reverse.map fun e => radians e / 2).mapM fun e => fdiv normalError (Real.tan e)
  some (l ++ [normalError])

/-- `ReconstructedPlane.__init__`, reconstructed.py L46-90.  The unused call of
`transform` on L83 has no effect and is left out; `covariance_matrix` is the
diagonal matrix of `hyperbolic_axes` and is not stored.  `none` would mean that
mplstereonet returned `nan`. -/
noncomputable def reconstruct (strike dip rake : ℝ) (angularErrors : List ℝ)
    (normalError : ℝ := 1) : Option Plane := do
  let p ← pole strike dip
  let normal := vec p
  let ll ← rakePoint strike dip rake
  let maxAngle := vec ll
  let minAngle := cross normal maxAngle
  let ax : Mat 3 3 := Matrix.of ![minAngle, maxAngle, normal]
  let axes := if ax 2 2 < 0 then -ax else ax
  some { strike, dip, rake, angularErrors, normal, axes,
         hyperbolicAxes := lengths normalError angularErrors }

end Attitude.Reconstructed
