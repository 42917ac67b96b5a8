import Verif.Model.Num

/-!
# Model of `attitude/coordinates/rotations.py` and of the functions of
`mplstereonet.stereonet_math` it calls
-/

namespace Attitude.Rotations

open Attitude

/-- `mplstereonet.stereonet_math.sph2cart(lon, lat)` (external; transcribed from
its documentation).  Used at coordinates/rotations.py L59-64. -/
noncomputable def sph2cart (lon lat : ℝ) : ℝ × ℝ × ℝ :=
  (Real.cos lat * Real.cos lon, Real.cos lat * Real.sin lon, Real.sin lat)

/-- `mplstereonet.stereonet_math.cart2sph(x, y, z)` (external; transcribed from
its documentation).  Returns `(lon, lat)`; `none` at the origin, where
`z/r` is `nan`.  Used at coordinates/rotations.py L59-64. -/
noncomputable def cart2sph (x y z : ℝ) : Option (ℝ × ℝ) := do
  let r := Real.sqrt (x ^ 2 + y ^ 2 + z ^ 2)
  let q ← fdiv z r
  some (arctan2 y x, Real.arcsin q)

/-- `angle`, geom/util.py L55-64; `none` when a norm is zero. -/
noncomputable def angle {n : ℕ} (v w : Vec n) : Option ℝ := do
  let q ← fdiv (vdot v w) (norm v * norm w)
  some (Real.arccos q)

/-- `transform`, coordinates/rotations.py L11-28.  `N.exp` is elementwise.
`none` when a division by a zero norm makes entries `nan`. -/
noncomputable def transform (v1 v2 : Vec 3) : Option (Mat 3 3) := do
  let theta ← angle v1 v2
  let c := cross v1 v2
  let x ← vdivOpt c (norm c)
  let A : Mat 3 3 := !![0, -x 2, x 1; x 2, 0, -x 0; -x 1, x 0, 0]
  some (Matrix.of fun i j => Real.exp (A i j * theta))

/-- `stereonet_transformation`, coordinates/rotations.py L30-38. -/
def stereonetTransformation : Mat 3 3 := !![0, 0, 1; 0, 1, 0; 1, 0, 0]

/-- `cartesian`, coordinates/rotations.py L40-56. -/
noncomputable def cartesian (lon lat : ℝ) : Vec 3 :=
  ![Real.cos lat * Real.cos lon, Real.cos lat * Real.sin lon, Real.sin lat]

/-- `from_stereonet`, coordinates/rotations.py L58-60. -/
noncomputable def fromStereonet (lon lat : ℝ) : Option (ℝ × ℝ) :=
  let (x, y, z) := sph2cart lon lat
  cart2sph y z (-x)

/-- `to_stereonet`, coordinates/rotations.py L62-64. -/
noncomputable def toStereonet (lon lat : ℝ) : Option (ℝ × ℝ) :=
  let (x, y, z) := sph2cart lon lat
  cart2sph (-z) x y

end Attitude.Rotations
