import Verif.Model.Rounding
import Verif.Model.Stereonet

/-!
# Positions on the stereonet in floating-point arithmetic

`iterative_plane_errors` in attitude/stereonet.py with a rounding after each operation.  As in
`Verif.Model.Rounding`, exponents are not bounded.
-/

namespace Attitude.RoundedNet

open Attitude Rounding

/-- The functions of numpy that are not correctly rounded: `N.arctan2(y, x)` and `N.arcsin(q)`
(`nan`, which is `none`, outside of [-1, 1]).  External; used at stereonet.py L154-155 and
L193-194. -/
structure NetLib where
  atan2 : ℝ → ℝ → ℝ
  asin : ℝ → Option ℝ

/-- The end of `step_func` in `iterative_plane_errors`, stereonet.py L192-195 (and `cart2sph` of
mplstereonet, which has the same lines): `(lon, lat)`; `nan` is `none`.  `x**2` is one
operation. -/
noncomputable def flCart2sph (rnd : ℝ → ℝ) (lib : NetLib) (x y z : ℝ) : Option (ℝ × ℝ) := do
  let r := flNorm rnd ![x, y, z]
  let q ← fdiv z r
  let lat ← lib.asin (rnd q)
  some (lib.atan2 y x, lat)

/-- `step_func` of `iterative_plane_errors`, stereonet.py L185-195.  `c` and `s` are the results
of `N.cos(a)` and `N.sin(a)`.  `sdot` (L182-183) adds from first to last; it begins with adding to
0, which is exact. -/
noncomputable def flStep (rnd : ℝ → ℝ) (lib : NetLib) (axes : Mat 3 3) (cov : Vec 3) (c1 c s : ℝ) :
    Option (ℝ × ℝ) :=
  let e : Vec 3 := ![rnd (c * cov 0), rnd (s * cov 1), rnd (c1 * cov 2)]
  let d : Vec 3 := fun j => flDot rnd e (fun i => axes i j)
  flCart2sph rnd lib (d 2) (d 0) (d 1)

/-- `iterative_plane_errors`, stereonet.py L163-200.  The argument `turn` holds `N.cos(a)` and
`N.sin(a)` for the angles of L173.  Products of `c1` with 2 and -1 are exact. -/
noncomputable def flIterativePlaneErrors (rnd : ℝ → ℝ) (lib : NetLib) (axes cov : Mat 3 3)
    (sheet : String) (turn : List (ℝ × ℝ)) : Except PyErr (List (Option (ℝ × ℝ))) := do
  let s ← Stereonet.scales sheet
  let c1 := s * 2
  let c1 := c1 * -1
  let c1 := if axes 2 2 < 0 then c1 * -1 else c1
  .ok (turn.map fun t => flStep rnd lib axes (fun i => cov i i) c1 t.1 t.2)

end Attitude.RoundedNet
