import Mathlib.Data.Int.Log
import Mathlib.Algebra.Order.Archimedean.Real.Basic
import Mathlib.Algebra.Order.Floor.Ring
import Verif.Model.Pca

/-!
# Strike, dip and angles in floating-point arithmetic

Everywhere else numbers are real.  Here `PCAOrientation.strike_dip` in attitude/orientation/pca.py
and `angle` in attitude/geom/util.py are modelled with the rounding of each operation.  Overflow and underflow are left out: exponents are not bounded, and there is one
zero without a sign.
-/

namespace Attitude.Rounding

open Attitude

/-- The unit roundoff of double precision.  For the arithmetic of orientation/pca.py L361-385. -/
noncomputable def unit : ℝ := 2⁻¹ ^ 53

/-- What is used of rounding to double precision: it keeps the order, leaves rounded numbers and
integers of up to 53 bits alone, has a relative error of at most the unit roundoff, and the square
root of the square of a number that can be represented gives back its absolute value.  For the
arithmetic of orientation/pca.py L361-385. -/
structure Contract (rnd : ℝ → ℝ) : Prop where
  mono : Monotone rnd
  idem : ∀ x, rnd (rnd x) = rnd x
  int : ∀ k : ℤ, |k| ≤ 2 ^ 53 → rnd k = k
  rel : ∀ x, |rnd x - x| ≤ unit * |x|
  sqrtSq : ∀ x, rnd x = x → rnd (Real.sqrt (rnd (x ^ 2))) = |x|

/-- Rounding of a positive number to 53 bits, to the closest one, the larger if there are two.
For the arithmetic of orientation/pca.py L361-385. -/
noncomputable def roundPos (x : ℝ) : ℝ :=
  let u := (2 : ℝ) ^ (Int.log 2 x - 52)
  (⌊x / u + 1 / 2⌋ : ℝ) * u

/-- Rounding to the closest number with 53 bits.  (IEEE 754 prefers the one with an even last bit
if there are two; this meets the same contract.).  For the arithmetic of orientation/pca.py
L361-385. -/
noncomputable def round53 (x : ℝ) : ℝ :=
  if 0 < x then roundPos x else if x < 0 then -roundPos (-x) else 0

/-- The functions of numpy that are not correctly rounded: `N.degrees(N.arctan2(a, b))` and
`N.degrees(N.arccos(x))` (`nan`, which is `none`, outside of [-1, 1]).  External; used at
orientation/pca.py L371-372. -/
structure Libm where
  atan2deg : ℝ → ℝ → ℝ
  acosdeg : ℝ → Option ℝ

/-- `numpy.linalg.norm` of three numbers (called in pca.py L370): the square root of the sum of the
squares, added from first to last, with a rounding after each operation (no fused operations). -/
noncomputable def flNorm (rnd : ℝ → ℝ) (n : Vec 3) : ℝ :=
  rnd (Real.sqrt (rnd (rnd (rnd (n 0 ^ 2) + rnd (n 1 ^ 2)) + rnd (n 2 ^ 2))))

/-- `strike_dip`, pca.py L361-385, for `self.axes[2]`; the dip is `nan` if the norm is zero or
the argument of `arccos` is out of range.  (Then the comparison with 90 is false.)  The square of a
component is one operation, as in `N.linalg.norm`. -/
noncomputable def flStrikeDip (rnd : ℝ → ℝ) (lib : Libm) (n : Vec 3) : ℝ × Option ℝ :=
  let r := flNorm rnd n
  let strike := rnd (lib.atan2deg (n 0) (n 1) - 90)
  let dip : Option ℝ := do
    let q ← fdiv (n 2) r
    lib.acosdeg (rnd q)
  let p : ℝ × Option ℝ := match dip with
    | some d => if d > 90 then (rnd (strike + 180), some (rnd (180 - d))) else (strike, dip)
    | none => (strike, dip)
  let strike := if p.1 < 0 then rnd (p.1 + 360) else p.1
  (strike, p.2)

/-- `N.dot` of two vectors, as called by `dot`, geom/util.py L6-7, with a rounding after each
operation. -/
noncomputable def flDot (rnd : ℝ → ℝ) (v w : Vec 3) : ℝ :=
  rnd (rnd (rnd (v 0 * w 0) + rnd (v 1 * w 1)) + rnd (v 2 * w 2))

/-- `angle(v1, v2, cos=True)`, geom/util.py L55-64. -/
noncomputable def flAngleCos (rnd : ℝ → ℝ) (v w : Vec 3) : Option ℝ := do
  let n := rnd (flNorm rnd v * flNorm rnd w)
  let q ← fdiv (flDot rnd v w) n
  some (rnd q)

/-- `angle(v1, v2)`, geom/util.py L55-64; `acos` is `N.arccos`, with `none` for `nan`. -/
noncomputable def flAngle (rnd : ℝ → ℝ) (acos : ℝ → Option ℝ) (v w : Vec 3) : Option ℝ := do
  let c ← flAngleCos rnd v w
  acos c

end Attitude.Rounding
