import Verif.Lemmas.Trig
import Mathlib.Analysis.SpecialFunctions.Trigonometric.Arctan
import Mathlib.Analysis.SpecialFunctions.Complex.Arctan

/-! `arctan2` in the first quadrant. -/

namespace Attitude

lemma arctan2_of_pos (y : ℝ) {x : ℝ} (hx : 0 < x) : arctan2 y x = Real.arctan (y / x) := by
  have h := arctan2_of_polar (r := Real.sqrt (x ^ 2 + y ^ 2)) (θ := Real.arctan (y / x))
    (by positivity)
    (by have := Real.neg_pi_div_two_lt_arctan (y / x); linarith [Real.pi_pos])
    (by have := Real.arctan_lt_pi_div_two (y / x); linarith [Real.pi_pos])
  rw [← h]
  have hs : Real.sqrt (1 + (y / x) ^ 2) = Real.sqrt (x ^ 2 + y ^ 2) / x := by
    rw [show 1 + (y / x) ^ 2 = (x ^ 2 + y ^ 2) / x ^ 2 by field_simp,
      Real.sqrt_div (by positivity), Real.sqrt_sq hx.le]
  have hp : 0 < Real.sqrt (x ^ 2 + y ^ 2) := by positivity
  congr 1
  · rw [Real.sin_arctan, hs]; field_simp
  · rw [Real.cos_arctan, hs]; field_simp

lemma arctan2_pos_zero {y : ℝ} (hy : 0 < y) : arctan2 y 0 = Real.pi / 2 := by
  have h := arctan2_of_polar (r := y) (θ := Real.pi / 2) hy (by linarith [Real.pi_pos])
    (by linarith [Real.pi_pos])
  rwa [Real.sin_pi_div_two, Real.cos_pi_div_two, mul_one, mul_zero] at h

lemma arctan2_zero_nonneg {x : ℝ} (hx : 0 ≤ x) : arctan2 0 x = 0 := by
  rcases hx.lt_or_eq with h | h
  · rw [arctan2_of_pos _ h]; simp
  · rw [← h]; simp

lemma arctan2_nonneg {y x : ℝ} (hy : 0 ≤ y) (hx : 0 ≤ x) : 0 ≤ arctan2 y x := by
  rcases hx.lt_or_eq with h | h
  · rw [arctan2_of_pos _ h, Real.arctan_nonneg]; positivity
  · rw [← h]
    rcases hy.lt_or_eq with k | k
    · rw [arctan2_pos_zero k]; linarith [Real.pi_pos]
    · rw [← k]; simp

lemma arctan2_le_pi_div_two {y x : ℝ} (hy : 0 ≤ y) (hx : 0 ≤ x) :
    arctan2 y x ≤ Real.pi / 2 := by
  rcases hx.lt_or_eq with h | h
  · rw [arctan2_of_pos _ h]; exact (Real.arctan_lt_pi_div_two _).le
  · rw [← h]
    rcases hy.lt_or_eq with k | k
    · rw [arctan2_pos_zero k]
    · rw [← k, arctan2_zero_zero]; linarith [Real.pi_pos]

/-- In the first quadrant the angle grows with `y` and shrinks with `x`. -/
lemma arctan2_mono {y y' x x' : ℝ} (hy : 0 ≤ y) (hyy : y ≤ y') (hx : 0 ≤ x') (hxx : x' ≤ x) :
    arctan2 y x ≤ arctan2 y' x' := by
  rcases hx.lt_or_eq with h | h
  · rw [arctan2_of_pos _ h, arctan2_of_pos _ (h.trans_le hxx)]
    apply Real.arctan_mono
    exact div_le_div₀ (hy.trans hyy) hyy h hxx
  · rcases (hy.trans hyy).lt_or_eq with k | k
    · rw [← h, arctan2_pos_zero k]
      exact arctan2_le_pi_div_two hy (hx.trans hxx)
    · have : y = 0 := le_antisymm (k ▸ hyy) hy
      rw [this, ← k, arctan2_zero_nonneg (hx.trans hxx), arctan2_zero_nonneg hx]

lemma arctan2_lt_of_div_lt {y y' x x' : ℝ} (hx : 0 < x) (hx' : 0 < x') (h : y / x < y' / x') :
    arctan2 y x < arctan2 y' x' := by
  rw [arctan2_of_pos _ hx, arctan2_of_pos _ hx']
  exact Real.arctan_strictMono h

end Attitude
