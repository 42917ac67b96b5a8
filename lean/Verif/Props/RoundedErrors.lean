import Verif.Model.RoundedErrors
import Verif.Props.RoundedFit
import Verif.Props.ErrorStability

/-!
# C225: angular errors in floating-point arithmetic
-/

namespace Attitude.Props

open Attitude Matrix Pca ErrorAxes Rounding RoundedFit RoundedErrors

/-! ## Relative errors -/

/-- `y` differs from `x` by no more than `k` roundings. -/
def Within (k : ℕ) (x y : ℝ) : Prop := |y - x| ≤ ((1 + unit) ^ k - 1) * |x|

lemma one_le_growth (k : ℕ) : 1 ≤ (1 + unit) ^ k := one_le_pow₀ (by linarith [unit_pos])

lemma within_refl (k : ℕ) (x : ℝ) : Within k x x := by
  unfold Within
  rw [sub_self, abs_zero]
  exact mul_nonneg (by linarith [one_le_growth k]) (abs_nonneg _)

lemma Within.mono {j k : ℕ} (hjk : j ≤ k) {x y : ℝ} (h : Within j x y) : Within k x y := by
  refine h.trans (mul_le_mul_of_nonneg_right ?_ (abs_nonneg _))
  linarith [pow_le_pow_right₀ (by linarith [unit_pos] : 1 ≤ 1 + unit) hjk]

lemma Within.abs_le {k : ℕ} {x y : ℝ} (h : Within k x y) : |y| ≤ (1 + unit) ^ k * |x| := by
  have := abs_add_le (y - x) x
  rw [sub_add_cancel] at this
  unfold Within at h
  linarith

lemma Within.rnd {rnd : ℝ → ℝ} (F : Contract rnd) {k : ℕ} {x y : ℝ} (h : Within k x y) :
    Within (k + 1) x (rnd y) := by
  have hu := unit_pos
  have h1 := F.rel y
  have h2 := h.abs_le
  have h3 := abs_add_le (rnd y - y) (y - x)
  rw [sub_add_sub_cancel] at h3
  unfold Within at h ⊢
  have h4 := mul_le_mul_of_nonneg_left h2 hu.le
  rw [pow_succ]
  calc |rnd y - x| ≤ unit * ((1 + unit) ^ k * |x|) + ((1 + unit) ^ k - 1) * |x| := by linarith
    _ = _ := by ring

lemma Within.mul {j k : ℕ} {x y x' y' : ℝ} (h : Within j x y) (h' : Within k x' y') :
    Within (j + k) (x * x') (y * y') := by
  have h1 := h'.abs_le
  have e : y * y' - x * x' = (y - x) * y' + x * (y' - x') := by ring
  have h2 := one_le_growth j
  unfold Within at h h' ⊢
  rw [e, abs_mul, pow_add]
  refine (abs_add_le _ _).trans ?_
  rw [abs_mul, abs_mul]
  calc |y - x| * |y'| + |x| * |y' - x'|
      ≤ (((1 + unit) ^ j - 1) * |x|) * ((1 + unit) ^ k * |x'|) + |x| * (((1 + unit) ^ k - 1) * |x'|) :=
        add_le_add (mul_le_mul h h1 (abs_nonneg _) (mul_nonneg (by linarith) (abs_nonneg _)))
          (mul_le_mul_of_nonneg_left h' (abs_nonneg _))
    _ = _ := by ring

lemma Within.sqrt {k : ℕ} {x y : ℝ} (hx : 0 ≤ x) (hy : 0 ≤ y) (h : Within k x y) :
    Within k (Real.sqrt x) (Real.sqrt y) := by
  have hg := one_le_growth k
  have sx := Real.sqrt_nonneg x
  have sy := Real.sqrt_nonneg y
  unfold Within at h ⊢
  rw [abs_of_nonneg hx] at h
  rw [abs_of_nonneg sx]
  rcases sx.eq_or_lt with h0 | h0
  · have hx0 : x = 0 := by
      rw [← Real.sq_sqrt hx, ← h0]
      norm_num
    subst hx0
    rw [mul_zero, sub_zero] at h
    rw [abs_nonpos_iff.1 h]
    simp
  · have e : |Real.sqrt y - Real.sqrt x| * (Real.sqrt y + Real.sqrt x) = |y - x| := by
      have : y - x = (Real.sqrt y - Real.sqrt x) * (Real.sqrt y + Real.sqrt x) := by
        linear_combination (Real.sq_sqrt hx) - (Real.sq_sqrt hy)
      rw [this, abs_mul, abs_of_nonneg (by linarith : 0 ≤ Real.sqrt y + Real.sqrt x)]
    have h1 : |Real.sqrt y - Real.sqrt x| * Real.sqrt x ≤ ((1 + unit) ^ k - 1) * Real.sqrt x * Real.sqrt x := by
      have : ((1 + unit) ^ k - 1) * Real.sqrt x * Real.sqrt x = ((1 + unit) ^ k - 1) * x := by
        rw [mul_assoc, Real.mul_self_sqrt hx]
      rw [this]
      have := mul_nonneg (abs_nonneg (Real.sqrt y - Real.sqrt x)) sy
      nlinarith
    exact le_of_mul_le_mul_right h1 h0

lemma Within.add {k : ℕ} {x y x' y' : ℝ} (hx : 0 ≤ x) (hx' : 0 ≤ x') (h : Within k x y)
    (h' : Within k x' y') : Within k (x + x') (y + y') := by
  unfold Within at *
  rw [abs_of_nonneg hx] at h
  rw [abs_of_nonneg hx'] at h'
  rw [abs_of_nonneg (by linarith : 0 ≤ x + x'), add_sub_add_comm]
  refine (abs_add_le _ _).trans ?_
  linarith

lemma Within.sub {k : ℕ} {x y x' y' : ℝ} (hx' : 0 ≤ x') (hxx : x' ≤ x / 2) (h : Within k x y)
    (h' : Within k x' y') : Within (3 * k) (x - x') (y - y') := by
  have hg := one_le_growth k
  unfold Within at *
  rw [abs_of_nonneg (by linarith : 0 ≤ x)] at h
  rw [abs_of_nonneg hx'] at h'
  rw [abs_of_nonneg (by linarith : 0 ≤ x - x')]
  have e : y - y' - (x - x') = (y - x) - (y' - x') := by ring
  rw [e]
  refine (abs_sub _ _).trans ?_
  have h1 : 3 * ((1 + unit) ^ k - 1) ≤ (1 + unit) ^ (3 * k) - 1 := by
    rw [mul_comm 3 k, pow_mul]
    set g := (1 + unit) ^ k
    nlinarith [mul_nonneg (sub_nonneg.2 hg) (sub_nonneg.2 hg)]
  have h2 := mul_le_mul_of_nonneg_right h1 (by linarith : 0 ≤ x - x')
  nlinarith [mul_nonneg (sub_nonneg.2 hg) (by linarith : 0 ≤ x - 2 * x')]

lemma Within.abs {k : ℕ} {x y : ℝ} (h : Within k x y) : Within k |x| |y| := by
  unfold Within at *
  rw [abs_abs]
  exact (abs_abs_sub_abs_le _ _).trans h

lemma Within.congr {k j : ℕ} (hk : k ≤ j) {x x' y : ℝ} (e : x = x') (h : Within k x y) : Within j x' y :=
  e ▸ h.mono hk

lemma growth_le {K : ℕ} (h : (K : ℝ) * unit ≤ 1) : (1 + unit) ^ K - 1 ≤ 2 * (K * unit) := by
  have hu := unit_pos
  have h1 : (1 + unit) ^ K ≤ Real.exp (K * unit) := by
    rw [Real.exp_nat_mul]
    exact pow_le_pow_left₀ (by linarith) (by linarith [Real.add_one_le_exp unit]) K
  have h0 : 0 ≤ (K : ℝ) * unit := mul_nonneg (Nat.cast_nonneg _) hu.le
  have h2 := Real.abs_exp_sub_one_sub_id_le (x := K * unit) (by rwa [abs_of_nonneg h0])
  have := (abs_le.1 h2).2
  nlinarith

/-- Angles of sides that are nearly right. -/
lemma angle_within {j k : ℕ} {a b a' b' : ℝ} (ha : 0 ≤ a) (hb : 0 < b) (h : Within j a a') (h' : Within k b b')
    (hg : (1 + unit) ^ (j + k) - 1 ≤ 1 / 2) :
    |arctan2 a' b' - arctan2 a b| ≤ 2 * ((1 + unit) ^ (j + k) - 1) := by
  have g1 := one_le_growth j
  have g2 := one_le_growth k
  rw [pow_add] at *
  set p := (1 + unit) ^ j with hp
  set q := (1 + unit) ^ k with hq
  set γ := p * q - 1 with hγ
  have hpq : (p - 1) + (q - 1) ≤ γ := by nlinarith [mul_nonneg (sub_nonneg.2 g1) (sub_nonneg.2 g2)]
  have hγ0 : 0 ≤ γ := by linarith
  unfold Within at h h'
  rw [abs_of_nonneg ha, ← hp] at h
  rw [abs_of_pos hb, ← hq] at h'
  have c : |a' * b - a * b'| ≤ γ * (a * b) := by
    have e : a' * b - a * b' = (a' - a) * b - a * (b' - b) := by ring
    rw [e]
    refine (abs_sub _ _).trans ?_
    rw [abs_mul, abs_mul, abs_of_nonneg ha, abs_of_pos hb]
    have i1 := mul_le_mul_of_nonneg_right h hb.le
    have i2 := mul_le_mul_of_nonneg_left h' ha
    have i3 := mul_le_mul_of_nonneg_right hpq (mul_nonneg ha hb.le)
    linarith
  have hb' : b / 2 ≤ b' := by
    have := (abs_le.1 h').1
    nlinarith
  have ha' : a / 2 ≤ a' := by
    have := (abs_le.1 h).1
    nlinarith
  have hb0 : 0 < b' := by linarith
  rw [arctan2_of_pos _ hb, arctan2_of_pos _ hb0]
  rcases le_or_gt a b with hab | hab
  · refine (arctan_close _ _).trans ?_
    rw [div_sub_div _ _ hb0.ne' hb.ne', abs_div, abs_of_pos (mul_pos hb0 hb), div_le_iff₀ (mul_pos hb0 hb)]
    rw [mul_comm b' a]
    refine c.trans ?_
    have : a * b ≤ 2 * (b' * b) := by nlinarith
    nlinarith [mul_le_mul_of_nonneg_left this hγ0]
  · have ha0 : 0 < a := by linarith
    have ha0' : 0 < a' := by linarith
    have e1 : Real.arctan (a / b) = Real.pi / 2 - Real.arctan (b / a) := by
      rw [← Real.arctan_inv_of_pos (by positivity), inv_div]
    have e2 : Real.arctan (a' / b') = Real.pi / 2 - Real.arctan (b' / a') := by
      rw [← Real.arctan_inv_of_pos (by positivity), inv_div]
    rw [e1, e2, sub_sub_sub_cancel_left]
    refine (arctan_close _ _).trans ?_
    rw [div_sub_div _ _ ha0.ne' ha0'.ne', abs_div, abs_of_pos (mul_pos ha0 ha0'),
      div_le_iff₀ (mul_pos ha0 ha0'), mul_comm b a']
    refine c.trans ?_
    have : a * b ≤ 2 * (a * a') := by nlinarith
    nlinarith [mul_le_mul_of_nonneg_left this hγ0]

/-! ## The axes -/

section

variable {rnd : ℝ → ℝ} (F : Contract rnd) {n : ℕ} (hn : 3 ≤ n) (s : Vec 3)

include F hn

lemma eigenvalues_within (j : Fin 3) : Within 2 (|s j| * |s j| / ((n : ℝ) - 1)) (flEigenvalues rnd n s j) ∧
    0 ≤ flEigenvalues rnd n s j := by
  have h3 : (3 : ℝ) ≤ n := by exact_mod_cast hn
  have h1 : (0 : ℝ) < (n : ℝ) - 1 := by linarith
  constructor
  · refine Within.rnd F ?_
    rw [div_eq_mul_inv, div_eq_mul_inv, abs_mul_abs_self, ← sq]
    exact Within.mul ((within_refl 0 (s j ^ 2)).rnd F) (within_refl 0 _)
  · exact rnd_nonneg F (div_nonneg (rnd_nonneg F (sq_nonneg _)) h1.le)

lemma error_within (sampling : Bool) {m : ℕ} {z z' : ℝ} (hz : 0 ≤ z) (hzz : Within m z z') (j : Fin 3) :
    Within (m + 9) (|s j| * (relativeError sampling n z * errorBase sampling (fun i => |s i|) j) / ((n : ℝ) - 1))
      (rnd (z' * rnd (Real.sqrt (flCovariance rnd sampling n (flEigenvalues rnd n s) j)))) := by
  have h3 : (3 : ℝ) ≤ n := by exact_mod_cast hn
  have h1 : (0 : ℝ) < (n : ℝ) - 1 := by linarith
  have h2 : (0 : ℝ) < (n : ℝ) - 2 := by linarith
  obtain ⟨e1, e2⟩ := eigenvalues_within F hn s j
  obtain ⟨e3, e4⟩ := eigenvalues_within F hn s 2
  set ev := flEigenvalues rnd n s with hev
  have pj := abs_nonneg (s j)
  have p2 := abs_nonneg (s 2)
  have key : ∃ c, 0 ≤ c ∧ Within 7 c (flCovariance rnd sampling n ev j) ∧ 0 ≤ flCovariance rnd sampling n ev j ∧
      z * Real.sqrt c =
        |s j| * (relativeError sampling n z * errorBase sampling (fun i => |s i|) j) / ((n : ℝ) - 1) := by
    cases sampling
    · refine ⟨4 * (|s j| * |s j| / ((n : ℝ) - 1)) * (|s 2| * |s 2| / ((n : ℝ) - 1) / ((n : ℝ) - 2)), by positivity,
        ?_, ?_, ?_⟩
      · simp only [flCovariance, Bool.false_eq_true, if_false]
        refine (Within.rnd F (Within.mul (j := 3) (k := 3) (Within.rnd F ?_) (Within.rnd F ?_)))
        · exact (Within.mul (within_refl 0 4) e1).mono (by norm_num)
        · rw [div_eq_mul_inv _ ((n : ℝ) - 2), div_eq_mul_inv _ ((n : ℝ) - 2)]
          exact Within.mul e3 (within_refl 0 _)
      · simp only [flCovariance, Bool.false_eq_true, if_false]
        exact rnd_nonneg F (mul_nonneg (rnd_nonneg F (by positivity)) (rnd_nonneg F (by positivity)))
      · have e : 4 * (|s j| * |s j| / ((n : ℝ) - 1)) * (|s 2| * |s 2| / ((n : ℝ) - 1) / ((n : ℝ) - 2))
            = (2 * (|s j| * |s 2| / ((n : ℝ) - 1))) ^ 2 / ((n : ℝ) - 2) := by
          field_simp
          ring
        rw [e, Real.sqrt_div (sq_nonneg _), Real.sqrt_sq (by positivity)]
        have := Real.sqrt_pos.2 h2
        simp only [relativeError, errorBase, Bool.false_eq_true, if_false]
        field_simp
    · refine ⟨2 / ((n : ℝ) - 1) * (|s j| * |s j| / ((n : ℝ) - 1)) ^ 2, by positivity, ?_, ?_, ?_⟩
      · simp only [flCovariance, if_true]
        refine (Within.rnd F (Within.mul (j := 1) (k := 5) (Within.rnd F (within_refl 0 _)) (Within.rnd F ?_)))
        rw [sq, sq]
        exact Within.mul e1 e1
      · simp only [flCovariance, if_true]
        exact rnd_nonneg F (mul_nonneg (rnd_nonneg F (by positivity)) (rnd_nonneg F (by positivity)))
      · rw [Real.sqrt_mul (by positivity), Real.sqrt_sq (by positivity)]
        simp only [relativeError, errorBase, if_true]
        field_simp
  obtain ⟨c, hc, hw, hp, e⟩ := key
  rw [← e]
  exact (Within.rnd F (Within.mul hzz (Within.rnd F (Within.sqrt hc hp hw)))).mono (by omega)

/-- The last axis. -/
lemma axis2_within (sampling : Bool) {m : ℕ} {z z' : ℝ} (hz : 0 ≤ z) (hzz : Within m z z') :
    Within (m + 10) (|s 2| * (|s 2| + relativeError sampling n z * |s 2|) / ((n : ℝ) - 1))
      (flAxes rnd sampling n s z' 2) := by
  have h3 : (3 : ℝ) ≤ n := by exact_mod_cast hn
  have h1 : (0 : ℝ) < (n : ℝ) - 1 := by linarith
  have h2 : (0 : ℝ) < (n : ℝ) - 2 := by linarith
  have hk : 0 ≤ relativeError sampling n z := by
    unfold relativeError
    split <;> positivity
  obtain ⟨e1, e2⟩ := eigenvalues_within F hn s 2
  have e3 := error_within F hn s sampling hz hzz 2
  have hb : errorBase sampling (fun i => |s i|) 2 = |s 2| := by cases sampling <;> rfl
  rw [hb] at e3
  have e := Within.add (by positivity) (by positivity) (e1.mono (by omega : 2 ≤ m + 9)) e3
  have e' : Within (m + 9) (-(|s 2| * |s 2| / ((n : ℝ) - 1) +
      |s 2| * (relativeError sampling n z * |s 2|) / ((n : ℝ) - 1)))
      (-flEigenvalues rnd n s 2 - rnd (z' * rnd (Real.sqrt (flCovariance rnd sampling n (flEigenvalues rnd n s) 2)))) := by
    unfold Within at e ⊢
    rw [abs_neg]
    rw [← abs_neg] at e
    refine le_trans (le_of_eq ?_) e
    congr 1
    ring
  have e'' := (e'.rnd F).abs
  rw [abs_neg, abs_of_nonneg (by positivity)] at e''
  refine Within.congr (by omega) ?_ e''
  field_simp

/-- The other axes. -/
lemma axis_within (sampling : Bool) {m : ℕ} {z z' : ℝ} (hz : 0 ≤ z) (hzz : Within m z z') (j : Fin 3) (hj : j ≠ 2)
    (hk : relativeError sampling n z * errorBase sampling (fun i => |s i|) j ≤ |s j| / 2) :
    Within (3 * m + 28) (|s j| * |(|s j| - relativeError sampling n z * errorBase sampling (fun i => |s i|) j)|
      / ((n : ℝ) - 1)) (flAxes rnd sampling n s z' j) := by
  have h3 : (3 : ℝ) ≤ n := by exact_mod_cast hn
  have h1 : (0 : ℝ) < (n : ℝ) - 1 := by linarith
  have h2 : (0 : ℝ) < (n : ℝ) - 2 := by linarith
  have hk0 : 0 ≤ relativeError sampling n z := by
    unfold relativeError
    split <;> positivity
  have hb0 : 0 ≤ errorBase sampling (fun i => |s i|) j := by
    unfold errorBase
    split <;> positivity
  obtain ⟨e1, e2⟩ := eigenvalues_within F hn s j
  have e3 := error_within F hn s sampling hz hzz j
  set K := relativeError sampling n z * errorBase sampling (fun i => |s i|) j with hK
  have hK0 : 0 ≤ K := mul_nonneg hk0 hb0
  have e := Within.sub (by positivity) (by
    rw [div_div, mul_comm _ (2 : ℝ), ← div_div]
    refine div_le_div_of_nonneg_right ?_ h1.le
    nlinarith [abs_nonneg (s j)]) (e1.mono (by omega : 2 ≤ m + 9)) e3
  have hp : 0 ≤ |s j| - K := by linarith [abs_nonneg (s j)]
  have e' : Within (3 * m + 28) |(|s j| * |s j| / ((n : ℝ) - 1) - |s j| * K / ((n : ℝ) - 1))|
      (flAxes rnd sampling n s z' j) := by
    refine Within.congr (k := 3 * (m + 9) + 1) (by omega) rfl ?_
    refine Within.abs (Within.rnd F ?_)
    fin_cases j
    · exact e
    · exact e
    · exact absurd rfl hj
  refine Within.congr le_rfl ?_ e'
  rw [abs_of_nonneg hp, ← sub_div, ← mul_sub, abs_of_nonneg (by positivity)]

/-- One error. -/
lemma error_close (sampling : Bool) {m : ℕ} {z z' : ℝ} (hz : 0 ≤ z) (hzz : Within m z z')
    (hm : (m + 10 : ℕ) * 32 * unit ≤ 1) (j : Fin 3) (hj : j ≠ 2) (hsj : s j ≠ 0)
    (hk : relativeError sampling n z * errorBase sampling (fun i => |s i|) j ≤ |s j| / 2) :
    |arctan2 (rnd (Real.sqrt (flAxes rnd sampling n s z' 2))) (rnd (Real.sqrt (flAxes rnd sampling n s z' j))) -
      errorAngle |s j| (errorBase sampling (fun i => |s i|) j) |s 2| (relativeError sampling n z)|
      ≤ 16 * (m + 10) * unit := by
  have h3 : (3 : ℝ) ≤ n := by exact_mod_cast hn
  have h1 : (0 : ℝ) < (n : ℝ) - 1 := by linarith
  have h2 : (0 : ℝ) < (n : ℝ) - 2 := by linarith
  have hu := unit_pos
  have hk0 : 0 ≤ relativeError sampling n z := by
    unfold relativeError
    split <;> positivity
  have ha := axis2_within F hn s sampling hz hzz
  have hb := axis_within F hn s sampling hz hzz j hj hk
  have hsp : 0 < |s j| := abs_pos.2 hsj
  set K := relativeError sampling n z * errorBase sampling (fun i => |s i|) j with hK
  have hp : 0 < |s j| - K := by linarith
  have hfl : ∀ i, 0 ≤ flAxes rnd sampling n s z' i := fun i => abs_nonneg _
  have h28 : (1 + unit) ^ (m + 11 + (3 * m + 29)) - 1 ≤ 8 * (m + 10) * unit := by
    have := growth_le (K := m + 11 + (3 * m + 29)) (by
      push_cast at hm ⊢
      nlinarith)
    push_cast at this
    linarith
  have hq := angle_within (a := Real.sqrt (|s 2| * (|s 2| + relativeError sampling n z * |s 2|) / ((n : ℝ) - 1)))
    (b := Real.sqrt (|s j| * |(|s j| - K)| / ((n : ℝ) - 1))) (Real.sqrt_nonneg _)
    (Real.sqrt_pos.2 (div_pos (mul_pos hsp (abs_pos.2 hp.ne')) h1))
    (Within.rnd F (Within.sqrt (by positivity) (hfl 2) ha))
    (Within.rnd F (Within.sqrt (by positivity) (hfl j) hb)) (by
      push_cast at hm
      refine h28.trans ?_
      linarith)
  have e : arctan2 (Real.sqrt (|s 2| * (|s 2| + relativeError sampling n z * |s 2|) / ((n : ℝ) - 1)))
      (Real.sqrt (|s j| * |(|s j| - K)| / ((n : ℝ) - 1))) =
      errorAngle |s j| (errorBase sampling (fun i => |s i|) j) |s 2| (relativeError sampling n z) := by
    have hw : 0 < Real.sqrt (|s j| * |(|s j| - K)|) := Real.sqrt_pos.2 (mul_pos hsp (abs_pos.2 hp.ne'))
    have hr : 0 < Real.sqrt ((n : ℝ) - 1) := Real.sqrt_pos.2 h1
    unfold errorAngle
    rw [Real.sqrt_div (by positivity), Real.sqrt_div (by positivity), ← hK, arctan2_of_pos _ hw,
      arctan2_of_pos _ (by positivity), div_div_div_cancel_right₀ hr.ne']
  rw [e] at hq
  linarith

end

/-! ## C225 -/

/-- The angular errors that are computed in floating-point arithmetic, for all points, orders of
summation and libraries, if the errors are at most half of the extent of the data.  `δ` is the bound of
C203 for the singular values, `z` the quantile that the library returns, with an error of `m` units of
roundoff. -/
theorem C225_errors (rnd : ℝ → ℝ) (F : Contract rnd) (lib : Libm) (ε : ℝ) (L : Spec.Accurate lib ε)
    (svd' : FlSvd) (η : ℝ) (hη : 0 ≤ η) {n : ℕ} (hstable : Spec.BackwardStable rnd svd' n η) (h3 : 3 ≤ n)
    (t : Fin 3 → SumTree n) (ht : Spec.EachOnce t) (a : Fin n → Vec 3) (R : ℝ) (hR : ∀ k j, |a k j| ≤ R)
    (h : ℕ) (hd : ∀ j, (t j).depth ≤ h) (hh : h + 2 ≤ 2 ^ 51)
    (Q : Quantiles) (hQ : Spec.QuantilesOK Q) (svd : SvdFn) (hs : svd.Valid) (f : Fit n)
    (hf : init svd a none none = .ok (some f)) (sampling : Bool) (cl : ℝ) (h0 : 0 ≤ cl) (h1 : cl < 1)
    (z : ℝ) (m : ℕ) (hz : |z - Q.f cl 2 (n - 2)| ≤ m * unit * Q.f cl 2 (n - 2)) (hm : m ≤ 2 ^ 40)
    (δ : ℝ) (hδ : Spec.roundingError n h R η + η * (f.s 0 + Spec.roundingError n h R η) ≤ δ)
    (hδs : δ < f.s 1)
    (hk : Spec.relativeWidth Q sampling n cl * ((if sampling then f.s 1 else f.s 2) + δ) ≤ (f.s 1 - δ) / 2) :
    ∃ x y x' y', errorsAt Q f sampling cl = some (x, y) ∧ flErrors rnd lib svd' t a sampling z = .ok (x', y') ∧
      |x' - degrees x| ≤ ε + degrees (5 * Real.sqrt (1 + Spec.relativeWidth Q sampling n cl) * δ / (f.s 0 - δ)
        + 16 * (m + 10) * unit) ∧
      |y' - degrees y| ≤ ε + degrees (5 * Real.sqrt (1 + Spec.relativeWidth Q sampling n cl) * δ / (f.s 1 - δ)
        + 16 * (m + 10) * unit) := by
  have hu := unit_pos
  obtain ⟨U, hF⟩ := init_default hs hf
  obtain ⟨s, V, hfl, hcs⟩ := C203_singular_values rnd F svd' η hη hstable h3 t ht a R hR h hd hh svd hs f hf
  have hw : Spec.relativeWidth Q sampling n cl = relativeError sampling n (Q.f cl 2 (n - 2)) := by
    unfold Spec.relativeWidth relativeError
    rfl
  have hz0 : 0 ≤ Q.f cl 2 (n - 2) := hQ.f_nonneg _ _ _ h0 h1 (by norm_num) (by omega)
  have hzz : Within m (Q.f cl 2 (n - 2)) z := by
    unfold Within
    rw [abs_of_nonneg hz0]
    refine hz.trans (mul_le_mul_of_nonneg_right ?_ hz0)
    linarith [one_add_mul_le_pow (by linarith : (-2 : ℝ) ≤ unit) m]
  have hm' : ((m + 10 : ℕ) : ℝ) * 32 * unit ≤ 1 := by
    have h40 : (m : ℝ) ≤ (2 : ℝ) ^ 40 := by exact_mod_cast hm
    have e : unit = 1 / 2 ^ 53 := by unfold unit; norm_num
    rw [e]
    push_cast
    rw [mul_one_div, div_le_one (by norm_num)]
    have : (2 : ℝ) ^ 40 * 64 ≤ 2 ^ 53 := by norm_num
    have : (1 : ℝ) ≤ 2 ^ 30 := by norm_num
    linarith [show (10 : ℝ) * 32 ≤ 2 ^ 40 by norm_num]
  rw [hw] at hk ⊢
  set k := relativeError sampling n (Q.f cl 2 (n - 2)) with hkdef
  have hk0 : 0 ≤ k := relativeError_nonneg _ _ hz0
  have hcl : ∀ i, |(f.s i - |s i|)| ≤ δ := by
    intro i
    rw [abs_sub_comm]
    refine le_trans ?_ ((hcs i).trans hδ)
    have := abs_abs_sub_abs_le (s i) (f.s i)
    rwa [abs_of_nonneg (hF.svd.nonneg' i)] at this
  have hδ0 : 0 ≤ δ := (abs_nonneg _).trans (hcl 0)
  have h01 := hF.svd.le01
  have h12 := hF.svd.le12
  have hbase : ∀ j : Fin 3, (errorBase sampling f.s j = f.s 2 ∧ errorBase sampling (fun i => |s i|) j = |s 2|) ∨
      (errorBase sampling f.s j = f.s j ∧ errorBase sampling (fun i => |s i|) j = |s j|) := by
    intro j
    unfold errorBase
    cases sampling <;> simp
  have hle : ∀ j : Fin 3, f.s 2 ≤ errorBase sampling f.s j := by
    intro j
    unfold errorBase
    split_ifs
    · fin_cases j <;> simp <;> linarith
    · exact le_rfl
  have hall : ∀ j : Fin 3, j ≠ 2 → f.s 2 ≤ f.s j ∧ δ < f.s j ∧
      k * (errorBase sampling f.s j + δ) ≤ (f.s j - δ) / 2 := by
    intro j hj
    have hb0 : k * (errorBase sampling f.s 0 + δ) ≤ (f.s 0 - δ) / 2 := by
      unfold errorBase
      cases sampling
      · simp only [Bool.false_eq_true, if_false] at hk ⊢
        linarith
      · simp only [if_true] at hk ⊢
        have : k ≤ 1 / 2 := by
          by_contra hc
          push Not at hc
          nlinarith
        nlinarith
    fin_cases j
    · exact ⟨h12.trans h01, by simpa using hδs.trans_le h01, hb0⟩
    · exact ⟨h12, hδs, hk⟩
    · exact absurd rfl hj
  have main : ∀ j : Fin 3, j ≠ 2 →
      |lib.atan2deg (rnd (Real.sqrt (flAxes rnd sampling n s z 2))) (rnd (Real.sqrt (flAxes rnd sampling n s z j))) -
        degrees (errorAngle (f.s j) (errorBase sampling f.s j) (f.s 2) k)|
        ≤ ε + degrees (5 * Real.sqrt (1 + k) * δ / (f.s j - δ) + 16 * (m + 10) * unit) := by
    intro j hj
    obtain ⟨i1, i2, i3⟩ := hall j hj
    have c1 := errorAngle_close hk0 hF.svd.nonneg (abs_nonneg (s 2)) i1 (hle j) (hcl j) (hcl 2) (hbase j) i2 i3
    have hj1 := abs_sub_le_iff.1 (hcl j)
    have c2 := error_close F h3 s sampling hz0 hzz hm' j hj (by
        intro e
        rw [e, abs_zero] at hj1
        linarith) (by
        have : errorBase sampling (fun i => |s i|) j ≤ errorBase sampling f.s j + δ := by
          have g2 := abs_sub_le_iff.1 (hcl 2)
          rcases hbase j with ⟨e, e'⟩ | ⟨e, e'⟩ <;> rw [e, e'] <;> linarith
        have := mul_le_mul_of_nonneg_left this hk0
        linarith)
    have c3 := L.atan_close (rnd (Real.sqrt (flAxes rnd sampling n s z 2)))
      (rnd (Real.sqrt (flAxes rnd sampling n s z j)))
    set A := arctan2 (rnd (Real.sqrt (flAxes rnd sampling n s z 2)))
      (rnd (Real.sqrt (flAxes rnd sampling n s z j)))
    set B := errorAngle (f.s j) (errorBase sampling f.s j) (f.s 2) k
    have c4 : |A - B| ≤ 5 * Real.sqrt (1 + k) * δ / (f.s j - δ) + 16 * (m + 10) * unit := by
      rw [abs_sub_comm] at c1
      have := abs_add_le (A - errorAngle |s j| (errorBase sampling (fun i => |s i|) j) |s 2| k)
        (errorAngle |s j| (errorBase sampling (fun i => |s i|) j) |s 2| k - B)
      rw [sub_add_sub_cancel] at this
      linarith
    have c5 : |degrees A - degrees B| ≤ degrees (5 * Real.sqrt (1 + k) * δ / (f.s j - δ) + 16 * (m + 10) * unit) := by
      rw [abs_le] at c4 ⊢
      rw [← degrees_sub]
      constructor
      · have := degrees_mono c4.1
        have e : ∀ x, degrees (-x) = -degrees x := fun x => by unfold degrees; ring
        rwa [e] at this
      · exact degrees_mono c4.2
    have := abs_add_le (lib.atan2deg (rnd (Real.sqrt (flAxes rnd sampling n s z 2)))
      (rnd (Real.sqrt (flAxes rnd sampling n s z j))) - degrees A) (degrees A - degrees B)
    rw [sub_add_sub_cancel] at this
    linarith
  refine ⟨_, _, _, _, errors_angle hQ hs hf sampling cl h0 h1, by
    simp only [flErrors, hfl, bind, Except.bind, flAngularErrors], main 0 (by decide), main 1 (by decide)⟩

/-- Four points of a flat bed of thirty by twenty metres, with the rounding of IEEE and a correctly rounded
library: the larger error is computed to within a billionth of a degree. -/
example : ∃ (svd' : FlSvd) (svd : SvdFn) (f : Fit 4) (t : Fin 3 → SumTree 4), svd.Valid ∧
    init svd (Witness.points 1 ![30, 20, 0]) none none = .ok (some f) ∧
    ∃ x y x' y', errorsAt Spec.quantiles2 f false 0.95 = some (x, y) ∧
      flErrors round53 (Spec.correctlyRounded round53) svd' t (Witness.points 1 ![30, 20, 0]) false 19 =
        .ok (x', y') ∧ |y' - degrees y| ≤ 1 / 10 ^ 9 := by
  obtain ⟨svd', hs'⟩ := exists_stable round53_contract
  obtain ⟨svd, f, hs, hf, -, hfs⟩ := Witness.exists_fit 1 (by simp) ![30, 20, 0] (by simp) (by simp) (by simp; norm_num)
  have hu0 := unit_pos
  have hq : Spec.quantiles2.f 0.95 2 (4 - 2) = 19 := by
    simp only [Spec.quantiles2, Spec.fisher2]
    rw [show (-(2 / ((4 - 2 : ℕ) : ℝ))) = -1 by norm_num, Real.rpow_neg_one]
    norm_num
  have hk0 : 0 ≤ Spec.relativeWidth Spec.quantiles2 false 4 0.95 := by
    rw [Spec.relativeWidth, hq]
    simp
    positivity
  have hk : Spec.relativeWidth Spec.quantiles2 false 4 0.95 ≤ 35 := by
    rw [Spec.relativeWidth, hq]
    have : (13 : ℝ) / 10 ≤ Real.sqrt 2 := Real.le_sqrt_of_sq_le (by norm_num)
    have e : ((4 : ℕ) : ℝ) - 2 = 2 := by norm_num
    rw [e]
    simp only [Bool.false_eq_true, if_false]
    rw [div_le_iff₀ (by linarith)]
    nlinarith
  have h12 : Real.sqrt (3 * (4 : ℕ)) ≤ 4 := by
    rw [Real.sqrt_le_left (by norm_num)]
    norm_num
  have h12' : 0 ≤ Real.sqrt (3 * (4 : ℕ)) := Real.sqrt_nonneg _
  have hu : unit ≤ 1 / 10 ^ 15 := unit_small
  have hE : Spec.roundingError 4 3 15 unit ≤ 1400 * unit := by
    unfold Spec.roundingError
    push_cast at h12 h12' ⊢
    nlinarith [mul_le_mul_of_nonneg_right h12 hu0.le]
  have h := C225_errors round53 round53_contract (Spec.correctlyRounded round53) (180 * unit)
    (correctlyRounded_accurate round53_contract) svd' unit hu0.le (hs' 4 (by norm_num)) (by norm_num)
    (fun _ => .node (.node (.node (.leaf 0) (.leaf 1)) (.leaf 2)) (.leaf 3))
    (fun _ => by simp only [SumTree.leaves]; decide) (Witness.points 1 ![30, 20, 0]) 15 (by
      intro k j
      fin_cases k <;> fin_cases j <;>
        simp [Witness.points, Witness.frame, Matrix.vecMul_diagonal] <;> norm_num [abs_le]) 3
    (fun _ => by simp [SumTree.depth]) (by norm_num) Spec.quantiles2 Spec.quantiles2_ok svd hs f hf false 0.95
    (by norm_num) (by norm_num) 19 0 (by rw [hq]; simp) (by norm_num) (2 / 10 ^ 12) (by
      rw [hfs]
      simp only [Matrix.cons_val_zero]
      nlinarith) (by rw [hfs]; simp; norm_num) (by rw [hfs]; simp; linarith)
  obtain ⟨x, y, x', y', e1, e2, -, e4⟩ := h
  refine ⟨svd', svd, f, _, hs, hf, x, y, x', y', e1, e2, e4.trans ?_⟩
  have h6 : Real.sqrt (1 + Spec.relativeWidth Spec.quantiles2 false 4 0.95) ≤ 6 := by
    rw [Real.sqrt_le_left (by norm_num)]
    linarith
  have hd : ∀ x, 0 ≤ x → degrees x ≤ 60 * x := by
    intro x hx
    unfold degrees
    rw [div_le_iff₀ Real.pi_pos]
    nlinarith [Real.pi_gt_three]
  have hs1 : f.s 1 = 20 := by rw [hfs]; simp
  have hb : 5 * Real.sqrt (1 + Spec.relativeWidth Spec.quantiles2 false 4 0.95) * (2 / 10 ^ 12) / (f.s 1 - 2 / 10 ^ 12)
      ≤ 4 / 10 ^ 12 := by
    rw [hs1, div_le_iff₀ (by norm_num)]
    linarith
  have hb0 : 0 ≤ 5 * Real.sqrt (1 + Spec.relativeWidth Spec.quantiles2 false 4 0.95) * (2 / 10 ^ 12) / (f.s 1 - 2 / 10 ^ 12) := by
    have : 0 ≤ f.s 1 - 2 / 10 ^ 12 := by rw [hs1]; norm_num
    positivity
  refine (add_le_add_right (hd _ (add_nonneg hb0 (mul_nonneg (by norm_num) hu0.le))) _).trans ?_
  norm_num at hb hu ⊢
  linarith

end Attitude.Props
