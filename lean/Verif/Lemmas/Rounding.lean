import Mathlib.Analysis.Real.Sqrt
import Mathlib.Tactic.FieldSimp
import Mathlib.Tactic.Linarith
import Mathlib.Tactic.Positivity
import Mathlib.Tactic.NormNum
import Mathlib.Tactic.Ring
import Verif.Model.Rounding

/-! Rounding to 53 bits meets its contract. -/

namespace Attitude.Rounding

open Attitude

lemma unit_pos : 0 < unit := by unfold unit; positivity

/-- The binade of a positive number and its spacing. -/
lemma binade {x : ℝ} (hx : 0 < x) : (2 : ℝ) ^ (Int.log 2 x) ≤ x ∧ x < 2 ^ (Int.log 2 x + 1) := by
  constructor
  · exact_mod_cast Int.zpow_log_le_self (b := 2) (by norm_num) hx
  · exact_mod_cast Int.lt_zpow_succ_log_self (b := 2) (by norm_num) x

lemma zpow_split (e : ℤ) (k : ℕ) : (2 : ℝ) ^ e = 2 ^ k * 2 ^ (e - k) := by
  rw [← zpow_natCast, ← zpow_add₀ (by norm_num)]
  congr 1
  ring

/-- A number rounds into its binade, and by at most half of its spacing. -/
lemma roundPos_spec {x : ℝ} (hx : 0 < x) :
    (2 : ℝ) ^ (Int.log 2 x) ≤ roundPos x ∧ roundPos x ≤ 2 ^ (Int.log 2 x + 1) ∧
      |roundPos x - x| ≤ 2 ^ (Int.log 2 x - 52) / 2 := by
  obtain ⟨h1, h2⟩ := binade hx
  set e := Int.log 2 x with he
  have hu : (0 : ℝ) < 2 ^ (e - 52) := by positivity
  have e1 : (2 : ℝ) ^ e = 2 ^ 52 * 2 ^ (e - 52) := by simpa using zpow_split e 52
  have e2 : (2 : ℝ) ^ (e + 1) = 2 ^ 53 * 2 ^ (e - 52) := by
    rw [zpow_add₀ (by norm_num), e1]; norm_num; ring
  have hr : roundPos x = (⌊x / 2 ^ (e - 52) + 1 / 2⌋ : ℝ) * 2 ^ (e - 52) := rfl
  set u := (2 : ℝ) ^ (e - 52) with hud
  have hq1 : (2 : ℝ) ^ 52 ≤ x / u := by rw [le_div_iff₀ hu]; linarith
  have hq2 : x / u < 2 ^ 53 := by rw [div_lt_iff₀ hu]; linarith
  have f1 : ((2 ^ 52 : ℤ) : ℝ) ≤ (⌊x / u + 1 / 2⌋ : ℝ) := by
    exact_mod_cast Int.le_floor.2 (by push_cast; linarith)
  have f2 : (⌊x / u + 1 / 2⌋ : ℝ) ≤ ((2 ^ 53 : ℤ) : ℝ) := by
    have : ⌊x / u + 1 / 2⌋ < 2 ^ 53 + 1 := Int.floor_lt.2 (by push_cast; linarith)
    exact_mod_cast Int.lt_add_one_iff.1 this
  push_cast at f1 f2
  have g1 := Int.floor_le (x / u + 1 / 2)
  have g2 := Int.lt_floor_add_one (x / u + 1 / 2)
  have hxu : x / u * u = x := div_mul_cancel₀ _ hu.ne'
  refine ⟨?_, ?_, ?_⟩
  · rw [hr, e1]; exact mul_le_mul_of_nonneg_right (by norm_num; exact f1) hu.le
  · rw [hr, e2]; exact mul_le_mul_of_nonneg_right (by norm_num; exact f2) hu.le
  · rw [hr, abs_le]
    constructor <;> nlinarith

lemma roundPos_pos {x : ℝ} (hx : 0 < x) : 0 < roundPos x :=
  lt_of_lt_of_le (by positivity) (roundPos_spec hx).1

lemma roundPos_mono {x y : ℝ} (hx : 0 < x) (hxy : x ≤ y) : roundPos x ≤ roundPos y := by
  have hy : 0 < y := hx.trans_le hxy
  have hlog : Int.log 2 x ≤ Int.log 2 y := Int.log_mono_right hx hxy
  rcases hlog.eq_or_lt with h | h
  · unfold roundPos
    rw [h]
    apply mul_le_mul_of_nonneg_right _ (by positivity)
    have : x / (2 : ℝ) ^ (Int.log 2 y - 52) ≤ y / (2 : ℝ) ^ (Int.log 2 y - 52) :=
      div_le_div_of_nonneg_right hxy (by positivity)
    exact_mod_cast Int.floor_le_floor (by linarith)
  · calc roundPos x ≤ 2 ^ (Int.log 2 x + 1) := (roundPos_spec hx).2.1
      _ ≤ 2 ^ (Int.log 2 y) := zpow_le_zpow_right₀ (by norm_num) h
      _ ≤ roundPos y := (roundPos_spec hy).1

lemma round53_mono : Monotone round53 := by
  intro x y hxy
  unfold round53
  rcases lt_trichotomy 0 x with hx | hx | hx
  · rw [if_pos hx, if_pos (hx.trans_le hxy)]
    exact roundPos_mono hx hxy
  · subst hx
    simp only [lt_irrefl, if_false]
    split_ifs with h1 h2
    · exact (roundPos_pos h1).le
    · exact absurd hxy (not_le.2 h2)
    · exact le_rfl
  · rw [if_neg hx.not_gt, if_pos hx]
    have hx' := roundPos_pos (neg_pos.2 hx)
    split_ifs with h1 h2
    · have := roundPos_pos h1; linarith
    · have := roundPos_mono (neg_pos.2 h2) (neg_le_neg hxy); linarith
    · linarith

lemma round53_neg (x : ℝ) : round53 (-x) = -round53 x := by
  unfold round53
  rcases lt_trichotomy 0 x with hx | hx | hx
  · rw [if_neg (by linarith), if_pos (by linarith), if_pos hx, neg_neg]
  · subst hx; simp
  · rw [if_pos (by linarith), if_neg (by linarith), if_pos hx, neg_neg]

lemma roundPos_rel {x : ℝ} (hx : 0 < x) : |roundPos x - x| ≤ unit * x := by
  obtain ⟨-, -, h⟩ := roundPos_spec hx
  refine h.trans ?_
  have e1 : (2 : ℝ) ^ (Int.log 2 x) = 2 ^ 52 * 2 ^ (Int.log 2 x - 52) := by
    simpa using zpow_split (Int.log 2 x) 52
  have h1 := (binade hx).1
  have hu : (0 : ℝ) < 2 ^ (Int.log 2 x - 52) := by positivity
  have : (2 : ℝ) ^ (Int.log 2 x - 52) / 2 = unit * 2 ^ (Int.log 2 x) := by
    rw [e1]; unfold unit; ring
  rw [this]
  exact mul_le_mul_of_nonneg_left h1 unit_pos.le

lemma round53_rel (x : ℝ) : |round53 x - x| ≤ unit * |x| := by
  rcases lt_trichotomy 0 x with hx | hx | hx
  · rw [abs_of_pos hx, round53, if_pos hx]; exact roundPos_rel hx
  · subst hx; simp [round53]
  · have := roundPos_rel (neg_pos.2 hx)
    rw [abs_of_neg hx, round53, if_neg hx.not_gt, if_pos hx,
      show -roundPos (-x) - x = -(roundPos (-x) - -x) by ring, abs_neg]
    exact this

/-- Multiples of the spacing are left alone. -/
lemma roundPos_multiple {x : ℝ} (k : ℤ) (h : x = k * 2 ^ (Int.log 2 x - 52)) :
    roundPos x = x := by
  have hu : (0 : ℝ) < 2 ^ (Int.log 2 x - 52) := by positivity
  unfold roundPos
  have e : x / 2 ^ (Int.log 2 x - 52) = k := by
    rw [div_eq_iff hu.ne']; exact h
  have f : ⌊(k : ℝ) + 1 / 2⌋ = k := by
    rw [Int.floor_eq_iff]
    constructor <;> linarith
  simp only [e, f]
  exact h.symm

lemma roundPos_int (k : ℤ) (h0 : 0 < k) (h : k ≤ 2 ^ 53) : roundPos (k : ℝ) = k := by
  have hk : (0 : ℝ) < k := by exact_mod_cast h0
  have hlog0 : 0 ≤ Int.log 2 (k : ℝ) := by
    apply (Int.zpow_le_iff_le_log (b := 2) (by norm_num) hk).1
    simp only [zpow_zero]
    exact_mod_cast h0
  rcases h.eq_or_lt with h' | h'
  · have hk53 : (k : ℝ) = (2 : ℝ) ^ (53 : ℤ) := by rw [h']; norm_num
    have hl : Int.log 2 (k : ℝ) = 53 := by
      rw [hk53]
      exact_mod_cast Int.log_zpow (R := ℝ) (b := 2) (by norm_num) 53
    apply roundPos_multiple (2 ^ 52)
    rw [hl, hk53]
    norm_num
  · have hl : Int.log 2 (k : ℝ) ≤ 52 := by
      have : Int.log 2 (k : ℝ) < 53 := by
        apply (Int.lt_zpow_iff_log_lt (b := 2) (by norm_num) hk).1
        exact_mod_cast h'
      omega
    obtain ⟨m, hm⟩ : ∃ m : ℕ, Int.log 2 (k : ℝ) - 52 = -(m : ℤ) := ⟨(52 - Int.log 2 (k : ℝ)).toNat, by omega⟩
    apply roundPos_multiple (k * 2 ^ m)
    rw [hm, zpow_neg, zpow_natCast]
    push_cast
    field_simp

lemma round53_int (k : ℤ) (h : |k| ≤ 2 ^ 53) : round53 (k : ℝ) = k := by
  rcases lt_trichotomy 0 k with hk | hk | hk
  · have : (0 : ℝ) < k := by exact_mod_cast hk
    rw [round53, if_pos this, roundPos_int k hk ((le_abs_self k).trans h)]
  · subst hk; simp [round53]
  · have h1 : (k : ℝ) < 0 := by exact_mod_cast hk
    have := roundPos_int (-k) (by omega) ((neg_le_abs k).trans h)
    rw [round53, if_neg h1.not_gt, if_pos h1]
    push_cast at this
    rw [this, neg_neg]

lemma roundPos_zpow (e : ℤ) : roundPos ((2 : ℝ) ^ e) = 2 ^ e := by
  have hl : Int.log 2 ((2 : ℝ) ^ e) = e := by exact_mod_cast Int.log_zpow (R := ℝ) (b := 2) (by norm_num) e
  apply roundPos_multiple (2 ^ 52)
  rw [hl]
  have := zpow_split e 52
  norm_num at this ⊢
  exact this

lemma roundPos_idem {x : ℝ} (hx : 0 < x) : roundPos (roundPos x) = roundPos x := by
  obtain ⟨h1, h2, -⟩ := roundPos_spec hx
  have hp := roundPos_pos hx
  rcases h2.eq_or_lt with h | h
  · rw [h, roundPos_zpow]
  · have l1 : Int.log 2 x ≤ Int.log 2 (roundPos x) := by
      apply (Int.zpow_le_iff_le_log (b := 2) (by norm_num) hp).1
      exact_mod_cast h1
    have l2 : Int.log 2 (roundPos x) < Int.log 2 x + 1 := by
      apply (Int.lt_zpow_iff_log_lt (b := 2) (by norm_num) hp).1
      exact_mod_cast h
    have hl : Int.log 2 (roundPos x) = Int.log 2 x := by omega
    apply roundPos_multiple ⌊x / (2 : ℝ) ^ (Int.log 2 x - 52) + 1 / 2⌋
    rw [hl]
    rfl

lemma round53_idem (x : ℝ) : round53 (round53 x) = round53 x := by
  have key : ∀ x, 0 < x → round53 (roundPos x) = roundPos x := fun x hx => by
    rw [round53, if_pos (roundPos_pos hx), roundPos_idem hx]
  rcases lt_trichotomy 0 x with hx | hx | hx
  · have : round53 x = roundPos x := by rw [round53, if_pos hx]
    rw [this, key x hx]
  · subst hx; simp [round53]
  · have : round53 x = -roundPos (-x) := by rw [round53, if_neg hx.not_gt, if_pos hx]
    rw [this, round53_neg, key _ (neg_pos.2 hx)]

/-- The square root of the rounded square of a number with 53 bits rounds to this number. -/
lemma roundPos_sqrt_sq {x : ℝ} (hx : 0 < x) (h : roundPos x = x) :
    roundPos (Real.sqrt (roundPos (x ^ 2))) = x := by
  obtain ⟨b1, b2⟩ := binade hx
  obtain ⟨e, he⟩ : ∃ e, e = Int.log 2 x := ⟨_, rfl⟩
  rw [← he] at b1 b2
  obtain ⟨m, hm⟩ : ∃ m : ℤ, x = m * 2 ^ (e - 52) := ⟨⌊x / 2 ^ (e - 52) + 1 / 2⌋, by
    rw [he]; exact h.symm⟩
  have hu : (0 : ℝ) < 2 ^ (e - 52) := by positivity
  have e1 : (2 : ℝ) ^ e = 2 ^ 52 * 2 ^ (e - 52) := by simpa using zpow_split e 52
  have e2 : (2 : ℝ) ^ (e + 1) = 2 ^ 53 * 2 ^ (e - 52) := by
    rw [zpow_add₀ (by norm_num), e1]; norm_num; ring
  rcases b1.eq_or_lt with hb | hb
  · have hsq : x ^ 2 = (2 : ℝ) ^ (2 * e) := by
      rw [← hb, ← zpow_natCast, ← zpow_mul]
      congr 1
      push_cast
      ring
    rw [hsq, roundPos_zpow, ← hsq, Real.sqrt_sq hx.le]
    exact h
  · set U := (2 : ℝ) ^ (e - 52) with hU
    have m1 : (2 : ℝ) ^ 52 < m := by
      rw [e1, hm] at hb
      exact lt_of_mul_lt_mul_right hb hu.le
    have m2 : (m : ℝ) < 2 ^ 53 := by
      rw [e2, hm] at b2
      exact lt_of_mul_lt_mul_right b2 hu.le
    have m1' : (2 : ℝ) ^ 52 + 1 ≤ m := by
      have : (2 ^ 52 : ℤ) < m := by exact_mod_cast m1
      exact_mod_cast Int.add_one_le_iff.2 this
    have m2' : (m : ℝ) + 1 ≤ 2 ^ 53 := by
      have : m < (2 ^ 53 : ℤ) := by exact_mod_cast m2
      exact_mod_cast Int.add_one_le_iff.2 this
    have hrel := roundPos_rel (show 0 < x ^ 2 by positivity)
    rw [abs_le] at hrel
    set y := roundPos (x ^ 2) with hy
    have hux : unit * x ^ 2 = x * U * (m / 2 ^ 53) := by
      rw [hm]; unfold unit; ring
    have hxU : 0 < x * U := by positivity
    have hlow : (x - U / 2) ^ 2 ≤ y := by
      have : x * U * (m / 2 ^ 53) ≤ x * U - U ^ 2 / 4 := by
        have e3 : x * U = m * U ^ 2 := by rw [hm]; ring
        rw [e3]
        have hU2 : 0 < U ^ 2 := by positivity
        have : (m : ℝ) * (m / 2 ^ 53) ≤ m - 1 / 4 := by
          have : (m : ℝ) / 2 ^ 53 ≤ 1 - 1 / 2 ^ 53 := by
            rw [div_le_iff₀ (by positivity)]
            norm_num
            norm_num at m2'
            linarith
          have hm0 : (0 : ℝ) ≤ m := by
            norm_num at m1'
            linarith
          have := mul_le_mul_of_nonneg_left this hm0
          norm_num at this m1' ⊢
          linarith
        nlinarith
      nlinarith
    have hup : y < (x + U / 2) ^ 2 := by
      have : x * U * (m / 2 ^ 53) < x * U := by
        have : (m : ℝ) / 2 ^ 53 < 1 := by
          rw [div_lt_one (by positivity)]; exact m2
        nlinarith
      nlinarith
    have hxU2 : 0 ≤ x - U / 2 := by
      rw [hm]
      norm_num at m1'
      nlinarith
    have z1 : x - U / 2 ≤ Real.sqrt y := Real.le_sqrt_of_sq_le hlow
    have z2 : Real.sqrt y < x + U / 2 := by
      rw [Real.sqrt_lt' (by positivity)]; exact hup
    have zb1 : (2 : ℝ) ^ e ≤ Real.sqrt y := by
      rw [e1]
      have : (2 : ℝ) ^ 52 * U + U ≤ x := by
        rw [hm]
        nlinarith
      linarith
    have zb2 : Real.sqrt y < (2 : ℝ) ^ (e + 1) := by
      rw [e2]
      have : x + U ≤ 2 ^ 53 * U := by
        rw [hm]
        nlinarith
      linarith
    have hz : 0 < Real.sqrt y := lt_of_lt_of_le (by positivity) zb1
    have hlog : Int.log 2 (Real.sqrt y) = e := by
      have l1 : e ≤ Int.log 2 (Real.sqrt y) := by
        apply (Int.zpow_le_iff_le_log (b := 2) (by norm_num) hz).1
        exact_mod_cast zb1
      have l2 : Int.log 2 (Real.sqrt y) < e + 1 := by
        apply (Int.lt_zpow_iff_log_lt (b := 2) (by norm_num) hz).1
        exact_mod_cast zb2
      omega
    unfold roundPos
    rw [hlog, ← hU]
    have f : ⌊Real.sqrt y / U + 1 / 2⌋ = m := by
      rw [Int.floor_eq_iff]
      have c1 : (m : ℝ) - 1 / 2 ≤ Real.sqrt y / U := by
        rw [le_div_iff₀ hu]
        rw [hm] at z1
        linarith
      have c2 : Real.sqrt y / U < m + 1 / 2 := by
        rw [div_lt_iff₀ hu]
        rw [hm] at z2
        linarith
      constructor <;> linarith
    simp only [f]
    exact hm.symm

/-- Rounding to 53 bits meets its contract. -/
theorem round53_contract : Contract round53 where
  mono := round53_mono
  idem := round53_idem
  int := round53_int
  rel := round53_rel
  sqrtSq := by
    have key : ∀ x, 0 < x → round53 x = x → round53 (Real.sqrt (round53 (x ^ 2))) = x := by
      intro x hx h
      rw [round53, if_pos hx] at h
      have h1 : round53 (x ^ 2) = roundPos (x ^ 2) := by rw [round53, if_pos (by positivity)]
      have h2 := roundPos_pos (show 0 < x ^ 2 by positivity)
      rw [h1, round53, if_pos (Real.sqrt_pos.2 h2)]
      exact roundPos_sqrt_sq hx h
    intro x h
    rcases lt_trichotomy 0 x with hx | hx | hx
    · rw [abs_of_pos hx]; exact key x hx h
    · subst hx; simp [round53]
    · rw [abs_of_neg hx, ← neg_sq]
      apply key (-x) (by linarith)
      rw [round53_neg, h]

end Attitude.Rounding
