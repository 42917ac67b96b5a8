import Verif.Model.RoundedTurn
import Verif.Props.Rounding

/-! # Reducing angles in floating-point arithmetic: C285 -/

namespace Attitude.Props

open Attitude Rounding RoundedTurn

namespace Spec

/-- `fixAngle(a)` returns `v`, after however many turns of its loops. -/
def FixReturns (rnd : ℝ → ℝ) (a v : ℝ) : Prop := ∃ k, flFixAngle rnd k a = some v

end Spec

lemma mathPi_bounds : 3.14 < mathPi ∧ mathPi < 3.15 := by
  unfold mathPi; constructor <;> norm_num

lemma round_twoPi : round53 (2 * mathPi) = 2 * mathPi := by
  have := roundPos_of (x := 2 * mathPi) (u := 2 ^ (-50 : ℤ)) 2
    (by have := mathPi_bounds.1; norm_num; linarith)
    (by have := mathPi_bounds.2; norm_num; linarith) (by norm_num) 7074237752028440
    (by unfold mathPi; norm_num) (by unfold mathPi; norm_num)
  rw [this]
  unfold mathPi
  norm_num

lemma round_pi : round53 mathPi = mathPi := by
  have := roundPos_of (x := mathPi) (u := 2 ^ (-51 : ℤ)) 1
    (by have := mathPi_bounds.1; norm_num; linarith)
    (by have := mathPi_bounds.2; norm_num; linarith) (by norm_num) 7074237752028440
    (by unfold mathPi; norm_num) (by unfold mathPi; norm_num)
  rw [this]
  unfold mathPi
  norm_num

lemma round_neg_pi : round53 (-mathPi) = -mathPi := by rw [round53_neg, round_pi]

/-- Below 2^56 rounding changes a number by at most 4. -/
lemma round_near {x : ℝ} (hx : |x| < 2 ^ 56) : |round53 x - x| ≤ 4 := by
  have pos : ∀ y : ℝ, 0 < y → y < 2 ^ 56 → |roundPos y - y| ≤ 4 := by
    intro y hy h
    refine (roundPos_spec hy).2.2.trans ?_
    have hl : Int.log 2 y < 56 :=
      (Int.lt_zpow_iff_log_lt (b := 2) (R := ℝ) (by norm_num) hy (x := 56)).1 (by exact_mod_cast h)
    have : (2 : ℝ) ^ (Int.log 2 y - 52) ≤ 2 ^ (3 : ℤ) :=
      zpow_le_zpow_right₀ (by norm_num) (by omega)
    norm_num at this ⊢
    linarith
  rcases lt_trichotomy 0 x with h | h | h
  · rw [abs_of_pos h] at hx
    rw [round53, if_pos h]
    exact pos x h hx
  · rw [← h]; simp [round53]
  · rw [abs_of_neg h] at hx
    have := pos (-x) (by linarith) hx
    rw [round53, if_neg (by linarith), if_pos h]
    rw [abs_sub_comm]
    convert this using 2
    ring

lemma flBelow_neg (k : ℕ) : ∀ a, flBelow round53 k (-a) = (flAbove round53 k a).map Neg.neg := by
  induction k with
  | zero =>
    intro a
    simp only [flBelow, flAbove, neg_lt_neg_iff, gt_iff_lt]
    split <;> rfl
  | succ k ih =>
    intro a
    simp only [flBelow, flAbove, neg_lt_neg_iff, gt_iff_lt]
    split
    · rw [← ih]
      congr 1
      rw [← round53_neg]
      congr 1
      ring
    · rfl

lemma flAbove_more {k : ℕ} : ∀ {a v}, flAbove round53 k a = some v → ∀ m, k ≤ m →
    flAbove round53 m a = some v := by
  induction k with
  | zero =>
    intro a v h m _
    simp only [flAbove] at h
    split at h
    · cases h
    · cases m <;> simp_all [flAbove]
  | succ k ih =>
    intro a v h m hm
    obtain ⟨m, rfl⟩ : ∃ m', m = m' + 1 := ⟨m - 1, by omega⟩
    simp only [flAbove] at h ⊢
    split at h
    · rename_i ha
      rw [if_pos ha]
      exact ih h m (by omega)
    · rename_i ha
      rw [if_neg ha]
      exact h

/-- One turn of the loop, from a number that is not too large. -/
lemma turn {a : ℝ} (ha : a > mathPi) (hb : a ≤ 2 ^ 56) :
    round53 (a - round53 (2 * mathPi)) ≤ a - 2 ∧ -mathPi ≤ round53 (a - round53 (2 * mathPi)) := by
  obtain ⟨p1, p2⟩ := mathPi_bounds
  rw [round_twoPi]
  constructor
  · have := (abs_le.1 (round_near (x := a - 2 * mathPi) (abs_lt.2 ⟨by linarith, by linarith⟩))).2
    linarith
  · rw [← round_neg_pi]
    exact round53_contract.mono (by linarith)

lemma flAbove_ends (n : ℕ) : ∀ a : ℝ, a ≤ 2 ^ 56 → a ≤ 2 * n → ∃ k v, flAbove round53 k a = some v := by
  obtain ⟨p1, p2⟩ := mathPi_bounds
  induction n with
  | zero =>
    intro a _ h
    refine ⟨0, a, ?_⟩
    simp only [Nat.cast_zero, mul_zero] at h
    rw [flAbove, if_neg (by linarith)]
  | succ n ih =>
    intro a hb h
    by_cases ha : a > mathPi
    · obtain ⟨t1, t2⟩ := turn ha hb
      push_cast at h
      obtain ⟨k, v, hk⟩ := ih _ (by linarith) (by linarith : _ ≤ 2 * (n : ℝ))
      exact ⟨k + 1, v, by rw [flAbove, if_pos ha, hk]⟩
    · exact ⟨0, a, by rw [flAbove, if_neg ha]⟩

/-- Where the first loop ends. -/
lemma flAbove_range (k : ℕ) : ∀ a v : ℝ, flAbove round53 k a = some v →
    v ≤ mathPi ∧ (a ≤ mathPi → v = a) ∧ (-mathPi ≤ a → -mathPi ≤ v) := by
  induction k with
  | zero =>
    intro a v h
    simp only [flAbove] at h
    split at h
    · cases h
    · cases h
      exact ⟨by linarith, fun _ => rfl, fun h => h⟩
  | succ k ih =>
    intro a v h
    simp only [flAbove] at h
    split at h
    · rename_i ha
      obtain ⟨h1, -, h3⟩ := ih _ _ h
      refine ⟨h1, fun h => by linarith, fun _ => h3 ?_⟩
      rw [round_twoPi, ← round_neg_pi]
      exact round53_contract.mono (by linarith)
    · cases h
      exact ⟨by linarith, fun _ => rfl, fun h => h⟩

/-- The second loop does nothing after the first one has. -/
lemma flBelow_id {v : ℝ} (h : -mathPi ≤ v) (k : ℕ) : flBelow round53 k v = some v := by
  cases k <;> rw [flBelow, if_neg (by linarith)]

/-- What `fixAngle` returns by the first loop alone: for other numbers by symmetry. -/
lemma fixReturns_above {a : ℝ} (ha : -mathPi ≤ a) (v : ℝ) :
    Spec.FixReturns round53 a v ↔ ∃ k, flAbove round53 k a = some v := by
  constructor
  · rintro ⟨k, h⟩
    rw [flFixAngle, Option.bind_eq_some_iff] at h
    obtain ⟨w, h1, h2⟩ := h
    rw [flBelow_id ((flAbove_range k a w h1).2.2 ha)] at h2
    cases h2
    exact ⟨k, h1⟩
  · rintro ⟨k, h⟩
    exact ⟨k, by rw [flFixAngle, h, Option.bind_some,
      flBelow_id ((flAbove_range k a v h).2.2 ha)]⟩

lemma flAbove_id {a : ℝ} (h : a ≤ mathPi) (k : ℕ) : flAbove round53 k a = some a := by
  cases k <;> rw [flAbove, if_neg (by linarith)]

lemma fixReturns_neg {a : ℝ} (ha : a ≤ mathPi) (v : ℝ) :
    Spec.FixReturns round53 a v ↔ ∃ k, flAbove round53 k (-a) = some (-v) := by
  unfold Spec.FixReturns flFixAngle
  simp only [flAbove_id ha, Option.bind_some]
  have : ∀ k, flBelow round53 k a = (flAbove round53 k (-a)).map Neg.neg := fun k => by
    rw [← flBelow_neg, neg_neg]
  simp only [this, Option.map_eq_some_iff]
  constructor
  · rintro ⟨k, w, h, rfl⟩
    exact ⟨k, by rw [neg_neg]; exact h⟩
  · rintro ⟨k, h⟩
    exact ⟨k, -v, h, neg_neg v⟩

/-- The numbers that are returned are between -Math.PI and Math.PI. -/
theorem C285_range (a v : ℝ) (h : Spec.FixReturns round53 a v) : -mathPi ≤ v ∧ v ≤ mathPi := by
  obtain ⟨p1, p2⟩ := mathPi_bounds
  rcases le_total (-mathPi) a with ha | ha
  · obtain ⟨k, hk⟩ := (fixReturns_above ha v).1 h
    obtain ⟨h1, -, h3⟩ := flAbove_range k a v hk
    exact ⟨h3 ha, h1⟩
  · obtain ⟨k, hk⟩ := (fixReturns_neg (by linarith) v).1 h
    obtain ⟨h1, -, h3⟩ := flAbove_range k (-a) (-v) hk
    exact ⟨by linarith, by linarith [h3 (by linarith)]⟩

/-- A rounded number above 2^56 is not changed by a turn. -/
lemma stuck {a : ℝ} (hrep : round53 a = a) (ha : 2 ^ 56 < a) :
    round53 (a - round53 (2 * mathPi)) = a := by
  obtain ⟨p1, p2⟩ := mathPi_bounds
  rw [round_twoPi]
  have ha0 : 0 < a := by
    have : (0 : ℝ) < 2 ^ 56 := by positivity
    linarith
  obtain ⟨b1, b2⟩ := binade ha0
  set e := Int.log 2 a with he
  have he56 : 56 ≤ e := (Int.zpow_le_iff_le_log (b := 2) (R := ℝ) (by norm_num) ha0).1
    (by exact_mod_cast ha.le)
  have hu0 : (0 : ℝ) < 2 ^ (e - 52) := by positivity
  have hu16 : (16 : ℝ) ≤ 2 ^ (e - 52) := by
    calc (16 : ℝ) = 2 ^ (4 : ℤ) := by norm_num
      _ ≤ 2 ^ (e - 52) := zpow_le_zpow_right₀ (by norm_num) (by omega)
  obtain ⟨N, hN⟩ : ∃ N : ℤ, a = N * 2 ^ (e - 52) := by
    rw [round53, if_pos ha0, roundPos] at hrep
    exact ⟨_, hrep.symm⟩
  rcases le_or_gt ((2 : ℝ) ^ e) (a - 2 * mathPi) with hx | hx
  · have hN' : a / 2 ^ (e - 52) = N := by
      rw [hN]; field_simp
    have hq : 2 * mathPi / 2 ^ (e - 52) ≤ 1 / 2 := by
      rw [div_le_iff₀ hu0]; linarith
    have hq0 : 0 < 2 * mathPi / 2 ^ (e - 52) := by positivity
    rw [roundPos_of (x := a - 2 * mathPi) e hx (by linarith) rfl N
      (by rw [sub_div, hN']; linarith) (by rw [sub_div, hN']; linarith)]
    exact hN.symm
  · -- `a` is the power of two itself
    have e1 : (2 : ℝ) ^ e = 2 ^ 52 * 2 ^ (e - 52) := by
      rw [← zpow_natCast, ← zpow_add₀ (by norm_num)]
      congr 1
      push_cast
      ring
    have hNe : N = 2 ^ 52 := by
      have h1 : ((2 : ℤ) ^ 52 : ℝ) ≤ N := by
        have : (2 : ℝ) ^ 52 * 2 ^ (e - 52) ≤ N * 2 ^ (e - 52) := by rw [← e1, ← hN]; exact b1
        exact_mod_cast le_of_mul_le_mul_right this hu0
      have h2 : (N : ℝ) < 2 ^ 52 + 1 := by
        have : (N : ℝ) * 2 ^ (e - 52) < (2 ^ 52 + 1) * 2 ^ (e - 52) := by
          rw [← hN, add_mul, ← e1]; linarith
        exact lt_of_mul_lt_mul_right this hu0.le
      have h1' : (2 : ℤ) ^ 52 ≤ N := by exact_mod_cast h1
      have h2' : N < 2 ^ 52 + 1 := by exact_mod_cast h2
      omega
    have hae : a = 2 ^ e := by rw [hN, hNe, e1]; push_cast; ring
    have he57 : 57 ≤ e := by
      have : (2 : ℝ) ^ (56 : ℤ) < 2 ^ e := by rw [← hae]; exact_mod_cast ha
      have := (zpow_lt_zpow_iff_right₀ (by norm_num : (1 : ℝ) < 2)).1 this
      omega
    have hv16 : (16 : ℝ) ≤ 2 ^ (e - 1 - 52) := by
      calc (16 : ℝ) = 2 ^ (4 : ℤ) := by norm_num
        _ ≤ 2 ^ (e - 1 - 52) := zpow_le_zpow_right₀ (by norm_num) (by omega)
    have hv0 : (0 : ℝ) < 2 ^ (e - 1 - 52) := by positivity
    have e2 : (2 : ℝ) ^ e = 2 ^ 53 * 2 ^ (e - 1 - 52) := by
      rw [← zpow_natCast, ← zpow_add₀ (by norm_num)]
      congr 1
      push_cast
      ring
    have e3 : (2 : ℝ) ^ e = 2 * 2 ^ (e - 1) := by
      rw [mul_comm, ← zpow_add_one₀ (by norm_num)]
      congr 1
      ring
    have hdiv : a / 2 ^ (e - 1 - 52) = 2 ^ 53 := by
      rw [hae, e2]; field_simp
    have hq : 2 * mathPi / 2 ^ (e - 1 - 52) ≤ 1 / 2 := by
      rw [div_le_iff₀ hv0]; linarith
    have hq0 : 0 < 2 * mathPi / 2 ^ (e - 1 - 52) := by positivity
    have hbig : (100 : ℝ) ≤ 2 ^ (e - 1) := by
      calc (100 : ℝ) ≤ 2 ^ (7 : ℤ) := by norm_num
        _ ≤ 2 ^ (e - 1) := zpow_le_zpow_right₀ (by norm_num) (by omega)
    rw [roundPos_of (x := a - 2 * mathPi) (e - 1) (by rw [hae, e3]; linarith)
      (by rw [sub_add_cancel]; exact hx) rfl (2 ^ 53)
      (by rw [sub_div, hdiv]; push_cast; linarith) (by rw [sub_div, hdiv]; push_cast; linarith)]
    rw [hae, e2]
    push_cast
    ring

lemma stuck_forever {a : ℝ} (hrep : round53 a = a) (ha : 2 ^ 56 < a) (k : ℕ) :
    flAbove round53 k a = none := by
  obtain ⟨p1, p2⟩ := mathPi_bounds
  have hp : a > mathPi := by
    have : (100 : ℝ) < 2 ^ 56 := by norm_num
    linarith
  induction k with
  | zero => rw [flAbove, if_pos hp]
  | succ k ih => rw [flAbove, if_pos hp, stuck hrep ha, ih]

/-- It returns exactly for numbers of at most 2^56; for all larger ones (the argument is rounded)
it does not end. -/
theorem C285_returns_iff_false (a : ℝ) (hrep : round53 a = a) :
    (∃ v, Spec.FixReturns round53 a v) ↔ |a| ≤ 2 ^ 56 := by
  obtain ⟨p1, p2⟩ := mathPi_bounds
  have big : (100 : ℝ) < 2 ^ 56 := by norm_num
  have pos : ∀ b : ℝ, round53 b = b → ((∃ v k, flAbove round53 k b = some v) ↔ b ≤ 2 ^ 56) := by
    intro b hb
    constructor
    · rintro ⟨v, k, h⟩
      by_contra hlt
      rw [stuck_forever hb (not_le.1 hlt)] at h
      cases h
    · intro h
      obtain ⟨n, hn⟩ := exists_nat_ge (b / 2)
      obtain ⟨k, v, hk⟩ := flAbove_ends n b h (by linarith)
      exact ⟨v, k, hk⟩
  rcases le_total 0 a with ha | ha
  · simp only [fixReturns_above (show -mathPi ≤ a by linarith)]
    rw [pos a hrep, abs_of_nonneg ha]
  · simp only [fixReturns_neg (show a ≤ mathPi by linarith)]
    rw [abs_of_nonpos ha, ← pos (-a) (by rw [round53_neg, hrep])]
    constructor
    · rintro ⟨v, k, h⟩; exact ⟨-v, k, h⟩
    · rintro ⟨v, k, h⟩; exact ⟨-v, k, by rw [neg_neg]; exact h⟩

/-- 10^20 is such a number, and 1000 is not. -/
example : (¬ ∃ v, Spec.FixReturns round53 (10 ^ 20) v) ∧ ∃ v, Spec.FixReturns round53 1000 v := by
  constructor
  · rw [C285_returns_iff_false]
    · norm_num
    · have := roundPos_of (x := 10 ^ 20) (u := 2 ^ (14 : ℤ)) 66 (by norm_num) (by norm_num)
        (by norm_num) 6103515625000000 (by norm_num) (by norm_num)
      rw [this]
      norm_num
  · rw [C285_returns_iff_false]
    · norm_num
    · have := round53_int 1000 (by norm_num)
      exact_mod_cast this

lemma flAbove_turns (k : ℕ) : ∀ a v : ℝ, round53 a = a → -mathPi ≤ a → flAbove round53 k a = some v →
    ∃ m : ℕ, |v - (a - m * (2 * mathPi))| ≤ m * (unit * |a|) := by
  obtain ⟨p1, p2⟩ := mathPi_bounds
  induction k with
  | zero =>
    intro a v _ _ h
    simp only [flAbove] at h
    split at h
    · cases h
    · cases h
      exact ⟨0, by simp⟩
  | succ k ih =>
    intro a v hrep hlow h
    simp only [flAbove] at h
    split at h
    · rename_i ha
      rw [round_twoPi] at h
      set b := round53 (a - 2 * mathPi) with hb
      have hx : |a - 2 * mathPi| ≤ |a| := by
        rw [abs_of_pos (by linarith : 0 < a), abs_le]
        constructor <;> linarith
      have hb1 : -mathPi ≤ b := by
        rw [hb, ← round_neg_pi]
        exact round53_contract.mono (by linarith)
      have hb2 : b ≤ a := by
        rw [hb]
        conv_rhs => rw [← hrep]
        exact round53_contract.mono (by linarith)
      have hbabs : |b| ≤ |a| := by
        rw [abs_of_pos (by linarith : 0 < a), abs_le]
        constructor <;> linarith
      obtain ⟨m, hm⟩ := ih b v (by rw [hb, round53_contract.idem]) hb1 h
      have hr := round53_contract.rel (a - 2 * mathPi)
      rw [← hb] at hr
      have hunit : (0 : ℝ) ≤ unit := by unfold unit; positivity
      have h1 : unit * |a - 2 * mathPi| ≤ unit * |a| := mul_le_mul_of_nonneg_left hx hunit
      have h2 : (m : ℝ) * (unit * |b|) ≤ m * (unit * |a|) :=
        mul_le_mul_of_nonneg_left (mul_le_mul_of_nonneg_left hbabs hunit) (Nat.cast_nonneg m)
      refine ⟨m + 1, ?_⟩
      push_cast
      rw [show v - (a - (m + 1) * (2 * mathPi))
        = (v - (b - m * (2 * mathPi))) + (b - (a - 2 * mathPi)) by ring]
      refine (abs_add_le _ _).trans ?_
      linarith
    · cases h
      exact ⟨0, by simp⟩

/-- The number that is returned is the argument less some turns of `2 * Math.PI`, but for the
rounding of that many subtractions. -/
theorem C285_turns (a v : ℝ) (hrep : round53 a = a) (h : Spec.FixReturns round53 a v) :
    ∃ m : ℤ, |v - (a - m * (2 * mathPi))| ≤ |(m : ℝ)| * (unit * |a|) := by
  obtain ⟨p1, p2⟩ := mathPi_bounds
  rcases le_total (-mathPi) a with ha | ha
  · obtain ⟨k, hk⟩ := (fixReturns_above ha v).1 h
    obtain ⟨m, hm⟩ := flAbove_turns k a v hrep ha hk
    exact ⟨m, by simpa using hm⟩
  · obtain ⟨k, hk⟩ := (fixReturns_neg (by linarith) v).1 h
    obtain ⟨m, hm⟩ := flAbove_turns k (-a) (-v) (by rw [round53_neg, hrep]) (by linarith) hk
    refine ⟨-m, ?_⟩
    rw [abs_neg] at hm
    rw [show -v - (-a - m * (2 * mathPi)) = -(v - (a - ((-m : ℤ) : ℝ) * (2 * mathPi))) by
      push_cast; ring, abs_neg] at hm
    simpa using hm

/-- The hypotheses are met for 1000, which is reduced. -/
example : ∃ v, v ≤ mathPi ∧ ∃ m : ℤ, |v - (1000 - m * (2 * mathPi))| ≤ |(m : ℝ)| * (unit * |1000|) := by
  have hrep : round53 1000 = 1000 := by exact_mod_cast round53_int 1000 (by norm_num)
  obtain ⟨v, hv⟩ := (C285_returns_iff_false 1000 hrep).2 (by norm_num)
  exact ⟨v, (C285_range _ _ hv).2, C285_turns _ _ hrep hv⟩

/-- Numbers between -Math.PI and Math.PI are returned as they are. -/
theorem C285_same (a : ℝ) (h1 : -mathPi ≤ a) (h2 : a ≤ mathPi) (v : ℝ) :
    Spec.FixReturns round53 a v ↔ v = a := by
  rw [fixReturns_above h1]
  simp only [flAbove_id h2, Option.some.injEq]
  constructor
  · rintro ⟨_, h⟩; exact h.symm
  · rintro rfl; exact ⟨0, rfl⟩

example : Spec.FixReturns round53 1 1 := by
  obtain ⟨p1, p2⟩ := mathPi_bounds
  exact (C285_same 1 (by linarith) (by linarith) 1).2 rfl

end Attitude.Props
