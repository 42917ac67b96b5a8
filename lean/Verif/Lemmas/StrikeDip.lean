import Verif.Lemmas.Pca

/-! Helper facts about `strike_dip`. -/

namespace Attitude.Pca

open Attitude

/-- The upward normal of a plane with given strike and dip (degrees). -/
noncomputable def sdNormal (s d : ℝ) : Vec 3 :=
  ![Real.sin (radians d) * Real.cos (radians s), -(Real.sin (radians d) * Real.sin (radians s)),
    Real.cos (radians d)]

lemma radians_sub (x y : ℝ) : radians (x - y) = radians x - radians y := by unfold radians; ring
lemma radians_add (x y : ℝ) : radians (x + y) = radians x + radians y := by unfold radians; ring
lemma radians_90 : radians 90 = Real.pi / 2 := by unfold radians; ring
lemma radians_180 : radians 180 = Real.pi := by unfold radians; ring
lemma radians_360 : radians 360 = 2 * Real.pi := by unfold radians; ring

lemma sdNormal_add_360 (s d : ℝ) : sdNormal (s + 360) d = sdNormal s d := by
  simp only [sdNormal, radians_add, radians_360, Real.cos_add_two_pi, Real.sin_add_two_pi]

lemma sdNormal_flip (s d : ℝ) : sdNormal (s + 180) (180 - d) = -sdNormal s d := by
  simp only [sdNormal, radians_add, radians_sub, radians_180, Real.cos_add_pi, Real.sin_add_pi,
    Real.cos_pi_sub, Real.sin_pi_sub]
  funext i
  fin_cases i <;> simp

lemma abs_div_norm_le {v : Vec 3} (hv : v ≠ 0) : |v 2 / norm v| ≤ 1 := by
  have hp : 0 < norm v := (norm_pos_iff' v).2 hv
  have h2 : norm v ^ 2 = v 0 ^ 2 + v 1 ^ 2 + v 2 ^ 2 := by rw [norm_sq', Fin.sum_univ_three]
  rw [abs_div, abs_of_pos hp, div_le_one hp]
  exact abs_le_of_sq_le_sq (by nlinarith [sq_nonneg (v 0), sq_nonneg (v 1)]) hp.le

/-- The uncorrected strike and dip reproduce the vector itself. -/
lemma sdNormal_raw {v : Vec 3} (hv : v ≠ 0) :
    norm v • sdNormal (degrees (arctan2 (v 0) (v 1)) - 90) (degrees (Real.arccos (v 2 / norm v)))
      = v := by
  have hp : 0 < norm v := (norm_pos_iff' v).2 hv
  have h2 : norm v ^ 2 = v 0 ^ 2 + v 1 ^ 2 + v 2 ^ 2 := by rw [norm_sq', Fin.sum_univ_three]
  have habs := abs_le.1 (abs_div_norm_le hv)
  have hs : norm v * Real.sin (Real.arccos (v 2 / norm v)) = Real.sqrt (v 1 ^ 2 + v 0 ^ 2) := by
    rw [Real.sin_arccos]
    have : v 1 ^ 2 + v 0 ^ 2 = norm v ^ 2 * (1 - (v 2 / norm v) ^ 2) := by
      field_simp
      linarith
    rw [this, Real.sqrt_mul (sq_nonneg _), Real.sqrt_sq hp.le]
  have hc : norm v * Real.cos (Real.arccos (v 2 / norm v)) = v 2 := by
    rw [Real.cos_arccos habs.1 habs.2]; field_simp
  simp only [sdNormal, radians_sub, radians_degrees, radians_90, Real.cos_sub_pi_div_two,
    Real.sin_sub_pi_div_two]
  funext i
  fin_cases i
  · simp only [Pi.smul_apply, smul_eq_mul]
    show norm v * (Real.sin _ * Real.sin _) = v 0
    rw [← mul_assoc, hs, sqrt_mul_sin_arctan2]
  · simp only [Pi.smul_apply, smul_eq_mul]
    show norm v * -(Real.sin _ * -Real.cos _) = v 1
    rw [mul_neg, mul_neg, mul_neg, neg_neg, ← mul_assoc, hs, sqrt_mul_cos_arctan2]
  · simp only [Pi.smul_apply, smul_eq_mul]
    show norm v * Real.cos _ = v 2
    exact hc

lemma dip_gt_90_iff {v : Vec 3} (hv : v ≠ 0) :
    degrees (Real.arccos (v 2 / norm v)) > 90 ↔ v 2 < 0 := by
  have hp : 0 < norm v := (norm_pos_iff' v).2 hv
  have h90 : (90 : ℝ) = degrees (Real.pi / 2) := by
    unfold degrees; field_simp; norm_num
  rw [h90, gt_iff_lt, degrees_lt, ← not_le, Real.arccos_le_pi_div_two, not_le]
  constructor
  · intro h
    by_contra hc
    exact absurd (div_nonneg (not_lt.1 hc) hp.le) (not_le.2 h)
  · intro h
    exact div_neg_of_neg_of_pos h hp

/-- Everything about `strike_dip` in one place: it is defined for non-zero
vectors, its values are in range and they describe the upward version of the
vector. -/
lemma strikeDipOf_spec {v : Vec 3} (hv : v ≠ 0) :
    ∃ s d, strikeDipOf v = some (s, d) ∧ 0 ≤ s ∧ s < 360 ∧ 0 ≤ d ∧ d ≤ 90 ∧
      norm v • sdNormal s d = upward v := by
  have hp : norm v ≠ 0 := fun h => hv ((norm_eq_zero_iff v).1 h)
  have hraw := sdNormal_raw hv
  have hflip := dip_gt_90_iff hv
  set S := degrees (arctan2 (v 0) (v 1)) - 90 with hS
  set D := degrees (Real.arccos (v 2 / norm v)) with hD
  have hS1 : -270 < S := by
    have := degrees_lt.2 (neg_pi_lt_arctan2 (v 0) (v 1))
    have e : degrees (-Real.pi) = -180 := by unfold degrees; field_simp
    rw [e] at this
    linarith
  have hS2 : S ≤ 90 := by
    have := degrees_le.2 (arctan2_le_pi (v 0) (v 1))
    rw [degrees_pi] at this
    linarith
  have hD1 : 0 ≤ D := by
    have := degrees_le.2 (Real.arccos_nonneg (v 2 / norm v))
    have e : degrees 0 = 0 := by unfold degrees; ring
    rw [e] at this
    exact this
  have hD2 : D ≤ 180 := by
    have := degrees_le.2 (Real.arccos_le_pi (v 2 / norm v))
    rw [degrees_pi] at this
    exact this
  have hval : strikeDipOf v =
      some (let p := if D > 90 then (S + 180, 180 - D) else (S, D)
        (if p.1 < 0 then p.1 + 360 else p.1, p.2)) := by
    simp only [strikeDipOf, fdiv, hp, if_false, Option.bind_eq_bind, Option.bind_some]
    congr 1
  rw [hval]
  by_cases hd : D > 90
  · have hneg := hflip.1 hd
    simp only [hd, if_true]
    have hup : upward v = -v := by simp [upward, hneg]
    by_cases hs : S + 180 < 0
    · simp only [hs, if_true]
      refine ⟨_, _, rfl, by linarith, by linarith, by linarith, by linarith, ?_⟩
      rw [sdNormal_add_360, sdNormal_flip, smul_neg, hraw, hup]
    · simp only [hs, if_false]
      refine ⟨_, _, rfl, by linarith, by linarith, by linarith, by linarith, ?_⟩
      rw [sdNormal_flip, smul_neg, hraw, hup]
  · have hneg : ¬ v 2 < 0 := fun h => hd (hflip.2 h)
    simp only [hd, if_false]
    have hup : upward v = v := by simp [upward, hneg]
    by_cases hs : S < 0
    · simp only [hs, if_true]
      refine ⟨_, _, rfl, by linarith, by linarith, hD1, by linarith, ?_⟩
      rw [sdNormal_add_360, hraw, hup]
    · simp only [hs, if_false]
      refine ⟨_, _, rfl, by linarith, by linarith, hD1, by linarith, ?_⟩
      rw [hraw, hup]

lemma cos_sin_inj {x y : ℝ} (hx : 0 ≤ x) (hx' : x < 360) (hy : 0 ≤ y) (hy' : y < 360)
    (hc : Real.cos (radians x) = Real.cos (radians y))
    (hs : Real.sin (radians x) = Real.sin (radians y)) : x = y := by
  have h1 : Real.cos (radians x - radians y) = 1 := by
    rw [Real.cos_sub, hc, hs]
    nlinarith [Real.sin_sq_add_cos_sq (radians y)]
  rw [Real.cos_eq_one_iff] at h1
  obtain ⟨k, hk⟩ := h1
  unfold radians at hk
  have hpi := Real.pi_pos
  have hk' : (k : ℝ) * 360 = x - y := by
    field_simp at hk
    linarith
  have a1 : (k : ℝ) < 1 := by linarith
  have a2 : (-1 : ℝ) < k := by linarith
  have b1 : k < 1 := by exact_mod_cast a1
  have b2 : -1 < k := by exact_mod_cast a2
  have : k = 0 := by omega
  subst this
  simp at hk'
  linarith

/-- Angles in degrees with the same sine and cosine differ by full turns. -/
lemma cos_sin_mod {x y : ℝ}
    (hc : Real.cos (radians x) = Real.cos (radians y))
    (hs : Real.sin (radians x) = Real.sin (radians y)) : ∃ k : ℤ, x = y + 360 * k := by
  have h1 : Real.cos (radians x - radians y) = 1 := by
    rw [Real.cos_sub, hc, hs]
    nlinarith [Real.sin_sq_add_cos_sq (radians y)]
  rw [Real.cos_eq_one_iff] at h1
  obtain ⟨k, hk⟩ := h1
  refine ⟨k, ?_⟩
  unfold radians at hk
  have hpi := Real.pi_pos
  field_simp at hk
  linarith

/-- Dip angles in `[0, 90]` are determined by the cosine. -/
lemma dip_inj {d e : ℝ} (h0 : 0 ≤ d) (h1 : d ≤ 90) (h2 : 0 ≤ e) (h3 : e ≤ 90)
    (h : Real.cos (radians d) = Real.cos (radians e)) : d = e := by
  have hpi := Real.pi_pos
  have hr : ∀ x : ℝ, 0 ≤ x → x ≤ 90 → radians x ∈ Set.Icc 0 Real.pi := by
    intro x hx hx'
    unfold radians
    constructor
    · positivity
    · nlinarith
  have := Real.injOn_cos (hr d h0 h1) (hr e h2 h3) h
  unfold radians at this
  field_simp at this
  linarith

lemma sdNormal_inj {s d s' d' : ℝ} (hs : 0 ≤ s) (hs' : s < 360) (hd : 0 ≤ d) (hd' : d ≤ 90)
    (ht : 0 ≤ s') (ht' : s' < 360) (he : 0 ≤ d') (he' : d' ≤ 90)
    (h : sdNormal s d = sdNormal s' d') : d = d' ∧ (d ≠ 0 → s = s') := by
  have h0 := congrFun h 0
  have h1 := congrFun h 1
  have h2 := congrFun h 2
  simp [sdNormal] at h0 h1 h2
  have hdd := dip_inj hd hd' he he' h2
  refine ⟨hdd, fun hne => ?_⟩
  subst hdd
  have hpi := Real.pi_pos
  have hsin : Real.sin (radians d) ≠ 0 := by
    have hd0 : 0 < d := lt_of_le_of_ne hd (Ne.symm hne)
    apply ne_of_gt
    apply Real.sin_pos_of_pos_of_lt_pi
    · unfold radians; positivity
    · unfold radians; nlinarith
  have c1 : Real.cos (radians s) = Real.cos (radians s') := by
    exact mul_left_cancel₀ hsin h0
  have c2 : Real.sin (radians s) = Real.sin (radians s') := by
    exact mul_left_cancel₀ hsin h1
  exact cos_sin_inj hs hs' ht ht' c1 c2

end Attitude.Pca
