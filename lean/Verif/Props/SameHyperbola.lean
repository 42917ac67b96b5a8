import Verif.Props.Hyperbola
import Verif.Props.FrontendView

/-!
# C247: the error hyperbolas of Python and of the frontend

Python (`hyperbolic_errors`, attitude/display/hyperbola.py) and the frontend
(`hyperbolicErrors`, frontend/packages/attitude/src/hyperbola.ts) both draw the errors of
a plane in a vertical section as a hyperbola along the line of the plane.  The two
modules were written separately; here their curves are compared.
-/

namespace Attitude.Props

open Attitude Matrix Hyperbola Frontend

/-- Axes of a plane with dip `δ`: the first is horizontal at the angle `s` (along strike), the
second goes up the dip, the third is the normal. -/
noncomputable def Spec.strikeFrame (s δ : ℝ) : Mat 3 3 :=
  !![Real.cos s, Real.sin s, 0;
    -Real.sin s * Real.cos δ, Real.cos s * Real.cos δ, Real.sin δ;
    Real.sin s * Real.sin δ, -Real.cos s * Real.sin δ, Real.cos δ]

/-- `p` is the unit vector along the line in which the plane with normal `n` meets the
vertical section at the angle `v`. -/
def Spec.SectionDirection (n : Vec 3) (v : ℝ) (p : Vec 3) : Prop :=
  p 0 ^ 2 + p 1 ^ 2 + p 2 ^ 2 = 1 ∧ n 0 * p 0 + n 1 * p 1 + n 2 * p 2 = 0 ∧
    ∃ k > 0, p 0 = k * Real.cos v ∧ p 1 = k * Real.sin v

/-- Upper branch of the hyperbola with semi-axes `a`, `b`. -/
noncomputable def Spec.branch (a b x : ℝ) : ℝ := b * Real.sqrt (1 + x ^ 2 / a ^ 2)

lemma onBranch_eq {a b x y : ℝ} (hb : 0 < b) (h : Spec.OnBranch a b x y) :
    y = Spec.branch a b x := by
  obtain ⟨hy, h⟩ := h
  have h1 : y ^ 2 = b ^ 2 * (1 + x ^ 2 / a ^ 2) := by
    have : y ^ 2 / b ^ 2 = 1 + x ^ 2 / a ^ 2 := by linarith
    rw [← this]; field_simp
  rw [Spec.branch, ← Real.sqrt_sq hb.le, ← Real.sqrt_mul (sq_nonneg b), ← h1, Real.sqrt_sq hy.le]

lemma branch_inj {a a' b : ℝ} (ha : 0 < a) (ha' : 0 < a') (hb : 0 < b)
    (h : Spec.branch a b 1 = Spec.branch a' b 1) : a = a' := by
  rw [Spec.branch, Spec.branch, mul_right_inj' hb.ne', Real.sqrt_inj (by positivity)
    (by positivity), add_right_inj, one_pow, one_div, one_div, _root_.inv_inj] at h
  exact (pow_left_inj₀ ha.le ha'.le two_ne_zero).1 h

lemma cross_ne_of_perp {p n : Vec 3} (hp : p 0 ^ 2 + p 1 ^ 2 + p 2 ^ 2 = 1)
    (hn : n 0 ^ 2 + n 1 ^ 2 + n 2 ^ 2 = 1) (h : n 0 * p 0 + n 1 * p 1 + n 2 * p 2 = 0) :
    cross p n ≠ 0 := by
  intro hc
  have c0 : p 1 * n 2 - p 2 * n 1 = 0 := by simpa [cross] using congrFun hc 0
  have c1 : p 2 * n 0 - p 0 * n 2 = 0 := by simpa [cross] using congrFun hc 1
  have c2 : p 0 * n 1 - p 1 * n 0 = 0 := by simpa [cross] using congrFun hc 2
  have : (p 0 ^ 2 + p 1 ^ 2 + p 2 ^ 2) * (n 0 ^ 2 + n 1 ^ 2 + n 2 ^ 2) = 0 := by
    linear_combination (p 1 * n 2 - p 2 * n 1) * c0 + (p 2 * n 0 - p 0 * n 2) * c1
      + (p 0 * n 1 - p 1 * n 0) * c2 + (n 0 * p 0 + n 1 * p 1 + n 2 * p 2) * h
  rw [hp, hn] at this
  norm_num at this

/-- A plane whose first axis is along strike, seen in the section at the angle `ψ` from
strike: Python, asked for the section line and the normal, and the frontend draw hyperbolas
with the same vertex; they are the same curve exactly if the two errors in the plane are equal,
the section is along strike or dip, or the plane is horizontal. -/
theorem C247_same_curve_partial (s δ ψ : ℝ) (hs0 : 0 ≤ s) (hs : s ≤ Real.pi) (hδ0 : 0 ≤ δ)
    (hδ : δ < Real.pi / 2) (l : Vec 3) (hl : ∀ i, 0 < l i) (p : Vec 3)
    (hp : Spec.SectionDirection (Spec.strikeFrame s δ 2) (s + ψ) p) (xs : List ℝ) :
    ∃ bands e f, ∃ y : ℝ → ℝ, ∃ a b, hyperbolicErrors l xs (Spec.strikeFrame s δ)
        (some (p, Spec.strikeFrame s δ 2)) = .ok (some bands) ∧
      Spec.Frame e f ∧
      bands.nominal = xs.map (fun x => x • e) ∧
      bands.bottom = xs.map (fun x => x • e - y x • f) ∧
      bands.top.reverse = xs.map (fun x => x • e + y x • f) ∧
      semiAxes (s + ψ) 1 (Spec.strikeFrame s δ) l = some (a, b) ∧
      y 0 = Spec.branch a b 0 ∧
      ((∀ x, y x = Spec.branch a b x) ↔
        l 0 = l 1 ∨ Real.sin ψ = 0 ∨ Real.cos ψ = 0 ∨ δ = 0) := by
  obtain ⟨hn, hin, k, hk, hk0, hk1⟩ := hp
  have hin' := hin
  have hcs := Real.sin_sq_add_cos_sq s
  have hcd := Real.sin_sq_add_cos_sq δ
  have hcψ := Real.sin_sq_add_cos_sq ψ
  have hc : 0 < Real.cos δ := Real.cos_pos_of_mem_Ioo ⟨by linarith [Real.pi_pos], hδ⟩
  have l0 := hl 0
  have l1 := hl 1
  have l2 := hl 2
  have e20 : Spec.strikeFrame s δ 2 0 = Real.sin s * Real.sin δ := rfl
  have e21 : Spec.strikeFrame s δ 2 1 = -Real.cos s * Real.sin δ := rfl
  have e22 : Spec.strikeFrame s δ 2 2 = Real.cos δ := rfl
  rw [e20, e21, e22, hk0, hk1, Real.cos_add, Real.sin_add] at hin
  -- the height of the line
  have hz : Real.cos δ * p 2 = k * Real.sin δ * Real.sin ψ := by
    linear_combination hin + (k * Real.sin δ * Real.sin ψ) * hcs
  -- components along the axes
  have hα : Real.cos s * p 0 + Real.sin s * p 1 = k * Real.cos ψ := by
    rw [hk0, hk1, Real.cos_add, Real.sin_add]
    linear_combination (k * Real.cos ψ) * hcs
  have hβ : Real.cos δ * (-Real.sin s * Real.cos δ * p 0 + Real.cos s * Real.cos δ * p 1
      + Real.sin δ * p 2) = k * Real.sin ψ := by
    have : -Real.sin s * p 0 + Real.cos s * p 1 = k * Real.sin ψ := by
      rw [hk0, hk1, Real.cos_add, Real.sin_add]
      linear_combination (k * Real.sin ψ) * hcs
    linear_combination Real.cos δ ^ 2 * this + Real.sin δ * hz + (k * Real.sin ψ) * hcd
  have hk2 : k ^ 2 * (Real.cos δ ^ 2 * Real.cos ψ ^ 2 + Real.sin ψ ^ 2) = Real.cos δ ^ 2 := by
    have h1 : p 0 ^ 2 + p 1 ^ 2 = k ^ 2 := by
      rw [hk0, hk1]
      linear_combination k ^ 2 * Real.sin_sq_add_cos_sq (s + ψ)
    have h2 : Real.cos δ ^ 2 * p 2 ^ 2 = (k * Real.sin δ * Real.sin ψ) ^ 2 := by
      rw [← hz]; ring
    have h3 : Real.cos δ ^ 2 * (k ^ 2 + p 2 ^ 2) = Real.cos δ ^ 2 := by
      rw [← h1, hn, mul_one]
    linear_combination h3 - h2 + k ^ 2 * Real.cos δ ^ 2 * hcψ
      - k ^ 2 * Real.sin ψ ^ 2 * hcd
  have hT : (Spec.strikeFrame s δ).det ≠ 0 := by
    have : (Spec.strikeFrame s δ).det = 1 := by
      rw [Matrix.det_fin_three]
      simp [Spec.strikeFrame]
      linear_combination (Real.cos s ^ 2 + Real.sin s ^ 2) * hcd + hcs
    rw [this]; exact one_ne_zero
  have hnn : Spec.strikeFrame s δ 2 0 ^ 2 + Spec.strikeFrame s δ 2 1 ^ 2
      + Spec.strikeFrame s δ 2 2 ^ 2 = 1 := by
    rw [e20, e21, e22]
    linear_combination Real.sin δ ^ 2 * hcs + hcd
  have hax : cross p (Spec.strikeFrame s δ 2) ≠ 0 := cross_ne_of_perp hn hnn hin'
  obtain ⟨bands, e, f, y, hb, hf, w1, w2, hy, hnom, hbot, htop⟩ :=
    C71_hyperbolic_errors l hl (Spec.strikeFrame s δ) hT (p, Spec.strikeFrame s δ 2) hax xs 0 false
  have hw1 : Spec.weight l (Spec.strikeFrame s δ) p
      = k ^ 2 * Real.cos ψ ^ 2 / l 0 + (k * Real.sin ψ / Real.cos δ) ^ 2 / l 1 := by
    have hβ' : -Real.sin s * Real.cos δ * p 0 + Real.cos s * Real.cos δ * p 1
        + Real.sin δ * p 2 = k * Real.sin ψ / Real.cos δ := by
      rw [eq_div_iff hc.ne', ← hβ]; ring
    have : Spec.weight l (Spec.strikeFrame s δ) p
        = (Real.cos s * p 0 + Real.sin s * p 1) ^ 2 / l 0
          + (-Real.sin s * Real.cos δ * p 0 + Real.cos s * Real.cos δ * p 1
            + Real.sin δ * p 2) ^ 2 / l 1
          + (Spec.strikeFrame s δ 2 0 * p 0 + Spec.strikeFrame s δ 2 1 * p 1
            + Spec.strikeFrame s δ 2 2 * p 2) ^ 2 / l 2 := by
      simp [Spec.weight, Fin.sum_univ_three, Spec.strikeFrame]
    rw [this, hin', hα, hβ']
    ring
  have hw2 : Spec.weight l (Spec.strikeFrame s δ) (Spec.strikeFrame s δ 2) = 1 / l 2 := by
    have r1 : -Real.sin s * Real.cos δ * (Real.sin s * Real.sin δ)
        + Real.cos s * Real.cos δ * (-Real.cos s * Real.sin δ) + Real.sin δ * Real.cos δ = 0 := by
      linear_combination (-(Real.sin δ * Real.cos δ)) * hcs
    have r0 : Real.cos s * (Real.sin s * Real.sin δ) + Real.sin s * (-Real.cos s * Real.sin δ)
        = 0 := by ring
    rw [e20, e21, e22] at hnn
    have : Spec.weight l (Spec.strikeFrame s δ) (Spec.strikeFrame s δ 2)
        = (Real.cos s * (Real.sin s * Real.sin δ) + Real.sin s * (-Real.cos s * Real.sin δ)) ^ 2 / l 0
          + (-Real.sin s * Real.cos δ * (Real.sin s * Real.sin δ)
            + Real.cos s * Real.cos δ * (-Real.cos s * Real.sin δ) + Real.sin δ * Real.cos δ) ^ 2 / l 1
          + (Real.sin s * Real.sin δ * (Real.sin s * Real.sin δ)
            + -Real.cos s * Real.sin δ * (-Real.cos s * Real.sin δ)
            + Real.cos δ * Real.cos δ) ^ 2 / l 2 := by
      simp [Spec.weight, Fin.sum_univ_three, Spec.strikeFrame]
    rw [this, r0, r1, ← pow_two, ← pow_two, ← pow_two, hnn]
    ring
  have ha : planeAngle (Spec.strikeFrame s δ) (s + ψ) = some ψ := by
    have := planeAngle_horizontal s (s + ψ)
    rw [Real.arccos_cos hs0 hs, add_sub_cancel_left] at this
    rw [← this]
    rfl
  have hP : 0 < Real.cos ψ ^ 2 / l 0 + Real.sin ψ ^ 2 / l 1 := by
    rcases eq_or_ne (Real.cos ψ) 0 with h | h
    · rw [h, zero_pow two_ne_zero, add_zero] at hcψ
      rw [hcψ]; positivity
    · positivity
  have hsq : Real.sqrt (Spec.weight l (Spec.strikeFrame s δ) (Spec.strikeFrame s δ 2))
      = 1 / Real.sqrt (l 2) := by
    rw [hw2, Real.sqrt_div zero_le_one, Real.sqrt_one]
  have hyb : ∀ x, y x = Spec.branch (1 / Real.sqrt (Spec.weight l (Spec.strikeFrame s δ) p))
      (Real.sqrt (l 2)) x := by
    intro x
    have := onBranch_eq (by positivity) (hy x)
    rw [this, hsq, one_div_one_div]
  refine ⟨bands, e, f, y, _, _, hb, hf, by simpa using hnom, by simpa using hbot,
    by simpa using htop, semiAxes_eq ha hl, ?_, ?_⟩
  · rw [hyb]; simp [Spec.branch]
  · have key : (∀ x, y x = Spec.branch (1 / Real.sqrt (Real.cos ψ ^ 2 / l 0
        + Real.sin ψ ^ 2 / l 1)) (Real.sqrt (l 2)) x) ↔
        Spec.weight l (Spec.strikeFrame s δ) p = Real.cos ψ ^ 2 / l 0 + Real.sin ψ ^ 2 / l 1 := by
      constructor
      · intro h
        have h1 := h 1
        rw [hyb] at h1
        have h2 := branch_inj (by positivity) (by positivity) (by positivity) h1
        rw [one_div, one_div, _root_.inv_inj, Real.sqrt_inj w1.le hP.le] at h2
        exact h2
      · intro h x
        rw [hyb, h]
    rw [key, hw1]
    have hD : 0 < Real.cos δ ^ 2 * Real.cos ψ ^ 2 + Real.sin ψ ^ 2 := by
      rcases eq_or_ne (Real.sin ψ) 0 with h | h
      · rw [h, zero_pow two_ne_zero, zero_add] at hcψ
        rw [hcψ]; positivity
      · positivity
    have hdiff : (k ^ 2 * Real.cos ψ ^ 2 / l 0 + (k * Real.sin ψ / Real.cos δ) ^ 2 / l 1
        - (Real.cos ψ ^ 2 / l 0 + Real.sin ψ ^ 2 / l 1))
        * ((Real.cos δ ^ 2 * Real.cos ψ ^ 2 + Real.sin ψ ^ 2) * (l 0 * l 1))
        = (Real.cos ψ * Real.sin ψ * Real.sin δ) ^ 2 * (l 0 - l 1) := by
      have hX : (k * Real.sin ψ / Real.cos δ) ^ 2
          * (Real.cos δ ^ 2 * Real.cos ψ ^ 2 + Real.sin ψ ^ 2) = Real.sin ψ ^ 2 := by
        rw [div_pow, mul_pow, div_mul_eq_mul_div, div_eq_iff (by positivity)]
        linear_combination Real.sin ψ ^ 2 * hk2
      generalize (k * Real.sin ψ / Real.cos δ) ^ 2 = X at hX ⊢
      have hex : (k ^ 2 * Real.cos ψ ^ 2 / l 0 + X / l 1
          - (Real.cos ψ ^ 2 / l 0 + Real.sin ψ ^ 2 / l 1))
          * ((Real.cos δ ^ 2 * Real.cos ψ ^ 2 + Real.sin ψ ^ 2) * (l 0 * l 1))
          = (k ^ 2 * Real.cos ψ ^ 2 * l 1 + X * l 0
            - (Real.cos ψ ^ 2 * l 1 + Real.sin ψ ^ 2 * l 0))
            * (Real.cos δ ^ 2 * Real.cos ψ ^ 2 + Real.sin ψ ^ 2) := by
        field_simp
      rw [hex]
      linear_combination Real.cos ψ ^ 2 * l 1 * hk2 + l 0 * hX
        + (Real.sin ψ ^ 2 * Real.cos ψ ^ 2 * (l 1 - l 0)) * hcd
        + (-(l 1 * Real.cos ψ ^ 2 * Real.cos δ ^ 2) - l 0 * Real.sin ψ ^ 2) * hcψ
    rw [← sub_eq_zero, ← mul_left_inj' (c := (Real.cos δ ^ 2 * Real.cos ψ ^ 2
      + Real.sin ψ ^ 2) * (l 0 * l 1)) (by positivity), hdiff, zero_mul, mul_eq_zero,
      pow_eq_zero_iff two_ne_zero, mul_eq_zero, mul_eq_zero, sub_eq_zero]
    have hδs : Real.sin δ = 0 ↔ δ = 0 := by
      constructor
      · intro h
        exact (Real.sin_eq_zero_iff_of_lt_of_lt (by linarith [Real.pi_pos])
          (by linarith [Real.pi_pos])).1 h
      · rintro rfl; exact Real.sin_zero
    rw [hδs]
    tauto

/-- A plane striking east that dips 45°, and the section to the north-east. -/
lemma section_northeast : Spec.SectionDirection (Spec.strikeFrame 0 (Real.pi / 4) 2)
    (0 + Real.pi / 4) ![1 / Real.sqrt 3, 1 / Real.sqrt 3, 1 / Real.sqrt 3] := by
  have h2 := Real.sq_sqrt (show (0 : ℝ) ≤ 2 by norm_num)
  refine ⟨?_, ?_, Real.sqrt 2 / Real.sqrt 3, by positivity, ?_, ?_⟩
  · simp
    norm_num
  · simp [Spec.strikeFrame]
  · rw [zero_add, Real.cos_pi_div_four]
    simp
    rw [div_mul_div_comm, ← pow_two, h2]
    field_simp
  · rw [zero_add, Real.sin_pi_div_four]
    simp
    rw [div_mul_div_comm, ← pow_two, h2]
    field_simp

example : ∃ bands a b, hyperbolicErrors ![4, 1, 1] [0, 1] (Spec.strikeFrame 0 (Real.pi / 4))
      (some (![1 / Real.sqrt 3, 1 / Real.sqrt 3, 1 / Real.sqrt 3],
        Spec.strikeFrame 0 (Real.pi / 4) 2)) = .ok (some bands) ∧
      semiAxes (0 + Real.pi / 4) 1 (Spec.strikeFrame 0 (Real.pi / 4)) ![4, 1, 1] = some (a, b) := by
  have hp := Real.pi_pos
  obtain ⟨bands, _, _, _, a, b, h1, _, _, _, _, h2, _⟩ := C247_same_curve_partial 0 (Real.pi / 4)
    (Real.pi / 4) le_rfl hp.le (by linarith) (by linarith) ![4, 1, 1]
    (fun i => by fin_cases i <;> simp) _ section_northeast [0, 1]
  exact ⟨bands, a, b, h1, h2⟩

/-- The two programs draw different curves for the same plane in the same section. -/
theorem C247_oblique_false : ∃ (axes : Mat 3 3) (l p : Vec 3) (v : ℝ),
    (∀ i, 0 < l i) ∧ Spec.SectionDirection (axes 2) v p ∧
    ∀ xs : List ℝ, ∃ bands e f, ∃ y : ℝ → ℝ, ∃ a b,
      hyperbolicErrors l xs axes (some (p, axes 2)) = .ok (some bands) ∧ Spec.Frame e f ∧
      bands.top.reverse = xs.map (fun x => x • e + y x • f) ∧
      semiAxes v 1 axes l = some (a, b) ∧ ∃ x, y x ≠ Spec.branch a b x := by
  have hp := Real.pi_pos
  refine ⟨Spec.strikeFrame 0 (Real.pi / 4), ![4, 1, 1], _, _,
    fun i => by fin_cases i <;> simp, section_northeast, fun xs => ?_⟩
  obtain ⟨bands, e, f, y, a, b, h1, hf, _, _, ht, h2, _, hiff⟩ := C247_same_curve_partial 0
    (Real.pi / 4) (Real.pi / 4) le_rfl hp.le (by linarith) (by linarith) ![4, 1, 1]
    (fun i => by fin_cases i <;> simp) _ section_northeast xs
  refine ⟨bands, e, f, y, a, b, h1, hf, ht, h2, ?_⟩
  by_contra hc
  push Not at hc
  rcases hiff.1 hc with h | h | h | h
  · norm_num at h
  · rw [Real.sin_pi_div_four] at h; exact absurd h (by positivity)
  · rw [Real.cos_pi_div_four] at h; exact absurd h (by positivity)
  · linarith

end Attitude.Props
