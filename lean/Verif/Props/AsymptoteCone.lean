import Verif.Props.ErrorShapes

/-! # For which hyperboloids the directions are asymptotes: C88 -/

namespace Attitude.Props

open Attitude Hyperbola

/-- The directions returned, four or more, are all on the asymptotic cone exactly if the three coefficients are
equal. -/
theorem C88_cone_iff_partial (p₀ p₁ p₂ : ℝ) (h0 : 0 < p₀) (h1 : 0 < p₁) (h2 : 0 < p₂) (n : ℕ) (hn : 4 ≤ n) :
    ∃ l, asymptotes (hyperboloid p₀ p₁ p₂) n = .ok l ∧ l.length = n ∧
      ((∀ v ∈ l, Spec.Asymptotic (hyperboloid p₀ p₁ p₂) v) ↔ p₀ = p₁ ∧ p₁ = p₂) := by
  refine ⟨_, asymptotes_hyperboloid h0 h1 h2 n, by simp [Stereonet.angles_length], ?_⟩
  constructor
  · intro h
    have hmem : ∀ k < n, p₀ * (Real.cos (Stereonet.linspace n k) * p₀) ^ 2
        + p₁ * (Real.sin (Stereonet.linspace n k) * p₁) ^ 2 - p₂ * (-p₂) ^ 2 = 0 := by
      intro k hk
      have := (h _ (List.mem_map.2 ⟨Stereonet.linspace n k,
        List.mem_map.2 ⟨k, List.mem_range.2 hk, rfl⟩, rfl⟩)).2
      rw [asymptotic_hyperboloid] at this
      simpa using this
    have hn1 : n ≠ 1 := by omega
    have e0 := hmem 0 (by omega)
    have e1 := hmem 1 (by omega)
    simp only [Stereonet.linspace, if_neg hn1, Nat.cast_zero, mul_zero, zero_div, Real.cos_zero, Real.sin_zero,
      Nat.cast_one, mul_one] at e0 e1
    have c02 : p₀ = p₂ := by
      refine (pow_left_inj₀ h0.le h2.le (by norm_num : 3 ≠ 0)).1 ?_
      linear_combination e0
    have hn4 : (4 : ℝ) ≤ n := by exact_mod_cast hn
    have hsin : 0 < Real.sin (2 * Real.pi / (n - 1)) := by
      apply Real.sin_pos_of_pos_of_lt_pi
      · have := Real.pi_pos
        apply div_pos <;> linarith
      · rw [div_lt_iff₀ (by linarith)]
        nlinarith [Real.pi_pos]
    have key : Real.sin (2 * Real.pi / (n - 1)) ^ 2 * (p₁ ^ 3 - p₀ ^ 3) = 0 := by
      have := Real.sin_sq_add_cos_sq (2 * Real.pi / (n - 1))
      rw [← c02] at e1
      linear_combination e1 - p₀ ^ 3 * this
    have c01 : p₀ = p₁ := by
      refine (pow_left_inj₀ h0.le h1.le (by norm_num : 3 ≠ 0)).1 ?_
      have := (mul_eq_zero.1 key).resolve_left (by positivity)
      linarith
    exact ⟨c01, c01 ▸ c02⟩
  · rintro ⟨rfl, rfl⟩
    obtain ⟨l, hl, -, h⟩ := C88_equal_axes_partial p₀ h0 n
    rw [asymptotes_hyperboloid h0 h0 h0 n] at hl
    simp only [Except.ok.injEq] at hl
    rw [hl]
    exact h

/-- A hundred directions for unequal coefficients of which the first and the third agree. -/
example : ∃ l, asymptotes (hyperboloid 1 2 1) 100 = .ok l ∧
    ¬ ∀ v ∈ l, Spec.Asymptotic (hyperboloid 1 2 1) v := by
  obtain ⟨l, h, -, k⟩ := C88_cone_iff_partial 1 2 1 (by norm_num) (by norm_num) (by norm_num) 100 (by norm_num)
  exact ⟨l, h, fun c => by have := (k.1 c).1; norm_num at this⟩

end Attitude.Props
