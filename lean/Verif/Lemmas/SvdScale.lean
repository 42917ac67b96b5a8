import Verif.Lemmas.Svd

/-! Singular values are determined by the quadratic form of the data. -/

namespace Attitude

open Matrix

lemma IsSVD.trace {m : ℕ} {A U : Mat m 3} {s : Vec 3} {V : Mat 3 3} (h : IsSVD A U s V) :
    ∑ k : Fin 3, ∑ i, (A *ᵥ (Pi.single k 1)) i ^ 2 = s 0 ^ 2 + s 1 ^ 2 + s 2 ^ 2 := by
  have e : ∀ k : Fin 3, ∑ i, (A *ᵥ (Pi.single k 1)) i ^ 2 = ∑ j, s j ^ 2 * V j k ^ 2 := by
    intro k
    rw [h.sum_sq]
    apply Finset.sum_congr rfl
    intro j _
    simp [mul_pow]
  simp only [e]
  rw [Finset.sum_comm]
  have r : ∀ j : Fin 3, ∑ k, s j ^ 2 * V j k ^ 2 = s j ^ 2 := by
    intro j
    rw [← Finset.mul_sum]
    have := h.row_dot j j
    simp only [vdot, if_true] at this
    rw [show ∑ k, V j k ^ 2 = 1 by rw [← this]; simp [sq], mul_one]
  simp only [r, Fin.sum_univ_three]

/-- Two decompositions of data whose quadratic forms differ by the factor `c²`
have singular values that differ by the factor `c`. -/
lemma IsSVD.scale_sv {m m' : ℕ} {A U : Mat m 3} {s : Vec 3} {V : Mat 3 3} (h : IsSVD A U s V)
    {B U' : Mat m' 3} {s' : Vec 3} {V' : Mat 3 3} (h' : IsSVD B U' s' V') (c : ℝ) (hc : 0 ≤ c)
    (hAB : ∀ w : Vec 3, ∑ i, (B *ᵥ w) i ^ 2 = c ^ 2 * ∑ i, (A *ᵥ w) i ^ 2) (j : Fin 3) :
    s' j = c * s j := by
  have hrow : ∀ i, ∑ k, V i k ^ 2 = 1 := by
    intro i
    have := h.row_dot i i
    simp only [vdot, if_true] at this
    rw [← this]; simp [sq]
  have hrow' : ∀ i, ∑ k, V' i k ^ 2 = 1 := by
    intro i
    have := h'.row_dot i i
    simp only [vdot, if_true] at this
    rw [← this]; simp [sq]
  have c2 : 0 ≤ c ^ 2 := sq_nonneg c
  have e0 : s' 0 ^ 2 = c ^ 2 * s 0 ^ 2 := by
    apply le_antisymm
    · rw [← h'.sum_sq_row 0, hAB]
      have := h.upper (V' 0)
      rw [hrow', mul_one] at this
      exact mul_le_mul_of_nonneg_left this c2
    · have := h'.upper (V 0)
      rwa [hrow, mul_one, hAB, h.sum_sq_row] at this
  have e2 : s' 2 ^ 2 = c ^ 2 * s 2 ^ 2 := by
    apply le_antisymm
    · have := h'.optimal (V 2)
      rwa [hrow, mul_one, hAB, h.sum_sq_row] at this
    · rw [← h'.sum_sq_row 2, hAB]
      have := h.optimal (V' 2)
      rw [hrow', mul_one] at this
      exact mul_le_mul_of_nonneg_left this c2
  have e1 : s' 1 ^ 2 = c ^ 2 * s 1 ^ 2 := by
    have t := h.trace
    have t' := h'.trace
    simp only [hAB, ← Finset.mul_sum, t] at t'
    linarith
  have key : ∀ x y : ℝ, 0 ≤ x → 0 ≤ y → x ^ 2 = c ^ 2 * y ^ 2 → x = c * y := by
    intro x y hx hy hxy
    rw [← mul_pow] at hxy
    exact (pow_left_inj₀ hx (mul_nonneg hc hy) two_ne_zero).1 hxy
  fin_cases j
  · exact key _ _ (h'.nonneg' 0) (h.nonneg' 0) e0
  · exact key _ _ (h'.nonneg' 1) (h.nonneg' 1) e1
  · exact key _ _ (h'.nonneg' 2) (h.nonneg' 2) e2

end Attitude
