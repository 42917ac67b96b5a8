import Verif.Model.Pca
import Verif.Lemmas.Trig

/-! Helper facts about decompositions that satisfy the SVD contract. -/

namespace Attitude

open Matrix

lemma orth_mulVec_dot {m : ℕ} {U : Mat m 3} (h : U.transpose * U = 1) (w : Vec 3) :
    (U *ᵥ w) ⬝ᵥ (U *ᵥ w) = w ⬝ᵥ w := by
  rw [Matrix.dotProduct_mulVec, ← Matrix.mulVec_transpose, Matrix.mulVec_mulVec, h,
    Matrix.one_mulVec]

lemma sum_sq_eq_dot {m : ℕ} (w : Vec m) : ∑ i, w i ^ 2 = w ⬝ᵥ w := by
  simp [dotProduct, sq]

lemma IsSVD.orthV' {m : ℕ} {A U : Mat m 3} {s : Vec 3} {V : Mat 3 3} (h : IsSVD A U s V) :
    V.transpose * V = 1 := mul_eq_one_comm.1 h.orthV

/-- The quadratic form of the data in principal coordinates. -/
lemma IsSVD.sum_sq {m : ℕ} {A U : Mat m 3} {s : Vec 3} {V : Mat 3 3} (h : IsSVD A U s V)
    (w : Vec 3) : ∑ i, (A *ᵥ w) i ^ 2 = ∑ j, (s j * (V *ᵥ w) j) ^ 2 := by
  have e : A *ᵥ w = U *ᵥ (fun j => s j * (V *ᵥ w) j) := by
    rw [h.recon, ← Matrix.mulVec_mulVec, ← Matrix.mulVec_mulVec]
    congr 1
    funext j
    rw [Matrix.mulVec_diagonal]
  rw [sum_sq_eq_dot, e, orth_mulVec_dot h.orthU, sum_sq_eq_dot]

lemma IsSVD.norm_V {m : ℕ} {A U : Mat m 3} {s : Vec 3} {V : Mat 3 3} (h : IsSVD A U s V)
    (w : Vec 3) : ∑ j, (V *ᵥ w) j ^ 2 = ∑ j, w j ^ 2 := by
  rw [sum_sq_eq_dot, orth_mulVec_dot h.orthV', sum_sq_eq_dot]

lemma IsSVD.V_row {m : ℕ} {A U : Mat m 3} {s : Vec 3} {V : Mat 3 3} (h : IsSVD A U s V)
    (i : Fin 3) : V *ᵥ (V i) = Pi.single i 1 := by
  funext j
  have := congrFun (congrFun h.orthV j) i
  simp only [Matrix.mul_apply, Matrix.transpose_apply] at this
  simp only [Matrix.mulVec, dotProduct, this, Matrix.one_apply, Pi.single_apply]

lemma IsSVD.row_dot {m : ℕ} {A U : Mat m 3} {s : Vec 3} {V : Mat 3 3} (h : IsSVD A U s V)
    (i j : Fin 3) : vdot (V i) (V j) = if i = j then 1 else 0 := by
  have := congrFun (congrFun h.orthV i) j
  simp only [Matrix.mul_apply, Matrix.transpose_apply, Matrix.one_apply] at this
  simpa [vdot] using this

lemma IsSVD.row_norm {m : ℕ} {A U : Mat m 3} {s : Vec 3} {V : Mat 3 3} (h : IsSVD A U s V)
    (i : Fin 3) : norm (V i) = 1 := by
  have := h.row_dot i i
  simp only [vdot, if_true] at this
  have h2 : ∑ k, V i k ^ 2 = 1 := by rw [← this]; simp [sq]
  rw [norm, h2, Real.sqrt_one]

lemma IsSVD.nonneg' {m : ℕ} {A U : Mat m 3} {s : Vec 3} {V : Mat 3 3} (h : IsSVD A U s V)
    (i : Fin 3) : 0 ≤ s i := by
  have := h.nonneg; have := h.le01; have := h.le12
  fin_cases i
  · show 0 ≤ s 0; linarith
  · show 0 ≤ s 1; linarith
  · show 0 ≤ s 2; linarith

lemma IsSVD.sum_sq_row {m : ℕ} {A U : Mat m 3} {s : Vec 3} {V : Mat 3 3} (h : IsSVD A U s V)
    (i : Fin 3) : ∑ k, (A *ᵥ (V i)) k ^ 2 = s i ^ 2 := by
  rw [h.sum_sq, h.V_row]
  simp [Pi.single_apply]

/-- The last axis has the least sum of squares among all directions. -/
lemma IsSVD.optimal {m : ℕ} {A U : Mat m 3} {s : Vec 3} {V : Mat 3 3} (h : IsSVD A U s V)
    (w : Vec 3) : s 2 ^ 2 * ∑ j, w j ^ 2 ≤ ∑ k, (A *ᵥ w) k ^ 2 := by
  rw [h.sum_sq, ← h.norm_V w]
  simp only [Fin.sum_univ_three, mul_pow]
  have h0 := h.nonneg; have h1 := h.le01; have h2 := h.le12
  have a0 : s 2 ^ 2 ≤ s 0 ^ 2 := pow_le_pow_left₀ h0 (by linarith) 2
  have a1 : s 2 ^ 2 ≤ s 1 ^ 2 := pow_le_pow_left₀ h0 (by linarith) 2
  nlinarith [mul_nonneg (sub_nonneg.2 a0) (sq_nonneg ((V *ᵥ w) 0)),
    mul_nonneg (sub_nonneg.2 a1) (sq_nonneg ((V *ᵥ w) 1))]

/-- The first singular value bounds the sum of squares of all directions. -/
lemma IsSVD.upper {m : ℕ} {A U : Mat m 3} {s : Vec 3} {V : Mat 3 3} (h : IsSVD A U s V)
    (w : Vec 3) : ∑ k, (A *ᵥ w) k ^ 2 ≤ s 0 ^ 2 * ∑ j, w j ^ 2 := by
  rw [h.sum_sq, ← h.norm_V w]
  simp only [Fin.sum_univ_three, mul_pow]
  have h0 := h.nonneg; have h1 := h.le01; have h2 := h.le12
  have a1 : s 1 ^ 2 ≤ s 0 ^ 2 := pow_le_pow_left₀ (by linarith) h1 2
  have a2 : s 2 ^ 2 ≤ s 0 ^ 2 := pow_le_pow_left₀ h0 (by linarith) 2
  nlinarith [mul_nonneg (sub_nonneg.2 a1) (sq_nonneg ((V *ᵥ w) 1)),
    mul_nonneg (sub_nonneg.2 a2) (sq_nonneg ((V *ᵥ w) 2))]

/-- If the last singular value is simple, only multiples of the last axis reach
the minimum. -/
lemma IsSVD.unique {m : ℕ} {A U : Mat m 3} {s : Vec 3} {V : Mat 3 3} (h : IsSVD A U s V)
    (hlt : s 2 < s 1) (w : Vec 3) (hw : ∑ j, w j ^ 2 = 1)
    (hle : ∑ k, (A *ᵥ w) k ^ 2 ≤ s 2 ^ 2) : w = V 2 ∨ w = -V 2 := by
  have hn := h.norm_V w
  rw [hw] at hn
  rw [h.sum_sq] at hle
  simp only [Fin.sum_univ_three, mul_pow] at hle hn
  have h0 := h.nonneg; have h1 := h.le01; have h2 := h.le12
  have a1 : s 2 ^ 2 < s 1 ^ 2 := pow_lt_pow_left₀ hlt h0 (by norm_num)
  have a0 : s 2 ^ 2 < s 0 ^ 2 := pow_lt_pow_left₀ (by linarith) h0 (by norm_num)
  have b0 := mul_nonneg (sub_nonneg.2 a0.le) (sq_nonneg ((V *ᵥ w) 0))
  have b1 := mul_nonneg (sub_nonneg.2 a1.le) (sq_nonneg ((V *ᵥ w) 1))
  have c0 : (s 0 ^ 2 - s 2 ^ 2) * (V *ᵥ w) 0 ^ 2 = 0 := by nlinarith
  have c1 : (s 1 ^ 2 - s 2 ^ 2) * (V *ᵥ w) 1 ^ 2 = 0 := by nlinarith
  have d0 : (V *ᵥ w) 0 = 0 := by
    rcases mul_eq_zero.1 c0 with e | e
    · linarith
    · exact pow_eq_zero_iff (two_ne_zero) |>.1 e
  have d1 : (V *ᵥ w) 1 = 0 := by
    rcases mul_eq_zero.1 c1 with e | e
    · linarith
    · exact pow_eq_zero_iff (two_ne_zero) |>.1 e
  have d2 : (V *ᵥ w) 2 = 1 ∨ (V *ᵥ w) 2 = -1 := by
    have : (V *ᵥ w) 2 ^ 2 = 1 := by rw [d0, d1] at hn; linarith
    rcases mul_eq_zero.1 (show ((V *ᵥ w) 2 - 1) * ((V *ᵥ w) 2 + 1) = 0 by linarith) with e | e
    · left; linarith
    · right; linarith
  have hback : w = V.transpose *ᵥ (V *ᵥ w) := by
    rw [Matrix.mulVec_mulVec, h.orthV', Matrix.one_mulVec]
  have hcol : ∀ t : ℝ, (V *ᵥ w) 2 = t → w = t • V 2 := by
    intro t ht
    rw [hback]
    funext i
    simp [Matrix.mulVec, dotProduct, Fin.sum_univ_three] at d0 d1 ht ⊢
    rw [d0, d1, ht]
    ring
  rcases d2 with e | e
  · left; rw [hcol 1 e]; simp
  · right; rw [hcol (-1) e]; simp

end Attitude
