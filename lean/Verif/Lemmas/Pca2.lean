import Verif.Model.Pca2
import Verif.Lemmas.SvdExists

/-! Helper facts about fits of two-column arrays. -/

namespace Attitude.Pca2

open Attitude Matrix

/-- A backend that meets the contract exists. -/
theorem exists_valid : ∃ svd : SvdFn, svd.Valid := by
  classical
  have h : ∀ (m : ℕ) (A : Mat m 2), ∃ r : Mat m 2 × Vec 2 × Mat 2 2,
      2 ≤ m → IsSVD2 A r.1 r.2.1 r.2.2 := by
    intro m A
    by_cases hm : 2 ≤ m
    · obtain ⟨U, s, V, h1, h2, h3, h4, h5⟩ := exists_rectSvd hm A
      exact ⟨(U, s, V), fun _ => ⟨h1, h2, h3, h4 1, h5 (by decide)⟩⟩
    · exact ⟨(0, 0, 0), fun h => absurd h hm⟩
  choose g hg using h
  exact ⟨g, fun m A hm => hg m A hm⟩

variable {m : ℕ} {A U : Mat m 2} {s : Vec 2} {V : Mat 2 2}

lemma orth_dot {U : Mat m 2} (h : U.transpose * U = 1) (w : Vec 2) :
    (U *ᵥ w) ⬝ᵥ (U *ᵥ w) = w ⬝ᵥ w := by
  rw [Matrix.dotProduct_mulVec, ← Matrix.mulVec_transpose, Matrix.mulVec_mulVec, h,
    Matrix.one_mulVec]

lemma IsSVD2.orthV' (h : IsSVD2 A U s V) : V.transpose * V = 1 := mul_eq_one_comm.1 h.orthV

lemma IsSVD2.sum_sq (h : IsSVD2 A U s V) (w : Vec 2) :
    ∑ i, (A *ᵥ w) i ^ 2 = ∑ j, (s j * (V *ᵥ w) j) ^ 2 := by
  have e : A *ᵥ w = U *ᵥ (fun j => s j * (V *ᵥ w) j) := by
    rw [h.recon, ← Matrix.mulVec_mulVec, ← Matrix.mulVec_mulVec]
    congr 1
    funext j
    rw [Matrix.mulVec_diagonal]
  rw [sum_sq_eq_dot, e, orth_dot h.orthU, sum_sq_eq_dot]

lemma IsSVD2.norm_V (h : IsSVD2 A U s V) (w : Vec 2) :
    ∑ j, (V *ᵥ w) j ^ 2 = ∑ j, w j ^ 2 := by
  rw [sum_sq_eq_dot, orth_dot h.orthV', sum_sq_eq_dot]

lemma IsSVD2.V_row (h : IsSVD2 A U s V) (i : Fin 2) : V *ᵥ (V i) = Pi.single i 1 := by
  funext j
  have := congrFun (congrFun h.orthV j) i
  simp only [Matrix.mul_apply, Matrix.transpose_apply] at this
  simp only [Matrix.mulVec, dotProduct, this, Matrix.one_apply, Pi.single_apply]

lemma IsSVD2.row_norm (h : IsSVD2 A U s V) (i : Fin 2) : norm (V i) = 1 := by
  have := congrFun (congrFun h.orthV i) i
  simp only [Matrix.mul_apply, Matrix.transpose_apply, Matrix.one_apply, if_true] at this
  have h2 : ∑ k, V i k ^ 2 = 1 := by rw [← this]; simp [sq]
  rw [norm, h2, Real.sqrt_one]

lemma IsSVD2.sum_sq_row (h : IsSVD2 A U s V) (i : Fin 2) :
    ∑ k, (A *ᵥ (V i)) k ^ 2 = s i ^ 2 := by
  rw [h.sum_sq, h.V_row]
  simp [Pi.single_apply]

/-- The last axis has the least sum of squares among all directions. -/
lemma IsSVD2.optimal (h : IsSVD2 A U s V) (w : Vec 2) :
    s 1 ^ 2 * ∑ j, w j ^ 2 ≤ ∑ k, (A *ᵥ w) k ^ 2 := by
  rw [h.sum_sq, ← h.norm_V w]
  simp only [Fin.sum_univ_two, mul_pow]
  have a0 : s 1 ^ 2 ≤ s 0 ^ 2 := pow_le_pow_left₀ h.nonneg h.le01 2
  nlinarith [mul_nonneg (sub_nonneg.2 a0) (sq_nonneg ((V *ᵥ w) 0))]

/-- What a successful construction gives. -/
structure IsFit {n : ℕ} (a : Fin n → Vec 2) (f : Fit n) : Prop where
  size : 3 ≤ n
  mean : f.mean = meanRows a
  arr : f.arr = centered a
  normal : f.normal = upward (f.V 1)
  svd : IsSVD2 (Matrix.of (centered a)) f.U f.s f.V

lemma init_ok {svd : SvdFn} (hs : svd.Valid) {n : ℕ} {a : Fin n → Vec 2} {f : Fit n}
    (hf : init svd a = .ok f) : IsFit a f := by
  unfold init at hf
  by_cases hn : n < 3
  · rw [if_pos hn] at hf; cases hf
  · rw [if_neg hn] at hf
    simp only [Except.ok.injEq] at hf
    subst hf
    exact ⟨by omega, rfl, rfl, rfl, hs n _ (by omega)⟩

lemma upward_cases (v : Vec 2) : upward v = v ∨ upward v = -v := by
  unfold upward
  split
  · exact .inr rfl
  · exact .inl rfl

end Attitude.Pca2
