import Verif.Model.Hyperbola
import Verif.Lemmas.Conics

/-! Helper facts about error hyperbolas. -/

namespace Attitude.Hyperbola

open Attitude Matrix Conics

lemma augmentTensor_dual {d : ℕ} {h : Vec d} (hh : ∀ i, h i ≠ 0) :
    dual (augmentTensor (Matrix.diagonal h))
      = .ok (augmentTensor (Matrix.diagonal fun i => (h i)⁻¹)) := by
  have hm : augmentTensor (Matrix.diagonal h) * augmentTensor (Matrix.diagonal fun i => (h i)⁻¹)
      = 1 := by
    unfold augmentTensor
    rw [affine_mul, ← affine_one, Matrix.diagonal_mul_diagonal]
    congr 1
    · rw [← Matrix.diagonal_one]
      congr 1
      funext i
      exact mul_inv_cancel₀ (hh i)
    · simp
  have hdet : (augmentTensor (Matrix.diagonal h)).det ≠ 0 := by
    intro h0
    have := congrArg Matrix.det hm
    rw [Matrix.det_mul, h0, zero_mul, Matrix.det_one] at this
    exact zero_ne_one this
  unfold dual
  rw [inv_ok hdet, Matrix.inv_eq_right_inv hm]

lemma augmentTensor_dual_zero {d : ℕ} {h : Vec d} {i : Fin d} (hi : h i = 0) :
    dual (augmentTensor (Matrix.diagonal h)) = .error .linAlgError := by
  apply inv_error
  apply Matrix.det_eq_zero_of_row_eq_zero i.castSucc
  intro j
  refine Fin.lastCases ?_ (fun j => ?_) j
  · simp [augmentTensor]
  · rw [augmentTensor, affine_cc, Matrix.diagonal_apply]
    split_ifs with hij
    · exact hi
    · rfl

lemma quad_augmentTensor {d : ℕ} (A : Mat d d) : quad (augmentTensor A) = A := by
  ext i j
  simp [quad, augmentTensor]

/-- The quadratic form `sum_k (T v)_k^2 / h_k`. -/
noncomputable def form {d k : ℕ} (h : Vec d) (T : Mat d k) (v : Vec k) : ℝ :=
  ∑ i, (T *ᵥ v) i ^ 2 / h i

lemma form_pos {d : ℕ} {h : Vec d} (hh : ∀ i, 0 < h i) {T : Mat d d} (hT : T.det ≠ 0) {v : Vec d}
    (hv : v ≠ 0) : 0 < form h T v := by
  have hne : T *ᵥ v ≠ 0 := by
    intro h0
    apply hv
    have := congrArg (T⁻¹ *ᵥ ·) h0
    simp only [Matrix.mulVec_mulVec, Matrix.mulVec_zero] at this
    rwa [Matrix.nonsing_inv_mul _ (isUnit_iff_ne_zero.2 hT), Matrix.one_mulVec] at this
  obtain ⟨i, hi⟩ := Function.ne_iff.1 hne
  apply Finset.sum_pos' (fun j _ => div_nonneg (sq_nonneg _) (hh j).le)
  exact ⟨i, Finset.mem_univ _, div_pos (by have : (T *ᵥ v) i ≠ 0 := hi; positivity) (hh i)⟩

lemma cross_ne {a b : Vec 3} (h : cross a b ≠ 0) : a ≠ 0 ∧ b ≠ 0 := by
  constructor <;> rintro rfl <;> apply h <;> funext i <;> fin_cases i <;> simp [cross]

lemma quad_form (h : Vec 3) (T : Mat 3 3) (ax : Vec 3 × Vec 3) (pt : Vec 3) (i : Fin 2) :
    quad (transform (transform (augmentTensor (Matrix.diagonal fun i => (h i)⁻¹)) (augmentTensor T))
      (affine (Matrix.of fun i j => ![ax.1, ax.2] j i : Mat 3 2) pt)) i i
      = form h T (![ax.1, ax.2] i) := by
  rw [quad_transform, augmentTensor, augmentTensor, quad_transform]
  have hq : quad (affine (Matrix.diagonal fun i => (h i)⁻¹) (0 : Vec 3))
      = Matrix.diagonal fun i => (h i)⁻¹ := quad_augmentTensor _
  rw [hq]
  fin_cases i <;>
  · simp only [form, Matrix.mul_apply, Matrix.transpose_apply, Matrix.of_apply, Matrix.mulVec,
      dotProduct, Matrix.diagonal_apply, Fin.sum_univ_three]
    simp
    ring

lemma plane_offset_zero {n : Vec 3} (hn : n ≠ 0) :
    ∃ m, planeNormal (plane n) = some m ∧ planeOffset (plane n) = some 0 := by
  have hne : norm n ≠ 0 := fun h => hn ((norm_eq_zero_iff n).1 h)
  have he : (fun i : Fin 3 => plane n 0 i.castSucc) = n := by
    funext i
    simp [plane]
  simp only [planeNormal, planeOffset, hessianNormal, he, vdivOpt, hne, if_false, Option.map_some]
  refine ⟨_, rfl, ?_⟩
  have hl : plane n 0 (Fin.last 3) = 0 := Fin.snoc_last _ _
  simp only [hl, zero_div, mul_zero, neg_zero]
  rfl

/-- Closed form of `hyperbolic_errors`. -/
lemma hyperbolicErrors_eq {h : Vec 3} (hh : ∀ i, 0 < h i) {T : Mat 3 3} (hT : T.det ≠ 0)
    {ax : Vec 3 × Vec 3} (hax : cross ax.1 ax.2 ≠ 0) (xs : List ℝ) (means : Vec 2) (rev : Bool) :
    hyperbolicErrors h xs T (some ax) means rev
      = .ok (some (bands (1 / Real.sqrt (form h T ax.1)) (1 / Real.sqrt (form h T ax.2)) xs
          (apparentDipCorrection ax.1) means rev)) := by
  obtain ⟨m, hm, hpt⟩ := plane_offset_zero hax
  have p0 := form_pos hh hT (cross_ne hax).1
  have p1 := form_pos hh hT (cross_ne hax).2
  have hq := quad_form h T ax 0
  simp only [hyperbolicErrors, augmentTensor_dual (fun i => (hh i).ne'), bind, Except.bind,
    Option.getD_some, slice3, hm, hpt]
  have hs : semiaxes (transform (transform (augmentTensor (Matrix.diagonal fun i => (h i)⁻¹))
      (augmentTensor T)) (affine (Matrix.of fun i j => ![ax.1, ax.2] j i : Mat 3 2) 0))
      = some fun i => (form h T (![ax.1, ax.2] i))⁻¹ := by
    have hpos : ∀ i : Fin 2, 0 < form h T (![ax.1, ax.2] i) := by
      intro i
      fin_cases i
      · exact p0
      · exact p1
    unfold semiaxes
    rw [if_neg]
    · congr 1
      funext i
      rw [hq, abs_of_pos (hpos i)]
    · rintro ⟨i, hi⟩
      rw [hq] at hi
      exact (hpos i).ne' hi
  rw [hs]
  simp only [Real.sqrt_inv, one_div]
  rfl

lemma width_eq {a b : ℝ} (x : ℝ) : width a b x = b * Real.sqrt (1 + (x / a) ^ 2) := by
  rw [width, Real.cosh_arsinh]

lemma rows_orthonormal {c s : ℝ} (h : c ^ 2 + s ^ 2 = 1) :
    (!![c, s; -s, c] : Mat 2 2) * (!![c, s; -s, c] : Mat 2 2).transpose = 1 := by
  ext i j
  fin_cases i <;> fin_cases j <;> simp [Matrix.mul_apply] <;> nlinarith

/-- `apparent_dip_correction` is a rotation. -/
lemma correction_cases {d : ℕ} (a : Vec (d + 1)) :
    ∃ c s : ℝ, c ^ 2 + s ^ 2 = 1 ∧ 0 ≤ c ∧ 0 ≤ s ∧ apparentDipCorrection a = !![c, s; -s, c] := by
  have h1 : (1 : Mat 2 2) = !![1, 0; -0, 1] := by
    ext i j
    fin_cases i <;> fin_cases j <;> simp
  unfold apparentDipCorrection
  rcases hc : angleCos a (flatten a) with _ | c
  · exact ⟨1, 0, by norm_num, by norm_num, le_rfl, h1⟩
  have hc0 : 0 ≤ c := by
    unfold angleCos fdiv at hc
    split_ifs at hc with h0
    cases hc
    apply div_nonneg
    · apply Finset.sum_nonneg
      intro i _
      unfold flatten
      split_ifs
      · simp
      · exact mul_self_nonneg _
    · exact mul_nonneg (norm_nonneg' _) (norm_nonneg' _)
  simp only
  split_ifs with h2 h3
  · exact absurd h3 (not_lt.2 hc0)
  · refine ⟨c, Real.sqrt (1 - c ^ 2), ?_, hc0, Real.sqrt_nonneg _, rfl⟩
    rw [Real.sq_sqrt (by linarith)]
    ring
  · exact ⟨1, 0, by norm_num, by norm_num, le_rfl, h1⟩

end Attitude.Hyperbola
