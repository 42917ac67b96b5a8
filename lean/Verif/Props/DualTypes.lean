import Verif.Props.ConicSpheres
import Mathlib.LinearAlgebra.Matrix.Adjugate
import Mathlib.LinearAlgebra.Matrix.PosDef
import Mathlib.Analysis.Matrix.PosDef

/-!
# C246: what the dual of an ellipsoid is
-/

namespace Attitude.Props

open Attitude Conics Matrix

variable {d : ℕ}

/-! ## Specification -/

/-- An ellipse, ellipsoid, or the same in `d` dimensions: bounded in all directions, and some
point is inside. -/
structure Spec.Ellipsoid (C : Con d) : Prop where
  symmetric : C.transpose = C
  bounded : ∀ x : Vec d, x ≠ 0 →
    0 < ∑ i, ∑ j, C (Fin.castSucc i) (Fin.castSucc j) * x i * x j
  inside : ∃ p : Vec d, p ∈ Spec.Inside C ∧ p ∉ Spec.Shell C

/-! ## Helper lemmas -/

/-- The determinant of the block of the inverse. -/
lemma dual_type {C : Con d} (h : C.det ≠ 0) :
    type C⁻¹ = C (Fin.last d) (Fin.last d) / C.det := by
  have hu : IsUnit C.det := isUnit_iff_ne_zero.2 h
  have e := Matrix.adjugate_fin_succ_eq_det_submatrix (C⁻¹) (Fin.last d) (Fin.last d)
  have hi : (C⁻¹).det ≠ 0 := by
    rw [Matrix.det_nonsing_inv]
    simpa using h
  have hadj : (C⁻¹).adjugate = (C⁻¹).det • C := by
    have := Matrix.inv_def (C⁻¹)
    rw [Matrix.nonsing_inv_nonsing_inv _ hu] at this
    generalize C⁻¹ = B at this hi ⊢
    rw [this, smul_smul, Ring.inverse_eq_inv', mul_inv_cancel₀ hi, one_smul]
  rw [hadj] at e
  simp only [Matrix.smul_apply, smul_eq_mul, Fin.succAbove_last] at e
  have sg : ((-1 : ℝ)) ^ ((Fin.last d : ℕ) + (Fin.last d : ℕ)) = 1 := by
    rw [← two_mul, pow_mul]; simp
  rw [sg, one_mul] at e
  rw [type, quad, ← e, Matrix.det_nonsing_inv, Ring.inverse_eq_inv']
  field_simp

/-- The form of a vector without last component. -/
lemma form_castSucc (C : Con d) {x : Vec (d + 1)} (hx : x (Fin.last d) = 0) :
    x ⬝ᵥ C *ᵥ x = ∑ i, ∑ j, C (Fin.castSucc i) (Fin.castSucc j) * x i.castSucc * x j.castSucc := by
  simp only [dotProduct, Matrix.mulVec, Fin.sum_univ_castSucc, hx, mul_zero, add_zero, zero_mul]
  refine Finset.sum_congr rfl fun i _ => ?_
  rw [Finset.mul_sum]
  exact Finset.sum_congr rfl fun j _ => by ring

/-- A point at which the gradient vanishes has the least value. -/
lemma least_value {C : Con d} (h : Spec.Ellipsoid C) {x : Vec (d + 1)} {t : ℝ}
    (hx : C *ᵥ x = Pi.single (Fin.last d) t) (hl : x (Fin.last d) = 1) (q : Vec d) :
    x ⬝ᵥ C *ᵥ x ≤ solve C (augment q) := by
  have h0 : (augment q - x) (Fin.last d) = 0 := by simp [hl]
  have e : solve C (augment q) = x ⬝ᵥ C *ᵥ x + 2 * ((augment q - x) ⬝ᵥ C *ᵥ x)
      + (augment q - x) ⬝ᵥ C *ᵥ (augment q - x) := by
    have c := bilin_comm C h.symmetric (augment q) x
    simp only [solve, Matrix.mulVec_sub, dotProduct_sub, sub_dotProduct]
    linear_combination -c
  have e2 : (augment q - x) ⬝ᵥ C *ᵥ x = 0 := by
    rw [hx, dotProduct_single, h0, zero_mul]
  have e3 : 0 ≤ (augment q - x) ⬝ᵥ C *ᵥ (augment q - x) := by
    rw [form_castSucc C h0]
    by_cases hz : (fun i : Fin d => (augment q - x) i.castSucc) = 0
    · have hz' : ∀ i : Fin d, (augment q - x) i.castSucc = 0 := fun i => congrFun hz i
      simp [hz']
    · exact (h.bounded _ hz).le
  rw [e, e2]; linarith

lemma ellipsoid_det_neg {C : Con d} (h : Spec.Ellipsoid C) : C.det < 0 := by
  obtain ⟨q, hq, hq'⟩ := h.inside
  have hneg : solve C (augment q) < 0 := by
    rw [← contains_iff] at hq
    rw [mem_shell_iff] at hq'
    exact lt_of_le_of_ne (by simpa [contains] using hq) hq'
  have hquad : 0 < (quad C).det := by
    have hs : (quad C).IsHermitian := by
      rw [Matrix.IsHermitian, Matrix.conjTranspose_eq_transpose_of_trivial, quad,
        Matrix.transpose_submatrix, h.symmetric]
    have hp : (quad C).PosDef := by
      refine Matrix.PosDef.of_dotProduct_mulVec_pos hs fun x hx => ?_
      have := h.bounded x hx
      simp only [star_trivial, dotProduct, Matrix.mulVec, quad, Matrix.submatrix_apply]
      refine this.trans_eq (Finset.sum_congr rfl fun i _ => ?_)
      rw [Finset.mul_sum]
      exact Finset.sum_congr rfl fun j _ => by ring
    exact hp.det_pos
  -- invertible
  have scale : ∀ x : Vec (d + 1), x ≠ 0 → ∀ t, C *ᵥ x = Pi.single (Fin.last d) t →
      t * x (Fin.last d) < 0 := by
    intro x hx t hc
    have hf : x ⬝ᵥ C *ᵥ x = t * x (Fin.last d) := by
      rw [hc, dotProduct_single, mul_comm]
    by_cases hl : x (Fin.last d) = 0
    · exfalso
      have hx' : (fun i : Fin d => x i.castSucc) ≠ 0 := by
        intro hz
        apply hx
        funext i
        refine Fin.lastCases hl (fun i => ?_) i
        exact congrFun hz i
      have := h.bounded _ hx'
      rw [← form_castSucc C hl, hf, hl, mul_zero] at this
      exact lt_irrefl _ this
    · have := least_value h (x := (x (Fin.last d))⁻¹ • x) (t := (x (Fin.last d))⁻¹ * t)
        (by rw [Matrix.mulVec_smul, hc, ← Pi.single_smul, smul_eq_mul]) (by simp [hl]) q
      rw [Matrix.mulVec_smul, dotProduct_smul, smul_dotProduct, hf, smul_eq_mul, smul_eq_mul] at this
      have hlt : (x (Fin.last d))⁻¹ * ((x (Fin.last d))⁻¹ * (t * x (Fin.last d))) < 0 :=
        this.trans_lt hneg
      have hsq : 0 < x (Fin.last d) ^ 2 := by positivity
      have e : t * x (Fin.last d)
          = x (Fin.last d) ^ 2 * ((x (Fin.last d))⁻¹ * ((x (Fin.last d))⁻¹ * (t * x (Fin.last d)))) := by
        field_simp
      rw [e]
      exact mul_neg_of_pos_of_neg hsq hlt
  have hdet : C.det ≠ 0 := by
    intro h0
    obtain ⟨x, hx, hk⟩ := Matrix.exists_mulVec_eq_zero_iff.2 h0
    have := scale x hx 0 (by rw [hk]; simp)
    simp at this
  -- the sign from the inverse
  have hu : IsUnit C.det := isUnit_iff_ne_zero.2 hdet
  have hD : C⁻¹ (Fin.last d) (Fin.last d) < 0 := by
    have hc : C *ᵥ (C⁻¹ *ᵥ Pi.single (Fin.last d) 1) = Pi.single (Fin.last d) 1 := by
      rw [Matrix.mulVec_mulVec, Matrix.mul_nonsing_inv _ hu, Matrix.one_mulVec]
    have hne : C⁻¹ *ᵥ Pi.single (Fin.last d) 1 ≠ (0 : Vec (d + 1)) := by
      intro hz
      rw [hz, Matrix.mulVec_zero] at hc
      have := congrFun hc (Fin.last d)
      simp at this
    have := scale _ hne 1 hc
    simpa [Matrix.mulVec_single] using this
  have hi : (C⁻¹).det ≠ 0 := by
    rw [Matrix.det_nonsing_inv]
    simpa using hdet
  have ht := dual_type hi
  rw [Matrix.nonsing_inv_nonsing_inv _ hu, Matrix.det_nonsing_inv, Ring.inverse_eq_inv', div_inv_eq_mul]
    at ht
  have : 0 < C⁻¹ (Fin.last d) (Fin.last d) * C.det := by rw [← ht]; exact hquad
  by_contra hcon
  have hpos : 0 < C.det := lt_of_le_of_ne (not_lt.1 hcon) (Ne.symm hdet)
  exact absurd this (not_lt.2 (mul_neg_of_neg_of_pos hD hpos).le)

/-! ## C246 -/

/-- The dual of an ellipsoid exists.  It is hyperbolic exactly if the origin is outside of the
ellipsoid, elliptical exactly if it is inside, and parabolic exactly if it is on the surface. -/
theorem C246_type_of_dual_partial (C : Con d) (h : Spec.Ellipsoid C) :
    ∃ D, dual C = .ok D ∧ (isHyperbolic D = true ↔ (0 : Vec d) ∉ Spec.Inside C) ∧
      (isParabolic D = true ↔ (0 : Vec d) ∈ Spec.Shell C) ∧
      (isElliptical D = true ↔ (0 : Vec d) ∈ Spec.Inside C ∧ (0 : Vec d) ∉ Spec.Shell C) := by
  have hneg := ellipsoid_det_neg h
  have h0 : solve C (augment (0 : Vec d)) = C (Fin.last d) (Fin.last d) := by
    rw [solve_expand]; simp
  have hin : (0 : Vec d) ∈ Spec.Inside C ↔ C (Fin.last d) (Fin.last d) ≤ 0 := by
    rw [← contains_iff, ← h0]; simp [contains]
  have hsh : (0 : Vec d) ∈ Spec.Shell C ↔ C (Fin.last d) (Fin.last d) = 0 := by
    rw [mem_shell_iff, h0]
  refine ⟨C⁻¹, inv_ok hneg.ne, ?_, ?_, ?_⟩
  · rw [isHyperbolic, decide_eq_true_eq, dual_type hneg.ne, hin, div_lt_iff_of_neg hneg, zero_mul,
      not_le]
  · rw [isParabolic, decide_eq_true_eq, dual_type hneg.ne, hsh, div_eq_zero_iff]
    simp [hneg.ne]
  · rw [isElliptical, decide_eq_true_eq, dual_type hneg.ne, hsh, hin, lt_div_iff_of_neg hneg,
      zero_mul]
    exact lt_iff_le_and_ne

lemma fromAxes_ellipsoid {a : Vec d} (ha : ∀ i, 0 < a i) : Spec.Ellipsoid (fromAxes a) := by
  refine ⟨fromAxes_symm a, fun x hx => ?_, 0, ?_, ?_⟩
  · have e : ∑ i, ∑ j, fromAxes a (Fin.castSucc i) (Fin.castSucc j) * x i * x j
        = ∑ i, a i * x i ^ 2 := by
      refine Finset.sum_congr rfl fun i _ => ?_
      have hq : ∀ j, fromAxes a (Fin.castSucc i) (Fin.castSucc j) = Matrix.diagonal a i j :=
        fun j => congrFun (congrFun (quad_fromAxes a) i) j
      rw [Finset.sum_eq_single i]
      · rw [hq, Matrix.diagonal_apply_eq]; ring
      · intro j _ hj
        rw [hq, Matrix.diagonal_apply_ne _ (Ne.symm hj)]; ring
      · simp
    rw [e]
    obtain ⟨k, hk⟩ := Function.ne_iff.1 hx
    have hk' : x k ≠ 0 := hk
    refine Finset.sum_pos' (fun i _ => mul_nonneg (ha i).le (sq_nonneg _)) ⟨k, Finset.mem_univ _, ?_⟩
    have := ha k
    positivity
  · rw [← contains_iff]; simp [contains, solve_fromAxes]
  · rw [mem_shell_iff, solve_fromAxes]; simp

/-- The origin is inside of an ellipsoid around it. -/
lemma dual_fromAxes {a : Vec d} (ha : ∀ i, 0 < a i) :
    ∃ D, dual (fromAxes a) = .ok D ∧ isHyperbolic D = false ∧ isElliptical D = true := by
  obtain ⟨D, hD, h1, _, h3⟩ := C246_type_of_dual_partial _ (fromAxes_ellipsoid ha)
  have hin : (0 : Vec d) ∈ Spec.Inside (fromAxes a) := by
    rw [← contains_iff]; simp [contains, solve_fromAxes]
  refine ⟨D, hD, ?_, h3.2 ⟨hin, by rw [mem_shell_iff, solve_fromAxes]; simp⟩⟩
  rw [Bool.eq_false_iff]
  exact fun h => h1.1 h hin

/-- Moved ellipsoids are ellipsoids. -/
lemma translate_ellipsoid {C : Con d} (h : Spec.Ellipsoid C) (v : Vec d) :
    Spec.Ellipsoid (translate C v) := by
  have hq : quad (translate C v) = quad C := by rw [translate, quad_transform]; simp
  refine ⟨transform_symm h.symmetric _, fun x hx => ?_, ?_⟩
  · have := h.bounded x hx
    refine this.trans_eq (Finset.sum_congr rfl fun i _ => Finset.sum_congr rfl fun j _ => ?_)
    rw [show C i.castSucc j.castSucc = translate C v i.castSucc j.castSucc from
      (congrFun (congrFun hq i) j).symm]
  · obtain ⟨p, hp, hp'⟩ := h.inside
    refine ⟨p + v, ?_, ?_⟩
    · rw [← contains_iff] at hp ⊢
      simpa [contains, solve_translate] using hp
    · rw [mem_shell_iff] at hp' ⊢
      simpa [solve_translate] using hp'

/-- Refuted: the dual of an ellipsoid made with `from_axes` or `from_semiaxes` is never the
hyperboloid that their documentation promises. -/
theorem C246_from_axes_false (a : Vec d) (ha : ∀ i, 0 < a i) :
    (∃ D, dual (fromAxes a) = .ok D ∧ isHyperbolic D = false ∧ isElliptical D = true) ∧
    (∃ C D, fromSemiaxes a = some C ∧ dual C = .ok D ∧ isHyperbolic D = false ∧
      isElliptical D = true) := by
  refine ⟨dual_fromAxes ha, ?_⟩
  obtain ⟨D, hD, h⟩ := dual_fromAxes (a := fun i => 1 / a i ^ 2) (fun i => by
    have := ha i
    positivity)
  exact ⟨_, D, fromSemiaxes_some fun i => (ha i).ne', hD, h⟩

/-- The ellipsoid of the test suite around the origin, and the same moved out of the origin. -/
example : (∃ D, dual (fromAxes ![500, 200, 100] : Con 3) = .ok D ∧ isHyperbolic D = false) ∧
    ∃ D, dual (translate (fromAxes ![500, 200, 100] : Con 3) ![0, 0, 1]) = .ok D ∧
      isHyperbolic D = true := by
  have ha : ∀ i, 0 < (![500, 200, 100] : Vec 3) i := by intro i; fin_cases i <;> simp
  refine ⟨?_, ?_⟩
  · obtain ⟨D, hD, h, _⟩ := (C246_from_axes_false ![500, 200, 100] ha).1
    exact ⟨D, hD, h⟩
  · obtain ⟨D, hD, h, _⟩ := C246_type_of_dual_partial _ (translate_ellipsoid (fromAxes_ellipsoid ha) ![0, 0, 1])
    refine ⟨D, hD, h.2 ?_⟩
    rw [← contains_iff]
    simp [contains, solve_translate, solve_fromAxes, Fin.sum_univ_three]

end Attitude.Props
