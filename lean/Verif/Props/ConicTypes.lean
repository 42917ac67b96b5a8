import Verif.Props.Conics
import Mathlib.Analysis.Matrix.Spectrum

/-! # Types of quadrics by the signs along their principal directions: C57 -/

namespace Attitude.Props

open Attitude Conics Matrix

variable {d : ℕ}

namespace Spec

/-- The columns of `W` are perpendicular unit vectors, and in coordinates `y` along them the quadratic part of the
equation of `C` is `∑ a i * y i ^ 2`. -/
def PrincipalDirections (C : Con d) (W : Mat d d) (a : Vec d) : Prop :=
  W.transpose * W = 1 ∧ ∀ y : Vec d, (W *ᵥ y) ⬝ᵥ quad C *ᵥ (W *ᵥ y) = ∑ i, a i * y i ^ 2

/-- How many of the numbers are negative. -/
noncomputable def negatives (a : Vec d) : ℕ := open Classical in (Finset.univ.filter fun i => a i < 0).card

end Spec

/-- A symmetric array is determined by its quadratic form. -/
lemma eq_diagonal_of_form (M : Mat d d) (hM : M.transpose = M) (a : Vec d)
    (h : ∀ y : Vec d, y ⬝ᵥ M *ᵥ y = ∑ i, a i * y i ^ 2) : M = Matrix.diagonal a := by
  have hs : ∀ i j, M j i = M i j := fun i j => congrFun (congrFun hM i) j
  have h1 : ∀ i, M i i = a i := by
    intro i
    have := h (Pi.single i 1)
    rw [Matrix.mulVec_single_one, single_one_dotProduct] at this
    rw [show M i i = M.col i i from rfl, this, Finset.sum_eq_single i] <;> simp +contextual
  have h2 : ∀ i j, i ≠ j → M i j = 0 := by
    intro i j hij
    have := h (Pi.single i 1 + Pi.single j 1)
    rw [Matrix.mulVec_add, Matrix.mulVec_single_one, Matrix.mulVec_single_one, add_dotProduct,
      single_one_dotProduct, single_one_dotProduct] at this
    have e : ∑ k, a k * (Pi.single i 1 + Pi.single j 1 : Vec d) k ^ 2 = a i + a j := by
      have : ∀ k, a k * (Pi.single i 1 + Pi.single j 1 : Vec d) k ^ 2
          = (if k = i then a k else 0) + if k = j then a k else 0 := by
        intro k
        by_cases hi : k = i
        · subst hi
          simp [hij]
        · by_cases hj : k = j
          · subst hj
            simp [hi]
          · simp [hi, hj]
      simp only [this, Finset.sum_add_distrib, Finset.sum_ite_eq', Finset.mem_univ, if_true]
    rw [e] at this
    simp only [Pi.add_apply, Matrix.col_apply] at this
    have := hs i j
    linarith [h1 i, h1 j]
  funext i j
  by_cases hij : i = j
  · subst hij; rw [Matrix.diagonal_apply_eq, h1]
  · rw [Matrix.diagonal_apply_ne _ hij, h2 i j hij]

lemma type_eq_prod (C : Con d) (hC : C.transpose = C) (W : Mat d d) (a : Vec d)
    (h : Spec.PrincipalDirections C W a) : type C = ∏ i, a i := by
  have hq : (quad C).transpose = quad C := by rw [quad, Matrix.transpose_submatrix, hC]
  have e := eq_diagonal_of_form (W.transpose * quad C * W)
    (by simp only [Matrix.transpose_mul, Matrix.transpose_transpose, hq, Matrix.mul_assoc]) a (fun y => by
      rw [← h.2 y, ← Matrix.mulVec_mulVec, ← Matrix.mulVec_mulVec, Matrix.dotProduct_mulVec,
        Matrix.vecMul_transpose])
  have hdet : W.det * W.det = 1 := by
    have := congrArg Matrix.det h.1
    rwa [Matrix.det_mul, Matrix.det_transpose, Matrix.det_one] at this
  have := congrArg Matrix.det e
  rw [Matrix.det_mul, Matrix.det_mul, Matrix.det_transpose, Matrix.det_diagonal] at this
  rw [← this, type]
  linear_combination (-(quad C).det) * hdet

lemma prod_signs (a : Vec d) : ∏ i, a i = (-1) ^ Spec.negatives a * ∏ i, |a i| := by
  classical
  have : ∀ i, a i = (if a i < 0 then -1 else 1) * |a i| := by
    intro i
    split_ifs with h
    · rw [abs_of_neg h]; ring
    · rw [abs_of_nonneg (not_lt.1 h)]; ring
  conv_lhs => rw [Finset.prod_congr rfl fun i _ => this i]
  rw [Finset.prod_mul_distrib, Finset.prod_ite, Finset.prod_const, Finset.prod_const_one, mul_one]
  congr 2

/-- What the three types say about a quadric in any dimension: along its principal directions, which always
exist, it is reported elliptical when no coefficient is zero and an even number of them is negative, hyperbolic
when none is zero and an odd number is negative, parabolic when one is zero. -/
theorem C57_signs_partial (C : Con d) (hC : C.transpose = C) :
    (∃ W a, Spec.PrincipalDirections C W a) ∧
    ∀ W a, Spec.PrincipalDirections C W a →
      (isElliptical C = true ↔ (∀ i, a i ≠ 0) ∧ Even (Spec.negatives a)) ∧
      (isHyperbolic C = true ↔ (∀ i, a i ≠ 0) ∧ Odd (Spec.negatives a)) ∧
      (isParabolic C = true ↔ ∃ i, a i = 0) := by
  constructor
  · have hq : (quad C).IsHermitian := by
      rw [Matrix.IsHermitian, Matrix.conjTranspose_eq_transpose_of_trivial, quad, Matrix.transpose_submatrix, hC]
    have hU : (hq.eigenvectorUnitary : Mat d d).transpose * (hq.eigenvectorUnitary : Mat d d) = 1 := by
      have := Unitary.coe_star_mul_self hq.eigenvectorUnitary
      rwa [Matrix.star_eq_conjTranspose, Matrix.conjTranspose_eq_transpose_of_trivial] at this
    refine ⟨hq.eigenvectorUnitary, hq.eigenvalues, hU, fun y => ?_⟩
    have e := hq.conjStarAlgAut_star_eigenvectorUnitary
    rw [Unitary.conjStarAlgAut_star_apply, Matrix.star_eq_conjTranspose,
      Matrix.conjTranspose_eq_transpose_of_trivial] at e
    have h2 := congrArg (fun M => y ⬝ᵥ M *ᵥ y) e
    simp only [← Matrix.mulVec_mulVec] at h2
    rw [Matrix.dotProduct_mulVec, Matrix.vecMul_transpose] at h2
    rw [h2]
    simp only [dotProduct, Matrix.mulVec_diagonal]
    exact Finset.sum_congr rfl fun i _ => by simp; ring
  · intro W a h
    have ht := type_eq_prod C hC W a h
    have hs := prod_signs a
    simp only [isElliptical, isHyperbolic, isParabolic, decide_eq_true_eq, ht]
    have hz : ∏ i, a i = 0 ↔ ∃ i, a i = 0 := by simp [Finset.prod_eq_zero_iff]
    have key : (∀ i, a i ≠ 0) → 0 < ∏ i, |a i| := fun k => Finset.prod_pos fun i _ => abs_pos.2 (k i)
    refine ⟨⟨fun k => ?_, fun ⟨k, e⟩ => ?_⟩, ⟨fun k => ?_, fun ⟨k, e⟩ => ?_⟩, hz⟩
    · have hne : ∀ i, a i ≠ 0 := fun i hi => k.ne' (hz.2 ⟨i, hi⟩)
      refine ⟨hne, ?_⟩
      by_contra ho
      rw [Nat.not_even_iff_odd] at ho
      rw [hs, ho.neg_one_pow] at k
      linarith [key hne]
    · rw [hs, e.neg_one_pow, one_mul]
      exact key k
    · have hne : ∀ i, a i ≠ 0 := fun i hi => k.ne (hz.2 ⟨i, hi⟩)
      refine ⟨hne, ?_⟩
      by_contra ho
      rw [Nat.not_odd_iff_even] at ho
      rw [hs, ho.neg_one_pow] at k
      linarith [key hne]
    · rw [hs, e.neg_one_pow]
      linarith [key k]

/-- The negative of an equation describes the same points, but in an odd number of dimensions it has the other
type: an ellipsoid is reported elliptical or hyperbolic depending on the sign of its equation. -/
theorem C57_sign_false (C : Con d) (hd : Odd d) :
    Spec.Shell (-C) = Spec.Shell C ∧
    (isElliptical (-C) = isHyperbolic C) ∧ (isHyperbolic (-C) = isElliptical C) := by
  have ht : type (-C) = -type C := by
    have : quad (-C) = -quad C := by ext i j; rfl
    rw [type, this, Matrix.det_neg, Fintype.card_fin, hd.neg_one_pow, type]
    ring
  refine ⟨?_, ?_, ?_⟩
  · ext x
    simp only [Spec.Shell, Set.mem_ofPred_eq, Matrix.neg_apply, neg_mul, Finset.sum_neg_distrib]
    constructor <;> intro h <;> linarith
  · simp only [isElliptical, isHyperbolic, ht, decide_eq_decide]
    constructor <;> intro h <;> linarith
  · simp only [isElliptical, isHyperbolic, ht, decide_eq_decide]
    constructor <;> intro h <;> linarith

/-- The unit sphere, its negative, and a hyperboloid. -/
example : Spec.PrincipalDirections (fromAxes ![1, 1, 1] : Con 3) 1 ![1, 1, 1] ∧
    isElliptical (fromAxes ![1, 1, 1] : Con 3) = true ∧ isHyperbolic (-fromAxes ![1, 1, 1] : Con 3) = true ∧
    Spec.negatives (![-1, -1, 1] : Vec 3) = 2 := by
  have h1 : isElliptical (fromAxes ![1, 1, 1] : Con 3) = true := by
    rw [isElliptical, type, fromAxes3, quad_diagonal, Matrix.det_diagonal, Fin.prod_univ_three]
    simp
  refine ⟨⟨by simp, fun y => ?_⟩, h1, ?_, ?_⟩
  · rw [fromAxes3, quad_diagonal]
    simp [dotProduct, Matrix.mulVec_diagonal, Fin.sum_univ_three]
    ring
  · rw [(C57_sign_false _ ⟨1, rfl⟩).2.2, h1]
  · classical
    have : (Finset.univ.filter fun i : Fin 3 => (![-1, -1, 1] : Vec 3) i < 0) = {0, 1} := by
      ext i
      fin_cases i <;> simp
    have h2 : (Finset.univ.filter fun i : Fin 3 => (![-1, -1, 1] : Vec 3) i < 0).card = 2 := by
      simp [this]
    refine Eq.trans ?_ h2
    unfold Spec.negatives
    congr

end Attitude.Props
