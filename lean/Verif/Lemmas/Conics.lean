import Verif.Model.Conics
import Verif.Lemmas.Trig

/-! Helper facts about conics. -/

namespace Attitude.Conics

open Attitude Matrix

variable {d k : ℕ}

@[simp] lemma augment_castSucc (p : Vec d) (i : Fin d) : augment p i.castSucc = p i := by
  simp [augment]

@[simp] lemma augment_last (p : Vec d) : augment p (Fin.last d) = 1 := by simp [augment]

@[simp] lemma affine_cc (L : Mat d k) (t : Vec d) (i : Fin d) (j : Fin k) :
    affine L t i.castSucc j.castSucc = L i j := by simp [affine]

@[simp] lemma affine_cl (L : Mat d k) (t : Vec d) (i : Fin d) :
    affine L t i.castSucc (Fin.last k) = t i := by simp [affine]

@[simp] lemma affine_lc (L : Mat d k) (t : Vec d) (j : Fin k) :
    affine L t (Fin.last d) j.castSucc = 0 := by simp [affine]

@[simp] lemma affine_ll (L : Mat d k) (t : Vec d) :
    affine L t (Fin.last d) (Fin.last k) = 1 := by simp [affine]

lemma affine_augment (L : Mat d k) (t : Vec d) (x : Vec k) :
    affine L t *ᵥ augment x = augment (L *ᵥ x + t) := by
  funext i
  refine Fin.lastCases ?_ (fun i => ?_) i
  · simp [Matrix.mulVec, dotProduct, Fin.sum_univ_castSucc]
  · simp [Matrix.mulVec, dotProduct, Fin.sum_univ_castSucc]

lemma affine_mul {e : ℕ} (L : Mat d k) (t : Vec d) (L' : Mat k e) (t' : Vec k) :
    affine L t * affine L' t' = affine (L * L') (L *ᵥ t' + t) := by
  ext i j
  refine Fin.lastCases ?_ (fun i => ?_) i <;> refine Fin.lastCases ?_ (fun j => ?_) j <;>
    simp [Matrix.mul_apply, Matrix.mulVec, dotProduct, Fin.sum_univ_castSucc]

lemma affine_one : affine (1 : Mat d d) 0 = 1 := by
  ext i j
  refine Fin.lastCases ?_ (fun i => ?_) i <;> refine Fin.lastCases ?_ (fun j => ?_) j <;>
    simp [Matrix.one_apply, Fin.ext_iff, Nat.ne_of_gt, Nat.ne_of_lt]

lemma transform_transform {m e : ℕ} (C : Mat m m) (S : Mat m k) (T : Mat k e) :
    transform (transform C S) T = transform C (S * T) := by
  simp [transform, Matrix.transpose_mul, Matrix.mul_assoc]

lemma transform_one {m : ℕ} (C : Mat m m) : transform C 1 = C := by simp [transform]

lemma solve_transform (C : Con d) (T : Mat (d + 1) (k + 1)) (x : Vec (k + 1)) :
    solve (transform C T) x = solve C (T *ᵥ x) := by
  simp only [solve, transform]
  rw [← Matrix.mulVec_mulVec, ← Matrix.mulVec_mulVec, Matrix.dotProduct_mulVec,
    Matrix.vecMul_transpose]

lemma quad_transform (C : Con d) (L : Mat d k) (t : Vec d) :
    quad (transform C (affine L t)) = L.transpose * quad C * L := by
  ext i j
  simp [quad, transform, Matrix.mul_apply, Fin.sum_univ_castSucc]

lemma lin_transform (C : Con d) (L : Mat d k) (t : Vec d) :
    lin (transform C (affine L t)) = L.transpose *ᵥ (quad C *ᵥ t + lin C) := by
  funext i
  simp only [lin, transform, quad, Matrix.mul_apply, Matrix.mulVec, dotProduct,
    Fin.sum_univ_castSucc, affine_cl, affine_ll, Matrix.transpose_apply, affine_cc, affine_lc,
    Matrix.submatrix_apply, Pi.add_apply, zero_mul, add_zero, mul_one]
  have : ∑ x : Fin d, (∑ x_1 : Fin d, L x_1 i * C x_1.castSucc x.castSucc) * t x
      = ∑ x_1 : Fin d, L x_1 i * ∑ x : Fin d, C x_1.castSucc x.castSucc * t x := by
    simp only [Finset.sum_mul, Finset.mul_sum]
    rw [Finset.sum_comm]
    simp only [mul_assoc]
  rw [this, ← Finset.sum_add_distrib]
  simp only [mul_add]

lemma solve_augment (C : Con d) (hC : C.transpose = C) (x : Vec d) :
    solve C (augment x) = x ⬝ᵥ quad C *ᵥ x + 2 * (lin C ⬝ᵥ x) + C (Fin.last d) (Fin.last d) := by
  have hs : ∀ i j, C i j = C j i := fun i j => by
    conv_lhs => rw [← hC]
    rfl
  simp only [solve, dotProduct, Matrix.mulVec, Fin.sum_univ_castSucc, augment_castSucc,
    augment_last, quad, lin, Matrix.submatrix_apply, mul_one, one_mul, mul_add,
    Finset.sum_add_distrib]
  have e1 : ∑ x_1 : Fin d, C (Fin.last d) x_1.castSucc * x x_1
      = ∑ i : Fin d, C i.castSucc (Fin.last d) * x i :=
    Finset.sum_congr rfl fun i _ => by rw [hs]
  have e2 : ∑ i : Fin d, x i * C i.castSucc (Fin.last d)
      = ∑ i : Fin d, C i.castSucc (Fin.last d) * x i :=
    Finset.sum_congr rfl fun i _ => mul_comm _ _
  rw [e1, e2]
  ring

/-- Conics are determined by their blocks. -/
lemma con_ext {A B : Con d} (hA : A.transpose = A) (hB : B.transpose = B)
    (hq : quad A = quad B) (hl : lin A = lin B)
    (hc : A (Fin.last d) (Fin.last d) = B (Fin.last d) (Fin.last d)) : A = B := by
  have sA : ∀ i j, A i j = A j i := fun i j => by
    conv_lhs => rw [← hA]
    rfl
  have sB : ∀ i j, B i j = B j i := fun i j => by
    conv_lhs => rw [← hB]
    rfl
  ext i j
  refine Fin.lastCases ?_ (fun i => ?_) i <;> refine Fin.lastCases ?_ (fun j => ?_) j
  · exact hc
  · rw [sA, sB]; exact congrFun hl j
  · exact congrFun hl i
  · exact congrFun (congrFun hq i) j

lemma inv_ok {A : Mat k k} (h : A.det ≠ 0) : inv A = .ok A⁻¹ := by simp [inv, h]

lemma inv_error {A : Mat k k} (h : A.det = 0) : inv A = .error .linAlgError := by simp [inv, h]

lemma transform_symm {m : ℕ} {C : Mat m m} (hC : C.transpose = C) (T : Mat m k) :
    (transform C T).transpose = transform C T := by
  simp [transform, Matrix.transpose_mul, hC, Matrix.mul_assoc]

lemma fromAxes3 (a b c : ℝ) : fromAxes ![a, b, c] = Matrix.diagonal ![a, b, c, -1] := by
  unfold fromAxes
  congr 1
  funext i
  fin_cases i <;> rfl

lemma fromAxes2 (a b : ℝ) : fromAxes ![a, b] = Matrix.diagonal ![a, b, -1] := by
  unfold fromAxes
  congr 1
  funext i
  fin_cases i <;> rfl

lemma augment3 (x : Vec 3) : augment x = ![x 0, x 1, x 2, 1] := by
  funext i
  fin_cases i <;> rfl

lemma augment2 (x : Vec 2) : augment x = ![x 0, x 1, 1] := by
  funext i
  fin_cases i <;> rfl

lemma quad_diagonal (f : Vec (d + 1)) :
    quad (Matrix.diagonal f) = Matrix.diagonal fun i => f i.castSucc := by
  ext i j
  simp [quad, Matrix.diagonal_apply]

end Attitude.Conics
