import Mathlib.Analysis.InnerProductSpace.Basic
import Mathlib.Analysis.SpecialFunctions.Trigonometric.Basic
import Mathlib.LinearAlgebra.Matrix.Determinant.Basic
import Verif.Model.Extras
import Verif.Lemmas.Conics
import Verif.Lemmas.Pca
import Verif.Lemmas.SvdExists
import Verif.Props.PcaState

/-!
# C150 - C153: transformation helpers and symbolic conics
-/

namespace Attitude.Props

open Attitude Matrix Extras

/-! ## C150 -/

/-- Arrays with at most one column more than rows can be augmented; the others are refused. -/
theorem C150_augment_domain {m k : ℕ} (A : Mat m k) :
    (k ≤ m + 1 → ∃ M, augmentMatrix A = .ok M) ∧
    (m + 1 < k → augmentMatrix A = .error .valueError) := by
  constructor
  · intro h; exact ⟨_, by rw [augmentMatrix, if_pos h]⟩
  · intro h; rw [augmentMatrix, if_neg (by omega)]

lemma augmentMatrix_square {m : ℕ} (A : Mat m m) : augmentMatrix A = .ok (Conics.affine A 0) := by
  rw [augmentMatrix, if_pos (by omega)]
  congr 1
  ext i j
  refine Fin.lastCases ?_ (fun i => ?_) i <;> refine Fin.lastCases ?_ (fun j => ?_) j <;>
    simp [Fin.ext_iff, Nat.ne_of_gt, Nat.ne_of_lt]

lemma augmentMatrix_affine {m : ℕ} (A : Mat m (m + 1)) :
    augmentMatrix A = .ok (Conics.affine (A.submatrix id Fin.castSucc) fun i => A i (Fin.last m)) := by
  rw [augmentMatrix, if_pos le_rfl]
  congr 1
  ext i j
  refine Fin.lastCases ?_ (fun i => ?_) i <;> refine Fin.lastCases ?_ (fun j => ?_) j <;>
    simp [Fin.ext_iff, Nat.ne_of_gt]

/-- The augmented array does to augmented vectors what the array does to vectors. -/
theorem C150_augment_acts {m : ℕ} (A : Mat m m) : ∃ M, augmentMatrix A = .ok M ∧
    ∀ v, M *ᵥ augmentVector v = augmentVector (A *ᵥ v) :=
  ⟨_, augmentMatrix_square A, fun v => by
    have := Conics.affine_augment A 0 v
    simpa [Conics.augment, augmentVector] using this⟩

/-- A column more is a translation. -/
theorem C150_augment_translates {m : ℕ} (A : Mat m m) (t : Vec m) :
    ∃ M, augmentMatrix (Matrix.of fun i => (Fin.snoc (A i) (t i) : Vec (m + 1))) = .ok M ∧
    ∀ v, M *ᵥ augmentVector v = augmentVector (A *ᵥ v + t) := by
  refine ⟨_, augmentMatrix_affine _, fun v => ?_⟩
  have e : (Matrix.of fun i => (Fin.snoc (A i) (t i) : Vec (m + 1))).submatrix id Fin.castSucc = A := by
    ext i j; simp
  have := Conics.affine_augment A t v
  rw [e]
  simpa [Conics.augment, augmentVector] using this

/-- Augmenting is compatible with products and the identity. -/
theorem C150_augment_mul {m : ℕ} (A B : Mat m m) : ∃ MA MB, augmentMatrix A = .ok MA ∧
    augmentMatrix B = .ok MB ∧ augmentMatrix (A * B) = .ok (MA * MB) ∧
    augmentMatrix (1 : Mat m m) = .ok 1 := by
  refine ⟨_, _, augmentMatrix_square A, augmentMatrix_square B, ?_, ?_⟩
  · rw [augmentMatrix_square, Conics.affine_mul]
    simp
  · rw [augmentMatrix_square, Conics.affine_one]

/-- Rotating a tensor by one transformation and then by another is rotating it by the product,
and the quadratic form is that of the back-transformed vector. -/
theorem C150_rotate_tensor {m k p : ℕ} (t : Mat m m) (S : Mat k m) (T : Mat p k) :
    rotateTensor (rotateTensor t S) T = rotateTensor t (T * S) ∧ rotateTensor t 1 = t ∧
    (t.transpose = t → (rotateTensor t S).transpose = rotateTensor t S) ∧
    ∀ x, x ⬝ᵥ rotateTensor t S *ᵥ x = (S.transpose *ᵥ x) ⬝ᵥ t *ᵥ (S.transpose *ᵥ x) := by
  refine ⟨?_, ?_, ?_, ?_⟩
  · simp only [rotateTensor, Matrix.transpose_mul, Matrix.mul_assoc]
  · simp [rotateTensor]
  · intro h
    simp only [rotateTensor, Matrix.transpose_mul, Matrix.transpose_transpose, h, Matrix.mul_assoc]
  · intro x
    simp only [rotateTensor]
    rw [← Matrix.mulVec_mulVec, ← Matrix.mulVec_mulVec, Matrix.dotProduct_mulVec,
      Matrix.mulVec_transpose, ← Matrix.mulVec_transpose]

/-- The eigenvectors and values of a rotated tensor are those of the tensor, rotated. -/
theorem C150_rotate_tensor_eigen {m : ℕ} (t R : Mat m m) (hR : R.transpose * R = 1) (v : Vec m) (l : ℝ)
    (hv : t *ᵥ v = l • v) : rotateTensor t R *ᵥ (R *ᵥ v) = l • (R *ᵥ v) := by
  rw [rotateTensor, Matrix.mulVec_mulVec, Matrix.mul_assoc, hR, Matrix.mul_one, ← Matrix.mulVec_mulVec, hv,
    Matrix.mulVec_smul]

example : rotateTensor !![2, 0; 0, 3] !![0, -1; 1, 0] *ᵥ (!![0, -1; 1, 0] *ᵥ ![1, 0])
    = (2 : ℝ) • ((!![0, -1; 1, 0] : Mat 2 2) *ᵥ ![1, 0]) := by
  refine C150_rotate_tensor_eigen _ _ ?_ _ 2 ?_
  · ext i j
    fin_cases i <;> fin_cases j <;> simp [Matrix.mul_apply, Fin.sum_univ_two]
  · funext i
    fin_cases i <;> simp

/-- Not the composition of transformations: `compose_affine` always fails. -/
theorem C150_compose_false {m : ℕ} (l : List (Mat m m)) : ∃ e, composeAffine l = .error e := ⟨_, rfl⟩

/-- `axis_transform` gives the axes back, whichever least-squares solver is used. -/
theorem C150_axis_transform (lstsq : Mat 3 3 → Mat 3 3 → Mat 3 3)
    (h : ∀ A B, IsLstsq A B (lstsq A B)) (axes : Mat 3 3) : axisTransform lstsq axes = axes := by
  have := h 1 axes axes
  simp only [Matrix.one_mul, sub_self, ne_eq, OfNat.ofNat_ne_zero, not_false_eq_true, zero_pow,
    Finset.sum_const_zero] at this
  have h0 : ∑ i, ∑ j, (lstsq 1 axes i j - axes i j) ^ 2 = 0 :=
    le_antisymm this (Finset.sum_nonneg fun i _ => Finset.sum_nonneg fun j _ => sq_nonneg _)
  ext i j
  rw [Finset.sum_eq_zero_iff_of_nonneg fun i _ => Finset.sum_nonneg fun j _ => sq_nonneg _] at h0
  have h1 := h0 i (Finset.mem_univ i)
  rw [Finset.sum_eq_zero_iff_of_nonneg fun j _ => sq_nonneg _] at h1
  have h2 := h1 j (Finset.mem_univ j)
  simp only [axisTransform]
  nlinarith [pow_eq_zero_iff (two_ne_zero) |>.1 h2]

/-- The axes themselves are such a solution. -/
example : ∀ B : Mat 3 3, IsLstsq 1 B B := fun B Y => by
  simp only [Matrix.one_mul, sub_self, ne_eq, OfNat.ofNat_ne_zero, not_false_eq_true, zero_pow,
    Finset.sum_const_zero]
  exact Finset.sum_nonneg fun i _ => Finset.sum_nonneg fun j _ => sq_nonneg _

/-- Two helpers fail: random orientations without scatter, and fits from axes. -/
theorem C150_constructors_false :
    randomPca true = .ok () ∧ randomPca false = .error .nameError ∧
    ∀ k, Extras.fromAxes (k + 1) = .error .typeError := ⟨rfl, rfl, fun _ => rfl⟩

/-! ## C151 -/

/-- `rotate_2D` is a rotation: angles add, lengths and areas remain. -/
theorem C151_rotation (a b : ℝ) :
    rotate2D a * rotate2D b = rotate2D (a + b) ∧ rotate2D 0 = 1 ∧
    (rotate2D a).transpose = rotate2D (-a) ∧ (rotate2D a).det = 1 ∧
    ∀ v, (rotate2D a *ᵥ v) ⬝ᵥ (rotate2D a *ᵥ v) = v ⬝ᵥ v := by
  refine ⟨?_, ?_, ?_, ?_, ?_⟩
  · ext i j
    fin_cases i <;> fin_cases j <;>
      simp [rotate2D, Matrix.mul_apply, Fin.sum_univ_two, Real.cos_add, Real.sin_add] <;> ring
  · ext i j
    fin_cases i <;> fin_cases j <;> simp [rotate2D]
  · ext i j
    fin_cases i <;> fin_cases j <;> simp [rotate2D]
  · rw [rotate2D, Matrix.det_fin_two_of]
    nlinarith [Real.sin_sq_add_cos_sq a]
  · intro v
    simp only [rotate2D, Matrix.mulVec, dotProduct, Fin.sum_univ_two]
    simp
    linear_combination (v 0 ^ 2 + v 1 ^ 2) * Real.sin_sq_add_cos_sq a

/-- It turns counterclockwise: the first axis goes to the direction of the angle. -/
theorem C151_counterclockwise (a r th : ℝ) :
    rotate2D a *ᵥ ![r * Real.cos th, r * Real.sin th]
      = ![r * Real.cos (th + a), r * Real.sin (th + a)] := by
  funext i
  fin_cases i <;> simp [rotate2D, Matrix.mulVec, dotProduct, Fin.sum_univ_two, Real.cos_add, Real.sin_add] <;>
    ring

/-- The three axis-aligned views drop one coordinate each, and every pair of coordinates has
one view. -/
theorem C151_axis_aligned (v : Vec 3) :
    axisAlignedTransforms.1 *ᵥ v = ![v 0, v 1] ∧ axisAlignedTransforms.2.1 *ᵥ v = ![v 0, v 2] ∧
    axisAlignedTransforms.2.2 *ᵥ v = ![v 1, v 2] := by
  refine ⟨?_, ?_, ?_⟩ <;> funext i <;> fin_cases i <;>
    simp [axisAlignedTransforms, Matrix.mulVec, dotProduct, Matrix.one_apply]

/-- So a point is known from any two of them. -/
theorem C151_two_views (v w : Vec 3)
    (h : axisAlignedTransforms.1 *ᵥ v = axisAlignedTransforms.1 *ᵥ w)
    (h' : axisAlignedTransforms.2.1 *ᵥ v = axisAlignedTransforms.2.1 *ᵥ w) : v = w := by
  rw [(C151_axis_aligned v).1, (C151_axis_aligned w).1] at h
  rw [(C151_axis_aligned v).2.1, (C151_axis_aligned w).2.1] at h'
  funext i
  fin_cases i
  · simpa using congrFun h 0
  · simpa using congrFun h 1
  · simpa using congrFun h' 1

example : axisAlignedTransforms.1 *ᵥ ![1, 2, 3] ≠ axisAlignedTransforms.1 *ᵥ ![1, 3, 3] ∨
    axisAlignedTransforms.2.1 *ᵥ ![1, 2, 3] ≠ axisAlignedTransforms.2.1 *ᵥ ![1, 3, 3] := by
  by_contra h
  push Not at h
  have := congrFun (C151_two_views _ _ h.1 h.2) 1
  simp at this

/-! ## C152 -/

/-- The symbolic functions agree with the numerical ones they are meant to validate. -/
theorem C152_agrees {d : ℕ} (C : Conics.Con d) (v : Vec d) :
    symCenter C = Conics.center C ∧ symDual C = Conics.dual C ∧
    symPolarPlane C (some v) = Conics.polarPlane C v ∧ symPolarPlane C = Conics.polarPlane C 0 :=
  ⟨rfl, rfl, rfl, rfl⟩

/-- The symbolic center is the point whose polar plane is at infinity: it exists exactly if the
quadratic part is regular and is then the only such point. -/
theorem C152_center {d : ℕ} (C : Conics.Con d) :
    ((Conics.quad C).det = 0 → symCenter C = .error .linAlgError) ∧
    ((Conics.quad C).det ≠ 0 → ∃ c, symCenter C = .ok c ∧
      ∀ v, (∀ i : Fin d, symPolarPlane C (some v) i.castSucc = 0) ↔ v = c) := by
  constructor
  · intro h
    simp only [symCenter, Conics.inv_error h]
    rfl
  · intro h
    have hu : IsUnit (Conics.quad C).det := isUnit_iff_ne_zero.2 h
    refine ⟨_, by simp only [symCenter, Conics.inv_ok h]; rfl, fun v => ?_⟩
    have e : (∀ i : Fin d, symPolarPlane C (some v) i.castSucc = 0) ↔
        Conics.quad C *ᵥ v + Conics.lin C = 0 := by
      rw [funext_iff]
      apply forall_congr'
      intro i
      simp [symPolarPlane, Matrix.mulVec, dotProduct, Fin.sum_univ_castSucc, Conics.quad, Conics.lin]
    rw [e]
    constructor
    · intro hv
      rw [← eq_neg_iff_add_eq_zero] at hv
      rw [← hv, Matrix.mulVec_mulVec, Matrix.nonsing_inv_mul _ hu, Matrix.one_mulVec]
    · rintro rfl
      rw [Matrix.mulVec_mulVec, Matrix.mul_nonsing_inv _ hu, Matrix.one_mulVec, neg_add_cancel]

/-- The distance of a plane to the origin, up to sign: no point of the plane is closer, and one
is that close. -/
theorem C152_origin_distance {d : ℕ} (p : Vec (d + 1)) (r : ℝ) (hr : originDistance p = some r) :
    (∀ x : Vec d, p ⬝ᵥ Conics.augment x = 0 → |r| ≤ Attitude.norm x) ∧
    ∃ x : Vec d, p ⬝ᵥ Conics.augment x = 0 ∧ Attitude.norm x = |r| := by
  set q : Vec d := fun i => p i.castSucc with hq
  have hn : Attitude.norm q ≠ 0 := by
    intro h
    simp [originDistance, fdiv, ← hq, h] at hr
  have hr' : p (Fin.last d) / Attitude.norm q = r := by
    simpa [originDistance, fdiv, ← hq, hn] using hr
  have hpos : 0 < Attitude.norm q := lt_of_le_of_ne (Real.sqrt_nonneg _) (Ne.symm hn)
  have hsq : ∀ v : Vec d, Attitude.norm v ^ 2 = ∑ i, v i ^ 2 := fun v =>
    Real.sq_sqrt (Finset.sum_nonneg fun i _ => sq_nonneg _)
  have hdot : ∀ x : Vec d, p ⬝ᵥ Conics.augment x = ∑ i, q i * x i + p (Fin.last d) := by
    intro x
    simp [dotProduct, Fin.sum_univ_castSucc, hq]
  constructor
  · intro x hx
    rw [hdot] at hx
    have cs := Finset.sum_mul_sq_le_sq_mul_sq Finset.univ q x
    rw [← hsq, ← hsq] at cs
    rw [← hr', abs_div, abs_of_pos hpos, div_le_iff₀ hpos]
    apply abs_le_of_sq_le_sq _ (mul_nonneg (Real.sqrt_nonneg _) hpos.le)
    have : p (Fin.last d) = -∑ i, q i * x i := by linarith
    have e : (Attitude.norm x * Attitude.norm q) ^ 2 = Attitude.norm q ^ 2 * Attitude.norm x ^ 2 := by ring
    rw [this, neg_sq]
    exact cs.trans e.symm.le
  · refine ⟨fun i => -(p (Fin.last d) / Attitude.norm q ^ 2) * q i, ?_, ?_⟩
    · rw [hdot]
      have : ∑ i, q i * (-(p (Fin.last d) / Attitude.norm q ^ 2) * q i)
          = -(p (Fin.last d) / Attitude.norm q ^ 2) * Attitude.norm q ^ 2 := by
        rw [hsq, Finset.mul_sum]
        exact Finset.sum_congr rfl fun i _ => by ring
      rw [this]
      field_simp
      ring
    · have h2 : Attitude.norm (fun i => -(p (Fin.last d) / Attitude.norm q ^ 2) * q i) ^ 2 = |r| ^ 2 := by
        rw [hsq, sq_abs, ← hr']
        simp only [mul_pow]
        rw [← Finset.mul_sum, ← hsq]
        field_simp
      exact (pow_left_inj₀ (Real.sqrt_nonneg _) (abs_nonneg _) two_ne_zero).1 h2

/-- Such a plane: `z = 2`. -/
example : originDistance (![0, 0, 1, -2] : Vec 4) = some (-2) := by
  have : Attitude.norm (fun i : Fin 3 => (![0, 0, 1, -2] : Vec 4) i.castSucc) = 1 := by
    simp [Attitude.norm, Fin.sum_univ_three]
  simp only [originDistance, this, fdiv]
  norm_num
  rfl

/-! ## C153 -/

/-- `test_SVD` succeeds for every fit of unweighted data ... -/
theorem C153_test_svd (svd : Pca.SvdFn) (hs : svd.Valid) {n : ℕ} (a : Fin n → Vec 3) (f : Pca.Fit n)
    (hf : Pca.init svd a none none = .ok (some f)) :
    ∃ U, (Pca.getU f).1 = some U ∧ reconstruction f U = Matrix.of f.arr ∧
      gram f U = Matrix.of f.arr * (Matrix.of f.arr).transpose := by
  obtain ⟨U, h⟩ := Pca.init_default hs hf
  have hrec : U * Matrix.diagonal f.s * f.V = Matrix.of f.arr := by rw [h.arr]; exact h.svd.recon.symm
  refine ⟨U, by simp [Pca.getU, h.hU], ?_, ?_⟩
  · rw [reconstruction, ← Matrix.mul_assoc, hrec]
  · rw [← hrec, gram]
    simp only [Matrix.transpose_mul, Matrix.mul_assoc]
    congr 2
    rw [← Matrix.mul_assoc f.V, h.svd.orthV, Matrix.one_mul]

example : ∃ (svd : Pca.SvdFn) (f : Pca.Fit 4) (U : Mat 4 3), svd.Valid ∧
    Pca.init svd Witness.tilted none none = .ok (some f) ∧ (Pca.getU f).1 = some U ∧
    reconstruction f U = Matrix.of f.arr := by
  obtain ⟨svd, f, hs, hf, _⟩ := Witness.exists_tilted
  obtain ⟨U, h, h', _⟩ := C153_test_svd svd hs _ f hf
  exact ⟨svd, f, U, hs, hf, h, h'⟩

/-- ... and for fits loaded from orthonormal axes. -/
theorem C153_test_svd_loaded {n : ℕ} (f : Pca.Fit n) (hU : f.U = none) (hs : ∀ j, f.s j ≠ 0)
    (hV : f.V.transpose * f.V = 1) :
    ∃ U, (Pca.getU f).1 = some U ∧ reconstruction f U = Matrix.of f.arr := by
  have hne : ¬ (f.s 0 = 0 ∨ f.s 1 = 0 ∨ f.s 2 = 0) := by
    rintro (h | h | h) <;> exact hs _ h
  refine ⟨_, by simp only [Pca.getU, hU, if_neg hne]; rfl, ?_⟩
  have hd : Matrix.diagonal (fun j => 1 / f.s j) * Matrix.diagonal f.s = 1 := by
    rw [Matrix.diagonal_mul_diagonal, ← Matrix.diagonal_one]
    congr 1
    funext j
    have := hs j
    field_simp
  simp only [reconstruction, Matrix.mul_assoc]
  rw [← Matrix.mul_assoc (Matrix.diagonal fun j => 1 / f.s j), hd, Matrix.one_mul, hV, Matrix.mul_one]

example : ∃ (svd : Pca.SvdFn) (f g : Pca.Fit 4), svd.Valid ∧
    Pca.init svd Witness.tilted none none = .ok (some f) ∧
    Pca.init svd Witness.tilted none (some (Pca.principalAxes f)) = .ok (some g) ∧
    (∀ j, g.s j ≠ 0) ∧ g.V = Witness.tilt := by
  obtain ⟨svd, f, hs, hf, hV, e⟩ := Witness.exists_tilted
  obtain ⟨g, hg, hgV, hgs, _⟩ :=
    C10_saved_fit_partial svd svd hs _ f hf (by rw [e]; simp)
  exact ⟨svd, f, g, hs, hf, hg, fun j => by rw [hgs, e]; fin_cases j <;> simp, by rw [hgV, hV]⟩

/-- `covariance_matrix` (the function) is not the covariance of the coordinates it claims to
be: it has an entry for each pair of points, and differs even for three points. -/
theorem C153_covariance_false (svd : Pca.SvdFn) (hs : svd.Valid) :
    ∃ (a : Fin 3 → Vec 3) (f : Pca.Fit 3) (U : Mat 3 3), Pca.init svd a none none = .ok (some f) ∧
      (Pca.getU f).1 = some U ∧
      ∀ c : ℝ, gram f U ≠ c • ((Matrix.of f.arr).transpose * Matrix.of f.arr) := by
  set a : Fin 3 → Vec 3 := ![![1, 0, 0], ![-1, 0, 0], ![0, 0, 0]] with ha
  have hc : Coordinates.centered a = a := by
    apply C01_centered_unique
    · intro j
      fin_cases j <;> simp [ha, Fin.sum_univ_three]
    · intro i i' j
      rfl
  obtain ⟨f, hf⟩ := Pca.init_default_exists svd (le_refl 3) a
  obtain ⟨U, hU, -, hg⟩ := C153_test_svd svd hs a f hf
  refine ⟨a, f, U, hf, hU, fun c he => ?_⟩
  obtain ⟨U', h⟩ := Pca.init_default hs hf
  have harr := h.arr
  rw [hc] at harr
  rw [hg, harr] at he
  have := congrFun (congrFun he 0) 1
  simp [ha, Matrix.mul_apply, Fin.sum_univ_three] at this

end Attitude.Props
