import Verif.Props.Attenuation
import Verif.Lemmas.Witness

/-!
# C244: the slopes of a principal component fit are the total least squares estimate
-/

namespace Attitude.Props

open Attitude Matrix Pca

/-! ## Specification -/

/-- Sum of the products of the deviations of two coordinates from their means. -/
noncomputable def Spec.moment {n : ℕ} (a : Fin n → Vec 3) (j k : Fin 3) : ℝ :=
  ∑ i, (a i j - (∑ l, a l j) / n) * (a i k - (∑ l, a l k) / n)

/-- The matrix `XᵀX - σ² I` of the total least squares estimate, with the smallest singular
value `σ`. -/
noncomputable def Spec.tlsMatrix {n : ℕ} (a : Fin n → Vec 3) (σ : ℝ) : Mat 2 2 :=
  !![Spec.moment a 0 0 - σ ^ 2, Spec.moment a 0 1; Spec.moment a 0 1, Spec.moment a 1 1 - σ ^ 2]

/-- The vector `Xᵀz`. -/
noncomputable def Spec.tlsVector {n : ℕ} (a : Fin n → Vec 3) : Vec 2 :=
  ![Spec.moment a 0 2, Spec.moment a 1 2]

/-- The slopes of the plane perpendicular to a vector. -/
noncomputable def Spec.slopesOf (v : Vec 3) : Vec 2 := ![-v 0 / v 2, -v 1 / v 2]

/-! ## Helper lemmas -/

/-- The rows of the axes are eigenvectors of the matrix of moments. -/
lemma moment_rows {n : ℕ} {a : Fin n → Vec 3} {U : Mat n 3} {s : Vec 3} {V : Mat 3 3}
    (h : IsSVD (Matrix.of (Coordinates.centered a)) U s V) (i k : Fin 3) :
    Spec.moment a k 0 * V i 0 + Spec.moment a k 1 * V i 1 + Spec.moment a k 2 * V i 2
      = s i ^ 2 * V i k := by
  have := congrFun (gram_row h i) k
  simp only [Matrix.mulVec, dotProduct, Matrix.transpose_apply, Fin.sum_univ_three,
    Pi.smul_apply, smul_eq_mul] at this
  rw [← this, Spec.moment, Spec.moment, Spec.moment, Finset.sum_mul, Finset.sum_mul,
    Finset.sum_mul, ← Finset.sum_add_distrib, ← Finset.sum_add_distrib]
  refine Finset.sum_congr rfl fun l _ => ?_
  simp only [Matrix.of_apply, Coordinates.centered, meanRows]
  ring

lemma moment_comm {n : ℕ} (a : Fin n → Vec 3) (j k : Fin 3) : Spec.moment a j k = Spec.moment a k j :=
  Finset.sum_congr rfl fun _ _ => mul_comm _ _

/-- A vector is the sum of its parts along the axes. -/
lemma axes_parts {V : Mat 3 3} (hV : V * V.transpose = 1) (w : Vec 3) (k : Fin 3) :
    w k = ∑ i, (∑ j, w j * V i j) * V i k := by
  have h : V.transpose * V = 1 := mul_eq_one_comm.1 hV
  have e : w = V.transpose *ᵥ (V *ᵥ w) := by rw [Matrix.mulVec_mulVec, h, Matrix.one_mulVec]
  conv_lhs => rw [e]
  simp only [Matrix.mulVec, dotProduct, Matrix.transpose_apply]
  refine Finset.sum_congr rfl fun i _ => ?_
  rw [mul_comm]
  congr 1
  exact Finset.sum_congr rfl fun j _ => mul_comm _ _

/-- The quadratic form of the moments in the axes of the fit. -/
lemma moment_form {n : ℕ} {a : Fin n → Vec 3} {U : Mat n 3} {s : Vec 3} {V : Mat 3 3}
    (h : IsSVD (Matrix.of (Coordinates.centered a)) U s V) (w : Vec 3) :
    ∑ k, w k * (∑ j, Spec.moment a k j * w j) = ∑ i, s i ^ 2 * (∑ j, w j * V i j) ^ 2 := by
  have hM : ∀ k, ∑ j, Spec.moment a k j * w j = ∑ i, (∑ j, w j * V i j) * (s i ^ 2 * V i k) := by
    intro k
    have p := axes_parts h.orthV w
    set c : Vec 3 := fun i => ∑ j, w j * V i j with hc
    have r0 := moment_rows h 0 k
    have r1 := moment_rows h 1 k
    have r2 := moment_rows h 2 k
    have p0 : w 0 = c 0 * V 0 0 + c 1 * V 1 0 + c 2 * V 2 0 := by
      rw [p 0, Fin.sum_univ_three]
    have p1 : w 1 = c 0 * V 0 1 + c 1 * V 1 1 + c 2 * V 2 1 := by
      rw [p 1, Fin.sum_univ_three]
    have p2 : w 2 = c 0 * V 0 2 + c 1 * V 1 2 + c 2 * V 2 2 := by
      rw [p 2, Fin.sum_univ_three]
    rw [Fin.sum_univ_three, Fin.sum_univ_three]
    change _ = c 0 * _ + c 1 * _ + c 2 * _
    linear_combination c 0 * r0 + c 1 * r1 + c 2 * r2 + Spec.moment a k 0 * p0
      + Spec.moment a k 1 * p1 + Spec.moment a k 2 * p2
  simp only [hM, Fin.sum_univ_three]
  ring

/-- The length of a vector from its parts along the axes. -/
lemma axes_length {V : Mat 3 3} (hV : V * V.transpose = 1) (w : Vec 3) :
    ∑ k, w k * w k = ∑ i, (∑ j, w j * V i j) ^ 2 := by
  have p := axes_parts hV w
  set c : Vec 3 := fun i => ∑ j, w j * V i j with hc
  have p0 : w 0 = c 0 * V 0 0 + c 1 * V 1 0 + c 2 * V 2 0 := by rw [p 0, Fin.sum_univ_three]
  have p1 : w 1 = c 0 * V 0 1 + c 1 * V 1 1 + c 2 * V 2 1 := by rw [p 1, Fin.sum_univ_three]
  have p2 : w 2 = c 0 * V 0 2 + c 1 * V 1 2 + c 2 * V 2 2 := by rw [p 2, Fin.sum_univ_three]
  have c0 : c 0 = w 0 * V 0 0 + w 1 * V 0 1 + w 2 * V 0 2 := by simp [hc, Fin.sum_univ_three]
  have c1 : c 1 = w 0 * V 1 0 + w 1 * V 1 1 + w 2 * V 1 2 := by simp [hc, Fin.sum_univ_three]
  have c2 : c 2 = w 0 * V 2 0 + w 1 * V 2 1 + w 2 * V 2 2 := by simp [hc, Fin.sum_univ_three]
  rw [Fin.sum_univ_three, Fin.sum_univ_three]
  change _ = c 0 ^ 2 + c 1 ^ 2 + c 2 ^ 2
  linear_combination w 0 * p0 + w 1 * p1 + w 2 * p2 - c 0 * c0 - c 1 * c1 - c 2 * c2

/-- A horizontal vector in the kernel of the matrix. -/
lemma kernel_parts {n : ℕ} {a : Fin n → Vec 3} {U : Mat n 3} {s : Vec 3} {V : Mat 3 3}
    (h : IsSVD (Matrix.of (Coordinates.centered a)) U s V) (h12 : s 2 < s 1) (hz : V 2 2 ≠ 0)
    {u : Vec 2} (hu : Spec.tlsMatrix a (s 2) *ᵥ u = 0) : u = 0 := by
  have e0 := congrFun hu 0
  have e1 := congrFun hu 1
  simp [Spec.tlsMatrix, Matrix.mulVec, dotProduct, Fin.sum_univ_two] at e0 e1
  set w : Vec 3 := ![u 0, u 1, 0] with hw
  have hf := moment_form h w
  have hl := axes_length h.orthV w
  have hp := axes_parts h.orthV w
  set c : Vec 3 := fun i => ∑ j, w j * V i j with hc
  have hf' : ∑ k, w k * (∑ j, Spec.moment a k j * w j) = s 2 ^ 2 * ∑ k, w k * w k := by
    simp only [Fin.sum_univ_three, hw]
    simp
    rw [moment_comm a 1 0]
    linear_combination u 0 * e0 + u 1 * e1
  have key : (s 0 ^ 2 - s 2 ^ 2) * c 0 ^ 2 + (s 1 ^ 2 - s 2 ^ 2) * c 1 ^ 2 = 0 := by
    have hs : ∑ i, s i ^ 2 * c i ^ 2 = s 2 ^ 2 * ∑ i, c i ^ 2 := by
      rw [hf, hl] at hf'
      exact hf'
    rw [Fin.sum_univ_three, Fin.sum_univ_three] at hs
    linear_combination hs
  have n2 := h.nonneg
  have l01 := h.le01
  have a0 : 0 < s 0 ^ 2 - s 2 ^ 2 := by nlinarith
  have a1 : 0 < s 1 ^ 2 - s 2 ^ 2 := by nlinarith
  have c0 : c 0 ^ 2 = 0 := by
    have := mul_nonneg a0.le (sq_nonneg (c 0))
    have := mul_nonneg a1.le (sq_nonneg (c 1))
    have h0 : (s 0 ^ 2 - s 2 ^ 2) * c 0 ^ 2 = 0 := by linarith
    exact (mul_eq_zero.1 h0).resolve_left a0.ne'
  have c1 : c 1 ^ 2 = 0 := by
    rw [c0, mul_zero, zero_add] at key
    exact (mul_eq_zero.1 key).resolve_left a1.ne'
  have c0' : c 0 = 0 := by simpa using c0
  have c1' : c 1 = 0 := by simpa using c1
  have hp' : ∀ k, w k = c 2 * V 2 k := by
    intro k
    rw [hp k, Fin.sum_univ_three]
    change c 0 * _ + c 1 * _ + c 2 * _ = _
    rw [c0', c1']; ring
  have c2 : c 2 = 0 := by
    have := hp' 2
    simp [hw] at this
    exact this.resolve_right hz
  funext k
  fin_cases k
  · have := hp' 0; simpa [hw, c2] using this
  · have := hp' 1; simpa [hw, c2] using this

/-- Otherwise the kernel contains a horizontal vector. -/
lemma kernel_exists {n : ℕ} {a : Fin n → Vec 3} {U : Mat n 3} {s : Vec 3} {V : Mat 3 3}
    (h : IsSVD (Matrix.of (Coordinates.centered a)) U s V) (hd : s 1 = s 2 ∨ V 2 2 = 0) :
    ∃ u : Vec 2, u ≠ 0 ∧ Spec.tlsMatrix a (s 2) *ᵥ u = 0 := by
  -- an eigenvector that is horizontal
  have main : ∀ w : Vec 3, w ≠ 0 → w 2 = 0 →
      (∀ k, Spec.moment a k 0 * w 0 + Spec.moment a k 1 * w 1 + Spec.moment a k 2 * w 2
        = s 2 ^ 2 * w k) → ∃ u : Vec 2, u ≠ 0 ∧ Spec.tlsMatrix a (s 2) *ᵥ u = 0 := by
    intro w hw h2 he
    refine ⟨![w 0, w 1], fun hu => hw ?_, ?_⟩
    · funext k; fin_cases k
      · simpa using congrFun hu 0
      · simpa using congrFun hu 1
      · exact h2
    · funext k; fin_cases k
      · have := he 0
        simp [Spec.tlsMatrix, Matrix.mulVec, dotProduct, Fin.sum_univ_two]
        rw [h2] at this
        linear_combination this
      · have := he 1
        simp [Spec.tlsMatrix, Matrix.mulVec, dotProduct, Fin.sum_univ_two]
        rw [h2, moment_comm a 1 0] at this
        linear_combination this
  have row_ne : ∀ i, V i ≠ 0 := by
    intro i hi
    have := congrFun (congrFun h.orthV i) i
    simp [Matrix.mul_apply, hi] at this
  by_cases hz : V 2 2 = 0
  · exact main (V 2) (row_ne 2) hz fun k => moment_rows h 2 k
  · have hs : s 1 = s 2 := hd.resolve_right hz
    refine main (fun k => V 1 2 * V 2 k - V 2 2 * V 1 k) ?_ (by ring) fun k => ?_
    · intro hw
      -- otherwise the rows were parallel
      have o : ∑ k, V 1 k * V 1 k = 1 := by
        have := congrFun (congrFun h.orthV 1) 1
        simpa [Matrix.mul_apply] using this
      have o' : ∑ k, V 1 k * V 2 k = 0 := by
        have := congrFun (congrFun h.orthV 1) 2
        simpa [Matrix.mul_apply] using this
      have w0 := congrFun hw 0
      have w1 := congrFun hw 1
      have w2 := congrFun hw 2
      simp only [Pi.zero_apply] at w0 w1 w2
      rw [Fin.sum_univ_three] at o o'
      apply hz
      linear_combination (-V 2 2) * o + V 1 2 * o' - V 1 0 * w0 - V 1 1 * w1 - V 1 2 * w2
    · have r1 := moment_rows h 1 k
      have r2 := moment_rows h 2 k
      rw [hs] at r1
      linear_combination V 1 2 * r2 - V 2 2 * r1

/-! ## C244 -/

/-- The slopes of the plane of `PCAOrientation` are the total least squares estimate whenever it
exists.  It exists exactly if the plane is unique and not vertical. -/
theorem C244_slopes (svd : SvdFn) (hs : svd.Valid) {n : ℕ} (a : Fin n → Vec 3) (f : Fit n)
    (hf : Pca.init svd a none none = .ok (some f)) :
    (IsUnit (Spec.tlsMatrix a (f.s 2)).det ↔ f.s 2 < f.s 1 ∧ f.V 2 2 ≠ 0) ∧
    (IsUnit (Spec.tlsMatrix a (f.s 2)).det →
      Spec.slopesOf (f.V 2) = (Spec.tlsMatrix a (f.s 2))⁻¹ *ᵥ Spec.tlsVector a ∧
      Spec.slopesOf f.normal = (Spec.tlsMatrix a (f.s 2))⁻¹ *ᵥ Spec.tlsVector a) := by
  obtain ⟨U, hF⟩ := Pca.init_default hs hf
  have hiff : IsUnit (Spec.tlsMatrix a (f.s 2)).det ↔ f.s 2 < f.s 1 ∧ f.V 2 2 ≠ 0 := by
    rw [isUnit_iff_ne_zero]
    constructor
    · intro hdet
      by_contra hcon
      have hd : f.s 1 = f.s 2 ∨ f.V 2 2 = 0 := by
        by_contra hh
        push Not at hh
        exact hcon ⟨lt_of_le_of_ne hF.svd.le12 (Ne.symm hh.1), hh.2⟩
      obtain ⟨u, hu, hk⟩ := kernel_exists hF.svd hd
      exact hdet (Matrix.exists_mulVec_eq_zero_iff.1 ⟨u, hu, hk⟩)
    · rintro ⟨h12, hz⟩ hdet
      obtain ⟨u, hu, hk⟩ := Matrix.exists_mulVec_eq_zero_iff.2 hdet
      exact hu (kernel_parts hF.svd h12 hz hk)
  refine ⟨hiff, fun hunit => ?_⟩
  have hz := (hiff.1 hunit).2
  have hb : Spec.tlsMatrix a (f.s 2) *ᵥ Spec.slopesOf (f.V 2) = Spec.tlsVector a := by
    have r0 := moment_rows hF.svd 2 0
    have r1 := moment_rows hF.svd 2 1
    funext k; fin_cases k
    · simp [Spec.tlsMatrix, Spec.slopesOf, Spec.tlsVector, Matrix.mulVec, dotProduct,
        Fin.sum_univ_two]
      field_simp
      linear_combination -r0
    · simp [Spec.tlsMatrix, Spec.slopesOf, Spec.tlsVector, Matrix.mulVec, dotProduct,
        Fin.sum_univ_two]
      rw [moment_comm a 1 0] at r1
      field_simp
      linear_combination -r1
  have h1 : Spec.slopesOf (f.V 2) = (Spec.tlsMatrix a (f.s 2))⁻¹ *ᵥ Spec.tlsVector a := by
    rw [← hb, Matrix.mulVec_mulVec, Matrix.nonsing_inv_mul _ hunit, Matrix.one_mulVec]
  refine ⟨h1, ?_⟩
  rw [← h1, hF.normal]
  unfold upward
  split
  · funext k; fin_cases k <;> simp [Spec.slopesOf, div_neg, neg_div]
  · rfl

/-- Points scattered about a plane that dips to the east: the estimate exists, and the slope is
`-4/3` although the points do not lie in one plane. -/
example : ∃ (svd : SvdFn) (f : Fit 4), svd.Valid ∧
    Pca.init svd Witness.tilted none none = .ok (some f) ∧ f.s 2 = 1 ∧
    (Spec.tlsMatrix Witness.tilted (f.s 2))⁻¹ *ᵥ Spec.tlsVector Witness.tilted = ![-(4 / 3), 0] := by
  obtain ⟨svd, f, hs, hf, hV, hsv⟩ := Witness.exists_tilted
  refine ⟨svd, f, hs, hf, by simp [hsv], ?_⟩
  obtain ⟨h1, h2⟩ := C244_slopes svd hs _ f hf
  rw [← (h2 (h1.2 ⟨by simp [hsv], by simp [hV, Witness.tilt]⟩)).1, hV]
  funext k
  fin_cases k <;> simp [Spec.slopesOf, Witness.tilt] <;> norm_num

/-- Points with the same spread in two directions: there is no estimate. -/
example : ∃ (svd : SvdFn) (f : Fit 4), svd.Valid ∧
    Pca.init svd (Witness.points Witness.tilt ![2, 1, 1]) none none = .ok (some f) ∧
    ¬ IsUnit (Spec.tlsMatrix (Witness.points Witness.tilt ![2, 1, 1]) (f.s 2)).det := by
  obtain ⟨svd, f, hs, hf, hV, hsv⟩ := Witness.exists_fit Witness.tilt Witness.tilt_orth ![2, 1, 1]
    (by simp) (by simp) (by simp)
  refine ⟨svd, f, hs, hf, fun h => ?_⟩
  have := ((C244_slopes svd hs _ f hf).1.1 h).1
  simp [hsv] at this

end Attitude.Props
