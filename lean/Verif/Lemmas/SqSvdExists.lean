import Verif.Model.Conics
import Mathlib.Analysis.Matrix.Spectrum
import Mathlib.Data.Fin.Tuple.Sort

/-!
The contract for the SVD of square arrays can be met.
-/

namespace Attitude.Conics

open Attitude Matrix

theorem exists_isSqSVD {m : ℕ} (A : Mat m m) :
    ∃ (U : Mat m m) (s : Vec m) (V : Mat m m), IsSqSVD A U s V := by
  classical
  have hm : m ≤ m := le_rfl
  have hG : (A.transpose * A).IsHermitian := by
    rw [Matrix.IsHermitian, Matrix.conjTranspose_eq_transpose_of_trivial, Matrix.transpose_mul,
      Matrix.transpose_transpose]
  set b := hG.eigenvectorBasis
  set lam := hG.eigenvalues
  let σ := Tuple.sort (fun i => -lam i)
  have hmono : Monotone ((fun i => -lam i) ∘ σ) := Tuple.monotone_sort _
  let V : Mat m m := Matrix.of fun i j => (b (σ i)).ofLp j
  have hVV : V * V.transpose = 1 := by
    ext i j
    have := b.inner_eq_ite (σ i) (σ j)
    simp only [PiLp.inner_apply] at this
    simp only [Matrix.mul_apply, Matrix.transpose_apply, V, Matrix.of_apply, Matrix.one_apply]
    rw [show (if i = j then (1 : ℝ) else 0) = if σ i = σ j then 1 else 0 by simp]
    rw [← this]
    apply Finset.sum_congr rfl
    intro k _
    simp [mul_comm]
  have hGV : ∀ i, (A.transpose * A) *ᵥ V i = lam (σ i) • V i := by
    intro i
    exact hG.mulVec_eigenvectorBasis (σ i)
  have hdot : ∀ i j, (A *ᵥ V i) ⬝ᵥ (A *ᵥ V j) = lam (σ j) * (if i = j then 1 else 0) := by
    intro i j
    rw [Matrix.dotProduct_mulVec, ← Matrix.mulVec_transpose, Matrix.mulVec_mulVec, hGV,
      smul_dotProduct]
    have := congrFun (congrFun hVV i) j
    simp only [Matrix.mul_apply, Matrix.transpose_apply, Matrix.one_apply] at this
    by_cases hij : i = j
    · subst hij
      simp only [if_true] at this ⊢
      simp [dotProduct, this]
    · simp only [hij, if_false] at this ⊢
      simp [dotProduct, this]
  have hlam : ∀ i, 0 ≤ lam (σ i) := by
    intro i
    have := hdot i i
    simp only [if_true, mul_one] at this
    rw [← this]
    exact Finset.sum_nonneg fun k _ => mul_self_nonneg _
  let s : Vec m := fun i => Real.sqrt (lam (σ i))
  have hss : ∀ i, s i * s i = lam (σ i) := fun i => Real.mul_self_sqrt (hlam i)
  -- left singular vectors
  let v : Fin m → EuclideanSpace ℝ (Fin m) := fun k =>
    if h : k.val < m then WithLp.toLp 2 ((1 / s ⟨k.val, h⟩) • (A *ᵥ V ⟨k.val, h⟩)) else 0
  let S : Set (Fin m) := {k | ∃ h : k.val < m, s ⟨k.val, h⟩ ≠ 0}
  have hv : Orthonormal ℝ (S.domRestrict v) := by
    rw [orthonormal_iff_ite]
    rintro ⟨k, hk, hsk⟩ ⟨l, hl, hsl⟩
    have e1 : v k = WithLp.toLp 2 ((1 / s ⟨k.val, hk⟩) • (A *ᵥ V ⟨k.val, hk⟩)) := dif_pos hk
    have e2 : v l = WithLp.toLp 2 ((1 / s ⟨l.val, hl⟩) • (A *ᵥ V ⟨l.val, hl⟩)) := dif_pos hl
    have hd := hdot ⟨l.val, hl⟩ ⟨k.val, hk⟩
    show inner ℝ (v k) (v l) = _
    rw [e1, e2]
    rw [show inner ℝ (WithLp.toLp 2 ((1 / s ⟨k.val, hk⟩) • (A *ᵥ V ⟨k.val, hk⟩)))
        (WithLp.toLp 2 ((1 / s ⟨l.val, hl⟩) • (A *ᵥ V ⟨l.val, hl⟩)))
        = ((1 / s ⟨l.val, hl⟩) • (A *ᵥ V ⟨l.val, hl⟩)) ⬝ᵥ
          ((1 / s ⟨k.val, hk⟩) • (A *ᵥ V ⟨k.val, hk⟩)) by
      simp [PiLp.inner_apply, dotProduct]]
    rw [smul_dotProduct, dotProduct_smul, hd]
    by_cases hkl : k = l
    · subst hkl
      have h1 := hss ⟨k.val, hk⟩
      simp only [if_true, smul_eq_mul, mul_one]
      rw [← h1]
      field_simp
    · have h1 : ¬ ((⟨l.val, hl⟩ : Fin m) = ⟨k.val, hk⟩) := by
        intro e
        apply hkl
        have := congrArg Fin.val e
        exact Fin.ext this.symm
      simp [h1, hkl]
  obtain ⟨c, hc⟩ := hv.exists_orthonormalBasis_extension_of_card_eq (by simp)
  let U : Mat m m := Matrix.of fun r i => (c (Fin.castLE hm i)).ofLp r
  have hUcol : ∀ i, A *ᵥ V i = s i • (fun r => U r i) := by
    intro i
    by_cases hsi : s i = 0
    · have h0 := hdot i i
      simp only [if_true, mul_one] at h0
      rw [← hss i, hsi, mul_zero] at h0
      have := dotProduct_self_eq_zero.1 h0
      rw [this, hsi, zero_smul]
    · have hmem : Fin.castLE hm i ∈ S := ⟨i.2, hsi⟩
      have h1 := hc _ hmem
      have e1 : v (Fin.castLE hm i) = WithLp.toLp 2 ((1 / s i) • (A *ᵥ V i)) := dif_pos i.2
      funext r
      have h2 : U r i = (1 / s i) * (A *ᵥ V i) r := by
        simp only [U, Matrix.of_apply, h1, e1]
        simp
      simp only [Pi.smul_apply, smul_eq_mul, h2]
      field_simp
  refine ⟨U, s, V, ?_, ?_, hVV, fun _ => Real.sqrt_nonneg _, ?_⟩
  · have hAV : A * V.transpose = U * Matrix.diagonal s := by
      ext r i
      have := congrFun (hUcol i) r
      rw [Matrix.mul_diagonal]
      simp only [Matrix.mul_apply, Matrix.transpose_apply]
      simp only [Matrix.mulVec, dotProduct, Pi.smul_apply, smul_eq_mul] at this
      rw [this, mul_comm]
    rw [← hAV, Matrix.mul_assoc, mul_eq_one_comm.1 hVV, Matrix.mul_one]
  · ext i j
    have := c.inner_eq_ite (Fin.castLE hm j) (Fin.castLE hm i)
    simp only [PiLp.inner_apply] at this
    simp only [Matrix.mul_apply, Matrix.transpose_apply, U, Matrix.of_apply, Matrix.one_apply]
    rw [show (if i = j then (1 : ℝ) else 0)
      = if Fin.castLE hm j = Fin.castLE hm i then 1 else 0 by
        simp [eq_comm]]
    rw [← this]
    apply Finset.sum_congr rfl
    intro k _
    simp
  · intro i j hij
    have := hmono hij
    simp only [Function.comp] at this
    exact Real.sqrt_le_sqrt (by linarith)

/-- A backend that meets the contract for square arrays exists. -/
theorem exists_valid_sqSvd : ∃ svd : SqSvd, svd.Valid := by
  refine ⟨fun k A => ⟨(exists_isSqSVD A).choose, (exists_isSqSVD A).choose_spec.choose,
      (exists_isSqSVD A).choose_spec.choose_spec.choose⟩, ?_⟩
  intro k A
  exact (exists_isSqSVD A).choose_spec.choose_spec.choose_spec

end Attitude.Conics
