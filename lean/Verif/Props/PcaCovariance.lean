import Verif.Model.Similarity
import Verif.Props.PcaConicsMoved
import Verif.Props.ErrorAxes

/-!
# C101, C102: the covariance matrices of a fit
-/

namespace Attitude.Props

open Attitude Pca Matrix Similarity

/-! ## Specification -/

/-- The sample covariance of coordinates `j` and `k` of a point set. -/
noncomputable def Spec.sampleCovariance {n : ℕ} (a : Fin n → Vec 3) : Mat 3 3 :=
  Matrix.of fun j k =>
    (∑ i, (a i j - (∑ l, a l j) / n) * (a i k - (∑ l, a l k) / n)) / ((n : ℝ) - 1)

/-- The inner product of the positions of two points relative to the center. -/
noncomputable def Spec.centeredDot {n : ℕ} (a : Fin n → Vec 3) (i k : Fin n) : ℝ :=
  ∑ j, (a i j - (∑ l, a l j) / n) * (a k j - (∑ l, a l j) / n)

/-! ## C101 -/

lemma sampleCovariance_eq {n : ℕ} (a : Fin n → Vec 3) :
    Spec.sampleCovariance a = (1 / ((n : ℝ) - 1)) •
      ((Matrix.of (Coordinates.centered a)).transpose * Matrix.of (Coordinates.centered a)) := by
  ext j k
  simp only [Spec.sampleCovariance, Matrix.smul_apply, Matrix.mul_apply, Matrix.transpose_apply,
    Matrix.of_apply, Coordinates.centered, meanRows, smul_eq_mul]
  rw [div_mul_eq_mul_div, one_mul]

lemma sampleCovariance_axes {n : ℕ} {a : Fin n → Vec 3} {f : Fit n} {U : Mat n 3}
    (h : IsFit a f U) :
    Spec.sampleCovariance a
      = f.V.transpose * Matrix.diagonal (fun i => f.s i ^ 2 / ((n : ℝ) - 1)) * f.V := by
  rw [sampleCovariance_eq, gram h.svd]
  have : Matrix.diagonal (fun i => f.s i ^ 2 / ((n : ℝ) - 1))
      = (1 / ((n : ℝ) - 1)) • Matrix.diagonal (fun i => f.s i ^ 2) := by
    rw [← Matrix.diagonal_smul]
    congr 1
    funext i
    simp only [Pi.smul_apply, smul_eq_mul]
    ring
  rw [this, Matrix.mul_smul, Matrix.smul_mul]

lemma sampling_diagonal {n : ℕ} (f : Fit n) :
    covarianceMatrix f .sampling = Matrix.diagonal (fun i => f.s i ^ 2 / ((n : ℝ) - 1)) := by
  ext i j
  by_cases h : i = j
  · subst h; simp [covarianceMatrix]
  · simp [covarianceMatrix, h]

lemma noise_diagonal {n : ℕ} {a : Fin n → Vec 3} {f : Fit n} {U : Mat n 3}
    (h : IsFit a f U) :
    covarianceMatrix f .noise = Matrix.diagonal (fun i => 4 * f.s i ^ 3 / n) := by
  ext i j
  by_cases hij : i = j
  · subst hij
    simp only [covarianceMatrix, Matrix.of_apply, Matrix.diagonal_apply_eq]
    rw [varRows_rotated h]
    ring
  · simp [covarianceMatrix, hij]

/-- The sampling covariance, turned from the axes of the fit to the axes of the
data, is the sample covariance of the points. -/
theorem C101_sampling_is_sample_covariance_partial (svd : SvdFn) (hs : svd.Valid) {n : ℕ}
    (a : Fin n → Vec 3) (f : Fit n) (hf : init svd a none none = .ok (some f)) :
    f.V.transpose * covarianceMatrix f .sampling * f.V = Spec.sampleCovariance a := by
  obtain ⟨U, h⟩ := init_default hs hf
  rw [sampleCovariance_axes h, sampling_diagonal]

example : ∃ (svd : SvdFn) (f : Fit 4), svd.Valid ∧ init svd Witness.tilted none none = .ok (some f) ∧
    f.V.transpose * covarianceMatrix f .sampling * f.V = Spec.sampleCovariance Witness.tilted := by
  obtain ⟨svd, f, hs, hf, _⟩ := Witness.exists_tilted
  exact ⟨svd, f, hs, hf, C101_sampling_is_sample_covariance_partial svd hs _ f hf⟩

/-- The property `covariance_matrix` (the default, noise) is the sample covariance
only when every singular value is zero or has one particular length. -/
theorem C101_noise_iff_partial (svd : SvdFn) (hs : svd.Valid) {n : ℕ}
    (a : Fin n → Vec 3) (f : Fit n) (hf : init svd a none none = .ok (some f)) :
    f.V.transpose * covarianceMatrix f .noise * f.V = Spec.sampleCovariance a ↔
      ∀ i, f.s i = 0 ∨ f.s i = n / (4 * ((n : ℝ) - 1)) := by
  obtain ⟨U, h⟩ := init_default hs hf
  have hn : (0 : ℝ) < (n : ℝ) - 1 := by
    have : (3 : ℝ) ≤ n := by exact_mod_cast h.size
    linarith
  have hn0 : (0 : ℝ) < n := by linarith
  rw [sampleCovariance_axes h, noise_diagonal h]
  have hV := h.svd.orthV
  constructor
  · intro e i
    have e2 : f.V * (f.V.transpose * Matrix.diagonal (fun i => 4 * f.s i ^ 3 / (n : ℝ)) * f.V)
        * f.V.transpose
        = f.V * (f.V.transpose * Matrix.diagonal (fun i => f.s i ^ 2 / ((n : ℝ) - 1)) * f.V)
        * f.V.transpose := by rw [e]
    have k : ∀ D : Mat 3 3, f.V * (f.V.transpose * D * f.V) * f.V.transpose = D := by
      intro D
      have : f.V * (f.V.transpose * D * f.V) * f.V.transpose
          = (f.V * f.V.transpose) * D * (f.V * f.V.transpose) := by
        simp only [Matrix.mul_assoc]
      rw [this, hV, Matrix.one_mul, Matrix.mul_one]
    rw [k, k] at e2
    have e3 := congrFun (Matrix.diagonal_injective e2) i
    by_cases q : f.s i = 0
    · exact .inl q
    · right
      field_simp at e3 ⊢
      linear_combination e3
  · intro e
    congr 3
    funext i
    rcases e i with q | q
    · rw [q]; simp
    · rw [q]
      field_simp

example : ∃ (svd : SvdFn) (f : Fit 4), svd.Valid ∧ init svd Witness.tilted none none = .ok (some f) ∧
    f.V.transpose * covarianceMatrix f .noise * f.V ≠ Spec.sampleCovariance Witness.tilted := by
  obtain ⟨svd, f, hs, hf, _, e⟩ := Witness.exists_tilted
  refine ⟨svd, f, hs, hf, fun h => ?_⟩
  have := (C101_noise_iff_partial svd hs _ f hf).1 h 0
  rw [e] at this
  norm_num at this

/-- For the six points at distances 3, 2, 1 along the coordinate axes,
`covariance_matrix` is not the sample covariance, whatever the backend. -/
theorem C101_noise_not_covariance_false (svd : SvdFn) (hs : svd.Valid) :
    ∃ f : Fit 6, init svd (axisPoints 3 2 1) none none = .ok (some f) ∧
      f.V.transpose * covarianceMatrix f .noise * f.V
        ≠ Spec.sampleCovariance (axisPoints 3 2 1) := by
  obtain ⟨f, hf, h2, hlt, -⟩ := C95_witness svd hs
  refine ⟨f, hf, fun e => ?_⟩
  have k := (C101_noise_iff_partial svd hs _ f hf).1 e
  rcases k 1 with q | q
  · linarith
  · rcases k 2 with r | r
    · linarith
    · linarith

/-- It does not even have the unit of a covariance: data in another unit of
length multiplies it by the cube of the conversion factor instead of the square. -/
theorem C101_noise_unit_false (svd svd' : SvdFn) (hs : svd.Valid) (hs' : svd'.Valid) {n : ℕ}
    (a : Fin n → Vec 3) (f g : Fit n) (l : ℝ) (hl : 0 < l)
    (hf : init svd a none none = .ok (some f))
    (hg : init svd' (fun i j => l * a i j) none none = .ok (some g)) :
    Spec.sampleCovariance (fun i j => l * a i j) = l ^ 2 • Spec.sampleCovariance a ∧
    covarianceMatrix g .sampling = l ^ 2 • covarianceMatrix f .sampling ∧
    covarianceMatrix g .noise = l ^ 3 • covarianceMatrix f .noise := by
  obtain ⟨U, h⟩ := init_default hs hf
  obtain ⟨U', h'⟩ := init_default hs' hg
  have hc : Coordinates.centered (fun i j => l * a i j) = fun i j => l * Coordinates.centered a i j := by
    funext i j
    simp only [Coordinates.centered, meanRows, ← Finset.mul_sum]
    ring
  have hS : ∀ i, g.s i = l * f.s i := by
    have := h'.svd
    rw [hc] at this
    have e : (Matrix.of fun i j => l * Coordinates.centered a i j)
        = l • Matrix.of (Coordinates.centered a) := by
      ext i j; simp
    rw [e] at this
    refine h.svd.scale_sv this l hl.le fun w => ?_
    simp only [Matrix.smul_mulVec, Pi.smul_apply, smul_eq_mul, mul_pow, ← Finset.mul_sum]
  refine ⟨?_, ?_, ?_⟩
  · rw [sampleCovariance_eq, sampleCovariance_eq, hc]
    have e : (Matrix.of fun i j => l * Coordinates.centered a i j)
        = l • Matrix.of (Coordinates.centered a) := by
      ext i j; simp
    rw [e, Matrix.transpose_smul, Matrix.smul_mul, Matrix.mul_smul, smul_smul, smul_smul, smul_smul]
    congr 1
    ring
  · rw [sampling_diagonal, sampling_diagonal, ← Matrix.diagonal_smul]
    congr 1
    funext i
    simp only [Pi.smul_apply, smul_eq_mul, hS]
    ring
  · rw [noise_diagonal h, noise_diagonal h', ← Matrix.diagonal_smul]
    congr 1
    funext i
    simp only [Pi.smul_apply, smul_eq_mul, hS]
    ring

/-- Non-vacuity: a set of points with a fit, in metres and in feet. -/
example : ∃ (svd : SvdFn) (f g : Fit 6), svd.Valid ∧
    init svd (axisPoints 3 2 1) none none = .ok (some f) ∧
    init svd (fun i j => 3.28 * axisPoints 3 2 1 i j) none none = .ok (some g) := by
  obtain ⟨svd, h⟩ := exists_valid_svd
  obtain ⟨f, hf⟩ := init_default_exists svd (by norm_num : 3 ≤ 6) (axisPoints 3 2 1)
  obtain ⟨g, hg⟩ := init_default_exists svd (by norm_num : 3 ≤ 6)
    (fun i j => 3.28 * axisPoints 3 2 1 i j)
  exact ⟨svd, f, g, h, hf, hg⟩

/-! ## C102 -/

/-- `covariance_matrix(fit)` has one row and column per point: it holds the inner
products of the centered points. -/
theorem C102_gram_partial (svd : SvdFn) (hs : svd.Valid) {n : ℕ}
    (a : Fin n → Vec 3) (f : Fit n) (hf : init svd a none none = .ok (some f)) :
    ∃ M, moduleCovariance f = some M ∧ ∀ i k, M i k = Spec.centeredDot a i k := by
  obtain ⟨U, h⟩ := init_default hs hf
  have e : (getU f).1 = some U := by simp [getU, h.hU]
  refine ⟨_, by simp only [moduleCovariance, e]; rfl, fun i k => ?_⟩
  rw [← rotated_eq_US h]
  have := (C08_rotated_and_eigenvalues svd hs a f hf).1 i k
  rw [Matrix.mul_apply]
  simpa [Spec.centeredDot] using this

example : ∃ (svd : SvdFn) (f : Fit 4) (M : Mat 4 4), svd.Valid ∧
    init svd Witness.tilted none none = .ok (some f) ∧ moduleCovariance f = some M := by
  obtain ⟨svd, f, hs, hf, _⟩ := Witness.exists_tilted
  obtain ⟨M, h, _⟩ := C102_gram_partial svd hs _ f hf
  exact ⟨svd, f, M, hs, hf, h⟩

/-- It is not the covariance in Cartesian coordinates: turning the points leaves
it as it is, while their covariance turns. -/
theorem C102_rotation_blind_false (svd : SvdFn) (hs : svd.Valid) :
    ∃ (a : Fin 6 → Vec 3) (f g : Fit 6) (α : ℝ),
      init svd a none none = .ok (some f) ∧
      init svd (Spec.moved 1 α 0 a) none none = .ok (some g) ∧
      moduleCovariance f = moduleCovariance g ∧
      Spec.sampleCovariance a ≠ Spec.sampleCovariance (Spec.moved 1 α 0 a) := by
  obtain ⟨f, hf⟩ := init_default_exists svd (by norm_num : 3 ≤ 6) (axisPoints 3 2 1)
  obtain ⟨g, hg⟩ := init_default_exists svd (by norm_num : 3 ≤ 6)
    (Spec.moved 1 90 0 (axisPoints 3 2 1))
  obtain ⟨M, hM, eM⟩ := C102_gram_partial svd hs _ f hf
  obtain ⟨M', hM', eM'⟩ := C102_gram_partial svd hs _ g hg
  have key : Spec.moved 1 90 0 (axisPoints 3 2 1)
      = ![![0, -3, 0], ![0, 3, 0], ![2, 0, 0], ![-2, 0, 0], ![0, 0, 1], ![0, 0, -1]] := by
    have h90 : (90 : ℝ) * Real.pi / 180 = Real.pi / 2 := by ring
    funext i j
    simp only [Spec.moved, Spec.turn, axisPoints, h90, Real.cos_pi_div_two, Real.sin_pi_div_two]
    fin_cases i <;> fin_cases j <;> simp
  refine ⟨_, f, g, 90, hf, hg, ?_, ?_⟩
  · rw [hM, hM']
    congr 1
    ext i k
    rw [eM, eM', key]
    fin_cases i <;> fin_cases k <;>
      simp [Spec.centeredDot, axisPoints, Fin.sum_univ_succ]
  · rw [key]
    intro e
    have := congrArg (fun M : Mat 3 3 => M 0 0) e
    simp [Spec.sampleCovariance, axisPoints, Fin.sum_univ_succ] at this
    norm_num at this

/-- The reconstruction test of the module succeeds for every fit. -/
theorem C102_reconstruction (svd : SvdFn) (hs : svd.Valid) {n : ℕ}
    (a : Fin n → Vec 3) (f : Fit n) (hf : init svd a none none = .ok (some f)) :
    ∃ P, testSvd f = some P ∧ P ∧ f.arr = Coordinates.centered a := by
  obtain ⟨U, h⟩ := init_default hs hf
  have e : (getU f).1 = some U := by simp [getU, h.hU]
  refine ⟨_, by simp only [testSvd, e]; rfl, ?_, h.arr⟩
  rw [h.arr, h.svd.recon, Matrix.mul_assoc]

example : ∃ (svd : SvdFn) (f : Fit 4) (P : Prop), svd.Valid ∧
    init svd Witness.tilted none none = .ok (some f) ∧ testSvd f = some P ∧ P := by
  obtain ⟨svd, f, hs, hf, _⟩ := Witness.exists_tilted
  obtain ⟨P, h, hP, _⟩ := C102_reconstruction svd hs _ f hf
  exact ⟨svd, f, P, hs, hf, h, hP⟩

end Attitude.Props
