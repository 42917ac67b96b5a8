import Verif.Props.PcaCovariance
import Verif.Props.Reconstructed
import Verif.Lemmas.Witness

/-!
# C255: what the tests of the package check for random planes

`attitude/orientation/test_pca.py` and `test_reconstructed.py` check identities for planes with
random coefficients.  Here they are stated for all points.
-/

namespace Attitude.Props

open Attitude Pca Matrix

/-- Standard deviation, with `n - k` as the number of degrees of freedom. -/
noncomputable def Spec.deviation {n : ℕ} (k : ℝ) (x : Fin n → ℝ) : ℝ :=
  Real.sqrt ((∑ i, (x i - (∑ l, x l) / n) ^ 2) / (n - k))

/-- `test_rotation` and `test_recovery_from_axes`: the data is the product of the three factors,
turning it and turning it back is the identity, and the left factor is the turned data divided by the
singular values if none is zero. -/
theorem C255_decomposition (svd : SvdFn) (hs : svd.Valid) {n : ℕ} (a : Fin n → Vec 3) (f : Fit n)
    (hf : init svd a none none = .ok (some f)) :
    ∃ U, f.U = some U ∧ Matrix.of f.arr = U * Matrix.diagonal f.s * f.V ∧
      rotated f * f.V = Matrix.of f.arr ∧ rotated f = U * Matrix.diagonal f.s ∧
      (f.s 2 ≠ 0 → U = rotated f * Matrix.diagonal fun j => 1 / f.s j) := by
  obtain ⟨U, h⟩ := init_default hs hf
  have hr := rotated_eq_US h
  refine ⟨U, h.hU, by rw [h.arr]; exact h.svd.recon, ?_, hr, fun h2 => ?_⟩
  · rw [rotated, Matrix.mul_assoc, mul_eq_one_comm.1 h.svd.orthV, Matrix.mul_one]
  · have p2 : 0 < f.s 2 := lt_of_le_of_ne h.svd.nonneg (Ne.symm h2)
    have p1 := p2.trans_le h.svd.le12
    have p0 := p1.trans_le h.svd.le01
    rw [hr, Matrix.mul_assoc, Matrix.diagonal_mul_diagonal]
    have : (fun i => f.s i * (1 / f.s i)) = fun _ => (1 : ℝ) := by
      funext i
      fin_cases i
      · simp [p0.ne']
      · simp [p1.ne']
      · simp [p2.ne']
    rw [this, Matrix.diagonal_one, Matrix.mul_one]

example : ∃ (svd : SvdFn) (f : Fit 4), svd.Valid ∧ init svd Witness.tilted none none = .ok (some f) ∧
    f.s 2 ≠ 0 := by
  obtain ⟨svd, f, hs, hf, _, e⟩ := Witness.exists_tilted
  exact ⟨svd, f, hs, hf, by rw [e]; simp⟩

/-- `test_singular_values`, `test_variance_equivalence` and `test_data_matrix_multiplication`: singular
values are the standard deviations along the axes times the root of the number of points, or of one
less; the eigenvalues are the entries of the product of the turned data with itself. -/
theorem C255_spread (svd : SvdFn) (hs : svd.Valid) {n : ℕ} (a : Fin n → Vec 3) (f : Fit n)
    (hf : init svd a none none = .ok (some f)) :
    (∀ j, f.s j / Real.sqrt n = Spec.deviation 0 fun i => rotated f i j) ∧
    (∀ j, f.s j / Real.sqrt (n - 1) = Spec.deviation 1 fun i => rotated f i j) ∧
    (rotated f).transpose * rotated f = ((n : ℝ) - 1) • Matrix.diagonal (eigenvalues f) := by
  obtain ⟨U, h⟩ := init_default hs hf
  have hn : (3 : ℝ) ≤ n := by exact_mod_cast h.size
  have hv : ∀ j, ∑ i, (rotated f i j - (∑ l, rotated f l j) / n) ^ 2 = f.s j ^ 2 := by
    intro j
    have e := varRows_rotated h j
    unfold varRows at e
    rw [div_left_inj' (by linarith)] at e
    exact e
  refine ⟨fun j => ?_, fun j => ?_, ?_⟩
  · rw [Spec.deviation, hv, sub_zero, Real.sqrt_div (sq_nonneg _), Real.sqrt_sq (h.svd.nonneg' j)]
  · rw [Spec.deviation, hv, Real.sqrt_div (sq_nonneg _), Real.sqrt_sq (h.svd.nonneg' j)]
  · rw [rotated_eq_US h, Matrix.transpose_mul, Matrix.diagonal_transpose, Matrix.mul_assoc,
      ← Matrix.mul_assoc U.transpose, h.svd.orthU, Matrix.one_mul, Matrix.diagonal_mul_diagonal,
      ← Matrix.diagonal_smul]
    congr 1
    funext j
    have : (n : ℝ) - 1 ≠ 0 := by intro h0; linarith
    simp only [Pi.smul_apply, smul_eq_mul, eigenvalues]
    field_simp

example : ∃ (svd : SvdFn) (f : Fit 4), svd.Valid ∧ init svd Witness.tilted none none = .ok (some f) ∧
    Spec.deviation 0 (fun i => rotated f i 0) = 3 / 2 := by
  obtain ⟨svd, f, hs, hf, _, e⟩ := Witness.exists_tilted
  refine ⟨svd, f, hs, hf, ?_⟩
  rw [← (C255_spread svd hs _ f hf).1 0, e, show ((4 : ℕ) : ℝ) = 2 ^ 2 by norm_num, Real.sqrt_sq (by norm_num)]
  simp

/-- `test_pca_recovery`: the columns of the principal axes have the singular values as lengths, and
divided by these they are the axes. -/
theorem C255_principal_axes (svd : SvdFn) (hs : svd.Valid) {n : ℕ} (a : Fin n → Vec 3) (f : Fit n)
    (hf : init svd a none none = .ok (some f)) :
    principalAxes f = f.V * Matrix.diagonal f.s ∧
    (∀ j, norm (fun i => principalAxes f i j) = f.s j) ∧
    (f.s 2 ≠ 0 → ∀ i j, principalAxes f i j / f.s j = f.V i j) := by
  obtain ⟨U, h⟩ := init_default hs hf
  refine ⟨?_, columnNorms_principal h, fun h2 i j => ?_⟩
  · ext i j
    rw [Matrix.mul_diagonal]
    simp [principalAxes, mul_comm]
  · have p2 : 0 < f.s 2 := lt_of_le_of_ne h.svd.nonneg (Ne.symm h2)
    have p1 := p2.trans_le h.svd.le12
    have p0 := p1.trans_le h.svd.le01
    have : f.s j ≠ 0 := by
      fin_cases j
      · exact p0.ne'
      · exact p1.ne'
      · exact p2.ne'
    simp only [principalAxes, Matrix.of_apply]
    field_simp

example : ∃ (svd : SvdFn) (f : Fit 4), svd.Valid ∧ init svd Witness.tilted none none = .ok (some f) ∧
    norm (fun i => principalAxes f i 0) = 3 := by
  obtain ⟨svd, f, hs, hf, _, e⟩ := Witness.exists_tilted
  exact ⟨svd, f, hs, hf, by rw [(C255_principal_axes svd hs _ f hf).2.1 0, e]; simp⟩

/-- `test_hyperbola_axes`: the entries of the hyperbola of a fit are the inverse variances, the third
with the opposite sign, if the points are not on a plane.  Missing: points on a plane
(`C255_hyperbola_flat_false`). -/
theorem C255_hyperbola_partial (svd : SvdFn) (hs : svd.Valid) {n : ℕ} (a : Fin n → Vec 3) (f : Fit n)
    (hf : init svd a none none = .ok (some f)) (h2 : f.s 2 ≠ 0) :
    PcaConics.asHyperbola f false = some (Matrix.diagonal
      ![1 / covarianceMatrix f .noise 0 0, 1 / covarianceMatrix f .noise 1 1,
        -(1 / covarianceMatrix f .noise 2 2), -1]) := by
  obtain ⟨U, h⟩ := init_default hs hf
  have hn : (3 : ℝ) ≤ n := by exact_mod_cast h.size
  have p2 : 0 < f.s 2 := lt_of_le_of_ne h.svd.nonneg (Ne.symm h2)
  have p1 := p2.trans_le h.svd.le12
  have p0 := p1.trans_le h.svd.le01
  have hpos : ∀ i, 0 < f.s i → 0 < covarianceMatrix f .noise i i := by
    intro i hi
    rw [noise_diagonal h, Matrix.diagonal_apply_eq]
    positivity
  have c0 := (hpos 0 p0).ne'
  have c1 := (hpos 1 p1).ne'
  have c2 := (hpos 2 p2).ne'
  unfold PcaConics.asHyperbola PcaConics.variances
  simp only [c0, c1, c2, or_self, if_false, Bool.false_eq_true]
  congr 1
  unfold Conics.fromAxes
  congr 1
  funext i
  fin_cases i
  · rfl
  · rfl
  · show 1 / covarianceMatrix f .noise 2 2 * -1 = _
    simp
  · rfl

example : ∃ (svd : SvdFn) (f : Fit 4), svd.Valid ∧ init svd Witness.tilted none none = .ok (some f) ∧
    f.s 2 ≠ 0 := by
  obtain ⟨svd, f, hs, hf, _, e⟩ := Witness.exists_tilted
  exact ⟨svd, f, hs, hf, by rw [e]; simp⟩

/-- Refutation for points on a plane: the hyperbola has infinite entries. -/
theorem C255_hyperbola_flat_false (svd : SvdFn) (hs : svd.Valid) {n : ℕ} (a : Fin n → Vec 3) (f : Fit n)
    (hf : init svd a none none = .ok (some f)) (h2 : f.s 2 = 0) :
    PcaConics.asHyperbola f false = none := by
  obtain ⟨U, h⟩ := init_default hs hf
  have c2 : covarianceMatrix f .noise 2 2 = 0 := by
    rw [noise_diagonal h, Matrix.diagonal_apply_eq, h2]
    simp
  simp [PcaConics.asHyperbola, PcaConics.variances, c2]

example : ∃ (svd : SvdFn) (f : Fit 4), svd.Valid ∧ init svd Witness.tiltedPlane none none = .ok (some f) ∧
    f.s 2 = 0 := by
  obtain ⟨svd, f, hs, hf, _, e⟩ := Witness.exists_tiltedPlane
  exact ⟨svd, f, hs, hf, by rw [e]; simp⟩

/-- Refutation of the last check of `test_reconstructed_plane`: whenever the first two singular values
differ and the angular errors are in order, the covariance of the reconstructed plane is not that of the
fit divided by its last entry (it has the in-plane axes in the opposite order). -/
theorem C255_reconstructed_false (Q : ErrorAxes.Quantiles) (svd : SvdFn) (hs : svd.Valid) {n : ℕ}
    (a : Fin n → Vec 3) (f : Fit n) (hf : init svd a none none = .ok (some f)) (h2 : f.s 2 ≠ 0)
    (h01 : f.s 1 < f.s 0) (x y : ℝ) (he : ErrorAxes.fitAngularErrors Q f = some (x, y)) (hx : 0 < x)
    (hxy : x ≤ y) (s d r : ℝ) :
    ∃ p l₀ l₁, Reconstructed.reconstruct s d r [degrees x, degrees y] = some p ∧
      p.hyperbolicAxes = some [l₀, l₁, 1] ∧
      ¬ (l₀ = covarianceMatrix f .noise 0 0 / covarianceMatrix f .noise 2 2 ∧
        l₁ = covarianceMatrix f .noise 1 1 / covarianceMatrix f .noise 2 2) := by
  obtain ⟨U, h⟩ := init_default hs hf
  have hpi := Real.pi_pos
  have hn : (3 : ℝ) ≤ n := by exact_mod_cast h.size
  have p2 : 0 < f.s 2 := lt_of_le_of_ne h.svd.nonneg (Ne.symm h2)
  have p1 := p2.trans_le h.svd.le12
  have hy : y ≤ Real.pi / 2 := by
    unfold ErrorAxes.fitAngularErrors at he
    split at he
    · cases he
      exact arctan2_le_pi_div_two (Real.sqrt_nonneg _) (Real.sqrt_nonneg _)
    · cases he
  have hdeg : ∀ z, 0 < z → z ≤ Real.pi / 2 → 0 < degrees z ∧ degrees z < 180 := by
    intro z h0 h1
    unfold degrees
    constructor
    · positivity
    · rw [div_lt_iff₀ hpi]; nlinarith
  have hxr := hdeg x hx (hxy.trans hy)
  have hyr := hdeg y (hx.trans_le hxy) hy
  obtain ⟨_, _, p, hp, _, _, _, _, _, _, _, hh, _⟩ := reconstruct_eq s d r [degrees x, degrees y] 1
  rw [lengths_two hxr.1 hxr.2 hyr.1 hyr.2] at hh
  refine ⟨p, _, _, hp, hh, ?_⟩
  rintro ⟨e0, e1⟩
  have half : ∀ z, Spec.halfError (degrees z) = z / 2 := by
    intro z; unfold Spec.halfError degrees; field_simp
  rw [half] at e0 e1
  have tx : 0 < Real.tan (x / 2) :=
    Real.tan_pos_of_pos_of_lt_pi_div_two (by linarith) (by linarith)
  have hlt : 1 / Real.tan (y / 2) ≤ 1 / Real.tan (x / 2) := by
    apply one_div_le_one_div_of_le tx
    exact (Real.strictMonoOn_tan.monotoneOn) ⟨by linarith, by linarith⟩ ⟨by linarith, by linarith⟩ (by linarith)
  have hcov : covarianceMatrix f .noise 1 1 / covarianceMatrix f .noise 2 2
      < covarianceMatrix f .noise 0 0 / covarianceMatrix f .noise 2 2 := by
    simp only [noise_diagonal h, Matrix.diagonal_apply_eq]
    apply div_lt_div_of_pos_right _ (by positivity)
    have := pow_lt_pow_left₀ h01 p1.le (three_ne_zero)
    apply div_lt_div_of_pos_right _ (by linarith)
    linarith
  rw [← e0, ← e1] at hcov
  linarith

/-- Four points with singular values 3, 2, 1 and the quantile 19 of the F distribution with two and two
degrees of freedom. -/
example : ∃ (Q : ErrorAxes.Quantiles) (svd : SvdFn) (f : Fit 4) (x y : ℝ), svd.Valid ∧
    init svd Witness.tilted none none = .ok (some f) ∧ f.s 2 ≠ 0 ∧ f.s 1 < f.s 0 ∧
    ErrorAxes.fitAngularErrors Q f = some (x, y) ∧ 0 < x ∧ x ≤ y := by
  obtain ⟨svd, f, hs, hf, _, e⟩ := Witness.exists_tilted
  have hz : ErrorAxes.fisherStatistic ⟨fun _ _ _ => 19, fun _ _ => 6, fun _ => 0⟩ 4 0.95 2 = some 19 := by
    unfold ErrorAxes.fisherStatistic
    rw [if_pos ⟨by norm_num, by norm_num, by norm_num, by norm_num⟩]
  have hax : ErrorAxes.noiseAxes ⟨fun _ _ _ => 19, fun _ _ => 6, fun _ => 0⟩
      (ErrorAxes.ofFit ⟨fun _ _ _ => 19, fun _ _ => 6, fun _ => 0⟩ f) {} = .ok (some (ErrorAxes.applyErrorScaling
        (eigenvalues f) (fun j => 19 * Real.sqrt (ErrorAxes.noiseCovariance 4 (eigenvalues f) 2 j)) 4 true)) := by
    simp only [ErrorAxes.ofFit, ErrorAxes.noiseAxes, ErrorAxes.statisticalAxes, Option.isSome_none, Bool.false_eq_true,
      if_false, Option.getD_some, Option.getD_none, ne_eq, not_true_eq_false, if_true, hz]
    rw [if_neg (by decide)]
  set h := ErrorAxes.applyErrorScaling (eigenvalues f)
    (fun j => 19 * Real.sqrt (ErrorAxes.noiseCovariance 4 (eigenvalues f) 2 j)) 4 true with hh
  have e0 : eigenvalues f 0 = 3 := by
    simp only [eigenvalues, e]
    simp
    norm_num
  have e1 : eigenvalues f 1 = 4 / 3 := by
    simp only [eigenvalues, e]
    simp
    norm_num
  have e2 : eigenvalues f 2 = 1 / 3 := by
    simp only [eigenvalues, e]
    simp
    norm_num
  have h0 : h 0 = |3 - 19 * Real.sqrt 2| := by
    simp only [hh, ErrorAxes.applyErrorScaling, ErrorAxes.noiseCovariance, e0, e1, e2, if_true,
      Matrix.cons_val_zero]
    norm_num only [Nat.cast_ofNat]
  have h1 : h 1 = |4 / 3 - 19 * Real.sqrt (8 / 9)| := by
    simp only [hh, ErrorAxes.applyErrorScaling, ErrorAxes.noiseCovariance, e0, e1, e2, if_true,
      Matrix.cons_val_one, Matrix.cons_val_zero]
    norm_num only [Nat.cast_ofNat]
  have h2 : h 2 = |-(1 / 3) - 19 * Real.sqrt (2 / 9)| := by
    simp only [hh, ErrorAxes.applyErrorScaling, ErrorAxes.noiseCovariance, e0, e1, e2, if_true,
      Matrix.cons_val]
    norm_num only [Nat.cast_ofNat]
  have s2 : 1.4 < Real.sqrt 2 := Real.lt_sqrt_of_sq_lt (by norm_num)
  have s8 : Real.sqrt (8 / 9) = 2 / 3 * Real.sqrt 2 := by
    rw [show (8 / 9 : ℝ) = (2 / 3) ^ 2 * 2 by norm_num, Real.sqrt_mul (by norm_num), Real.sqrt_sq (by norm_num)]
  have hle : h 1 ≤ h 0 := by
    rw [h0, h1, s8, abs_of_nonpos (by linarith), abs_of_nonpos (by linarith)]
    linarith
  have p1 : 0 < h 1 := by
    rw [h1, s8, abs_of_nonpos (by linarith)]
    linarith
  have p2 : 0 < h 2 := by
    rw [h2, abs_of_nonpos (by have := Real.sqrt_nonneg (2 / 9 : ℝ); linarith)]
    have := Real.sqrt_nonneg (2 / 9 : ℝ)
    linarith
  refine ⟨⟨fun _ _ _ => 19, fun _ _ => 6, fun _ => 0⟩, svd, f, (ErrorAxes.angularErrors h).1, (ErrorAxes.angularErrors h).2, hs, hf, by rw [e]; simp,
    by rw [e]; norm_num, by simp only [ErrorAxes.fitAngularErrors, hax], ?_, ?_⟩
  · unfold ErrorAxes.angularErrors
    rw [arctan2_of_pos _ (Real.sqrt_pos.2 (p1.trans_le hle))]
    exact Real.arctan_pos.2 (div_pos (Real.sqrt_pos.2 p2) (Real.sqrt_pos.2 (p1.trans_le hle)))
  · exact arctan2_mono (Real.sqrt_nonneg _) le_rfl (Real.sqrt_nonneg _) (Real.sqrt_le_sqrt hle)

end Attitude.Props
