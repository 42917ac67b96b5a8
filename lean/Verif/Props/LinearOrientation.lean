import Verif.Props.Linear

/-!
# C34, C35: orientation of a linear fit and its errors
-/

namespace Attitude.Props

open Attitude Linear Matrix Pca

/-! ## Helper facts -/

/-- What is known about a successfully built orientation. -/
lemma linearOrientation_ok {n : ℕ} {a : Fin n → Vec 3} {o : LinearOrientation}
    (ho : linearOrientation a = .ok o) :
    ∃ r c, initRows a = .ok r ∧ (coefficients r).1 = .ok c ∧
      (covarianceMatrix r).1 = .ok o.covarianceMatrix ∧
      o.azimuth = -arctan2 (-c 1) (-c 0) ∧ o.coefficients = rotation o.azimuth *ᵥ c ∧
      o.slope = Real.arctan (-o.coefficients 0) := by
  unfold linearOrientation at ho
  cases hr : initRows a with
  | error e => rw [hr] at ho; cases ho
  | ok r =>
    rw [hr] at ho
    simp only at ho
    have hF : Fresh r := C33_new_objects_fresh.1 a r hr
    obtain ⟨_, c2, _⟩ := coefficients_ok hF (CacheOK.refl hF)
    unfold initLinear at ho
    rcases hc : coefficients r with ⟨v, r'⟩
    rw [hc] at ho c2
    cases v with
    | error e => simp at ho
    | ok c =>
      simp only at ho c2
      obtain ⟨v1, _⟩ := covariance_ok hF c2
      rcases hv : covarianceMatrix r' with ⟨w, r''⟩
      rw [hv] at ho v1
      cases w with
      | error e => simp at ho
      | ok m =>
        simp only [Except.ok.injEq] at ho v1
        subst ho
        exact ⟨r, c, rfl, by rw [hc], v1.symm, rfl, rfl, rfl⟩

/-- Gradient magnitude. -/
noncomputable def Spec.gradient (p q : ℝ) : ℝ := Real.sqrt (p ^ 2 + q ^ 2)

lemma rotated_coefficients (c : Vec 3) :
    (rotation (-arctan2 (-c 1) (-c 0)) *ᵥ c) 0 = -Spec.gradient (c 0) (c 1) ∧
    (rotation (-arctan2 (-c 1) (-c 0)) *ᵥ c) 1 = 0 ∧
    (rotation (-arctan2 (-c 1) (-c 0)) *ᵥ c) 2 = c 2 := by
  have hc := sqrt_mul_cos_arctan2 (-c 1) (-c 0)
  have hs := sqrt_mul_sin_arctan2 (-c 1) (-c 0)
  have e : Real.sqrt ((-c 0) ^ 2 + (-c 1) ^ 2) = Spec.gradient (c 0) (c 1) := by
    unfold Spec.gradient; congr 1; ring
  rw [e] at hc hs
  set t := arctan2 (-c 1) (-c 0)
  set g := Spec.gradient (c 0) (c 1)
  have pyth := Real.sin_sq_add_cos_sq t
  refine ⟨?_, ?_, ?_⟩
  · simp only [rotation, Matrix.mulVec, dotProduct, Fin.sum_univ_three, Matrix.of_apply,
      Matrix.cons_val, Real.cos_neg, Real.sin_neg]
    rw [show c 0 = -(g * Real.cos t) by linarith, show c 1 = -(g * Real.sin t) by linarith]
    linear_combination (-g) * pyth
  · simp only [rotation, Matrix.mulVec, dotProduct, Fin.sum_univ_three, Matrix.of_apply,
      Matrix.cons_val, Real.cos_neg, Real.sin_neg]
    rw [show c 0 = -(g * Real.cos t) by linarith, show c 1 = -(g * Real.sin t) by linarith]
    ring
  · simp [rotation, Matrix.mulVec, dotProduct, Fin.sum_univ_three]

/-! ## C34 -/

/-- For every regression the rotated coefficients have no along-strike
component, and the slope is the arctangent of the gradient magnitude of the
least-squares plane, in `[0, π/2)`. -/
theorem C34_aligned {n : ℕ} (a : Fin n → Vec 3) (o : LinearOrientation)
    (ho : linearOrientation a = .ok o) :
    ∃ p q, (∀ p' q' t', Spec.verticalSquares a p q (Spec.intercept a p q)
        ≤ Spec.verticalSquares a p' q' t') ∧
      o.coefficients 1 = 0 ∧ o.coefficients 0 = -Spec.gradient p q ∧ o.coefficients 2 = 0 ∧
      o.slope = Real.arctan (Spec.gradient p q) ∧ 0 ≤ o.slope ∧ o.slope < Real.pi / 2 := by
  obtain ⟨r, c, hr, hc, _, haz, hco, hsl⟩ := linearOrientation_ok ho
  obtain ⟨h2, hmin, _⟩ := C31_least_squares a r hr c hc
  obtain ⟨k0, k1, k2⟩ := rotated_coefficients c
  rw [← haz, ← hco] at k0 k1 k2
  refine ⟨c 0, c 1, hmin, k1, k0, by rw [k2, h2], ?_, ?_, ?_⟩
  · rw [hsl, k0, neg_neg]
  · rw [hsl, k0, neg_neg]
    exact Real.arctan_nonneg.2 (Real.sqrt_nonneg _)
  · rw [hsl]
    exact Real.arctan_lt_pi_div_two _

lemma linear_sdNormal {n : ℕ} {a : Fin n → Vec 3} {o : LinearOrientation}
    (ho : linearOrientation a = .ok o) {r : Regression n} {c : Vec 3} (hr : initRows a = .ok r)
    (hc : (coefficients r).1 = .ok c) :
    ![-c 0, -c 1, 1] = Real.sqrt (1 + Spec.gradient (c 0) (c 1) ^ 2)
      • sdNormal (Linear.strikeDip o).1 (Linear.strikeDip o).2 := by
  obtain ⟨r', c', hr', hc', _, haz, hco, hsl⟩ := linearOrientation_ok ho
  rw [hr] at hr'
  cases hr'
  rw [hc] at hc'
  cases hc'
  obtain ⟨k0, k1, k2⟩ := rotated_coefficients c
  rw [← haz, ← hco] at k0
  have hsl' : o.slope = Real.arctan (Spec.gradient (c 0) (c 1)) := by rw [hsl, k0, neg_neg]
  have hcos := sqrt_mul_cos_arctan2 (-c 1) (-c 0)
  have hsin := sqrt_mul_sin_arctan2 (-c 1) (-c 0)
  have e : Real.sqrt ((-c 0) ^ 2 + (-c 1) ^ 2) = Spec.gradient (c 0) (c 1) := by
    unfold Spec.gradient; congr 1; ring
  rw [e] at hcos hsin
  set g := Spec.gradient (c 0) (c 1)
  have hp : 0 < Real.sqrt (1 + g ^ 2) := Real.sqrt_pos.2 (by positivity)
  simp only [Linear.strikeDip, sdNormal, radians_degrees, hsl', Real.sin_arctan, Real.cos_arctan,
    haz, Real.cos_neg, Real.sin_neg]
  funext j
  fin_cases j
  · simp only [Pi.smul_apply, smul_eq_mul]
    show -c 0 = Real.sqrt (1 + g ^ 2) * (g / Real.sqrt (1 + g ^ 2) * Real.cos _)
    conv_lhs => rw [← hcos]
    field_simp
  · simp only [Pi.smul_apply, smul_eq_mul]
    show -c 1 = Real.sqrt (1 + g ^ 2) * -(g / Real.sqrt (1 + g ^ 2) * -Real.sin _)
    conv_lhs => rw [← hsin]
    field_simp
  · simp only [Pi.smul_apply, smul_eq_mul]
    show (1 : ℝ) = Real.sqrt (1 + g ^ 2) * (1 / Real.sqrt (1 + g ^ 2))
    field_simp

/-- The strike and dip describe the least-squares plane by the right-hand rule:
the strike direction is horizontal in the plane, and going down the dip at 90
degrees clockwise stays in the plane.  The dip is in `[0, 90)`. -/
theorem C34_right_hand_rule {n : ℕ} (a : Fin n → Vec 3) (o : LinearOrientation)
    (ho : linearOrientation a = .ok o) :
    ∃ p q, (∀ p' q' t', Spec.verticalSquares a p q (Spec.intercept a p q)
        ≤ Spec.verticalSquares a p' q' t') ∧
      Spec.RightHandRule ![-p, -q, 1] (Linear.strikeDip o).1 (Linear.strikeDip o).2 ∧
      0 ≤ (Linear.strikeDip o).2 ∧ (Linear.strikeDip o).2 < 90 := by
  obtain ⟨r, c, hr, hc, _, haz, hco, hsl⟩ := linearOrientation_ok ho
  obtain ⟨h2, hmin, _⟩ := C31_least_squares a r hr c hc
  obtain ⟨_, _, _, _, _, _, _, hs0, hs1⟩ := C34_aligned a o ho
  refine ⟨c 0, c 1, hmin, ?_, ?_, ?_⟩
  · rw [linear_sdNormal ho hr hc]
    exact rightHandRule_sdNormal _ _ _
  · have := degrees_le.2 hs0
    rwa [show degrees 0 = 0 by unfold degrees; ring] at this
  · have := degrees_lt.2 hs1
    rwa [show degrees (Real.pi / 2) = 90 by unfold degrees; field_simp; norm_num] at this

/-- Data lying exactly on the plane `z = p x + q y + t`, not collinear in map
view: the linear orientation and the PCA fit report the same dip and, unless the
plane is horizontal, the same strike modulo 360 degrees. -/
theorem C34_agrees_with_pca (svd : SvdFn) (hs : svd.Valid) {n : ℕ} (a : Fin n → Vec 3)
    (f : Fit n) (hf : Pca.init svd a none none = .ok (some f)) (o : LinearOrientation)
    (ho : linearOrientation a = .ok o) (p q t : ℝ)
    (hplane : ∀ i, a i 2 = p * a i 0 + q * a i 1 + t) :
    ∃ s d, Pca.strikeDip f = some (s, d) ∧ d = (Linear.strikeDip o).2 ∧
      ((p ≠ 0 ∨ q ≠ 0) → ∃ k : ℤ, s = (Linear.strikeDip o).1 + 360 * k) := by
  obtain ⟨U, hF⟩ := Pca.init_default hs hf
  obtain ⟨r, c, hr, hc, _, haz, hco, hsl⟩ := linearOrientation_ok ho
  obtain ⟨h2, hmin, huniq⟩ := C31_least_squares a r hr c hc
  have hn0 : (n : ℝ) ≠ 0 := by
    have : 3 ≤ n := hF.size
    have : n ≠ 0 := by omega
    exact_mod_cast this
  have hncol : ¬ Spec.CollinearInPlan a := (C31_singular_iff a r hr).2.1 ⟨c, hc⟩
  -- the coefficients are those of the plane
  have hzero : Spec.verticalSquares a p q t = 0 := by
    unfold Spec.verticalSquares
    apply Finset.sum_eq_zero
    intro i _
    rw [hplane i]; ring
  have hle := hmin p q t
  have hge : 0 ≤ Spec.verticalSquares a (c 0) (c 1) (Spec.intercept a (c 0) (c 1)) :=
    Finset.sum_nonneg fun i _ => sq_nonneg _
  obtain ⟨ep, eq, _⟩ := huniq p q t (by linarith)
  -- the third principal axis is normal to the plane
  have hs2 : f.s 2 = 0 := by
    have opt := hF.svd.optimal ![-p, -q, 1]
    have z : ∑ i, (Matrix.of (Coordinates.centered a) *ᵥ ![-p, -q, 1]) i ^ 2 = 0 := by
      apply Finset.sum_eq_zero
      intro i _
      have hm : meanRows a 2 = p * meanRows a 0 + q * meanRows a 1 + t := by
        simp only [meanRows, hplane, Finset.sum_add_distrib, ← Finset.mul_sum, Finset.sum_const,
          Finset.card_univ, Fintype.card_fin, nsmul_eq_mul]
        field_simp
      have : (Matrix.of (Coordinates.centered a) *ᵥ ![-p, -q, 1]) i = 0 := by
        simp only [Matrix.mulVec, dotProduct, Matrix.of_apply, Fin.sum_univ_three, Matrix.cons_val,
          Coordinates.centered]
        rw [hplane i, hm]
        ring
      rw [this]; ring
    rw [z] at opt
    simp only [Fin.sum_univ_three, Matrix.cons_val] at opt
    have hp : 0 < (-p) ^ 2 + (-q) ^ 2 + (1 : ℝ) ^ 2 := by positivity
    have : f.s 2 ^ 2 ≤ 0 := by
      by_contra hcon
      push Not at hcon
      have := mul_pos hcon hp
      linarith
    have h0 : f.s 2 ^ 2 = 0 := le_antisymm this (sq_nonneg _)
    exact pow_eq_zero_iff two_ne_zero |>.1 h0
  have hrow := hF.svd.sum_sq_row 2
  rw [hs2] at hrow
  have hpt : ∀ i, (Matrix.of (Coordinates.centered a) *ᵥ f.V 2) i = 0 := by
    intro i
    have := (Finset.sum_eq_zero_iff_of_nonneg (fun i _ => sq_nonneg _)).1
      (show ∑ i, (Matrix.of (Coordinates.centered a) *ᵥ f.V 2) i ^ 2 = 0 by rw [hrow]; ring)
      i (Finset.mem_univ i)
    exact pow_eq_zero_iff two_ne_zero |>.1 this
  set v := f.V 2 with hv
  have hpar : v 0 = -p * v 2 ∧ v 1 = -q * v 2 := by
    by_contra hcon
    apply hncol
    refine ⟨v 0 + p * v 2, v 1 + q * v 2,
      (v 0 + p * v 2) * meanRows a 0 + (v 1 + q * v 2) * meanRows a 1, ?_, ?_⟩
    · by_contra h
      push Not at h
      exact hcon ⟨by linarith [h.1], by linarith [h.2]⟩
    · intro i
      have hm : meanRows a 2 = p * meanRows a 0 + q * meanRows a 1 + t := by
        simp only [meanRows, hplane, Finset.sum_add_distrib, ← Finset.mul_sum, Finset.sum_const,
          Finset.card_univ, Fintype.card_fin, nsmul_eq_mul]
        field_simp
      have := hpt i
      simp only [Matrix.mulVec, dotProduct, Matrix.of_apply, Fin.sum_univ_three,
        Coordinates.centered] at this
      rw [hplane i, hm] at this
      linarith
  have hnorm : v 0 ^ 2 + v 1 ^ 2 + v 2 ^ 2 = 1 := by
    have := hF.svd.row_dot 2 2
    rw [if_pos rfl, vdot3] at this
    linarith
  have hvne : v ≠ 0 := by
    intro h
    rw [h] at hnorm
    simp at hnorm
  obtain ⟨s, d, hsd, s0, s1, d0, d1, hup⟩ := strikeDipOf_spec hvne
  have hn1 : norm v = 1 := by rw [norm3, hnorm, Real.sqrt_one]
  rw [hn1, one_smul] at hup
  -- both normals are the same unit vector
  have hlin := linear_sdNormal ho hr hc
  rw [← ep, ← eq] at hlin
  set g := Spec.gradient p q with hg
  have hgsq : g ^ 2 = p ^ 2 + q ^ 2 := Real.sq_sqrt (by positivity)
  have hrt : 0 < Real.sqrt (1 + g ^ 2) := Real.sqrt_pos.2 (by positivity)
  have habs : |v 2| * Real.sqrt (1 + g ^ 2) = 1 := by
    have : (|v 2| * Real.sqrt (1 + g ^ 2)) ^ 2 = 1 := by
      rw [mul_pow, sq_abs, Real.sq_sqrt (by positivity), hgsq]
      rw [hpar.1, hpar.2] at hnorm
      linarith
    have hnn : 0 ≤ |v 2| * Real.sqrt (1 + g ^ 2) := by positivity
    nlinarith
  have hupv : upward v = |v 2| • ![-p, -q, 1] := by
    unfold upward
    split_ifs with hneg
    · rw [abs_of_neg hneg]
      funext j
      fin_cases j
      · simp [hpar.1, mul_comm]
      · simp [hpar.2, mul_comm]
      · simp
    · rw [abs_of_nonneg (not_lt.1 hneg)]
      funext j
      fin_cases j
      · simp [hpar.1, mul_comm]
      · simp [hpar.2, mul_comm]
      · simp
  have hsame : sdNormal s d = sdNormal (Linear.strikeDip o).1 (Linear.strikeDip o).2 := by
    rw [hup, hupv, hlin, smul_smul, habs, one_smul]
  obtain ⟨_, _, _, _, e0, e1⟩ := C34_right_hand_rule a o ho
  have hd : d = (Linear.strikeDip o).2 := by
    apply dip_inj d0 d1 e0 e1.le
    have := congrFun hsame 2
    simpa [sdNormal] using this
  refine ⟨s, d, hsd, hd, ?_⟩
  intro hpq
  have hgpos : 0 < g := by
    apply Real.sqrt_pos.2
    rcases hpq with k | k
    · have := sq_pos_of_ne_zero k
      positivity
    · have := sq_pos_of_ne_zero k
      positivity
  have hsin : Real.sin (radians d) ≠ 0 := by
    intro h0
    have x0 := congrFun hlin 0
    have x1 := congrFun hlin 1
    rw [← hd] at x0 x1
    simp [sdNormal, h0] at x0 x1
    rcases hpq with k | k
    · exact k x0
    · exact k x1
  rw [← hd] at hsame
  apply cos_sin_mod
  · have := congrFun hsame 0
    simp only [sdNormal, Matrix.cons_val] at this
    exact mul_left_cancel₀ hsin this
  · have := congrFun hsame 1
    simp only [sdNormal, Matrix.cons_val, neg_inj] at this
    exact mul_left_cancel₀ hsin this

lemma linearOrientation_exists {n : ℕ} {a : Fin n → Vec 3} (hn : n ≠ 0)
    (h : ¬ Spec.CollinearInPlan a) : ∃ o, linearOrientation a = .ok o := by
  have hr : initRows a = .ok (ofCentered (Coordinates.centered a)) := by simp [initRows, hn]
  obtain ⟨c, hc⟩ := (C31_singular_iff a _ hr).2.2 h
  obtain ⟨m, e, hm, _⟩ := C36_covariance a _ hr h
  have hF : Fresh (ofCentered (Coordinates.centered a)) := C33_new_objects_fresh.1 a _ hr
  obtain ⟨_, c2, _⟩ := coefficients_ok hF (CacheOK.refl hF)
  unfold linearOrientation
  rw [hr]
  simp only
  unfold initLinear
  rcases hcc : coefficients (ofCentered (Coordinates.centered a)) with ⟨v, r'⟩
  rw [hcc] at hc c2
  simp only at hc c2
  subst hc
  obtain ⟨v1, _⟩ := covariance_ok hF c2
  rw [hm] at v1
  rcases hv : covarianceMatrix r' with ⟨w, r''⟩
  rw [hv] at v1
  simp only at v1
  subst v1
  simp only
  rw [hv]
  exact ⟨_, rfl⟩

lemma fourPoints_fits : ∃ o, linearOrientation fourPoints = .ok o :=
  linearOrientation_exists (by norm_num) fourPoints_not_collinear

/-- Non-vacuity of `C34_aligned`. -/
example : ∃ o, linearOrientation fourPoints = .ok o ∧ o.slope < Real.pi / 2 := by
  obtain ⟨o, ho⟩ := fourPoints_fits
  obtain ⟨_, _, _, _, _, _, _, _, h⟩ := C34_aligned fourPoints o ho
  exact ⟨o, ho, h⟩

/-- Non-vacuity of `C34_right_hand_rule`. -/
example : ∃ o, linearOrientation fourPoints = .ok o ∧ (Linear.strikeDip o).2 < 90 := by
  obtain ⟨o, ho⟩ := fourPoints_fits
  obtain ⟨_, _, _, _, _, h⟩ := C34_right_hand_rule fourPoints o ho
  exact ⟨o, ho, h⟩

/-- The hypotheses of C34 are met by four points on the plane `z = x + 2 y + 5`. -/
example (svd : SvdFn) : ∃ (a : Fin 4 → Vec 3) (o : LinearOrientation) (f : Fit 4),
    Pca.init svd a none none = .ok (some f) ∧ linearOrientation a = .ok o ∧
    ∀ i, a i 2 = 1 * a i 0 + 2 * a i 1 + 5 := by
  refine ⟨![![0, 0, 5], ![1, 0, 6], ![0, 1, 7], ![3, 1, 10]], ?_⟩
  obtain ⟨f, hf⟩ := Pca.init_default_exists svd (by norm_num : 3 ≤ 4)
    ![![0, 0, 5], ![1, 0, 6], ![0, 1, 7], ![3, 1, 10]]
  have hc : ¬ Spec.CollinearInPlan
      (![![0, 0, 5], ![1, 0, 6], ![0, 1, 7], ![3, 1, 10]] : Fin 4 → Vec 3) := by
    rintro ⟨p, q, t, hpq, h⟩
    have h0 := h 0
    have h1 := h 1
    have h2 := h 2
    simp at h0 h1 h2
    rcases hpq with k | k
    · exact k (by linarith)
    · exact k (by linarith)
  obtain ⟨o, ho⟩ := linearOrientation_exists (by norm_num) hc
  refine ⟨o, f, hf, ho, ?_⟩
  intro i
  fin_cases i <;> simp <;> norm_num

/-! ## C35 -/

/-- Variance of the combination `u · v` of a vector `v` with covariance `m`. -/
def Spec.variance (m : Mat 3 3) (u : Vec 3) : ℝ := u ⬝ᵥ (m *ᵥ u)

/-- The reported variance of each rotated coefficient is the variance of the
coefficient rotated *the other way*. -/
theorem C35_inverse_rotation_false (o : LinearOrientation) (j : Fin 3) :
    rotatedCovariance o j j = Spec.variance o.covarianceMatrix (rotation (-o.azimuth) j) := by
  simp only [rotatedCovariance, Spec.variance]
  fin_cases j <;>
  · simp [rotation, Matrix.mul_apply, Matrix.mulVec, dotProduct, Fin.sum_univ_three,
      Real.cos_neg, Real.sin_neg]
    try ring

/-- The reported variance along dip is the variance of the rotated coefficient
exactly when the off-diagonal covariance or `sin(2 azimuth)` vanishes. -/
theorem C35_correct_iff_partial (o : LinearOrientation)
    (hsym : o.covarianceMatrix.transpose = o.covarianceMatrix) :
    (rotatedCovariance o 0 0 = Spec.variance o.covarianceMatrix (rotation o.azimuth 0) ↔
      Real.sin o.azimuth * Real.cos o.azimuth * o.covarianceMatrix 0 1 = 0) ∧
    rotatedCovariance o 2 2 = Spec.variance o.covarianceMatrix (rotation o.azimuth 2) ∧
    rotatedCovariance o 0 0 + rotatedCovariance o 1 1
      = Spec.variance o.covarianceMatrix (rotation o.azimuth 0)
        + Spec.variance o.covarianceMatrix (rotation o.azimuth 1) := by
  have h01 : o.covarianceMatrix 1 0 = o.covarianceMatrix 0 1 := congrFun (congrFun hsym 0) 1
  have pyth := Real.sin_sq_add_cos_sq o.azimuth
  refine ⟨?_, ?_, ?_⟩
  · simp [rotatedCovariance, Spec.variance, rotation, Matrix.mul_apply, Matrix.mulVec, dotProduct,
      Fin.sum_univ_three, h01]
    constructor
    · intro h
      have : Real.sin o.azimuth * Real.cos o.azimuth * o.covarianceMatrix 0 1 = 0 := by linarith
      simpa [or_assoc] using this
    · intro h
      have : Real.sin o.azimuth * Real.cos o.azimuth * o.covarianceMatrix 0 1 = 0 := by
        simpa [or_assoc] using h
      linear_combination 4 * this
  · simp [rotatedCovariance, Spec.variance, rotation, Matrix.mul_apply, Matrix.mulVec, dotProduct,
      Fin.sum_univ_three]
  · simp [rotatedCovariance, Spec.variance, rotation, Matrix.mul_apply, Matrix.mulVec, dotProduct,
      Fin.sum_univ_three, h01]
    ring

/-- Four points for which the reported error along dip is `√(9/8)` although the
standard error of that coefficient is `1/2`. -/
theorem C35_witness_false : ∃ o, linearOrientation fourPoints = .ok o ∧
    orientationErrors o 0 = Real.sqrt (9 / 8) ∧
    Real.sqrt (Spec.variance o.covarianceMatrix (rotation o.azimuth 0)) = 1 / 2 := by
  obtain ⟨o, ho⟩ := linearOrientation_exists (by norm_num) fourPoints_not_collinear
  refine ⟨o, ho, ?_⟩
  obtain ⟨r, c, hr, hc, hm, haz, _, _⟩ := linearOrientation_ok ho
  obtain ⟨r', c', _, hr', hc', hcv, _⟩ := C32_witness_false
  rw [hr] at hr'
  cases hr'
  rw [hc] at hc'
  cases hc'
  obtain ⟨m, e, hm', he, _, hmg, hsym, _⟩ := C36_covariance fourPoints r hr fourPoints_not_collinear
  rw [hm] at hm'
  cases hm'
  obtain ⟨e', he', hres, _⟩ := C31_residuals fourPoints r hr c hc
  rw [he] at he'
  cases he'
  have hsse : ∑ i, e i ^ 2 = 18 := by
    simp only [hres, hcv, Fin.sum_univ_four, Spec.intercept, meanRows, fourPoints]
    simp
    norm_num
  obtain ⟨hrr, _⟩ := coefficients_rows hr hc
  have hG : r.C.transpose * r.C = !![44, 28, 0; 28, 44, 0; 0, 0, 4] := by
    rw [hrr]
    ext i j
    fin_cases i <;> fin_cases j <;>
    · simp [ofCentered, addOnes, Matrix.mul_apply, Fin.sum_univ_four, Coordinates.centered,
        meanRows, fourPoints]
      try norm_num
  have hmg' := hmg (by norm_num)
  rw [hG, hsse] at hmg'
  have q00 := congrFun (congrFun hmg' 0) 0
  have q01 := congrFun (congrFun hmg' 0) 1
  have q10 := congrFun (congrFun hmg' 1) 0
  have q11 := congrFun (congrFun hmg' 1) 1
  simp [Matrix.mul_apply, Fin.sum_univ_three] at q00 q01 q10 q11
  have hcos := sqrt_mul_cos_arctan2 (-c 1) (-c 0)
  have hsin := sqrt_mul_sin_arctan2 (-c 1) (-c 0)
  rw [hcv] at hcos hsin haz
  simp at hcos hsin haz
  set t := arctan2 (-1) (-1)
  have h2 : Real.sqrt (1 + 1) ^ 2 = 2 := by rw [Real.sq_sqrt (by norm_num)]; norm_num
  have hcc : Real.cos t * Real.cos t = 1 / 2 := by
    have : (Real.sqrt (1 + 1) * Real.cos t) ^ 2 = 1 := by rw [hcos]; norm_num
    rw [mul_pow, h2] at this
    linarith
  have hss : Real.sin t * Real.sin t = 1 / 2 := by
    have : (Real.sqrt (1 + 1) * Real.sin t) ^ 2 = 1 := by rw [hsin]; norm_num
    rw [mul_pow, h2] at this
    linarith
  have hcs : Real.cos t * Real.sin t = 1 / 2 := by
    have : (Real.sqrt (1 + 1) * Real.cos t) * (Real.sqrt (1 + 1) * Real.sin t) = 1 := by
      rw [hcos, hsin]; norm_num
    have e : Real.sqrt (1 + 1) ^ 2 * (Real.cos t * Real.sin t) = 1 := by
      linear_combination this
    rw [h2] at e
    linarith
  constructor
  · unfold orientationErrors
    congr 1
    simp [rotatedCovariance, rotation, Matrix.mul_apply, Fin.sum_univ_three, haz]
    nlinarith [q00, q01, q10, q11]
  · have : Spec.variance o.covarianceMatrix (rotation o.azimuth 0) = (1 / 2) ^ 2 := by
      simp [Spec.variance, rotation, Matrix.mulVec, dotProduct, Fin.sum_univ_three, haz]
      nlinarith [q00, q01, q10, q11]
    rw [this, Real.sqrt_sq (by norm_num)]

/-- Non-vacuity of `C35_correct_iff_partial`: the covariance of a fit is symmetric. -/
example : ∃ o, linearOrientation fourPoints = .ok o ∧
    o.covarianceMatrix.transpose = o.covarianceMatrix := by
  obtain ⟨o, ho⟩ := fourPoints_fits
  obtain ⟨r, c, hr, hc, hm, _⟩ := linearOrientation_ok ho
  obtain ⟨m, e, hm', _, _, _, hsym, _⟩ := C36_covariance fourPoints r hr fourPoints_not_collinear
  rw [hm] at hm'
  cases hm'
  exact ⟨o, ho, hsym⟩

end Attitude.Props
