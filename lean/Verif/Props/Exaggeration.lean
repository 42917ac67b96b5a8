import Verif.Props.WeightLimit
import Verif.Props.Attenuation
import Verif.Props.PcaExact

/-!
# C270: other coordinates, and vertical exaggeration
-/

namespace Attitude.Props

open Attitude Pca Matrix

/-! ## Specification -/

/-- The points in other coordinates: the positions in map view are changed by the matrix
`[[g, h], [g', h']]` and a shift, the heights are multiplied with `k` and a plane is added. -/
def Spec.resurveyed {n : ℕ} (g h g' h' x₀ y₀ k p q t : ℝ) (a : Fin n → Vec 3) : Fin n → Vec 3 :=
  fun i => ![g * a i 0 + h * a i 1 + x₀, g' * a i 0 + h' * a i 1 + y₀,
    k * a i 2 + p * a i 0 + q * a i 1 + t]

/-- What a regression reports: coefficients, residuals and covariances. -/
def Spec.Regressed {n : ℕ} (a : Fin n → Vec 3) (c : Vec 3) (e : Fin n → ℝ) (M : Mat 3 3) : Prop :=
  ∃ r, Linear.initRows a = .ok r ∧ (Linear.coefficients r).1 = .ok c ∧ (Linear.residuals r).1 = .ok e ∧
    (Linear.covarianceMatrix r).1 = .ok M

/-- The change of the coefficients of a plane that belongs to the change of positions. -/
def Spec.pullBack (g h g' h' : ℝ) : Mat 3 3 := !![g, g', 0; h, h', 0; 0, 0, 1]

/-! ## Helper lemmas -/

lemma exists_regressed {n : ℕ} (hn : n ≠ 0) {a : Fin n → Vec 3} (h : ¬ Spec.CollinearInPlan a) :
    ∃ c e M, Spec.Regressed a c e M := by
  have hr : Linear.initRows a = .ok (Linear.ofCentered (Coordinates.centered a)) := by
    simp [Linear.initRows, hn]
  obtain ⟨c, hc⟩ := (C31_singular_iff a _ hr).2.2 h
  obtain ⟨M, e, hM, he, -⟩ := C36_covariance a _ hr h
  exact ⟨c, e, M, _, hr, hc, he, hM⟩

lemma resurveyed_mean {n : ℕ} (hn : n ≠ 0) (g h g' h' x₀ y₀ k p q t : ℝ) (a : Fin n → Vec 3) (i : Fin n) :
    Coordinates.centered (Spec.resurveyed g h g' h' x₀ y₀ k p q t a) i 0
      = g * Coordinates.centered a i 0 + h * Coordinates.centered a i 1 ∧
    Coordinates.centered (Spec.resurveyed g h g' h' x₀ y₀ k p q t a) i 1
      = g' * Coordinates.centered a i 0 + h' * Coordinates.centered a i 1 ∧
    Coordinates.centered (Spec.resurveyed g h g' h' x₀ y₀ k p q t a) i 2
      = k * Coordinates.centered a i 2 + p * Coordinates.centered a i 0 + q * Coordinates.centered a i 1 := by
  have hn' : (n : ℝ) ≠ 0 := by exact_mod_cast hn
  refine ⟨?_, ?_, ?_⟩ <;>
  · simp only [Coordinates.centered, meanRows, Spec.resurveyed, Matrix.cons_val, Matrix.cons_val_zero,
      Matrix.cons_val_one, Finset.sum_add_distrib, ← Finset.mul_sum, Finset.sum_const, Finset.card_univ,
      Fintype.card_fin, nsmul_eq_mul]
    field_simp
    ring

lemma resurveyed_not_collinear {n : ℕ} {g h g' h' x₀ y₀ k p q t : ℝ} (hG : g * h' - h * g' ≠ 0)
    {a : Fin n → Vec 3} (hcol : ¬ Spec.CollinearInPlan a) :
    ¬ Spec.CollinearInPlan (Spec.resurveyed g h g' h' x₀ y₀ k p q t a) := by
  rintro ⟨P, Q, T, hPQ, H⟩
  refine hcol ⟨P * g + Q * g', P * h + Q * h', T - P * x₀ - Q * y₀, ?_, fun i => ?_⟩
  · by_contra hc
    push Not at hc
    obtain ⟨h1, h2⟩ := hc
    have e1 : P * (g * h' - h * g') = 0 := by linear_combination h' * h1 - g' * h2
    have e2 : Q * (g * h' - h * g') = 0 := by linear_combination g * h2 - h * h1
    rcases hPQ with hP | hQ
    · exact hP ((mul_eq_zero.1 e1).resolve_right hG)
    · exact hQ ((mul_eq_zero.1 e2).resolve_right hG)
  · have := H i
    simp only [Spec.resurveyed, Matrix.cons_val_zero, Matrix.cons_val_one] at this
    linear_combination this

lemma residuals_rows {n : ℕ} {a : Fin n → Vec 3} {r : Linear.Regression n} {c : Vec 3} {e : Fin n → ℝ}
    (hr : Linear.initRows a = .ok r) (hc : (Linear.coefficients r).1 = .ok c)
    (he : (Linear.residuals r).1 = .ok e) (i : Fin n) : e i = Coordinates.centered a i 2
      - (c 0 * Coordinates.centered a i 0 + c 1 * Coordinates.centered a i 1) := by
  obtain ⟨u, hu, hu1, -⟩ := C31_residuals a r hr c hc
  obtain rfl : u = e := by rw [hu] at he; exact Except.ok.inj he
  rw [hu1]
  simp only [Coordinates.centered, Spec.intercept]
  ring

/-! ## Properties -/

/-- A regression in other coordinates finds the same plane, as far as the change of heights allows:
the residuals are multiplied with the factor of the heights, and the coefficients and covariances
are those of the plane in the new coordinates. -/
theorem C270_regression {n : ℕ} (a : Fin n → Vec 3) (c : Vec 3) (e : Fin n → ℝ) (M : Mat 3 3)
    (ha : Spec.Regressed a c e M) (g h g' h' x₀ y₀ k p q t : ℝ) (hG : g * h' - h * g' ≠ 0) :
    ∃ c' M', Spec.Regressed (Spec.resurveyed g h g' h' x₀ y₀ k p q t a) c' (fun i => k * e i) M' ∧
      g * c' 0 + g' * c' 1 = k * c 0 + p ∧ h * c' 0 + h' * c' 1 = k * c 1 + q ∧ c 2 = 0 ∧ c' 2 = 0 ∧
      Spec.pullBack g h g' h' * M' * (Spec.pullBack g h g' h')ᵀ = k ^ 2 • M := by
  obtain ⟨r, hr, hc, he, hM⟩ := ha
  have hcol := (C31_singular_iff a r hr).2.1 ⟨c, hc⟩
  obtain ⟨hrr, h0, hd, hcc⟩ := coefficients_rows hr hc
  obtain ⟨c', e', M', r', hr', hc', he', hM'⟩ := exists_regressed h0
    (resurveyed_not_collinear (x₀ := x₀) (y₀ := y₀) (k := k) (p := p) (q := q) (t := t) hG hcol)
  obtain ⟨hrr', -, hd', hcc'⟩ := coefficients_rows hr' hc'
  have c2 := intercept_zero hr hc
  have c2' := intercept_zero hr' hc'
  set T := Spec.pullBack g h g' h' with hT
  have hTd : T.det ≠ 0 := by
    rw [hT, Spec.pullBack, Matrix.det_fin_three]
    simp only [Matrix.of_apply, Matrix.cons_val', Matrix.cons_val_zero, Matrix.cons_val_one, Matrix.cons_val]
    intro e
    exact hG (by linarith)
  have hTu := isUnit_iff_ne_zero.2 hTd
  have hTu' : IsUnit Tᵀ.det := by rw [Matrix.det_transpose]; exact hTu
  have hCC : r'.C = r.C * T := by
    ext i j
    obtain ⟨m0, m1, -⟩ := resurveyed_mean h0 g h g' h' x₀ y₀ k p q t a i
    rw [hrr', hrr, Matrix.mul_apply, Fin.sum_univ_three]
    fin_cases j <;>
      simp [Linear.ofCentered, Linear.addOnes, hT, Spec.pullBack, m0, m1] <;> ring
  have hZZ : r'.Z = k • r.Z + r.C *ᵥ ![p, q, 0] := by
    funext i
    obtain ⟨-, -, m2⟩ := resurveyed_mean h0 g h g' h' x₀ y₀ k p q t a i
    rw [hrr', hrr, Pi.add_apply, ofCentered_mulVec]
    simp only [Linear.ofCentered, Pi.smul_apply, smul_eq_mul, m2, Matrix.cons_val_zero, Matrix.cons_val_one,
      Matrix.cons_val]
    ring
  have hN : Linear.matrixSquared r'.C = Tᵀ * Linear.matrixSquared r.C * T := by
    simp only [Linear.matrixSquared, hCC, Matrix.transpose_mul, Matrix.mul_assoc]
  have hu := isUnit_iff_ne_zero.2 hd
  have hu' := isUnit_iff_ne_zero.2 hd'
  have n1 : Linear.matrixSquared r.C *ᵥ c = r.Cᵀ *ᵥ r.Z := by
    rw [hcc, Matrix.mulVec_mulVec, Matrix.mul_nonsing_inv _ hu, Matrix.one_mulVec]
  have n2 : Linear.matrixSquared r'.C *ᵥ c' = r'.Cᵀ *ᵥ r'.Z := by
    rw [hcc', Matrix.mulVec_mulVec, Matrix.mul_nonsing_inv _ hu', Matrix.one_mulVec]
  have n3 : T *ᵥ c' = k • c + ![p, q, 0] := by
    have e1 : Tᵀ *ᵥ (Linear.matrixSquared r.C *ᵥ (T *ᵥ c'))
        = Tᵀ *ᵥ (Linear.matrixSquared r.C *ᵥ (k • c + ![p, q, 0])) := by
      rw [Matrix.mulVec_mulVec, Matrix.mulVec_mulVec, ← hN, n2, hCC, hZZ,
        Matrix.transpose_mul, ← Matrix.mulVec_mulVec]
      congr 1
      rw [Matrix.mulVec_add, Matrix.mulVec_smul, Matrix.mulVec_add, Matrix.mulVec_smul, n1, Matrix.mulVec_mulVec]
      rfl
    have e2 := congrArg (fun w => (Tᵀ)⁻¹ *ᵥ w) e1
    simp only [Matrix.mulVec_mulVec, ← Matrix.mul_assoc, Matrix.nonsing_inv_mul _ hTu', Matrix.one_mul] at e2
    rw [← Matrix.mulVec_mulVec] at e2
    have e3 := congrArg (fun w => (Linear.matrixSquared r.C)⁻¹ *ᵥ w) e2
    simpa [Matrix.mulVec_mulVec, Matrix.nonsing_inv_mul _ hu, ← Matrix.mul_assoc] using e3
  have q0 : g * c' 0 + g' * c' 1 = k * c 0 + p := by
    have := congrFun n3 0
    simpa [hT, Spec.pullBack, Matrix.mulVec, dotProduct, Fin.sum_univ_three] using this
  have q1 : h * c' 0 + h' * c' 1 = k * c 1 + q := by
    have := congrFun n3 1
    simpa [hT, Spec.pullBack, Matrix.mulVec, dotProduct, Fin.sum_univ_three] using this
  have hee : e' = fun i => k * e i := by
    funext i
    obtain ⟨m0, m1, m2⟩ := resurveyed_mean h0 g h g' h' x₀ y₀ k p q t a i
    rw [residuals_rows hr' hc' he' i, residuals_rows hr hc he i, m0, m1, m2]
    linear_combination (-Coordinates.centered a i 0) * q0 - Coordinates.centered a i 1 * q1
  rw [hee] at he'
  refine ⟨c', M', ⟨r', hr', hc', he', hM'⟩, q0, q1, c2, c2', ?_⟩
  obtain ⟨N, u, hN1, hu1, hN3, hN4, -⟩ := C36_covariance a r hr hcol
  obtain ⟨N', u', hN1', hu1', hN3', hN4', -⟩ := C36_covariance _ r' hr'
    (resurveyed_not_collinear (x₀ := x₀) (y₀ := y₀) (k := k) (p := p) (q := q) (t := t) hG hcol)
  obtain rfl : N = M := by rw [hN1] at hM; exact Except.ok.inj hM
  obtain rfl : N' = M' := by rw [hN1'] at hM'; exact Except.ok.inj hM'
  obtain rfl : u = e := by rw [hu1] at he; exact Except.ok.inj he
  obtain rfl : u' = fun i => k * u i := by rw [hu1'] at he'; exact Except.ok.inj he'
  by_cases h3 : n = 3
  · rw [hN3 h3, hN3' h3]
    simp
  · have f1 : N * Linear.matrixSquared r.C = _ := hN4 h3
    have f2 : N' * Linear.matrixSquared r'.C = _ := hN4' h3
    have hsse : ∑ i, (k * u i) ^ 2 = k ^ 2 * ∑ i, u i ^ 2 := by
      rw [Finset.mul_sum]
      exact Finset.sum_congr rfl fun i _ => by ring
    rw [hN, hsse, mul_smul] at f2
    have f3 : (T * N' * Tᵀ) * Linear.matrixSquared r.C = (k ^ 2 • N) * Linear.matrixSquared r.C := by
      have := congrArg (fun w => T * w * T⁻¹) f2
      simp only [Matrix.mul_assoc, Matrix.mul_nonsing_inv _ hTu, Matrix.mul_one] at this
      rw [Matrix.smul_mul, f1, Matrix.mul_assoc, Matrix.mul_assoc, this]
      simp [Matrix.mul_nonsing_inv _ hTu]
    have f4 := congrArg (fun w => w * (Linear.matrixSquared r.C)⁻¹) f3
    simpa [Matrix.mul_assoc, Matrix.mul_nonsing_inv _ hu] using f4

example : ∃ c e M, Spec.Regressed Spec.saddle c e M ∧ (2 : ℝ) * 5 - 3 * 1 ≠ 0 := by
  obtain ⟨c, r, hr, hc⟩ := saddle_coefficients
  obtain ⟨c, e, M, h⟩ := exists_regressed (by norm_num) ((C31_singular_iff _ r hr).2.1 ⟨c, hc⟩)
  exact ⟨c, e, M, h, by norm_num⟩

/-- In particular heights in another unit, or seen from a tilted datum, multiply the standard errors
with the factor only. -/
theorem C270_heights {n : ℕ} (a : Fin n → Vec 3) (c s : Vec 3) (hc : Spec.Coefficients a c)
    (hs : Spec.StandardErrors a s) (k p q t : ℝ) :
    Spec.Coefficients (Spec.resurveyed 1 0 0 1 0 0 k p q t a) ![k * c 0 + p, k * c 1 + q, 0] ∧
    Spec.StandardErrors (Spec.resurveyed 1 0 0 1 0 0 k p q t a) (fun j => |k| * s j) := by
  obtain ⟨r, hr, hc⟩ := hc
  obtain ⟨r₁, hr₁, hs⟩ := hs
  obtain rfl : r = r₁ := by rw [hr] at hr₁; exact Except.ok.inj hr₁
  obtain ⟨-, h0, -, -⟩ := coefficients_rows hr hc
  obtain ⟨M, e, hM, he, -, -, -, hpos⟩ := C36_covariance a r hr ((C31_singular_iff a r hr).2.1 ⟨c, hc⟩)
  obtain ⟨c', M', ⟨r', hr', hc', he', hM'⟩, e0, e1, -, e2, e3⟩ := C270_regression a c e M ⟨r, hr, hc, he, hM⟩
    1 0 0 1 0 0 k p q t (by norm_num)
  have hval : ∀ {l : ℕ} (ρ : Linear.Regression l) (N : Mat 3 3), (Linear.covarianceMatrix ρ).1 = .ok N →
      (Linear.standardErrors ρ).1 = .ok fun j => Real.sqrt (N j j) := by
    intro l ρ N h
    unfold Linear.standardErrors
    rcases hc : Linear.covarianceMatrix ρ with ⟨v, ρ'⟩
    rw [hc] at h
    obtain rfl : v = .ok N := h
    rfl
  have hT : Spec.pullBack 1 0 0 1 = 1 := by
    ext i j
    fin_cases i <;> fin_cases j <;> simp [Spec.pullBack]
  rw [hT] at e3
  simp only [Matrix.one_mul, Matrix.transpose_one, Matrix.mul_one] at e3
  refine ⟨⟨r', hr', ?_⟩, r', hr', ?_⟩
  · rw [hc']
    congr 1
    funext j
    fin_cases j
    · simpa using e0
    · simpa using e1
    · simpa using e2
  · rw [hval r' M' hM', e3]
    have : s = fun j => Real.sqrt (M j j) := by rw [hval r M hM] at hs; exact (Except.ok.inj hs).symm
    rw [this]
    congr 1
    funext j
    rw [Matrix.smul_apply, smul_eq_mul, Real.sqrt_mul (sq_nonneg k), Real.sqrt_sq_eq_abs]

example : ∃ c s, Spec.Coefficients fourPoints c ∧ Spec.StandardErrors fourPoints s :=
  exists_regression (by norm_num) fourPoints_not_collinear

/-- A linear orientation of points with exaggerated heights has the same strike, and the tangent of its
dip is multiplied with the exaggeration. -/
theorem C270_linear {n : ℕ} (a : Fin n → Vec 3) (k : ℝ) (hk : 0 < k) (o : Linear.LinearOrientation)
    (ho : Linear.linearOrientation a = .ok o) :
    ∃ o', Linear.linearOrientation (Spec.exaggerated k a) = .ok o' ∧
      (Linear.strikeDip o').1 = (Linear.strikeDip o).1 ∧
      Real.tan (radians (Linear.strikeDip o').2) = k * Real.tan (radians (Linear.strikeDip o).2) := by
  obtain ⟨r, c, hr, hc, hM, haz, hco, hsl⟩ := linearOrientation_ok ho
  obtain ⟨-, h0, -, -⟩ := coefficients_rows hr hc
  obtain ⟨e, he, -⟩ := C31_residuals a r hr c hc
  obtain ⟨c', M', ⟨r', hr', hc', he', hM'⟩, e0, e1, e2, e2', -⟩ := C270_regression a c e _ ⟨r, hr, hc, he, hM⟩
    1 0 0 1 0 0 k 0 0 0 (by norm_num)
  have hx : Spec.resurveyed 1 0 0 1 0 0 k 0 0 0 a = Spec.exaggerated k a := by
    funext i
    simp [Spec.resurveyed, Spec.exaggerated]
  rw [hx] at hr'
  obtain ⟨o', ho'⟩ := linearOrientation_exists h0 ((C31_singular_iff _ r' hr').2.1 ⟨c', hc'⟩)
  obtain ⟨r₁, c₁, hr₁, hc₁, -, haz', hco', hsl'⟩ := linearOrientation_ok ho'
  obtain rfl : r' = r₁ := by rw [hr'] at hr₁; exact Except.ok.inj hr₁
  obtain rfl : c' = c₁ := by rw [hc'] at hc₁; exact Except.ok.inj hc₁
  have q0 : c' 0 = k * c 0 := by linarith
  have q1 : c' 1 = k * c 1 := by linarith
  obtain ⟨k0, -⟩ := rotated_coefficients c
  obtain ⟨k0', -⟩ := rotated_coefficients c'
  rw [← haz, ← hco] at k0
  rw [← haz', ← hco'] at k0'
  refine ⟨o', ho', ?_, ?_⟩
  · simp only [Linear.strikeDip]
    rw [haz', haz, q0, q1, ← mul_neg, ← mul_neg, arctan2_smul hk]
  · simp only [Linear.strikeDip, radians_degrees]
    rw [hsl', hsl, Real.tan_arctan, Real.tan_arctan, k0, k0', neg_neg, neg_neg, Spec.gradient, Spec.gradient,
      q0, q1, show (k * c 0) ^ 2 + (k * c 1) ^ 2 = k ^ 2 * (c 0 ^ 2 + c 1 ^ 2) by ring,
      Real.sqrt_mul (sq_nonneg k), Real.sqrt_sq hk.le]

lemma saddle_orientation : ∃ o, Linear.linearOrientation Spec.saddle = .ok o := by
  obtain ⟨c, r, hr, hc⟩ := saddle_coefficients
  exact linearOrientation_exists (by norm_num) ((C31_singular_iff _ r hr).2.1 ⟨c, hc⟩)

example : ∃ o, Linear.linearOrientation Spec.saddle = .ok o := saddle_orientation

lemma inUnits_exaggerated {n : ℕ} (a : Fin n → Vec 3) (k : ℝ) :
    Spec.inUnits ![1, 1, k] a = Spec.exaggerated k⁻¹ a := by
  funext i j
  fin_cases j <;> simp [Spec.inUnits, Spec.exaggerated, div_eq_inv_mul]

lemma steepness_triangle (b0 b1 c0 c1 : ℝ) :
    Spec.steepness b0 b1 ≤ Spec.steepness c0 c1 + Spec.steepness (b0 - c0) (b1 - c1) := by
  set E := Spec.steepness c0 c1 with hE
  set D := Spec.steepness (b0 - c0) (b1 - c1) with hD
  have D2 : D ^ 2 = (b0 - c0) ^ 2 + (b1 - c1) ^ 2 := Real.sq_sqrt (by positivity)
  have E2 : E ^ 2 = c0 ^ 2 + c1 ^ 2 := Real.sq_sqrt (by positivity)
  have D0 : 0 ≤ D := Real.sqrt_nonneg _
  have E0 : 0 ≤ E := Real.sqrt_nonneg _
  have cs : c0 * (b0 - c0) + c1 * (b1 - c1) ≤ E * D := by
    apply le_of_sq_le_sq _ (by positivity)
    rw [mul_pow, D2, E2]
    nlinarith [sq_nonneg (c0 * (b1 - c1) - c1 * (b0 - c0))]
  unfold Spec.steepness
  rw [Real.sqrt_le_left (by positivity)]
  nlinarith

/-- Fits of principal components do not follow: for points that are not in a plane and do not give a horizontal
or vertical plane, all sufficiently large reductions of heights reduce the slope by more than their factor. -/
theorem C270_pca_false {n : ℕ} (a : Fin n → Vec 3) (o : Linear.LinearOrientation)
    (ho : Linear.linearOrientation a = .ok o) (svd : SvdFn) (hs : svd.Valid) (f : Fit n)
    (hf : init svd a none none = .ok (some f)) (s d : ℝ) (hsd : strikeDip f = some (s, d)) (hd0 : d ≠ 0)
    (hd1 : d < 90) (hnot : ¬ ∃ m e, norm m = 1 ∧ ∀ i, Spec.OnPlane m e (a i)) :
    ∃ K, 0 < K ∧ ∀ k, 0 < k → k ≤ K → ∃ g s' d', init svd (Spec.exaggerated k a) none none = .ok (some g) ∧
      strikeDip g = some (s', d') ∧ 0 ≤ d' ∧ d' < 90 ∧ Real.tan (radians d') < k * Real.tan (radians d) := by
  obtain ⟨r, c, hr, hc, -, haz, hco, hsl⟩ := linearOrientation_ok ho
  obtain ⟨U, hF⟩ := init_default hs hf
  have hn := hF.size
  obtain ⟨s₁, d₁, h1, h2, h3, -⟩ := C198_dip_at_most svd hs a f hf o ho
  obtain ⟨rfl, rfl⟩ : s₁ = s ∧ d₁ = d := by
    rw [hsd] at h1
    simpa [eq_comm] using h1
  have hlt : (Linear.strikeDip o).2 < d₁ := lt_of_le_of_ne h2 fun e => by
    rcases h3.1 e with h | h
    · exact hnot h
    · exact hd0 h
  obtain ⟨_, _, _, _, l0, l1⟩ := C34_right_hand_rule a o ho
  have hπ := Real.pi_pos
  have ht : Real.tan (radians (Linear.strikeDip o).2) < Real.tan (radians d₁) := by
    apply Real.tan_lt_tan_of_nonneg_of_lt_pi_div_two
    · unfold radians; positivity
    · unfold radians; nlinarith
    · unfold radians; nlinarith
  have hE : Real.tan (radians (Linear.strikeDip o).2) = Spec.steepness (c 0) (c 1) := by
    obtain ⟨k0, -⟩ := rotated_coefficients c
    rw [← haz, ← hco] at k0
    simp only [Linear.strikeDip, radians_degrees]
    rw [hsl, Real.tan_arctan, k0, neg_neg]
    rfl
  rw [hE] at ht
  obtain ⟨K, hK, hlim⟩ := C269_limit a c ⟨r, hr, hc⟩ _ (sub_pos.2 ht)
  refine ⟨K⁻¹, inv_pos.2 hK, fun k hk hkK => ?_⟩
  have hk' : K ≤ k⁻¹ := by rw [le_inv_comm₀ hK hk]; exact hkK
  have hki := inv_pos.2 hk
  obtain ⟨f', g, hf', hg, -, -, hfg, -⟩ := C239_scaled svd hn a ![1, 1, k⁻¹]
    (by intro j; fin_cases j <;> simp [hk.ne'])
  obtain ⟨hN, hclose⟩ := hlim k⁻¹ hk' svd hs f' hf'
  obtain ⟨s', d', hsd', d0, d1, htan⟩ := C269_reported_partial svd hs a k⁻¹ hki f' hf' hN.ne'
  rw [inUnits_exaggerated, inv_inv] at hg
  refine ⟨g, s', d', hg, hfg ▸ hsd', d0, d1, ?_⟩
  have htri := steepness_triangle (Spec.weightedSlopes ![1, 1, k⁻¹] f' 0) (Spec.weightedSlopes ![1, 1, k⁻¹] f' 1)
    (c 0) (c 1)
  have : k⁻¹ * Real.tan (radians d') < Real.tan (radians d₁) := by rw [htan]; linarith
  rwa [inv_mul_lt_iff₀ hk] at this

/-- Four points as required. -/
example : ∃ (o : Linear.LinearOrientation) (svd : SvdFn) (f : Fit 4) (s d : ℝ),
    Linear.linearOrientation Spec.saddle = .ok o ∧ svd.Valid ∧ init svd Spec.saddle none none = .ok (some f) ∧
    strikeDip f = some (s, d) ∧ d ≠ 0 ∧ d < 90 ∧
    ¬ ∃ m e, norm m = 1 ∧ ∀ i, Spec.OnPlane m e (Spec.saddle i) := by
  obtain ⟨o, ho⟩ := saddle_orientation
  obtain ⟨svd, hs⟩ := exists_valid_svd
  obtain ⟨c, hc⟩ := saddle_coefficients
  obtain ⟨f', g, hf', hg, -, -, hfg, -⟩ := C239_scaled svd (by norm_num) Spec.saddle ![1, 1, 1]
    (by intro j; fin_cases j <;> simp)
  have hleft : Spec.leftOver Spec.saddle c < 1 ^ 2 * 4 := by
    obtain ⟨r, hr, hc⟩ := hc
    refine lt_of_le_of_lt ((C31_least_squares Spec.saddle r hr c hc).2.1 1 1 (1 / 2)) ?_
    simp [Spec.verticalSquares, Spec.saddle, Fin.sum_univ_four]
    norm_num
  have hN := (C269_close svd hs _ c hc 4 saddle_extent 1 one_pos hleft f' hf').1
  have hst := C269_least svd hs _ c hc 1 one_pos f' hf' hN.ne'
  obtain ⟨s, d, hsd, d0, d1, ht⟩ := C269_reported_partial svd hs _ 1 one_pos f' hf' hN.ne'
  rw [inUnits_exaggerated, inv_one, show Spec.exaggerated 1 Spec.saddle = Spec.saddle by
    funext i j; fin_cases j <;> simp [Spec.exaggerated]] at hg
  refine ⟨o, svd, g, s, d, ho, hs, hg, hfg ▸ hsd, ?_, d1, ?_⟩
  · rintro rfl
    obtain ⟨e0, e1⟩ := regression_moments hc
    simp [Spec.moment, Spec.saddle, Fin.sum_univ_four] at e0 e1
    have h0 : c 0 = 1 := by linarith
    have h1 : c 1 = 1 := by linarith
    rw [← ht, h0, h1] at hst
    simp [radians, Spec.steepness] at hst
    have : (0 : ℝ) < Real.sqrt (1 + 1) := Real.sqrt_pos.2 (by norm_num)
    linarith
  · rintro ⟨m, e, hm, h⟩
    have h0 := h 0
    have h1 := h 1
    have h2 := h 2
    have h3 := h 3
    simp [Spec.OnPlane, Spec.saddle] at h0 h1 h2 h3
    have m2 : m 2 = 0 := by linarith
    have m0 : m 0 = 0 := by linarith
    have m1 : m 1 = 0 := by linarith
    simp [norm, m0, m1, m2, Fin.sum_univ_three] at hm

end Attitude.Props
