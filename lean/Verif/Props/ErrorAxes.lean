import Verif.Model.ErrorAxes
import Verif.Lemmas.Arctan2
import Verif.Lemmas.SvdScale
import Verif.Props.PcaState
import Mathlib.Analysis.SpecialFunctions.Pow.Real

/-!
# C21-C30: hyperbolic axes and angular errors
-/

namespace Attitude.Props

open Attitude ErrorAxes Matrix

/-! ## Specification of the quantiles -/

/-- Facts about `scipy.stats` quantiles that the theorems rely on. -/
structure Spec.QuantilesOK (Q : Quantiles) : Prop where
  f_nonneg : ∀ p k m, 0 ≤ p → p < 1 → 0 < k → 0 < m → 0 ≤ Q.f p k m
  f_mono : ∀ p q k m, 0 ≤ p → p < q → q < 1 → 0 < k → 0 < m → Q.f p k m < Q.f q k m
  chi2_nonneg : ∀ p k, 0 ≤ p → p < 1 → 0 < k → 0 ≤ Q.chi2 p k
  norm_neg : ∀ p, 0 < p → p < 1 / 2 → Q.norm p < 0

/-- The quantile of the F distribution with 2 and `m` degrees of freedom, in
closed form. -/
noncomputable def Spec.fisher2 (p : ℝ) (m : ℕ) : ℝ := m / 2 * ((1 - p) ^ (-(2 / m : ℝ)) - 1)

/-- Quantiles that use the exact closed form of the F distribution with two
numerator degrees of freedom (the default of the code). -/
noncomputable def Spec.quantiles2 : Quantiles where
  f := fun p _ m => Spec.fisher2 p m
  chi2 := fun p _ => -2 * Real.log (1 - p)
  norm := fun p => p - 1 / 2

/-- The assumptions on quantiles can be met. -/
theorem Spec.quantiles2_ok : Spec.QuantilesOK Spec.quantiles2 := by
  have h1 : ∀ p : ℝ, 0 ≤ p → p < 1 → ∀ m : ℕ, 0 < m → 1 ≤ (1 - p) ^ (-(2 / m : ℝ)) := by
    intro p h0 h1 m hm
    apply Real.one_le_rpow_of_pos_of_le_one_of_nonpos (by linarith) (by linarith)
    have : (0 : ℝ) < m := by exact_mod_cast hm
    have : 0 < 2 / (m : ℝ) := by positivity
    linarith
  refine ⟨?_, ?_, ?_, ?_⟩
  · intro p k m h0 hp _ hm
    have := h1 p h0 hp m hm
    have hm' : (0 : ℝ) < m := by exact_mod_cast hm
    show 0 ≤ m / 2 * ((1 - p) ^ (-(2 / m : ℝ)) - 1)
    have : 0 ≤ (1 - p) ^ (-(2 / m : ℝ)) - 1 := by linarith
    positivity
  · intro p q k m h0 hpq hq _ hm
    have hm' : (0 : ℝ) < m := by exact_mod_cast hm
    show m / 2 * ((1 - p) ^ (-(2 / m : ℝ)) - 1) < m / 2 * ((1 - q) ^ (-(2 / m : ℝ)) - 1)
    have : (1 - p) ^ (-(2 / m : ℝ)) < (1 - q) ^ (-(2 / m : ℝ)) := by
      apply Real.rpow_lt_rpow_of_neg (by linarith) (by linarith)
      have : 0 < 2 / (m : ℝ) := by positivity
      linarith
    have h2 : (0 : ℝ) < m / 2 := by positivity
    nlinarith
  · intro p k h0 hp _
    show 0 ≤ -2 * Real.log (1 - p)
    have := Real.log_nonpos (by linarith : 0 ≤ 1 - p) (by linarith)
    linarith
  · intro p _ hp
    show p - 1 / 2 < 0
    linarith

/-! ## Helper facts -/

lemma eigenvalues_nonneg {n : ℕ} {a : Fin n → Vec 3} {f : Pca.Fit n} {U : Mat n 3}
    (h : Pca.IsFit a f U) (j : Fin 3) : 0 ≤ Pca.eigenvalues f j := by
  have hn : (0 : ℝ) < (n : ℝ) - 1 := by
    have := h.size
    have : (3 : ℝ) ≤ n := by exact_mod_cast this
    linarith
  unfold Pca.eigenvalues
  positivity

lemma eigenvalues_anti {n : ℕ} {a : Fin n → Vec 3} {f : Pca.Fit n} {U : Mat n 3}
    (h : Pca.IsFit a f U) : Pca.eigenvalues f 2 ≤ Pca.eigenvalues f 1 ∧
      Pca.eigenvalues f 1 ≤ Pca.eigenvalues f 0 := by
  have hn : (0 : ℝ) < (n : ℝ) - 1 := by
    have := h.size
    have : (3 : ℝ) ≤ n := by exact_mod_cast this
    linarith
  unfold Pca.eigenvalues
  constructor
  · exact div_le_div_of_nonneg_right (pow_le_pow_left₀ h.svd.nonneg h.svd.le12 2) hn.le
  · exact div_le_div_of_nonneg_right (pow_le_pow_left₀ (h.svd.nonneg' 1) h.svd.le01 2) hn.le

/-- Error per unit of the quantile, for both methods: `2 √(λ_j λ_3/(n-2))` for
noise, `λ_j √(2/(n-1))` for sampling. -/
noncomputable def Spec.errorScale (sampling : Bool) (n : ℕ) (ev : Vec 3) : Vec 3 := fun j =>
  if sampling then ev j * Real.sqrt (2 / ((n : ℝ) - 1))
  else 2 * Real.sqrt (ev j * ev 2 / ((n : ℝ) - 2))

/-- The documented closed form. -/
noncomputable def Spec.hyperbolicAxes (sampling : Bool) (n : ℕ) (ev : Vec 3) (z : ℝ) : Vec 3 :=
  ![|ev 0 - z * Spec.errorScale sampling n ev 0|, |ev 1 - z * Spec.errorScale sampling n ev 1|,
    ev 2 + z * Spec.errorScale sampling n ev 2]

lemma errorScale_nonneg (sampling : Bool) (n : ℕ) (ev : Vec 3) (hev : ∀ j, 0 ≤ ev j) (j : Fin 3) :
    0 ≤ Spec.errorScale sampling n ev j := by
  unfold Spec.errorScale
  have := hev j
  split_ifs <;> positivity

lemma sqrt_cov_eq (sampling : Bool) (n : ℕ) (ev : Vec 3) (hev : ∀ j, 0 ≤ ev j)
    (hn : 3 ≤ n) (j : Fin 3) :
    Real.sqrt ((if sampling then samplingCovariance n ev else noiseCovariance n ev) j)
      = Spec.errorScale sampling n ev j := by
  have hn' : (3 : ℝ) ≤ n := by exact_mod_cast hn
  unfold Spec.errorScale
  cases sampling
  · simp only [noiseCovariance, Bool.false_eq_true, if_false]
    rw [show 4 * ev j * (ev 2 / ((n : ℝ) - (2 : ℕ))) = 2 ^ 2 * (ev j * ev 2 / ((n : ℝ) - 2)) by
      push_cast; ring]
    rw [Real.sqrt_mul (by norm_num), Real.sqrt_sq (by norm_num)]
  · simp only [samplingCovariance, if_true]
    rw [mul_comm, Real.sqrt_mul (sq_nonneg _), Real.sqrt_sq (hev j)]

/-- Both statistical methods in terms of the closed form. -/
lemma statisticalAxes_eq (Q : Quantiles) (n : ℕ) (hn : 3 ≤ n) (ev s : Vec 3)
    (hyp : Option (Vec 3)) (hev : ∀ j, 0 ≤ ev j) (sampling : Bool) (cl z : ℝ) (hz0 : 0 ≤ z)
    (dof : Option ℕ) (hz : fisherStatistic Q n cl (dof.getD 2) = some z) :
    statisticalAxes Q ⟨n, some ev, s, hyp⟩
      { method := some (if sampling then "sampling" else "noise"), confidenceLevel := some cl,
        dof := dof }
      = .ok (some (Spec.hyperbolicAxes sampling n ev z)) := by
  have hc : ∀ j, Real.sqrt ((if sampling then samplingCovariance n ev else noiseCovariance n ev) j)
      = Spec.errorScale sampling n ev j := sqrt_cov_eq sampling n ev hev hn
  have hs := errorScale_nonneg sampling n ev hev 2
  have e2 := hev 2
  cases sampling
  · simp only [Bool.false_eq_true, if_false] at hc
    simp [statisticalAxes, hz, applyErrorScaling, hc]
    funext j
    fin_cases j
    · simp [Spec.hyperbolicAxes]
    · simp [Spec.hyperbolicAxes]
    · simp [Spec.hyperbolicAxes]
      rw [show -ev 2 - z * Spec.errorScale false n ev 2
        = -(ev 2 + z * Spec.errorScale false n ev 2) by ring, abs_neg, abs_of_nonneg (by positivity)]
  · simp only [if_true] at hc
    simp [statisticalAxes, hz, applyErrorScaling, hc]
    funext j
    fin_cases j
    · simp [Spec.hyperbolicAxes]
    · simp [Spec.hyperbolicAxes]
    · simp [Spec.hyperbolicAxes]
      rw [show -ev 2 - z * Spec.errorScale true n ev 2
        = -(ev 2 + z * Spec.errorScale true n ev 2) by ring, abs_neg, abs_of_nonneg (by positivity)]

lemma fisher_default (Q : Quantiles) (n : ℕ) (hn : 3 ≤ n) (cl : ℝ) (h0 : 0 ≤ cl) (h1 : cl < 1) :
    fisherStatistic Q n cl = some (Q.f cl 2 (n - 2)) := by
  unfold fisherStatistic
  rw [if_pos ⟨by norm_num, by omega, h0, h1⟩]

/-- The hyperbolic axes of a fit as the user asks for them: a method and a
confidence level. -/
noncomputable def axesAt (Q : Quantiles) {n : ℕ} (f : Pca.Fit n) (sampling : Bool) (cl : ℝ) :
    Res (Vec 3) :=
  if sampling then samplingAxes Q (ofFit Q f) { confidenceLevel := some cl }
  else noiseAxes Q (ofFit Q f) { confidenceLevel := some cl }

/-- The angular errors (radians) at a method and confidence level. -/
noncomputable def errorsAt (Q : Quantiles) {n : ℕ} (f : Pca.Fit n) (sampling : Bool) (cl : ℝ) :
    Option (ℝ × ℝ) :=
  match axesAt Q f sampling cl with
  | .ok (some h) => some (angularErrors h)
  | _ => none

/-! ## C21 -/

/-- Both methods, every fit, every confidence level in `[0, 1)`: the axes have
the documented closed form, none is negative, and the normal axis is not smaller
than its eigenvalue. -/
theorem C21_closed_form (Q : Quantiles) (hQ : Spec.QuantilesOK Q) (svd : Pca.SvdFn)
    (hs : svd.Valid) {n : ℕ} (a : Fin n → Vec 3) (f : Pca.Fit n)
    (hf : Pca.init svd a none none = .ok (some f)) (sampling : Bool) (cl : ℝ) (h0 : 0 ≤ cl)
    (h1 : cl < 1) :
    ∃ h, axesAt Q f sampling cl = .ok (some h) ∧
      h = Spec.hyperbolicAxes sampling n (Pca.eigenvalues f) (Q.f cl 2 (n - 2)) ∧
      (∀ j, 0 ≤ h j) ∧ Pca.eigenvalues f 2 ≤ h 2 := by
  obtain ⟨U, hF⟩ := Pca.init_default hs hf
  have hev := eigenvalues_nonneg hF
  have hz0 : 0 ≤ Q.f cl 2 (n - 2) :=
    hQ.f_nonneg _ _ _ h0 h1 (by norm_num) (by have := hF.size; omega)
  have hz := fisher_default Q n hF.size cl h0 h1
  refine ⟨_, ?_, rfl, ?_, ?_⟩
  · have := statisticalAxes_eq Q n hF.size (Pca.eigenvalues f) f.s (ofFit Q f).hyp hev sampling cl _
      hz0 none hz
    cases sampling
    · exact this
    · exact this
  · intro j
    have hs' := errorScale_nonneg sampling n _ hev 2
    have := hev 2
    fin_cases j
    · exact abs_nonneg _
    · exact abs_nonneg _
    · show 0 ≤ _ + _
      positivity
  · show _ ≤ _ + _
    have := mul_nonneg hz0 (errorScale_nonneg sampling n _ hev 2)
    linarith

example : ∃ (svd : Pca.SvdFn) (f : Pca.Fit 4) (h : Vec 3), svd.Valid ∧
    Pca.init svd Witness.tilted none none = .ok (some f) ∧
    axesAt Spec.quantiles2 f false 0.95 = .ok (some h) := by
  obtain ⟨svd, f, hs, hf, _⟩ := Witness.exists_tilted
  obtain ⟨h, e, _⟩ := C21_closed_form _ Spec.quantiles2_ok svd hs _ f hf false 0.95 (by norm_num)
    (by norm_num)
  exact ⟨svd, f, h, hs, hf, e⟩

/-- With `variance_on_all_axes=False` only the normal axis changes: it uses the
variance of the mean instead of the data variance. -/
theorem C21_variance_of_mean (nominal err : Vec 3) (n : ℕ) (hn : 2 ≤ n) (h2 : 0 ≤ nominal 2)
    (he : 0 ≤ err 2) :
    applyErrorScaling nominal err n false 0 = applyErrorScaling nominal err n true 0 ∧
    applyErrorScaling nominal err n false 1 = applyErrorScaling nominal err n true 1 ∧
    applyErrorScaling nominal err n false 2 = nominal 2 / ((n : ℝ) - 1) + err 2 ∧
    applyErrorScaling nominal err n false 2 ≤ applyErrorScaling nominal err n true 2 := by
  have hn' : (2 : ℝ) ≤ n := by exact_mod_cast hn
  have hd : 0 ≤ nominal 2 / ((n : ℝ) - 1) := by
    apply div_nonneg h2; linarith
  have e1 : applyErrorScaling nominal err n false 2 = nominal 2 / ((n : ℝ) - 1) + err 2 := by
    simp [applyErrorScaling]
    rw [show -(nominal 2 / ((n : ℝ) - 1)) - err 2 = -(nominal 2 / ((n : ℝ) - 1) + err 2) by ring,
      abs_neg, abs_of_nonneg (by positivity)]
  have e2 : applyErrorScaling nominal err n true 2 = nominal 2 + err 2 := by
    simp [applyErrorScaling]
    rw [show -nominal 2 - err 2 = -(nominal 2 + err 2) by ring, abs_neg,
      abs_of_nonneg (by positivity)]
  refine ⟨by simp [applyErrorScaling], by simp [applyErrorScaling], e1, ?_⟩
  rw [e1, e2]
  have : nominal 2 / ((n : ℝ) - 1) ≤ nominal 2 := by
    apply div_le_self h2; linarith
  linarith

/-- Example: quantiles and a fit that meet the hypotheses. -/
example : ∃ Q svd, Spec.QuantilesOK Q ∧ Pca.SvdFn.Valid svd ∧
    ∃ f, Pca.init svd (axisPoints 2 1 1) none none = .ok (some f) := by
  obtain ⟨svd, hs⟩ := Pca.exists_valid_svd
  obtain ⟨f, hf, _⟩ := C19_witness svd hs
  exact ⟨Spec.quantiles2, svd, Spec.quantiles2_ok, hs, f, hf⟩

/-! ## C22 -/

lemma angularErrors_range (h : Vec 3) :
    0 ≤ (angularErrors h).1 ∧ (angularErrors h).1 ≤ Real.pi / 2 ∧
    0 ≤ (angularErrors h).2 ∧ (angularErrors h).2 ≤ Real.pi / 2 :=
  ⟨arctan2_nonneg (Real.sqrt_nonneg _) (Real.sqrt_nonneg _),
   arctan2_le_pi_div_two (Real.sqrt_nonneg _) (Real.sqrt_nonneg _),
   arctan2_nonneg (Real.sqrt_nonneg _) (Real.sqrt_nonneg _),
   arctan2_le_pi_div_two (Real.sqrt_nonneg _) (Real.sqrt_nonneg _)⟩

/-- Every fit reports two angles between 0 and 90 degrees, with both methods;
with the sampling method the first is the smaller one.  With the noise method
this holds while the second in-plane error does not exceed its axis.
Missing from the claim: the order for noise errors in general. -/
theorem C22_angular_errors_partial (Q : Quantiles) (hQ : Spec.QuantilesOK Q) (svd : Pca.SvdFn)
    (hs : svd.Valid) {n : ℕ} (a : Fin n → Vec 3) (f : Pca.Fit n)
    (hf : Pca.init svd a none none = .ok (some f)) (sampling : Bool) (cl : ℝ) (h0 : 0 ≤ cl)
    (h1 : cl < 1) :
    ∃ x y, errorsAt Q f sampling cl = some (x, y) ∧
      0 ≤ degrees x ∧ degrees x ≤ 90 ∧ 0 ≤ degrees y ∧ degrees y ≤ 90 ∧
      ((sampling = true ∨
        Q.f cl 2 (n - 2) * Spec.errorScale false n (Pca.eigenvalues f) 1 ≤ Pca.eigenvalues f 1) →
          x ≤ y) := by
  obtain ⟨U, hF⟩ := Pca.init_default hs hf
  obtain ⟨h, e, hh, hnn, _⟩ := C21_closed_form Q hQ svd hs a f hf sampling cl h0 h1
  refine ⟨(angularErrors h).1, (angularErrors h).2, by simp [errorsAt, e], ?_⟩
  obtain ⟨r1, r2, r3, r4⟩ := angularErrors_range h
  have d0 : degrees 0 = 0 := by unfold degrees; ring
  have d90 : degrees (Real.pi / 2) = 90 := by
    unfold degrees; field_simp; norm_num
  refine ⟨by rw [← d0]; exact degrees_le.2 r1, by rw [← d90]; exact degrees_le.2 r2,
    by rw [← d0]; exact degrees_le.2 r3, by rw [← d90]; exact degrees_le.2 r4, ?_⟩
  have hev := eigenvalues_nonneg hF
  obtain ⟨_, hle⟩ := eigenvalues_anti hF
  have hz0 : 0 ≤ Q.f cl 2 (n - 2) :=
    hQ.f_nonneg _ _ _ h0 h1 (by norm_num) (by have := hF.size; omega)
  set z := Q.f cl 2 (n - 2)
  set ev := Pca.eigenvalues f
  have hn' : (3 : ℝ) ≤ n := by exact_mod_cast hF.size
  -- the first hyperbolic axis is the longer one
  have suff : h 1 ≤ h 0 → (angularErrors h).1 ≤ (angularErrors h).2 := by
    intro hle
    exact arctan2_mono (Real.sqrt_nonneg _) le_rfl (Real.sqrt_nonneg _) (Real.sqrt_le_sqrt hle)
  intro hcase
  apply suff
  rw [hh]
  by_cases hsamp : sampling = true
  · subst hsamp
    show |ev 1 - z * Spec.errorScale true n ev 1| ≤ |ev 0 - z * Spec.errorScale true n ev 0|
    simp only [Spec.errorScale, if_true]
    have r : ∀ j, ev j - z * (ev j * Real.sqrt (2 / ((n : ℝ) - 1)))
        = ev j * (1 - z * Real.sqrt (2 / ((n : ℝ) - 1))) := fun j => by ring
    rw [r, r, abs_mul, abs_mul, abs_of_nonneg (hev 0), abs_of_nonneg (hev 1)]
    exact mul_le_mul_of_nonneg_right hle (abs_nonneg _)
  · have hsf : sampling = false := by simpa using hsamp
    subst hsf
    have hsmall : z * Spec.errorScale false n ev 1 ≤ ev 1 := by
      rcases hcase with k | k
      · simp at k
      · exact k
    show |ev 1 - z * Spec.errorScale false n ev 1| ≤ |ev 0 - z * Spec.errorScale false n ev 0|
    -- write everything with square roots of eigenvalues
    set c := 2 * z * Real.sqrt (ev 2 / ((n : ℝ) - 2)) with hc
    have er : ∀ j, z * Spec.errorScale false n ev j = c * Real.sqrt (ev j) := by
      intro j
      simp only [Spec.errorScale, Bool.false_eq_true, if_false]
      rw [mul_div_assoc, Real.sqrt_mul (hev j), hc]
      ring
    have c0 : 0 ≤ c := by positivity
    have q0 := Real.sq_sqrt (hev 0)
    have q1 := Real.sq_sqrt (hev 1)
    have hx : Real.sqrt (ev 1) ≤ Real.sqrt (ev 0) := Real.sqrt_le_sqrt hle
    have hx1 := Real.sqrt_nonneg (ev 1)
    rw [er] at hsmall
    rw [er, er, abs_of_nonneg (by linarith)]
    rcases hx1.lt_or_eq with k | k
    · have hcx : c ≤ Real.sqrt (ev 1) := by
        by_contra hlt
        push Not at hlt
        nlinarith
      have : c * Real.sqrt (ev 0) ≤ ev 0 := by nlinarith
      rw [abs_of_nonneg (by linarith)]
      nlinarith
    · rw [← k] at q1 ⊢
      have : ev 1 = 0 := by linarith [q1]
      rw [this]
      simp

example : ∃ (svd : Pca.SvdFn) (f : Pca.Fit 4) (x y : ℝ), svd.Valid ∧
    Pca.init svd Witness.tilted none none = .ok (some f) ∧
    errorsAt Spec.quantiles2 f true 0.95 = some (x, y) ∧ x ≤ y := by
  obtain ⟨svd, f, hs, hf, _⟩ := Witness.exists_tilted
  obtain ⟨x, y, e, _, _, _, _, h⟩ := C22_angular_errors_partial _ Spec.quantiles2_ok svd hs _ f hf
    true 0.95 (by norm_num) (by norm_num)
  exact ⟨svd, f, x, y, hs, hf, e, h (.inl rfl)⟩

lemma axisPoints_singular_values {svd : Pca.SvdFn} (hs : svd.Valid) {x y z : ℝ}
    (hz : 0 ≤ z) (hyz : z ≤ y) (hxy : y ≤ x) {f : Pca.Fit 6}
    (hf : Pca.init svd (axisPoints x y z) none none = .ok (some f)) :
    f.s 0 ^ 2 = 2 * x ^ 2 ∧ f.s 1 ^ 2 = 2 * y ^ 2 ∧ f.s 2 ^ 2 = 2 * z ^ 2 := by
  obtain ⟨U, h⟩ := Pca.init_default hs hf
  have hA := h.svd
  rw [axisPoints_centered] at hA
  have x2 : y ^ 2 ≤ x ^ 2 := pow_le_pow_left₀ (hz.trans hyz) hxy 2
  have y2 : z ^ 2 ≤ y ^ 2 := pow_le_pow_left₀ hz hyz 2
  have hrow : ∀ i, f.V i 0 ^ 2 + f.V i 1 ^ 2 + f.V i 2 ^ 2 = 1 := by
    intro i
    have := hA.row_dot i i
    rw [if_pos rfl, vdot3] at this
    linarith
  have e0 : f.s 0 ^ 2 = 2 * x ^ 2 := by
    apply le_antisymm
    · rw [← hA.sum_sq_row 0, axisPoints_sq]
      have := hrow 0
      nlinarith [mul_nonneg (sub_nonneg.2 x2) (sq_nonneg (f.V 0 1)),
        mul_nonneg (sub_nonneg.2 (y2.trans x2)) (sq_nonneg (f.V 0 2))]
    · have u := hA.upper ![1, 0, 0]
      rw [axisPoints_sq] at u
      simpa [Fin.sum_univ_three] using u
  have e2 : f.s 2 ^ 2 = 2 * z ^ 2 := by
    apply le_antisymm
    · have u := hA.optimal ![0, 0, 1]
      rw [axisPoints_sq] at u
      simpa [Fin.sum_univ_three] using u
    · rw [← hA.sum_sq_row 2, axisPoints_sq]
      have := hrow 2
      nlinarith [mul_nonneg (sub_nonneg.2 y2) (sq_nonneg (f.V 2 1)),
        mul_nonneg (sub_nonneg.2 (y2.trans x2)) (sq_nonneg (f.V 2 0))]
  have tr := hA.trace
  simp only [axisPoints_sq, Fin.sum_univ_three] at tr
  simp at tr
  refine ⟨e0, by linarith, e2⟩

/-- The order is wrong for noise errors: whenever the quantile `z` is at least
2, the six points `(±z,0,0), (0,±z/2,0), (0,0,±1)` get a "minimum" of 90 degrees
and a smaller "maximum". -/
theorem C22_noise_order_false (Q : Quantiles) (hz : 2 ≤ Q.f 0.95 2 4) (svd : Pca.SvdFn)
    (hs : svd.Valid) :
    ∃ f, Pca.init svd (axisPoints (Q.f 0.95 2 4) (Q.f 0.95 2 4 / 2) 1) none none = .ok (some f) ∧
      ∃ x y, fitAngularErrors Q f = some (x, y) ∧ y < x ∧ degrees x = 90 := by
  set z := Q.f 0.95 2 4 with hzdef
  obtain ⟨f, hf⟩ := Pca.init_default_exists svd (by norm_num : 3 ≤ 6) (axisPoints z (z / 2) 1)
  refine ⟨f, hf, ?_⟩
  obtain ⟨U, hF⟩ := Pca.init_default hs hf
  obtain ⟨e0, e1, e2⟩ := axisPoints_singular_values hs (by norm_num) (by linarith) (by linarith) hf
  have hev := eigenvalues_nonneg hF
  have v0 : Pca.eigenvalues f 0 = 2 / 5 * z ^ 2 := by
    simp only [Pca.eigenvalues, e0]; push_cast; ring
  have v1 : Pca.eigenvalues f 1 = 2 / 5 * (z / 2) ^ 2 := by
    simp only [Pca.eigenvalues, e1]; push_cast; ring
  have v2 : Pca.eigenvalues f 2 = 2 / 5 := by
    simp only [Pca.eigenvalues, e2]; push_cast; ring
  have hst : fisherStatistic Q 6 0.95 = some z := by
    rw [fisher_default Q 6 (by norm_num) _ (by norm_num) (by norm_num)]
  have hax := statisticalAxes_eq Q 6 hF.size (Pca.eigenvalues f) f.s (ofFit Q f).hyp hev false 0.95
    z (by linarith) none hst
  have hax' : noiseAxes Q (ofFit Q f) {} = .ok (some (Spec.hyperbolicAxes false 6
      (Pca.eigenvalues f) z)) := hax
  set h := Spec.hyperbolicAxes false 6 (Pca.eigenvalues f) z with hh
  have hscale : ∀ t : ℝ, 0 ≤ t → 2 * Real.sqrt (2 / 5 * t ^ 2 * (2 / 5) / (((6 : ℕ) : ℝ) - 2))
      = 2 / 5 * t := by
    intro t ht
    rw [show (2 : ℝ) / 5 * t ^ 2 * (2 / 5) / (((6 : ℕ) : ℝ) - 2) = (1 / 5 * t) ^ 2 by
      push_cast; ring, Real.sqrt_sq (by positivity)]
    ring
  have h00 : h 0 = 0 := by
    show |Pca.eigenvalues f 0 - z * Spec.errorScale false 6 (Pca.eigenvalues f) 0| = 0
    simp only [Spec.errorScale, Bool.false_eq_true, if_false, v0, v2]
    rw [hscale z (by linarith)]
    rw [show 2 / 5 * z ^ 2 - z * (2 / 5 * z) = 0 by ring, abs_zero]
  have h1 : 0 < h 1 := by
    show 0 < |Pca.eigenvalues f 1 - z * Spec.errorScale false 6 (Pca.eigenvalues f) 1|
    simp only [Spec.errorScale, Bool.false_eq_true, if_false, v1, v2]
    rw [hscale (z / 2) (by linarith)]
    apply abs_pos.2
    nlinarith
  have h2 : 0 < h 2 := by
    show 0 < Pca.eigenvalues f 2 + z * Spec.errorScale false 6 (Pca.eigenvalues f) 2
    have := errorScale_nonneg false 6 _ hev 2
    rw [v2]
    positivity
  refine ⟨(angularErrors h).1, (angularErrors h).2, by simp [fitAngularErrors, hax'], ?_, ?_⟩
  · show arctan2 _ _ < arctan2 _ _
    rw [h00, Real.sqrt_zero, arctan2_pos_zero (Real.sqrt_pos.2 h2),
      arctan2_of_pos _ (Real.sqrt_pos.2 h1)]
    exact Real.arctan_lt_pi_div_two _
  · show degrees (arctan2 _ _) = 90
    rw [h00, Real.sqrt_zero, arctan2_pos_zero (Real.sqrt_pos.2 h2)]
    unfold degrees
    field_simp
    norm_num

/-- The true F quantile for 2 and 4 degrees of freedom at 95% is above 6. -/
lemma fisher2_four : 6 < Spec.fisher2 0.95 4 := by
  unfold Spec.fisher2
  have e : (1 - 0.95 : ℝ) ^ (-(2 / ((4 : ℕ) : ℝ))) = Real.sqrt 20 := by
    rw [Real.sqrt_eq_rpow, show -(2 / (((4 : ℕ) : ℝ))) = -(1 / 2 : ℝ) by push_cast; norm_num,
      Real.rpow_neg (by norm_num), ← Real.inv_rpow (by norm_num)]
    norm_num
  rw [e]
  have : (4 : ℝ) < Real.sqrt 20 := by
    rw [show (4 : ℝ) = Real.sqrt 16 by rw [show (16 : ℝ) = 4 ^ 2 by norm_num,
      Real.sqrt_sq (by norm_num)]]
    exact Real.sqrt_lt_sqrt (by norm_num) (by norm_num)
  push_cast
  linarith

/-- The hypothesis of `C22_noise_order_false` holds for the true quantile. -/
example : 2 ≤ Spec.quantiles2.f 0.95 2 4 := by
  have := fisher2_four
  show 2 ≤ Spec.fisher2 0.95 4
  linarith

/-! ## C23 -/

/-- While the error at the higher level does not exceed the in-plane
eigenvalues, raising the confidence level does not lower either angular error.
Missing from the claim: larger errors, see the refutation. -/
theorem C23_monotone_partial (Q : Quantiles) (hQ : Spec.QuantilesOK Q) (svd : Pca.SvdFn)
    (hs : svd.Valid) {n : ℕ} (a : Fin n → Vec 3) (f : Pca.Fit n)
    (hf : Pca.init svd a none none = .ok (some f)) (sampling : Bool) (p q : ℝ) (h0 : 0 ≤ p)
    (hpq : p < q) (h1 : q < 1)
    (hsmall : ∀ j : Fin 3, j ≠ 2 →
      Q.f q 2 (n - 2) * Spec.errorScale sampling n (Pca.eigenvalues f) j ≤ Pca.eigenvalues f j) :
    ∃ x y x' y', errorsAt Q f sampling p = some (x, y) ∧ errorsAt Q f sampling q = some (x', y') ∧
      x ≤ x' ∧ y ≤ y' := by
  obtain ⟨U, hF⟩ := Pca.init_default hs hf
  obtain ⟨h, e, hh, hnn, _⟩ := C21_closed_form Q hQ svd hs a f hf sampling p h0 (hpq.trans h1)
  obtain ⟨h', e', hh', hnn', _⟩ := C21_closed_form Q hQ svd hs a f hf sampling q (h0.trans hpq.le) h1
  have hz : Q.f p 2 (n - 2) < Q.f q 2 (n - 2) :=
    hQ.f_mono _ _ _ _ h0 hpq h1 (by norm_num) (by have := hF.size; omega)
  have hk := errorScale_nonneg sampling n _ (eigenvalues_nonneg hF)
  have l2 : h 2 ≤ h' 2 := by
    rw [hh, hh']
    show _ + _ ≤ _ + _
    have := mul_le_mul_of_nonneg_right hz.le (hk 2)
    linarith
  have lj : ∀ j : Fin 3, j ≠ 2 → |Pca.eigenvalues f j
      - Q.f q 2 (n - 2) * Spec.errorScale sampling n (Pca.eigenvalues f) j|
      ≤ |Pca.eigenvalues f j
        - Q.f p 2 (n - 2) * Spec.errorScale sampling n (Pca.eigenvalues f) j| := by
    intro j hj
    have m := mul_le_mul_of_nonneg_right hz.le (hk j)
    have := hsmall j hj
    rw [abs_of_nonneg (by linarith), abs_of_nonneg (by linarith)]
    linarith
  have l0 : h' 0 ≤ h 0 := by rw [hh, hh']; exact lj 0 (by decide)
  have l1 : h' 1 ≤ h 1 := by rw [hh, hh']; exact lj 1 (by decide)
  refine ⟨_, _, _, _, by simp only [errorsAt, e]; rfl, by simp only [errorsAt, e']; rfl, ?_, ?_⟩
  · exact arctan2_mono (Real.sqrt_nonneg _) (Real.sqrt_le_sqrt l2) (Real.sqrt_nonneg _)
      (Real.sqrt_le_sqrt l0)
  · exact arctan2_mono (Real.sqrt_nonneg _) (Real.sqrt_le_sqrt l2) (Real.sqrt_nonneg _)
      (Real.sqrt_le_sqrt l1)

example : ∃ (svd : Pca.SvdFn) (f : Pca.Fit 4), svd.Valid ∧
    Pca.init svd Witness.tilted none none = .ok (some f) ∧ ∀ j : Fin 3, j ≠ 2 →
      Spec.quantiles2.f (1 / 2) 2 (4 - 2) * Spec.errorScale true 4 (Pca.eigenvalues f) j
        ≤ Pca.eigenvalues f j := by
  obtain ⟨svd, f, hs, hf, _⟩ := Witness.exists_tilted
  refine ⟨svd, f, hs, hf, fun j _ => ?_⟩
  have h1 : Spec.quantiles2.f (1 / 2) 2 (4 - 2) = 1 := by
    simp only [Spec.quantiles2, Spec.fisher2]
    norm_num [Real.rpow_neg_one]
  have h0 : 0 ≤ Pca.eigenvalues f j := by
    unfold Pca.eigenvalues
    positivity
  have h2 : Real.sqrt (2 / ((4 : ℕ) - 1)) ≤ 1 := by
    rw [Real.sqrt_le_one]
    norm_num
  rw [h1, one_mul, Spec.errorScale, if_pos rfl]
  nlinarith

/-- Once the error at the lower level exceeds the eigenvalues, raising the
confidence level *strictly decreases* both angular errors, for both methods and
every noisy fit: the absolute value folds the axes back. -/
theorem C23_higher_confidence_smaller_error_false (Q : Quantiles) (hQ : Spec.QuantilesOK Q)
    (svd : Pca.SvdFn) (hs : svd.Valid) {n : ℕ} (a : Fin n → Vec 3) (f : Pca.Fit n)
    (hf : Pca.init svd a none none = .ok (some f)) (sampling : Bool) (p q : ℝ) (h0 : 0 ≤ p)
    (hpq : p < q) (h1 : q < 1) (h2pos : 0 < f.s 2)
    (hlarge : ∀ j : Fin 3, j ≠ 2 →
      Pca.eigenvalues f j < Q.f p 2 (n - 2) * Spec.errorScale sampling n (Pca.eigenvalues f) j) :
    ∃ x y x' y', errorsAt Q f sampling p = some (x, y) ∧ errorsAt Q f sampling q = some (x', y') ∧
      x' < x ∧ y' < y := by
  obtain ⟨U, hF⟩ := Pca.init_default hs hf
  obtain ⟨h, e, hh, hnn, _⟩ := C21_closed_form Q hQ svd hs a f hf sampling p h0 (hpq.trans h1)
  obtain ⟨h', e', hh', hnn', _⟩ := C21_closed_form Q hQ svd hs a f hf sampling q (h0.trans hpq.le) h1
  have hz : Q.f p 2 (n - 2) < Q.f q 2 (n - 2) :=
    hQ.f_mono _ _ _ _ h0 hpq h1 (by norm_num) (by have := hF.size; omega)
  have hz0 : 0 ≤ Q.f p 2 (n - 2) :=
    hQ.f_nonneg _ _ _ h0 (hpq.trans h1) (by norm_num) (by have := hF.size; omega)
  have hev := eigenvalues_nonneg hF
  have hk := errorScale_nonneg sampling n _ hev
  have hn' : (3 : ℝ) ≤ n := by exact_mod_cast hF.size
  have hev2 : 0 < Pca.eigenvalues f 2 := by
    unfold Pca.eigenvalues
    have : (0 : ℝ) < (n : ℝ) - 1 := by linarith
    positivity
  set z := Q.f p 2 (n - 2)
  set z' := Q.f q 2 (n - 2)
  set ev := Pca.eigenvalues f
  set k := Spec.errorScale sampling n ev
  have key : ∀ j : Fin 3, j ≠ 2 →
      arctan2 (Real.sqrt (ev 2 + z' * k 2)) (Real.sqrt |ev j - z' * k j|)
        < arctan2 (Real.sqrt (ev 2 + z * k 2)) (Real.sqrt |ev j - z * k j|) := by
    intro j hj
    have hl := hlarge j hj
    have hkj : 0 < k j := by
      rcases (hk j).lt_or_eq with c | c
      · exact c
      · rw [← c, mul_zero] at hl
        exact absurd hl (not_lt.2 (hev j))
    have hk2 := hk 2
    have hevj := hev j
    have hl' : ev j < z' * k j := by nlinarith
    rw [abs_of_neg (by linarith), abs_of_neg (by linarith)]
    have p1 : 0 < -(ev j - z * k j) := by linarith
    have p2 : 0 < -(ev j - z' * k j) := by linarith
    apply arctan2_lt_of_div_lt (Real.sqrt_pos.2 p2) (Real.sqrt_pos.2 p1)
    rw [← Real.sqrt_div' _ p2.le, ← Real.sqrt_div' _ p1.le]
    apply Real.sqrt_lt_sqrt
    · have : 0 ≤ z' * k 2 := mul_nonneg (hz0.trans hz.le) hk2
      positivity
    · rw [div_lt_div_iff₀ p2 p1]
      have d1 : 0 < (z' - z) * k j * ev 2 := mul_pos (mul_pos (sub_pos.2 hz) hkj) hev2
      have d2 : 0 ≤ (z' - z) * k 2 * ev j := mul_nonneg (mul_nonneg (sub_pos.2 hz).le hk2) hevj
      nlinarith
  refine ⟨_, _, _, _, by simp only [errorsAt, e]; rfl, by simp only [errorsAt, e']; rfl, ?_, ?_⟩
  · rw [hh, hh']; exact key 0 (by decide)
  · rw [hh, hh']; exact key 1 (by decide)

/-- The situation is ordinary: six points, true F quantile, going from 95% to
99% lowers both sampling errors. -/
theorem C23_witness (svd : Pca.SvdFn) (hs : svd.Valid) :
    ∃ f, Pca.init svd (axisPoints 2 1 1) none none = .ok (some f) ∧
      ∃ x y x' y', errorsAt Spec.quantiles2 f true 0.95 = some (x, y) ∧
        errorsAt Spec.quantiles2 f true 0.99 = some (x', y') ∧ x' < x ∧ y' < y := by
  obtain ⟨f, hf, h2, _⟩ := C19_witness svd hs
  refine ⟨f, hf, ?_⟩
  apply C23_higher_confidence_smaller_error_false _ Spec.quantiles2_ok svd hs _ f hf true 0.95 0.99
    (by norm_num) (by norm_num) (by norm_num) h2
  obtain ⟨e0, e1, e2⟩ := axisPoints_singular_values hs (by norm_num) (by norm_num) (by norm_num) hf
  have hpos : ∀ j : Fin 3, 0 < Pca.eigenvalues f j := by
    intro j
    fin_cases j
    · simp only [Pca.eigenvalues]
      show 0 < f.s 0 ^ 2 / _
      rw [e0]; norm_num
    · simp only [Pca.eigenvalues]
      show 0 < f.s 1 ^ 2 / _
      rw [e1]; norm_num
    · simp only [Pca.eigenvalues]
      show 0 < f.s 2 ^ 2 / _
      rw [e2]; norm_num
  intro j _
  simp only [Spec.errorScale, if_true]
  have hz : 6 < Spec.quantiles2.f 0.95 2 (6 - 2) := fisher2_four
  have hr : (1 / 2 : ℝ) ≤ Real.sqrt (2 / (((6 : ℕ) : ℝ) - 1)) := by
    apply Real.le_sqrt_of_sq_le
    norm_num
  have := hpos j
  nlinarith [mul_pos this (by linarith : (0 : ℝ) < Spec.quantiles2.f 0.95 2 (6 - 2)),
    mul_le_mul_of_nonneg_left hr this.le]

/-! ## C24 -/

/-- Multiplying all coordinates by a positive constant (and translating them)
leaves the angular errors of both methods unchanged at every level, whatever
valid decompositions the backend returns for the two data sets. -/
theorem C24_scale_invariant (Q : Quantiles) (hQ : Spec.QuantilesOK Q) (svd svd' : Pca.SvdFn)
    (hs : svd.Valid) (hs' : svd'.Valid) {n : ℕ} (a : Fin n → Vec 3) (l : ℝ) (hl : 0 < l)
    (t : Vec 3) (f g : Pca.Fit n) (hf : Pca.init svd a none none = .ok (some f))
    (hg : Pca.init svd' (fun i j => l * a i j + t j) none none = .ok (some g)) (sampling : Bool)
    (cl : ℝ) (h0 : 0 ≤ cl) (h1 : cl < 1) :
    errorsAt Q g sampling cl = errorsAt Q f sampling cl := by
  obtain ⟨U, hF⟩ := Pca.init_default hs hf
  obtain ⟨U', hG⟩ := Pca.init_default hs' hg
  obtain ⟨h, e, hh, _⟩ := C21_closed_form Q hQ svd hs a f hf sampling cl h0 h1
  obtain ⟨h', e', hh', _⟩ := C21_closed_form Q hQ svd' hs' _ g hg sampling cl h0 h1
  have hm : (fun i j => l * a i j + t j) = Spec.moved l 0 t a := by
    funext i j
    fin_cases j <;> simp [Spec.moved, Spec.turn]
  have hsv : ∀ j, g.s j = l * f.s j := by
    have hG' := hG.svd
    rw [hm] at hG'
    refine hF.svd.scale_sv hG' l hl.le ?_
    intro w
    have := mulVec_moved l 0 t a
    have ew : Spec.turn 0 w = w := by
      funext j
      fin_cases j <;> simp [Spec.turn]
    have hw : ∀ i, (Matrix.of (Coordinates.centered (Spec.moved l 0 t a)) *ᵥ w) i
        = l * (Matrix.of (Coordinates.centered a) *ᵥ w) i := by
      intro i
      have := mulVec_moved l 0 t a w i
      rwa [ew] at this
    simp only [hw, mul_pow, Finset.mul_sum]
  have hev : ∀ j, Pca.eigenvalues g j = l ^ 2 * Pca.eigenvalues f j := by
    intro j
    simp only [Pca.eigenvalues, hsv]
    ring
  have hevf := eigenvalues_nonneg hF
  have hk : ∀ j, Spec.errorScale sampling n (Pca.eigenvalues g) j
      = l ^ 2 * Spec.errorScale sampling n (Pca.eigenvalues f) j := by
    intro j
    simp only [Spec.errorScale, hev]
    split_ifs
    · ring
    · rw [show l ^ 2 * Pca.eigenvalues f j * (l ^ 2 * Pca.eigenvalues f 2) / ((n : ℝ) - 2)
        = (l ^ 2) ^ 2 * (Pca.eigenvalues f j * Pca.eigenvalues f 2 / ((n : ℝ) - 2)) by ring,
        Real.sqrt_mul (by positivity), Real.sqrt_sq (by positivity)]
      ring
  have hscale : ∀ j, h' j = l ^ 2 * h j := by
    intro j
    rw [hh, hh']
    have habs : ∀ x, |l ^ 2 * x| = l ^ 2 * |x| := by
      intro x; rw [abs_mul, abs_of_pos (by positivity)]
    fin_cases j
    · show |_ - _| = _ * |_ - _|
      rw [hev, hk, ← habs]; congr 1; ring
    · show |_ - _| = _ * |_ - _|
      rw [hev, hk, ← habs]; congr 1; ring
    · show _ + _ = _ * (_ + _)
      rw [hev, hk]; ring
  have hang : angularErrors h' = angularErrors h := by
    have q : ∀ j, Real.sqrt (h' j) = l * Real.sqrt (h j) := by
      intro j
      rw [hscale, Real.sqrt_mul (by positivity), Real.sqrt_sq hl.le]
    simp only [angularErrors, q, arctan2_smul hl]
  simp only [errorsAt, e, e', hang]

example : ∃ (svd : Pca.SvdFn) (f g : Pca.Fit 4), svd.Valid ∧
    Pca.init svd Witness.tilted none none = .ok (some f) ∧
    Pca.init svd (fun i j => 3 * Witness.tilted i j + ![1, 2, 3] j) none none = .ok (some g) ∧
    errorsAt Spec.quantiles2 g false 0.95 = errorsAt Spec.quantiles2 f false 0.95 := by
  obtain ⟨svd, f, hs, hf, _⟩ := Witness.exists_tilted
  obtain ⟨g, hg⟩ := Pca.init_default_exists svd (by norm_num : 3 ≤ 4)
    (fun i j => 3 * Witness.tilted i j + ![1, 2, 3] j)
  exact ⟨svd, f, g, hs, hf, hg, C24_scale_invariant _ Spec.quantiles2_ok svd svd hs hs _ 3
    (by norm_num) _ f g hf hg false 0.95 (by norm_num) (by norm_num)⟩

/-! ## C25 -/

/-- Conversion to normal errors and back (and the other way round) is the
identity for all axes with no zero entry; the normal axis itself is unchanged. -/
theorem C25_conversion_inverse (a : Vec 3) (ha : ∀ j, a j ≠ 0) :
    (∃ b, toNormalErrors a = some b ∧ b 2 = a 2 ∧ fromNormalErrors b = some a) ∧
    (∃ b, fromNormalErrors a = some b ∧ b 2 = a 2 ∧ toNormalErrors b = some a) := by
  have hn : ¬ (a 0 = 0 ∨ a 1 = 0 ∨ a 2 = 0) := by
    rintro (e | e | e)
    · exact ha 0 e
    · exact ha 1 e
    · exact ha 2 e
  have h0 := ha 0
  have h1 := ha 1
  have h2 := ha 2
  constructor
  · refine ⟨fun j => 1 / a j * a 2 ^ 2, by simp [toNormalErrors, hn], by field_simp, ?_⟩
    have : ¬ (1 / a 0 * a 2 ^ 2 = 0 ∨ 1 / a 1 * a 2 ^ 2 = 0 ∨ 1 / a 2 * a 2 ^ 2 = 0) := by
      rintro (e | e | e) <;> (field_simp at e; simp_all)
    rw [fromNormalErrors, if_neg this]
    congr 1
    funext j
    have := ha j
    field_simp
  · refine ⟨fun j => a 2 ^ 2 / a j, by simp [fromNormalErrors, hn], by field_simp, ?_⟩
    have : ¬ (a 2 ^ 2 / a 0 = 0 ∨ a 2 ^ 2 / a 1 = 0 ∨ a 2 ^ 2 / a 2 = 0) := by
      rintro (e | e | e) <;> (field_simp at e; simp_all)
    rw [toNormalErrors, if_neg this]
    congr 1
    funext j
    have := ha j
    field_simp

example : ∃ b, toNormalErrors ![9, 4, 1] = some b ∧ b 2 = 1 ∧ fromNormalErrors b = some ![9, 4, 1] :=
  (C25_conversion_inverse ![9, 4, 1] (fun j => by fin_cases j <;> simp)).1

/-- With a zero entry both conversions give non-finite values. -/
theorem C25_zero_entry (a : Vec 3) (j : Fin 3) (ha : a j = 0) :
    toNormalErrors a = none ∧ fromNormalErrors a = none := by
  have : a 0 = 0 ∨ a 1 = 0 ∨ a 2 = 0 := by
    fin_cases j
    · exact Or.inl ha
    · exact Or.inr (Or.inl ha)
    · exact Or.inr (Or.inr ha)
  simp [toNormalErrors, fromNormalErrors, this]

example : toNormalErrors ![9, 4, 0] = none ∧ fromNormalErrors ![9, 4, 0] = none :=
  C25_zero_entry _ 2 rfl

/-- Meaning of the conversion: the in-plane entry `b j` is the third
proportional, `a j * b j = a 2 ^ 2`, so angles and co-angles swap. -/
theorem C25_reciprocal (a b : Vec 3) (h : toNormalErrors a = some b) (j : Fin 3) :
    a j * b j = a 2 ^ 2 := by
  unfold toNormalErrors at h
  split_ifs at h with hz
  push Not at hz
  cases h
  have : a j ≠ 0 := by
    fin_cases j
    · exact hz.1
    · exact hz.2.1
    · exact hz.2.2
  field_simp

example : ∃ a : Vec 3, ∀ j, a j ≠ 0 := ⟨![9, 4, 1], by intro j; fin_cases j <;> simp⟩

/-! ## C26 -/

/-- If the options are accepted by the underlying method, they are used. -/
theorem C26_options_used_partial (Q : Quantiles) (fit : FitData) (kw : Kw) (h : Option (Vec 3)) :
    (noiseAxes Q fit kw = .ok h → hyperbolicAxes Q fit none kw = h ∧
      hyperbolicAxes Q fit (some "noise") kw = h) ∧
    (samplingAxes Q fit kw = .ok h → hyperbolicAxes Q fit (some "sampling") kw = h) := by
  constructor
  · intro e
    simp [hyperbolicAxes, e]
  · intro e
    simp [hyperbolicAxes, e]

/-- Otherwise nothing is raised and *all* options are dropped: the stored axes
are returned whatever confidence level, type or degrees of freedom were given. -/
theorem C26_options_dropped_false (Q : Quantiles) (fit : FitData) (type : Option String) (kw : Kw)
    (hk : kw.other ≠ [] ∨ kw.method ≠ none) : hyperbolicAxes Q fit type kw = fit.hyp := by
  have hstat : ∀ m, kw.method = none → ∃ e, statisticalAxes Q fit { kw with method := m }
      = .error e := by
    intro m hm
    have ho : kw.other ≠ [] := by
      rcases hk with k | k
      · exact k
      · exact absurd hm k
    unfold statisticalAxes
    cases fit.ev with
    | none => exact ⟨_, rfl⟩
    | some ev =>
      simp only
      split
      · exact ⟨_, rfl⟩
      · simp [ho]
  have hraise : ∀ m, (∃ e, (if kw.method.isSome then (.error .typeError : Res (Vec 3))
      else statisticalAxes Q fit { kw with method := m }) = .error e) := by
    intro m
    cases hm : kw.method with
    | some x => exact ⟨_, rfl⟩
    | none =>
      obtain ⟨e, he⟩ := hstat m hm
      exact ⟨e, by simpa using he⟩
  obtain ⟨e1, h1⟩ := hraise (some "noise")
  obtain ⟨e2, h2⟩ := hraise (some "sampling")
  have n1 : noiseAxes Q fit kw = .error e1 := h1
  have n2 : samplingAxes Q fit kw = .error e2 := h2
  by_cases c : type.getD "noise" = "noise"
  · simp [hyperbolicAxes, c, n1]
  · simp [hyperbolicAxes, c, n2]

example (Q : Quantiles) (fit : FitData) :
    hyperbolicAxes Q fit (some "sampling") { method := some "noise" } = fit.hyp :=
  C26_options_dropped_false Q fit _ _ (.inr (by simp))

/-- A misspelt `type` is not reported either: it means sampling errors. -/
theorem C26_unknown_type_false (Q : Quantiles) (fit : FitData) (t : String) (ht : t ≠ "noise")
    (kw : Kw) : hyperbolicAxes Q fit (some t) kw = hyperbolicAxes Q fit (some "sampling") kw := by
  simp [hyperbolicAxes, ht]

/-- Concretely: asking a fit for sampling errors at 99% with one misspelt option
gives its noise errors at 95%. -/
example (Q : Quantiles) {n : ℕ} (f : Pca.Fit n) :
    hyperbolicAxes Q (ofFit Q f) (some "sampling")
      { confidenceLevel := some 0.99, other := ["variance_on_all_axis"] } = (ofFit Q f).hyp :=
  C26_options_dropped_false Q _ _ _ (Or.inl (by simp))

/-! ## C27 -/

/-- For the sampling method (which has no noise estimate) and for the default of
two degrees of freedom the requested number is used.  Missing from the claim:
the noise method with any other number. -/
theorem C27_dof_partial (Q : Quantiles) (hQ : Spec.QuantilesOK Q) (n k : ℕ) (hn : 3 ≤ n)
    (hk : 0 < k) (hkn : k < n) (ev s : Vec 3) (hyp : Option (Vec 3)) (hev : ∀ j, 0 ≤ ev j)
    (cl : ℝ) (h0 : 0 ≤ cl) (h1 : cl < 1) :
    statisticalAxes Q ⟨n, some ev, s, hyp⟩
      { method := some "sampling", confidenceLevel := some cl, dof := some k }
      = .ok (some (Spec.hyperbolicAxes true n ev (Q.f cl k (n - k)))) := by
  have hz : fisherStatistic Q n cl ((some k).getD 2) = some (Q.f cl k (n - k)) := by
    simp [fisherStatistic, hk, hkn, h0, h1]
  exact statisticalAxes_eq Q n hn ev s hyp hev true cl _
    (hQ.f_nonneg _ _ _ h0 h1 hk (by omega)) (some k) hz

example : statisticalAxes Spec.quantiles2 ⟨10, some ![9, 4, 1], ![3, 2, 1], none⟩
      { method := some "sampling", confidenceLevel := some 0.95, dof := some 3 }
    = .ok (some (Spec.hyperbolicAxes true 10 ![9, 4, 1] (Spec.quantiles2.f 0.95 3 7))) :=
  C27_dof_partial _ Spec.quantiles2_ok 10 3 (by norm_num) (by norm_num) (by norm_num) _ _ _
    (fun j => by fin_cases j <;> simp) 0.95 (by norm_num) (by norm_num)

/-- The documented noise axes with `k` degrees of freedom in both places. -/
noncomputable def Spec.noiseAxesDof (n k : ℕ) (ev : Vec 3) (z : ℝ) : Vec 3 :=
  ![|ev 0 - z * (2 * Real.sqrt (ev 0 * ev 2 / ((n : ℝ) - k)))|,
    |ev 1 - z * (2 * Real.sqrt (ev 1 * ev 2 / ((n : ℝ) - k)))|,
    ev 2 + z * (2 * Real.sqrt (ev 2 * ev 2 / ((n : ℝ) - k)))]

/-- With two degrees of freedom the specification and the code agree. -/
theorem C27_default_dof_agrees (n : ℕ) (ev : Vec 3) (z : ℝ) :
    Spec.noiseAxesDof n 2 ev z = Spec.hyperbolicAxes false n ev z := by
  simp [Spec.noiseAxesDof, Spec.hyperbolicAxes, Spec.errorScale]

/-- With any other number the noise method uses it in the quantile only, and the
result is wrong for every noisy fit. -/
theorem C27_noise_dof_ignored_false (Q : Quantiles) (n k : ℕ) (hn : 3 ≤ n)
    (hk : 0 < k) (hkn : k < n) (hk2 : k ≠ 2) (ev s : Vec 3) (hyp : Option (Vec 3))
    (hev : ∀ j, 0 ≤ ev j) (h2 : 0 < ev 2) (cl : ℝ) (h0 : 0 ≤ cl) (h1 : cl < 1)
    (hz : 0 < Q.f cl k (n - k)) :
    ∃ h, statisticalAxes Q ⟨n, some ev, s, hyp⟩
      { method := some "noise", confidenceLevel := some cl, dof := some k } = .ok (some h) ∧
      h = Spec.hyperbolicAxes false n ev (Q.f cl k (n - k)) ∧
      h ≠ Spec.noiseAxesDof n k ev (Q.f cl k (n - k)) := by
  have hst : fisherStatistic Q n cl ((some k).getD 2) = some (Q.f cl k (n - k)) := by
    simp [fisherStatistic, hk, hkn, h0, h1]
  refine ⟨_, statisticalAxes_eq Q n hn ev s hyp hev false cl _ hz.le (some k) hst, rfl, ?_⟩
  intro e
  have e2 := congrFun e 2
  simp only [Spec.hyperbolicAxes, Spec.noiseAxesDof, Spec.errorScale, Bool.false_eq_true, if_false,
    Matrix.cons_val] at e2
  have hn' : (3 : ℝ) ≤ n := by exact_mod_cast hn
  have hkn' : (k : ℝ) < n := by exact_mod_cast hkn
  have p1 : (0 : ℝ) < (n : ℝ) - 2 := by linarith
  have p2 : (0 : ℝ) < (n : ℝ) - k := by linarith
  have e3 : Real.sqrt (ev 2 * ev 2 / ((n : ℝ) - 2)) = Real.sqrt (ev 2 * ev 2 / ((n : ℝ) - k)) := by
    have : Q.f cl k (n - k) * (Real.sqrt (ev 2 * ev 2 / ((n : ℝ) - 2))
        - Real.sqrt (ev 2 * ev 2 / ((n : ℝ) - k))) = 0 := by linarith
    rcases mul_eq_zero.1 this with c | c
    · exact absurd c hz.ne'
    · linarith
  rw [Real.sqrt_inj (by positivity) (by positivity)] at e3
  have hne : ev 2 * ev 2 ≠ 0 := by positivity
  rw [div_eq_div_iff p1.ne' p2.ne'] at e3
  have e4 := mul_left_cancel₀ hne e3
  have : (k : ℝ) = 2 := by linarith
  exact hk2 (by exact_mod_cast this)

example : Spec.QuantilesOK Spec.quantiles2 ∧ (0 : ℕ) < 3 ∧ 3 < 6 ∧ (3 : ℕ) ≠ 2 :=
  ⟨Spec.quantiles2_ok, by norm_num, by norm_num, by norm_num⟩

/-! ## C28 -/

/-- The biased sample variance that Jolliffe's bound refers to. -/
noncomputable def Spec.biasedVariance (n : ℕ) (ev : ℝ) : ℝ := ev * ((n : ℝ) - 1) / n

/-- For every level strictly between 0 and 1 the quantile used is negative, so
what is meant to be a lower bound is strictly above the variance (whenever it is
finite and the variance is positive). -/
theorem C28_lower_bound_false (Q : Quantiles) (hQ : Spec.QuantilesOK Q) (n : ℕ) (hn : 3 ≤ n)
    (e : Vec 3) (cl : ℝ) (h0 : 0 < cl) (h1 : cl < 1) (h : Vec 3)
    (hj : jolliffeAxes Q n e cl = some h) :
    (0 < e 0 → Spec.biasedVariance n (e 0) < h 0) ∧
    (0 < e 1 → Spec.biasedVariance n (e 1) < h 1) := by
  have hz := hQ.norm_neg (cl / 2) (by linarith) (by linarith)
  have hn' : (3 : ℝ) ≤ n := by exact_mod_cast hn
  have ht : 0 < Real.sqrt (2 / ((n : ℝ) - 1)) := by
    apply Real.sqrt_pos.2
    have : (0 : ℝ) < (n : ℝ) - 1 := by linarith
    positivity
  have hsc : Real.sqrt (2 / ((n : ℝ) - 1)) * Q.norm (cl / 2) < 0 := mul_neg_of_pos_of_neg ht hz
  simp only [jolliffeAxes] at hj
  split_ifs at hj with hc
  push Not at hc
  set u := 1 + Real.sqrt (2 / ((n : ℝ) - 1)) * Q.norm (cl / 2)
  have hu1 : u < 1 := by
    show 1 + _ < 1
    linarith
  have hsq0 : 0 < Real.sqrt u := Real.sqrt_pos.2 hc
  have hsq1 : Real.sqrt u < 1 := by
    rw [Real.sqrt_lt' one_pos]; simpa using hu1
  have key : ∀ x : ℝ, 0 < x → Spec.biasedVariance n x < x * ((n : ℝ) - 1) / n / Real.sqrt u := by
    intro x hx
    have : 0 < x * ((n : ℝ) - 1) / n := by
      have : (0 : ℝ) < (n : ℝ) - 1 := by linarith
      positivity
    rw [Spec.biasedVariance, lt_div_iff₀ hsq0]
    nlinarith
  cases hj
  exact ⟨fun hx => key _ hx, fun hx => key _ hx⟩

example : ∃ h, jolliffeAxes Spec.quantiles2 10 ![9, 4, 1] 0.5 = some h ∧
    Spec.biasedVariance 10 9 < h 0 := by
  have : ∃ h, jolliffeAxes Spec.quantiles2 10 ![9, 4, 1] 0.5 = some h := by
    unfold jolliffeAxes
    rw [if_neg]
    · exact ⟨_, rfl⟩
    · simp only [Spec.quantiles2]
      have h : Real.sqrt (2 / (((10 : ℕ) : ℝ) - 1)) ≤ 1 := Real.sqrt_le_one.2 (by norm_num)
      have h' := Real.sqrt_nonneg (2 / (((10 : ℕ) : ℝ) - 1))
      nlinarith
  obtain ⟨h, e⟩ := this
  refine ⟨h, e, ?_⟩
  simpa using (C28_lower_bound_false _ Spec.quantiles2_ok 10 (by norm_num) ![9, 4, 1] 0.5
    (by norm_num) (by norm_num) h e).1 (by simp)

/-- What does hold: in-plane entries keep their order and sign, and the normal
entry is the eigenvalue minus the same bound.  Missing: the bound itself. -/
theorem C28_order_partial (Q : Quantiles) (n : ℕ) (hn : 3 ≤ n) (e : Vec 3) (he : ∀ j, 0 ≤ e j)
    (hle : e 1 ≤ e 0) (cl : ℝ) (h : Vec 3) (hj : jolliffeAxes Q n e cl = some h) :
    0 ≤ h 1 ∧ h 1 ≤ h 0 ∧ h 2 ≤ e 2 := by
  have hn' : (3 : ℝ) ≤ n := by exact_mod_cast hn
  have hp : (0 : ℝ) ≤ (n : ℝ) - 1 := by linarith
  have hnp : (0 : ℝ) ≤ n := by linarith
  simp only [jolliffeAxes] at hj
  split_ifs at hj with hc
  cases hj
  have h1 := he 1
  have h2 := he 2
  refine ⟨?_, ?_, ?_⟩
  · show 0 ≤ _ / _ / _
    positivity
  · show _ / _ / _ ≤ _ / _ / _
    apply div_le_div_of_nonneg_right _ (Real.sqrt_nonneg _)
    apply div_le_div_of_nonneg_right _ hnp
    exact mul_le_mul_of_nonneg_right hle hp
  · show e 2 - _ / _ / _ ≤ e 2
    have : 0 ≤ e 2 * ((n : ℝ) - 1) / n
        / Real.sqrt (1 + Real.sqrt (2 / ((n : ℝ) - 1)) * Q.norm (cl / 2)) := by positivity
    linarith

/-- Non-vacuity: a finite result exists. -/
example : ∃ h, jolliffeAxes Spec.quantiles2 9 ![3, 2, 1] 0.95 = some h := by
  have : ¬ (1 + Real.sqrt (2 / (((9 : ℕ) : ℝ) - 1)) * Spec.quantiles2.norm (0.95 / 2) ≤ 0) := by
    rw [show (2 / (((9 : ℕ) : ℝ) - 1)) = (1 / 2) ^ 2 by norm_num, Real.sqrt_sq (by norm_num)]
    simp only [Spec.quantiles2]
    norm_num
  exact ⟨_, if_neg this⟩

/-! ## C29 -/

lemma rotated_gram {n : ℕ} {a : Fin n → Vec 3} {f : Pca.Fit n} {U : Mat n 3}
    (h : Pca.IsFit a f U) (j k : Fin 3) :
    ∑ i, Pca.rotated f i j * Pca.rotated f i k = if j = k then f.s j ^ 2 else 0 := by
  have e : (Pca.rotated f).transpose * Pca.rotated f
      = Matrix.diagonal f.s * Matrix.diagonal f.s := by
    rw [rotated_eq_US h, Matrix.transpose_mul, Matrix.diagonal_transpose, Matrix.mul_assoc,
      ← Matrix.mul_assoc U.transpose, h.svd.orthU, Matrix.one_mul]
  have := congrFun (congrFun e j) k
  rw [Matrix.diagonal_mul_diagonal, Matrix.mul_apply, Matrix.diagonal_apply] at this
  simp only [Matrix.transpose_apply] at this
  rw [this]
  split_ifs <;> ring

lemma rotated_sum {n : ℕ} {a : Fin n → Vec 3} {f : Pca.Fit n} {U : Mat n 3}
    (h : Pca.IsFit a f U) (j : Fin 3) : ∑ i, Pca.rotated f i j = 0 := by
  simp only [rotated_col h]
  exact sum_mulVec_centered a _

lemma design_gram {n : ℕ} {a : Fin n → Vec 3} {f : Pca.Fit n} {U : Mat n 3}
    (h : Pca.IsFit a f U) :
    (designMatrix (Pca.rotated f)).transpose * designMatrix (Pca.rotated f)
      = Matrix.diagonal ![f.s 0 ^ 2, f.s 1 ^ 2, (n : ℝ)] := by
  have g := rotated_gram h
  have r := rotated_sum h
  ext j k
  rw [Matrix.mul_apply]
  simp only [Matrix.transpose_apply, designMatrix, Matrix.of_apply]
  fin_cases j <;> fin_cases k
  · simpa using g 0 0
  · simpa using g 0 1
  · simpa using r 0
  · simpa using g 1 0
  · simpa using g 1 1
  · simpa using r 1
  · simpa using r 0
  · simpa using r 1
  · simp

lemma design_response {n : ℕ} {a : Fin n → Vec 3} {f : Pca.Fit n} {U : Mat n 3}
    (h : Pca.IsFit a f U) :
    (designMatrix (Pca.rotated f)).transpose *ᵥ (fun i => Pca.rotated f i 2) = 0 := by
  have g := rotated_gram h
  have r := rotated_sum h
  funext j
  simp only [Matrix.mulVec, dotProduct, Matrix.transpose_apply, designMatrix, Matrix.of_apply]
  fin_cases j
  · simpa using g 0 2
  · simpa using g 1 2
  · simpa using r 2

/-- The regression in the rotated frame has zero slopes and zero intercept. -/
theorem C29_zero_regression (svd : Pca.SvdFn) (hs : svd.Valid) {n : ℕ} (a : Fin n → Vec 3)
    (f : Pca.Fit n) (hf : Pca.init svd a none none = .ok (some f)) :
    regressionCoefficients (Pca.rotated f) = 0 := by
  obtain ⟨U, hF⟩ := Pca.init_default hs hf
  unfold regressionCoefficients
  simp only
  rw [← Matrix.mulVec_mulVec, design_response hF, Matrix.mulVec_zero]

example : ∃ (svd : Pca.SvdFn) (f : Pca.Fit 4), svd.Valid ∧
    Pca.init svd Witness.tilted none none = .ok (some f) ∧
    regressionCoefficients (Pca.rotated f) = 0 := by
  obtain ⟨svd, f, hs, hf, _⟩ := Witness.exists_tilted
  exact ⟨svd, f, hs, hf, C29_zero_regression svd hs _ f hf⟩

/-- Closed form of the regression axes for every fit of non-collinear,
non-planar data (`q` is the chi-square quantile). -/
theorem C29_closed_form (Q : Quantiles) (svd : Pca.SvdFn) (hs : svd.Valid) {n : ℕ}
    (a : Fin n → Vec 3) (f : Pca.Fit n) (hf : Pca.init svd a none none = .ok (some f))
    (cl : ℝ) (h0 : 0 ≤ cl) (h1 : cl < 1) (hq : 0 < Q.chi2 cl 2) (h2 : 0 < f.s 2) :
    regressionAxes Q f cl = .ok (some ![Real.sqrt n * f.s 0 / (Q.chi2 cl 2 * f.s 2),
      Real.sqrt n * f.s 1 / (Q.chi2 cl 2 * f.s 2), Q.chi2 cl 2 ^ 2 * f.s 2 ^ 2 / n ^ 2]) := by
  obtain ⟨U, hF⟩ := Pca.init_default hs hf
  have s1 : 0 < f.s 1 := h2.trans_le hF.svd.le12
  have s0 : 0 < f.s 0 := s1.trans_le hF.svd.le01
  have hn : (3 : ℝ) ≤ n := by exact_mod_cast hF.size
  have hnp : (0 : ℝ) < n := by linarith
  have hB := C29_zero_regression svd hs a f hf
  have hdet : (Matrix.diagonal ![f.s 0 ^ 2, f.s 1 ^ 2, (n : ℝ)]).det ≠ 0 := by
    rw [Matrix.det_diagonal, Fin.prod_univ_three]
    simp only [Matrix.cons_val]
    positivity
  have hinv : (Matrix.diagonal ![f.s 0 ^ 2, f.s 1 ^ 2, (n : ℝ)])⁻¹
      = Matrix.diagonal ![1 / f.s 0 ^ 2, 1 / f.s 1 ^ 2, 1 / (n : ℝ)] := by
    apply Matrix.inv_eq_left_inv
    rw [Matrix.diagonal_mul_diagonal, ← Matrix.diagonal_one]
    congr 1
    funext j
    fin_cases j
    · show 1 / f.s 0 ^ 2 * f.s 0 ^ 2 = 1
      field_simp
    · show 1 / f.s 1 ^ 2 * f.s 1 ^ 2 = 1
      field_simp
    · show 1 / (n : ℝ) * n = 1
      field_simp
  have hsum : ∑ i, Pca.rotated f i 2 ^ 2 = f.s 2 ^ 2 := by
    have := rotated_gram hF 2 2
    simpa [sq] using this
  have hrn := Real.sqrt_pos.2 hnp
  have hrn2 := Real.sq_sqrt hnp.le
  set q := Q.chi2 cl 2
  have v : ∀ t : ℝ, 0 < t → Real.sqrt (f.s 2 ^ 2 / n * (1 / t ^ 2)) = f.s 2 / (Real.sqrt n * t) := by
    intro t ht
    rw [show f.s 2 ^ 2 / n * (1 / t ^ 2) = (f.s 2 / (Real.sqrt n * t)) ^ 2 by
      rw [div_pow, mul_pow, hrn2]; field_simp]
    exact Real.sqrt_sq (by positivity)
  have v2 : Real.sqrt (f.s 2 ^ 2 / n * (1 / n)) = f.s 2 / n := by
    rw [show f.s 2 ^ 2 / n * (1 / n) = (f.s 2 / n) ^ 2 by field_simp]
    exact Real.sqrt_sq (by positivity)
  have hch : chi2Statistic Q cl 2 = some q := by
    simp [chi2Statistic, h0, h1, q]
  unfold regressionAxes
  simp only [design_gram hF, if_neg hdet, hB, hinv, Matrix.mulVec_zero, Pi.zero_apply, sub_zero,
    hsum, hch, Matrix.diagonal_apply_eq, Matrix.cons_val, v _ s0, v _ s1, v2]
  have n0 : q * (f.s 2 / (Real.sqrt n * f.s 0)) ≠ 0 := by positivity
  have n1 : q * (f.s 2 / (Real.sqrt n * f.s 1)) ≠ 0 := by positivity
  rw [if_neg (by rintro (e | e); exacts [n0 e, n1 e])]
  congr 2
  funext j
  fin_cases j
  · show 1 / (q * (f.s 2 / (Real.sqrt n * f.s 0))) = Real.sqrt n * f.s 0 / (q * f.s 2)
    field_simp
  · show 1 / (q * (f.s 2 / (Real.sqrt n * f.s 1))) = Real.sqrt n * f.s 1 / (q * f.s 2)
    field_simp
  · show (q * (f.s 2 / n)) ^ 2 = q ^ 2 * f.s 2 ^ 2 / n ^ 2
    field_simp

example : ∃ (svd : Pca.SvdFn) (f : Pca.Fit 4), svd.Valid ∧
    Pca.init svd Witness.tilted none none = .ok (some f) ∧ 0 < Spec.quantiles2.chi2 0.95 2 ∧
    0 < f.s 2 := by
  obtain ⟨svd, f, hs, hf, _, e⟩ := Witness.exists_tilted
  refine ⟨svd, f, hs, hf, ?_, by rw [e]; simp⟩
  have : Real.log (1 - 0.95) < 0 := Real.log_neg (by norm_num) (by norm_num)
  simp only [Spec.quantiles2]
  linarith

/-- Degenerate data: collinear points raise, planar points give no finite axes. -/
theorem C29_degenerate (Q : Quantiles) (svd : Pca.SvdFn) (hs : svd.Valid) {n : ℕ}
    (a : Fin n → Vec 3) (f : Pca.Fit n) (hf : Pca.init svd a none none = .ok (some f)) (cl : ℝ) :
    (regressionAxes Q f cl = .error .linAlgError ↔ f.s 1 = 0) ∧
    (f.s 2 = 0 → 0 < f.s 1 → regressionAxes Q f cl = .ok none) := by
  obtain ⟨U, hF⟩ := Pca.init_default hs hf
  have hn : (3 : ℝ) ≤ n := by exact_mod_cast hF.size
  have hdet : (Matrix.diagonal ![f.s 0 ^ 2, f.s 1 ^ 2, (n : ℝ)]).det
      = f.s 0 ^ 2 * f.s 1 ^ 2 * n := by
    rw [Matrix.det_diagonal, Fin.prod_univ_three]
    simp only [Matrix.cons_val]
  have hiff : f.s 0 ^ 2 * f.s 1 ^ 2 * n = 0 ↔ f.s 1 = 0 := by
    constructor
    · intro e
      have l01 := hF.svd.le01
      have l1 := hF.svd.nonneg' 1
      by_contra hne
      have p1 : 0 < f.s 1 := lt_of_le_of_ne l1 (Ne.symm hne)
      have p0 : 0 < f.s 0 := p1.trans_le l01
      have : 0 < f.s 0 ^ 2 * f.s 1 ^ 2 * n := by positivity
      exact this.ne' e
    · intro e; rw [e]; ring
  constructor
  · unfold regressionAxes
    simp only [design_gram hF, hdet, hiff]
    constructor
    · intro e
      by_contra hne
      rw [if_neg hne] at e
      revert e
      cases chi2Statistic Q cl 2 with
      | none => simp
      | some q => simp only; split_ifs <;> simp
    · intro e
      rw [if_pos e]
  · intro e2 e1
    have hB := C29_zero_regression svd hs a f hf
    have hsum : ∑ i, Pca.rotated f i 2 ^ 2 = f.s 2 ^ 2 := by
      have := rotated_gram hF 2 2
      simpa [sq] using this
    unfold regressionAxes
    simp only [design_gram hF, hdet, hiff, if_neg e1.ne', hB, Matrix.mulVec_zero, Pi.zero_apply,
      sub_zero, hsum, e2]
    cases chi2Statistic Q cl 2 with
    | none => rfl
    | some q => simp

/-- Example: the 6-point fit with quantile `-2 log 0.05 > 0`. -/
example (svd : Pca.SvdFn) (hs : svd.Valid) :
    (∃ f, Pca.init svd (axisPoints 2 1 1) none none = .ok (some f) ∧ 0 < f.s 2) ∧
    0 < Spec.quantiles2.chi2 0.95 2 := by
  obtain ⟨f, hf, h2, _⟩ := C19_witness svd hs
  refine ⟨⟨f, hf, h2⟩, ?_⟩
  show 0 < -2 * Real.log (1 - 0.95)
  have := Real.log_neg (by norm_num : (0 : ℝ) < 1 - 0.95) (by norm_num)
  linarith

/-! ## C30 -/

/-- Francq axes: a common factor on the in-plane eigenvalues and another one on
the normal eigenvalue; never negative, in-plane order kept, homogeneous in the
eigenvalues. -/
theorem C30_francq (Q : Quantiles) (n : ℕ) (hn : 3 ≤ n) (e : Vec 3)
    (he : ∀ j, 0 ≤ e j) (hle : e 1 ≤ e 0) (cl : ℝ) (h0 : 0 ≤ cl) (h1 : cl < 1) :
    ∃ h r q, francqAxes Q n e cl = some h ∧ 0 ≤ r ∧ 1 ≤ q ∧
      h = ![r * e 0, r * e 1, q * e 2] ∧ (∀ j, 0 ≤ h j) ∧ h 1 ≤ h 0 ∧
      ∀ c, 0 ≤ c → francqAxes Q n (fun j => c * e j) cl = some fun j => c * h j := by
  have hz := fisher_default Q n hn cl h0 h1
  set F := Q.f cl 2 (n - 2)
  set u := Real.sqrt (2 * F / ((n : ℝ) - 2))
  have hu : 0 ≤ u := Real.sqrt_nonneg _
  have main : ∀ e : Vec 3, (∀ j, 0 ≤ e j) →
      francqAxes Q n e cl = some ![|1 - u| * e 0, |1 - u| * e 1, (1 + u) * e 2] := by
    intro e he
    simp only [francqAxes, hz, Option.bind_eq_bind, Option.bind_some, Option.some.injEq]
    funext j
    have e0 := he 0
    have e1 := he 1
    have e2 := he 2
    fin_cases j
    · show |e 0 - e 0 * u| = |1 - u| * e 0
      rw [show e 0 - e 0 * u = (1 - u) * e 0 by ring, abs_mul, abs_of_nonneg e0]
    · show |e 1 - e 1 * u| = |1 - u| * e 1
      rw [show e 1 - e 1 * u = (1 - u) * e 1 by ring, abs_mul, abs_of_nonneg e1]
    · show |-(e 2) - e 2 * u| = (1 + u) * e 2
      rw [show -(e 2) - e 2 * u = -((1 + u) * e 2) by ring, abs_neg, abs_of_nonneg (by positivity)]
  refine ⟨_, |1 - u|, 1 + u, main e he, abs_nonneg _, by linarith, rfl, ?_, ?_, ?_⟩
  · intro j
    have e0 := he 0
    have e1 := he 1
    have e2 := he 2
    fin_cases j
    · show 0 ≤ |1 - u| * e 0
      positivity
    · show 0 ≤ |1 - u| * e 1
      positivity
    · show 0 ≤ (1 + u) * e 2
      positivity
  · exact mul_le_mul_of_nonneg_left hle (abs_nonneg _)
  · intro c hc
    rw [main _ (fun j => mul_nonneg hc (he j))]
    congr 1
    funext j
    fin_cases j
    · show |1 - u| * (c * e 0) = c * (|1 - u| * e 0)
      ring
    · show |1 - u| * (c * e 1) = c * (|1 - u| * e 1)
      ring
    · show (1 + u) * (c * e 2) = c * ((1 + u) * e 2)
      ring

example (Q : Quantiles) : ∃ h, francqAxes Q 10 ![9, 4, 1] 0.95 = some h ∧ h 1 ≤ h 0 := by
  obtain ⟨h, _, _, e, _, _, _, _, h1, _⟩ := C30_francq Q 10 (by norm_num) ![9, 4, 1]
    (fun j => by fin_cases j <;> simp) (by norm_num) 0.95 (by norm_num) (by norm_num)
  exact ⟨h, e, h1⟩

/-- Babamoradi axes: one common non-negative factor on all eigenvalues. -/
theorem C30_babamoradi (Q : Quantiles) (hQ : Spec.QuantilesOK Q) (n : ℕ) (hn : 3 ≤ n)
    (cl : ℝ) (h0 : 0 ≤ cl) (h1 : cl < 1) :
    ∃ r, 0 ≤ r ∧ ∀ e : Vec 3, (∀ j, 0 ≤ e j) →
      babamoradiAxes Q n e cl = some fun j => r * e j := by
  have hz := fisher_default Q n hn cl h0 h1
  have hF : 0 ≤ Q.f cl 2 (n - 2) := hQ.f_nonneg _ _ _ h0 h1 (by norm_num) (by omega)
  have hn' : (3 : ℝ) ≤ n := by exact_mod_cast hn
  have p2 : (0 : ℝ) ≤ (n : ℝ) - 2 := by linarith
  have p3 : (0 : ℝ) ≤ (n : ℝ) ^ 2 - 1 := by nlinarith
  have p4 : (0 : ℝ) ≤ n := by linarith
  refine ⟨2 * Q.f cl 2 (n - 2) / ((n : ℝ) - 2) * ((n : ℝ) ^ 2 - 1) / n, by positivity, ?_⟩
  intro e he
  simp only [babamoradiAxes, hz, Option.bind_eq_bind, Option.bind_some, Option.some.injEq]
  funext j
  have := he j
  rw [Real.sq_sqrt (by positivity)]
  ring

/-- The eigenvalues of a fit meet the hypotheses of both theorems. -/
example (svd : Pca.SvdFn) (hs : svd.Valid) {n : ℕ} (a : Fin n → Vec 3) (f : Pca.Fit n)
    (hf : Pca.init svd a none none = .ok (some f)) :
    (∀ j, 0 ≤ Pca.eigenvalues f j) ∧ Pca.eigenvalues f 1 ≤ Pca.eigenvalues f 0 ∧ 3 ≤ n := by
  obtain ⟨U, hF⟩ := Pca.init_default hs hf
  exact ⟨eigenvalues_nonneg hF, (eigenvalues_anti hF).2, hF.size⟩

end Attitude.Props
