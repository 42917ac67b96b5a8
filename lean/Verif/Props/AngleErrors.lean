import Verif.Model.AngleErrors
import Verif.Props.LinearOrientation
import Mathlib.Analysis.SpecialFunctions.Trigonometric.ArctanDeriv
import Mathlib.Analysis.SpecialFunctions.Sqrt

/-! # Uncertainties of strike and dip of a linear orientation: C282 -/

namespace Attitude.Props

open Attitude Linear AngleErrors Matrix

namespace Spec

/-- Dip in degrees of a plane with slope `x` along and `y` across a direction. -/
noncomputable def dipOfSlopes (x y : ℝ) : ℝ := degrees (Real.arctan (Real.sqrt (x ^ 2 + y ^ 2)))

/-- Angle in degrees from that direction to the dip direction of the plane, for `x > 0`. -/
noncomputable def turnOfSlopes (x y : ℝ) : ℝ := degrees (Real.arctan (y / x))

/-- The error `e` of an angle that depends on a slope as `F`, for a small error `σ` of the slope. -/
def FirstOrderError (F : ℝ → ℝ) (x σ e : ℝ) : Prop := ∃ D, HasDerivAt F D x ∧ e = |D| * σ

end Spec

lemma errors_nonneg (o : LinearOrientation) : 0 ≤ (errors o).1 ∧ 0 ≤ (errors o).2 := by
  have hpi := Real.pi_pos
  constructor
  · show 0 ≤ degrees (Real.sqrt _)
    unfold degrees
    positivity
  · show 0 ≤ degrees (Real.sqrt _)
    unfold degrees
    positivity

lemma degrees_eq_zero_iff (x : ℝ) : degrees x = 0 ↔ x = 0 := by
  have hpi := Real.pi_pos
  unfold degrees
  constructor
  · intro h
    have : x * 180 = 0 := by
      rcases div_eq_zero_iff.1 h with k | k
      · exact k
      · exact absurd k hpi.ne'
    linarith
  · rintro rfl; simp

lemma hasDerivAt_degrees {F : ℝ → ℝ} {D x : ℝ} (h : HasDerivAt F D x) :
    HasDerivAt (fun t => degrees (F t)) (degrees D) x := by
  unfold degrees
  exact (h.mul_const 180).div_const Real.pi

lemma hasDerivAt_dip {g : ℝ} (hg : 0 < g) :
    HasDerivAt (fun t => Spec.dipOfSlopes t 0) (degrees (1 / (1 + g ^ 2))) g := by
  have h := hasDerivAt_degrees (Real.hasDerivAt_arctan g)
  refine h.congr_of_eventuallyEq ?_
  filter_upwards [eventually_gt_nhds hg] with t ht
  unfold Spec.dipOfSlopes
  rw [show t ^ 2 + 0 ^ 2 = t ^ 2 by ring, Real.sqrt_sq ht.le]

lemma hasDerivAt_turn {g : ℝ} :
    HasDerivAt (fun t => Spec.turnOfSlopes g t) (degrees (1 / g)) 0 := by
  have h1 : HasDerivAt (fun t : ℝ => t / g) (1 / g) 0 := (hasDerivAt_id 0).div_const g
  have h := hasDerivAt_degrees h1.arctan
  simpa [Spec.turnOfSlopes] using h

lemma hasDerivAt_dip_across {g : ℝ} (hg : 0 < g) :
    HasDerivAt (fun t => Spec.dipOfSlopes g t) 0 0 := by
  have h1 : HasDerivAt (fun t : ℝ => g ^ 2 + t ^ 2) 0 0 := by
    simpa using ((hasDerivAt_id (0 : ℝ)).pow 2).const_add (g ^ 2)
  have h := hasDerivAt_degrees ((h1.sqrt (by positivity)).arctan)
  simpa [Spec.dipOfSlopes, degrees] using h

lemma hasDerivAt_turn_along {g : ℝ} : HasDerivAt (fun t => Spec.turnOfSlopes t 0) 0 g := by
  simpa [Spec.turnOfSlopes] using hasDerivAt_const g (degrees (Real.arctan 0))

/-- The gradient of the least-squares plane is the tangent of the reported dip. -/
lemma slope_tan {n : ℕ} {a : Fin n → Vec 3} {o : LinearOrientation}
    (ho : linearOrientation a = .ok o) :
    ∃ g, 0 ≤ g ∧ o.slope = Real.arctan g ∧ Real.tan o.slope = g := by
  obtain ⟨p, q, -, -, -, -, hs, -⟩ := C34_aligned a o ho
  exact ⟨Spec.gradient p q, Real.sqrt_nonneg _, hs, by rw [hs, Real.tan_arctan]⟩

/-- The angles are the same with and without uncertainties; the uncertainties are not negative. -/
theorem C282_angles (o : LinearOrientation) :
    (strikeDipErrors o).1 = Linear.strikeDip o ∧
    (dipDirectionErrors o).1 = ((Linear.strikeDip o).1 + 90, (Linear.strikeDip o).2) ∧
    (strikeDipErrors o).2 = (dipDirectionErrors o).2 ∧
    0 ≤ (strikeDipErrors o).2.1 ∧ 0 ≤ (strikeDipErrors o).2.2 :=
  ⟨rfl, rfl, rfl, (errors_nonneg o).1, (errors_nonneg o).2⟩

lemma rotated_variance_zero_iff {n : ℕ} {a : Fin n → Vec 3} {o : LinearOrientation}
    (ho : linearOrientation a = .ok o) (hcol : ¬ Spec.CollinearInPlan a) {r : Regression n}
    (hr : initRows a = .ok r) {e : Vec n} (he : (residuals r).1 = .ok e) (j : Fin 3) :
    0 ≤ rotatedCovariance o j j ∧
      (rotatedCovariance o j j = 0 ↔ n = 3 ∨ ∀ i, e i = 0) := by
  obtain ⟨r', c, hr', hc, hm, -⟩ := linearOrientation_ok ho
  rw [hr] at hr'
  cases hr'
  obtain ⟨m, e', hm', he', h3, hG, hsym, -⟩ := C36_covariance a r hr hcol
  rw [hm] at hm'
  cases hm'
  rw [he] at he'
  cases he'
  set M := o.covarianceMatrix with hM
  set u : Vec 3 := fun i => rotation o.azimuth i j with hu
  have hvar : rotatedCovariance o j j = u ⬝ᵥ (M *ᵥ u) := by
    rw [rotatedCovariance, Matrix.mul_assoc]
    simp only [Matrix.mul_apply, Matrix.transpose_apply, dotProduct, Matrix.mulVec, hu, hM]
  by_cases hn : n = 3
  · have : M = 0 := h3 hn
    rw [hvar, this]
    simp [hn]
  · have hG := hG hn
    have hS : 0 ≤ ∑ i, e i ^ 2 := Finset.sum_nonneg fun i _ => sq_nonneg _
    have hzero : (∑ i, e i ^ 2 = 0) ↔ ∀ i, e i = 0 := by
      rw [Finset.sum_eq_zero_iff_of_nonneg fun i _ => sq_nonneg _]
      simp
    have hunit : u ⬝ᵥ u = 1 := by
      have := Real.sin_sq_add_cos_sq o.azimuth
      fin_cases j <;> simp [hu, dotProduct, rotation, Fin.sum_univ_three] <;> linarith
    have hGt : (r.C.transpose * r.C) * M = (∑ i, e i ^ 2) • (1 : Mat 3 3) := by
      have := congrArg Matrix.transpose hG
      rwa [Matrix.transpose_mul, Matrix.transpose_mul, Matrix.transpose_transpose, hsym,
        Matrix.transpose_smul, Matrix.transpose_one] at this
    have hGw : (r.C.transpose * r.C) *ᵥ (M *ᵥ u) = (∑ i, e i ^ 2) • u := by
      rw [Matrix.mulVec_mulVec, hGt, Matrix.smul_mulVec, Matrix.one_mulVec]
    have key : (∑ i, e i ^ 2) * (u ⬝ᵥ (M *ᵥ u))
        = (r.C *ᵥ (M *ᵥ u)) ⬝ᵥ (r.C *ᵥ (M *ᵥ u)) := by
      rw [← smul_eq_mul, ← smul_dotProduct, ← hGw, ← Matrix.mulVec_mulVec,
        dotProduct_comm _ (M *ᵥ u), Matrix.dotProduct_mulVec, Matrix.vecMul_transpose]
    have hpos : 0 ≤ (r.C *ᵥ (M *ᵥ u)) ⬝ᵥ (r.C *ᵥ (M *ᵥ u)) :=
      Finset.sum_nonneg fun i _ => mul_self_nonneg _
    rw [hvar]
    rcases hS.lt_or_eq with hp | hp
    · have hne : u ⬝ᵥ (M *ᵥ u) ≠ 0 := by
        intro h0
        rw [h0, mul_zero] at key
        have hC : r.C *ᵥ (M *ᵥ u) = 0 := dotProduct_self_eq_zero.1 key.symm
        rw [← Matrix.mulVec_mulVec, hC, Matrix.mulVec_zero] at hGw
        have := congrArg (fun w => u ⬝ᵥ w) hGw
        simp only [dotProduct_zero, dotProduct_smul, hunit, smul_eq_mul, mul_one] at this
        linarith
      refine ⟨?_, ⟨fun h => absurd h hne, ?_⟩⟩
      · rw [← key] at hpos
        exact nonneg_of_mul_nonneg_right hpos hp
      · rintro (h | h)
        · exact absurd h hn
        · exact absurd (hzero.2 h) hp.ne'
    · have hM0 : M = 0 := by
        obtain ⟨-, -, hd, -⟩ := coefficients_rows hr hc
        have hd' : (r.C.transpose * r.C).det ≠ 0 := hd
        rw [← hp, zero_smul] at hG
        have := congrArg (· * (r.C.transpose * r.C)⁻¹) hG
        simp only [Matrix.zero_mul] at this
        rwa [Matrix.mul_nonsing_inv_cancel_right _ _ (isUnit_iff_ne_zero.2 hd')] at this
      rw [hM0]
      simp [hzero.1 hp.symm]

/-- Both uncertainties are zero exactly for three points and for points on the fitted plane, and
otherwise neither is. -/
theorem C282_zero_iff {n : ℕ} (a : Fin n → Vec 3) (o : LinearOrientation)
    (ho : linearOrientation a = .ok o) (hcol : ¬ Spec.CollinearInPlan a) (r : Regression n)
    (hr : initRows a = .ok r) (e : Vec n) (he : (residuals r).1 = .ok e) :
    ((strikeDipErrors o).2.1 = 0 ↔ n = 3 ∨ ∀ i, e i = 0) ∧
    ((strikeDipErrors o).2.2 = 0 ↔ n = 3 ∨ ∀ i, e i = 0) := by
  obtain ⟨p0, z0⟩ := rotated_variance_zero_iff ho hcol hr he 0
  obtain ⟨p1, z1⟩ := rotated_variance_zero_iff ho hcol hr he 1
  constructor
  · show degrees (Real.sqrt _) = 0 ↔ _
    rw [degrees_eq_zero_iff, Real.sqrt_eq_zero p0, z0]
  · show degrees (Real.sqrt _) = 0 ↔ _
    rw [degrees_eq_zero_iff, Real.sqrt_eq_zero p1, z1]

/-- The hypotheses are met by the four points of C35, whose uncertainties are not zero. -/
example : ∃ o, linearOrientation fourPoints = .ok o ∧ (strikeDipErrors o).2.1 ≠ 0 := by
  obtain ⟨o, ho, h0, -⟩ := C35_witness_false
  refine ⟨o, ho, ?_⟩
  show degrees (orientationErrors o 0) ≠ 0
  rw [h0, Ne, degrees_eq_zero_iff]
  positivity

/-- The first uncertainty is not that of the strike, the first angle, but belongs to the dip: a
small change of the slope along dip does not turn the plane, and a small change across does not
change the dip. -/
theorem C282_order_false {n : ℕ} (a : Fin n → Vec 3) (o : LinearOrientation)
    (ho : linearOrientation a = .ok o) (hd : o.slope ≠ 0) :
    ∃ g, 0 < g ∧ Spec.dipOfSlopes g 0 = (strikeDipErrors o).1.2 ∧
      Spec.FirstOrderError (fun t => Spec.turnOfSlopes t 0) g (orientationErrors o 0) 0 ∧
      Spec.FirstOrderError (fun t => Spec.dipOfSlopes g t) 0 (orientationErrors o 1) 0 := by
  obtain ⟨g, hg, hs, -⟩ := slope_tan ho
  have hg' : 0 < g := by
    rcases hg.lt_or_eq with k | k
    · exact k
    · rw [← k, Real.arctan_zero] at hs; exact absurd hs hd
  refine ⟨g, hg', ?_, ⟨0, hasDerivAt_turn_along, by simp⟩, ⟨0, hasDerivAt_dip_across hg', by simp⟩⟩
  show degrees (Real.arctan (Real.sqrt (g ^ 2 + 0 ^ 2))) = degrees o.slope
  rw [hs, show g ^ 2 + 0 ^ 2 = g ^ 2 by ring, Real.sqrt_sq hg]

/-- The first uncertainty is larger than the error of the dip: that is it times the square of the
cosine of the dip.  For every plane that is not horizontal it is right only if it is zero. -/
theorem C282_dip_false {n : ℕ} (a : Fin n → Vec 3) (o : LinearOrientation)
    (ho : linearOrientation a = .ok o) (hd : o.slope ≠ 0) :
    ∃ g e, 0 < g ∧ Spec.dipOfSlopes g 0 = (strikeDipErrors o).1.2 ∧
      Spec.FirstOrderError (fun t => Spec.dipOfSlopes t 0) g (orientationErrors o 0) e ∧
      e = (strikeDipErrors o).2.1 * Real.cos o.slope ^ 2 ∧ e ≤ (strikeDipErrors o).2.1 ∧
      (e = (strikeDipErrors o).2.1 ↔ (strikeDipErrors o).2.1 = 0) := by
  obtain ⟨g, hg, hdip, -⟩ := C282_order_false a o ho hd
  have hpi := Real.pi_pos
  obtain ⟨g', hg0, hs, ht⟩ := slope_tan ho
  have hgg : g' = g := by
    have : degrees (Real.arctan (Real.sqrt (g ^ 2 + 0 ^ 2))) = degrees o.slope := hdip
    rw [show g ^ 2 + 0 ^ 2 = g ^ 2 by ring, Real.sqrt_sq hg.le, hs] at this
    unfold degrees at this
    have := mul_right_cancel₀ (by norm_num : (180 : ℝ) ≠ 0) ((div_left_inj' hpi.ne').1 this)
    exact (Real.arctan_injective this).symm
  subst hgg
  have hE := (errors_nonneg o).1
  have hcos : Real.cos o.slope ^ 2 = 1 / (1 + g' ^ 2) := by
    rw [hs, Real.cos_sq_arctan]
  have hlt : Real.cos o.slope ^ 2 < 1 := by
    rw [hcos, div_lt_one (by positivity)]
    nlinarith
  have hE' : (strikeDipErrors o).2.1 = degrees (orientationErrors o 0) := rfl
  refine ⟨g', _, hg, hdip, ⟨_, hasDerivAt_dip hg, rfl⟩, ?_, ?_, ?_⟩
  all_goals
    have eq : |degrees (1 / (1 + g' ^ 2))| * orientationErrors o 0
        = (strikeDipErrors o).2.1 * Real.cos o.slope ^ 2 := by
      rw [hcos, hE', abs_of_nonneg (by unfold degrees; positivity)]
      unfold degrees
      ring
  · exact eq
  · rw [eq]
    have hE : 0 ≤ (strikeDipErrors o).2.1 := hE
    nlinarith
  · rw [eq]
    constructor
    · intro h
      have : (strikeDipErrors o).2.1 * (1 - Real.cos o.slope ^ 2) = 0 := by linarith
      rcases mul_eq_zero.1 this with k | k
      · exact k
      · linarith
    · intro h; rw [h]; ring

/-- The second uncertainty is the error of the strike times the tangent of the dip: it is right
only for dips of 45 degrees, and for gently dipping planes it is too small without limit. -/
theorem C282_strike_false {n : ℕ} (a : Fin n → Vec 3) (o : LinearOrientation)
    (ho : linearOrientation a = .ok o) (hd : o.slope ≠ 0) :
    ∃ g e, 0 < g ∧ Spec.dipOfSlopes g 0 = (strikeDipErrors o).1.2 ∧
      Spec.FirstOrderError (fun t => Spec.turnOfSlopes g t) 0 (orientationErrors o 1) e ∧
      (strikeDipErrors o).2.2 = e * Real.tan o.slope ∧
      (e = (strikeDipErrors o).2.2 ↔
        (strikeDipErrors o).2.2 = 0 ∨ (strikeDipErrors o).1.2 = 45) := by
  obtain ⟨g, hg, hdip, -⟩ := C282_order_false a o ho hd
  have hpi := Real.pi_pos
  obtain ⟨g', hg0, hs, ht⟩ := slope_tan ho
  have hgg : g' = g := by
    have : degrees (Real.arctan (Real.sqrt (g ^ 2 + 0 ^ 2))) = degrees o.slope := hdip
    rw [show g ^ 2 + 0 ^ 2 = g ^ 2 by ring, Real.sqrt_sq hg.le, hs] at this
    unfold degrees at this
    have := mul_right_cancel₀ (by norm_num : (180 : ℝ) ≠ 0) ((div_left_inj' hpi.ne').1 this)
    exact (Real.arctan_injective this).symm
  subst hgg
  have hE' : (strikeDipErrors o).2.2 = degrees (orientationErrors o 1) := rfl
  have eq : (strikeDipErrors o).2.2 = |degrees (1 / g')| * orientationErrors o 1 * Real.tan o.slope := by
    rw [ht, hE', abs_of_nonneg (by unfold degrees; positivity)]
    unfold degrees
    field_simp
  have h45 : (strikeDipErrors o).1.2 = 45 ↔ g' = 1 := by
    show degrees o.slope = 45 ↔ _
    rw [hs]
    unfold degrees
    constructor
    · intro h
      have : Real.arctan g' = Real.arctan 1 := by
        rw [Real.arctan_one]
        field_simp at h
        linarith
      exact Real.arctan_injective this
    · rintro rfl
      rw [Real.arctan_one]
      field_simp
      norm_num
  refine ⟨g', _, hg, hdip, ⟨_, hasDerivAt_turn, rfl⟩, eq, ?_⟩
  rw [h45]
  set E := |degrees (1 / g')| * orientationErrors o 1
  rw [ht] at eq
  constructor
  · intro h
    rw [eq] at h
    have : E * (g' - 1) = 0 := by linarith
    rcases mul_eq_zero.1 this with k | k
    · left; rw [eq, k, zero_mul]
    · right; linarith
  · rintro (h | h)
    · rw [h] at eq ⊢
      rcases mul_eq_zero.1 eq.symm with k | k
      · exact k
      · exact absurd k hg.ne'
    · rw [eq, h, mul_one]

lemma fourPoints_slope : ∃ o, linearOrientation fourPoints = .ok o ∧ o.slope ≠ 0 ∧
    (strikeDipErrors o).2.1 ≠ 0 := by
  obtain ⟨o, ho, h0, -⟩ := C35_witness_false
  refine ⟨o, ho, ?_, ?_⟩
  · obtain ⟨r, c, hr, hc, _, haz, hco, hsl⟩ := linearOrientation_ok ho
    obtain ⟨r', c', _, hr', hc', hcv, _⟩ := C32_witness_false
    rw [hr] at hr'
    cases hr'
    rw [hc] at hc'
    cases hc'
    have k0 := (rotated_coefficients c).1
    rw [← haz, ← hco, hcv] at k0
    rw [hsl, k0]
    simp only [Spec.gradient, neg_neg]
    intro h
    rw [Real.arctan_eq_zero_iff, Real.sqrt_eq_zero (by positivity)] at h
    norm_num at h
  · show degrees (orientationErrors o 0) ≠ 0
    rw [h0, Ne, degrees_eq_zero_iff]
    positivity

/-- The hypotheses are met by the four points of C35; the uncertainty of their dip is too large. -/
example : ∃ o g e, linearOrientation fourPoints = .ok o ∧
    Spec.FirstOrderError (fun t => Spec.dipOfSlopes t 0) g (orientationErrors o 0) e ∧
    e < (strikeDipErrors o).2.1 := by
  obtain ⟨o, ho, hs, h0⟩ := fourPoints_slope
  obtain ⟨g, e, _, _, hF, _, hle, hiff⟩ := C282_dip_false fourPoints o ho hs
  exact ⟨o, g, e, ho, hF, lt_of_le_of_ne hle fun h => h0 (hiff.1 h)⟩

example : ∃ o g e, linearOrientation fourPoints = .ok o ∧
    Spec.FirstOrderError (fun t => Spec.turnOfSlopes g t) 0 (orientationErrors o 1) e ∧
    (strikeDipErrors o).2.2 = e * Real.tan o.slope := by
  obtain ⟨o, ho, hs, _⟩ := fourPoints_slope
  obtain ⟨g, e, _, _, hF, h, _⟩ := C282_strike_false fourPoints o ho hs
  exact ⟨o, g, e, ho, hF, h⟩

end Attitude.Props
