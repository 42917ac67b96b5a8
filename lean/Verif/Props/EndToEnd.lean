import Verif.Props.PcaExact
import Verif.Props.FrontendShapes
import Verif.Props.FrontendAxes

/-!
# C181: from the fit in Python to the curves that the frontend draws
-/

namespace Attitude.Props

open Attitude Pca

/-! ## Specification -/

/-- A direction of the plane with strike `s` and dip `d`. -/
def Spec.InBedding (s d : ℝ) (v : Vec 3) : Prop :=
  ∃ x y : ℝ, v = x • Spec.heading s + y • Spec.plunging (s + 90) d

/-! ## Helper lemmas -/

lemma inBedding_of_perp {s d : ℝ} {v : Vec 3} (h : vdot v (sdNormal s d) = 0) :
    Spec.InBedding s d v := by
  refine ⟨vdot v (Spec.heading s), vdot v (Spec.plunging (s + 90) d), ?_⟩
  have e1 := Real.sin_sq_add_cos_sq (radians s)
  have e2 := Real.sin_sq_add_cos_sq (radians d)
  rw [vdot3] at h
  simp only [sdNormal, Matrix.cons_val_zero, Matrix.cons_val_one, Matrix.cons_val] at h
  rw [vdot3, vdot3, heading_eq, plunging_eq]
  set S := Real.sin (radians s)
  set C := Real.cos (radians s)
  set T := Real.sin (radians d)
  set K := Real.cos (radians d)
  funext j
  fin_cases j
  · simp
    linear_combination (-v 0) * e1 + (T * C) * h
      - (v 0 * C ^ 2 - v 1 * S * C) * e2
  · simp
    linear_combination (-v 1) * e1 - (T * S) * h
      - (v 1 * S ^ 2 - v 0 * S * C) * e2
  · simp
    linear_combination K * h - v 2 * e2

/-- Elevation of the directions of an error cone. -/
lemma cone_elevation {x y z h0 h1 h2 : ℝ} (p0 : 0 < h0) (p1 : 0 < h1) (p2 : 0 < h2)
    (hu : x ^ 2 + y ^ 2 + z ^ 2 = 1)
    (hc : (Real.sqrt h2 * (x / Real.sqrt h0)) ^ 2 + (Real.sqrt h2 * (y / Real.sqrt h1)) ^ 2
      = z ^ 2) :
    min (arctan2 (Real.sqrt h2) (Real.sqrt h0)) (arctan2 (Real.sqrt h2) (Real.sqrt h1))
        ≤ Real.arcsin |z| ∧
      Real.arcsin |z|
        ≤ max (arctan2 (Real.sqrt h2) (Real.sqrt h0)) (arctan2 (Real.sqrt h2) (Real.sqrt h1)) := by
  have s0 := Real.sqrt_pos.2 p0
  have s1 := Real.sqrt_pos.2 p1
  have s2 := Real.sqrt_pos.2 p2
  rw [arctan2_of_pos _ s0, arctan2_of_pos _ s1]
  simp only [mul_pow, div_pow, Real.sq_sqrt p0.le, Real.sq_sqrt p1.le, Real.sq_sqrt p2.le] at hc
  have hc' : z ^ 2 = h2 / h0 * x ^ 2 + h2 / h1 * y ^ 2 := by
    field_simp at hc ⊢
    linarith
  have hr : 0 < x ^ 2 + y ^ 2 := by
    rcases (add_nonneg (sq_nonneg x) (sq_nonneg y)).eq_or_lt with k | k
    · have hx : x ^ 2 = 0 := by nlinarith [sq_nonneg x, sq_nonneg y]
      have hy : y ^ 2 = 0 := by nlinarith [sq_nonneg x, sq_nonneg y]
      rw [hx, hy] at hc'
      nlinarith
    · exact k
  have hz1 : |z| < 1 := by
    rw [abs_lt]
    constructor <;> nlinarith
  have hsq : Real.sqrt (1 - |z| ^ 2) = Real.sqrt (x ^ 2 + y ^ 2) := by
    congr 1
    rw [sq_abs]
    linarith
  rw [Real.arcsin_eq_arctan ⟨by linarith [abs_nonneg z], hz1⟩, hsq]
  have hR := Real.sqrt_pos.2 hr
  have hmono := Real.arctan_strictMono.monotone
  have key : ∀ k : ℝ, 0 < k →
      ((Real.sqrt h2 / Real.sqrt k ≤ |z| / Real.sqrt (x ^ 2 + y ^ 2) ↔
        h2 / k * (x ^ 2 + y ^ 2) ≤ z ^ 2) ∧
      (|z| / Real.sqrt (x ^ 2 + y ^ 2) ≤ Real.sqrt h2 / Real.sqrt k ↔
        z ^ 2 ≤ h2 / k * (x ^ 2 + y ^ 2))) := by
    intro k hk
    have e1 : Real.sqrt h2 / Real.sqrt k = Real.sqrt (h2 / k) := (Real.sqrt_div p2.le k).symm
    have e2 : |z| / Real.sqrt (x ^ 2 + y ^ 2) = Real.sqrt (z ^ 2 / (x ^ 2 + y ^ 2)) := by
      rw [Real.sqrt_div (sq_nonneg z), Real.sqrt_sq_eq_abs]
    rw [e1, e2]
    constructor
    · rw [Real.sqrt_le_sqrt_iff (by positivity), le_div_iff₀ hr]
    · rw [Real.sqrt_le_sqrt_iff (by positivity), div_le_iff₀ hr]
  have hx := sq_nonneg x
  have hy := sq_nonneg y
  rcases le_total h0 h1 with hle | hle
  · have hq : h2 / h1 ≤ h2 / h0 := div_le_div_of_nonneg_left p2.le p0 hle
    constructor
    · refine le_trans (min_le_right _ _) (hmono ((key h1 p1).1.2 ?_))
      rw [hc']
      nlinarith [mul_le_mul_of_nonneg_right hq hx]
    · refine le_trans (hmono ((key h0 p0).2.2 ?_)) (le_max_left _ _)
      rw [hc']
      nlinarith [mul_le_mul_of_nonneg_right hq hy]
  · have hq : h2 / h0 ≤ h2 / h1 := div_le_div_of_nonneg_left p2.le p1 hle
    constructor
    · refine le_trans (min_le_left _ _) (hmono ((key h0 p0).1.2 ?_))
      rw [hc']
      nlinarith [mul_le_mul_of_nonneg_right hq hy]
    · refine le_trans (hmono ((key h1 p1).2.2 ?_)) (le_max_right _ _)
      rw [hc']
      nlinarith [mul_le_mul_of_nonneg_right hq hx]

lemma fit_orthonormal {n : ℕ} {a : Fin n → Vec 3} {f : Fit n} {U : Mat n 3} (h : IsFit a f U) :
    Spec.OrthonormalRows f.V := fun i j => h.svd.row_dot i j

/-! ## C181 -/

/-- What `to_mapping` exports for a fit and `combinedErrors` of the frontend draws: the nominal curve
consists of directions of the plane with the reported strike and dip (whatever the lengths of the
error axes). -/
theorem C181_nominal (svd : SvdFn) (hs : svd.Valid) {n : ℕ} (a : Fin n → Vec 3) (f : Fit n)
    (hf : init svd a none none = .ok (some f)) (h : Vec 3) (h0 : 0 < h 0) (h1 : 0 < h 1) (s d : ℝ) (hsd : strikeDip f = some (s, d)) (o : Frontend.Opts)
    (hu : o.upperHemisphere ≠ some false) (hn : o.n ≠ some 0) :
    (Frontend.combinedErrors h (some f.V) o).1.nominal ≠ [] ∧
    ∀ q ∈ (Frontend.combinedErrors h (some f.V) o).1.nominal, ∃ p, q = some p ∧
      Spec.InBedding s d (Spec.shown true (o.traditionalLayout.getD true) p) := by
  obtain ⟨U, hF⟩ := init_default hs hf
  obtain ⟨hlen, hall⟩ := C106_nominal h f.V (fit_orthonormal hF) h0 h1
    { o with sheet := some "nominal", degrees := some true } hu (.inr rfl) hn
  constructor
  · intro e
    have e' : (Frontend.planeErrors h (some f.V)
      { o with sheet := some "nominal", degrees := some true }).1 = [] := e
    rw [e'] at hlen
    cases hn' : o.n with
    | none => simp [hn'] at hlen
    | some k =>
      have : k ≠ 0 := fun hk => hn (by rw [hn', hk])
      simp [hn'] at hlen
      omega
  · intro q hq
    obtain ⟨p, hp, -, hz⟩ := hall q hq
    refine ⟨p, hp, inBedding_of_perp ?_⟩
    obtain ⟨s', d', e, -, -, -, -, a5⟩ := strikeDipOf_spec (fit_axis_ne_zero hF 2)
    rw [show strikeDipOf (f.V 2) = some (s, d) from hsd] at e
    cases e
    rw [hF.svd.row_norm, one_smul] at a5
    rw [a5]
    rcases upward_eq (f.V 2) with k | k <;> rw [k]
    · exact hz
    · have : vdot (Spec.shown true (o.traditionalLayout.getD true) p) (-f.V 2)
          = -vdot (Spec.shown true (o.traditionalLayout.getD true) p) (f.V 2) := by
        simp [vdot]
      rw [this, neg_eq_zero]
      exact hz

/-- A fit with positive error axes, used in the examples. -/
lemma tilted_axes : ∃ (svd : SvdFn) (f : Fit 4) (h : Vec 3), svd.Valid ∧
    init svd Witness.tilted none none = .ok (some f) ∧
    axesAt Spec.quantiles2 f false 0.2 = .ok (some h) ∧ 0 < h 0 ∧ 0 < h 1 ∧ 0 < h 2 := by
  obtain ⟨svd, f, hs, hf, _, e⟩ := Witness.exists_tilted
  obtain ⟨h, e1, e2, _, e3⟩ := C21_closed_form _ Spec.quantiles2_ok svd hs _ f hf false 0.2
    (by norm_num) (by norm_num)
  have v0 : eigenvalues f 0 = 3 := by simp [eigenvalues, e]; norm_num
  have v1 : eigenvalues f 1 = 4 / 3 := by simp [eigenvalues, e]; norm_num
  have v2 : eigenvalues f 2 = 1 / 3 := by simp [eigenvalues, e]; norm_num
  have hq : Spec.quantiles2.f 0.2 2 (4 - 2) = 1 / 4 := by
    simp only [Spec.quantiles2, Spec.fisher2]
    norm_num
  have b : Real.sqrt (1 / 2) < 1 := by
    rw [Real.sqrt_lt' one_pos]; norm_num
  have b' : Real.sqrt (2 / 9) < 1 := by
    rw [Real.sqrt_lt' one_pos]; norm_num
  refine ⟨svd, f, h, hs, hf, e1, ?_, ?_, ?_⟩
  · rw [e2]
    show 0 < |eigenvalues f 0 - _ * Spec.errorScale false 4 (eigenvalues f) 0|
    rw [hq]
    simp only [Spec.errorScale, Bool.false_eq_true, if_false, v0, v2]
    rw [show (3 : ℝ) * (1 / 3) / (((4 : ℕ) : ℝ) - 2) = 1 / 2 by norm_num]
    exact abs_pos.2 (by linarith)
  · rw [e2]
    show 0 < |eigenvalues f 1 - _ * Spec.errorScale false 4 (eigenvalues f) 1|
    rw [hq]
    simp only [Spec.errorScale, Bool.false_eq_true, if_false, v1, v2]
    rw [show (4 : ℝ) / 3 * (1 / 3) / (((4 : ℕ) : ℝ) - 2) = 2 / 9 by norm_num]
    exact abs_pos.2 (by linarith)
  · rw [v2] at e3
    linarith

example : ∃ (svd : SvdFn) (f : Fit 4) (h : Vec 3) (s d : ℝ), svd.Valid ∧
    init svd Witness.tilted none none = .ok (some f) ∧ strikeDip f = some (s, d) ∧
    (Frontend.combinedErrors h (some f.V) { n := some 4 }).1.nominal ≠ [] := by
  obtain ⟨svd, f, h, hs, hf, _, h0, h1, _⟩ := tilted_axes
  obtain ⟨U, hF⟩ := init_default hs hf
  obtain ⟨s, d, e, _⟩ := strikeDipOf_spec (fit_axis_ne_zero hF 2)
  exact ⟨svd, f, h, s, d, hs, hf, e, (C181_nominal svd hs _ f hf h h0 h1 s d e { n := some 4 }
    (by simp) (by simp)).1⟩

/-- The upper and the lower error curve: the angle between the fitted plane and every position is
between the two angular errors that Python reports at the same level. -/
theorem C181_errors (Q : ErrorAxes.Quantiles) (svd : SvdFn) (hs : svd.Valid) {n : ℕ}
    (a : Fin n → Vec 3) (f : Fit n) (hf : init svd a none none = .ok (some f)) (sampling : Bool)
    (cl : ℝ) (h : Vec 3) (hh : axesAt Q f sampling cl = .ok (some h)) (h0 : 0 < h 0) (h1 : 0 < h 1)
    (h2 : 0 < h 2) (o : Frontend.Opts) (hu : o.upperHemisphere ≠ some false) :
    (Frontend.combinedErrors h (some f.V) o).1.upper.length
      = (Frontend.combinedErrors h (some f.V) o).1.nominal.length ∧
    (Frontend.combinedErrors h (some f.V) o).1.lower.length
      = (Frontend.combinedErrors h (some f.V) o).1.nominal.length ∧
    ∃ e1 e2, errorsAt Q f sampling cl = some (e1, e2) ∧
      ∀ q, q ∈ (Frontend.combinedErrors h (some f.V) o).1.upper ∨
          q ∈ (Frontend.combinedErrors h (some f.V) o).1.lower → ∃ p, q = some p ∧
        min e1 e2 ≤ Spec.elevation
          (Spec.shown true (o.traditionalLayout.getD true) p) f.normal ∧
        Spec.elevation (Spec.shown true (o.traditionalLayout.getD true) p) f.normal
          ≤ max e1 e2 := by
  obtain ⟨U, hF⟩ := init_default hs hf
  refine ⟨?_, ?_, _, _, by simp only [errorsAt, hh]; rfl, fun q hq => ?_⟩
  · simp only [Frontend.combinedErrors, Frontend.planeErrors_eq, List.length_map,
      Frontend.ellipse_length]
    rfl
  · simp only [Frontend.combinedErrors, Frontend.planeErrors_eq, List.length_map,
      Frontend.ellipse_length]
    rfl
  have key : ∃ p σ, q = some p ∧
      Attitude.norm (Spec.shown true (o.traditionalLayout.getD true) p) = 1 ∧
      Spec.shown true (o.traditionalLayout.getD true) p ∈
        Spec.HalfCone f.V (fun i => Real.sqrt (h i)) (Real.sqrt (h 2)) σ := by
    rcases hq with hq | hq
    · have := C106_sheets h f.V (fit_orthonormal hF) h0 h1 h2
        { (Frontend.planeErrors h (some f.V) { o with sheet := some "nominal", degrees := some true }).2
          with sheet := some "upper", degrees := some true }
        (by
          simp only [Frontend.planeErrors, Frontend.Opts.defaults]
          cases hb : o.upperHemisphere with
          | none => simp
          | some b => cases b <;> simp_all) _ (.inl ⟨rfl, rfl⟩) q hq
      obtain ⟨p, hp, hn, hc⟩ := this
      exact ⟨p, _, hp, hn, hc⟩
    · have := C106_sheets h f.V (fit_orthonormal hF) h0 h1 h2
        { (Frontend.planeErrors h (some f.V)
          { (Frontend.planeErrors h (some f.V) { o with sheet := some "nominal", degrees := some true }).2
            with sheet := some "upper", degrees := some true }).2
          with sheet := some "lower", degrees := some true }
        (by
          simp only [Frontend.planeErrors, Frontend.Opts.defaults]
          cases hb : o.upperHemisphere with
          | none => simp
          | some b => cases b <;> simp_all) _ (.inr ⟨rfl, rfl⟩) q hq
      obtain ⟨p, hp, hn, hc⟩ := this
      exact ⟨p, _, hp, hn, hc⟩
  obtain ⟨p, σ, hp, hn, hc, -⟩ := key
  refine ⟨p, hp, ?_⟩
  set v := Spec.shown true (o.traditionalLayout.getD true) p with hv
  have hz : |vdot v f.normal| = |vdot v (f.V 2)| := by
    rw [hF.normal]
    rcases upward_eq (f.V 2) with k | k <;> rw [k]
    rw [← abs_neg]
    congr 1
    simp [vdot]
  unfold Spec.elevation
  rw [hz]
  refine cone_elevation (x := vdot v (f.V 0)) (y := vdot v (f.V 1)) h0 h1 h2 ?_ hc
  have e := hF.svd.norm_V v
  have e1 : ∑ j, v j ^ 2 = 1 := by rw [← norm_sq', hn]; norm_num
  have e2 : ∀ i, (f.V.mulVec v) i = vdot v (f.V i) := by
    intro i
    simp only [Matrix.mulVec, dotProduct, vdot]
    exact Finset.sum_congr rfl fun j _ => mul_comm _ _
  simp only [e1, Fin.sum_univ_three, e2] at e
  exact e

example : ∃ (svd : SvdFn) (f : Fit 4) (h : Vec 3) (e1 e2 : ℝ), svd.Valid ∧
    init svd Witness.tilted none none = .ok (some f) ∧
    axesAt Spec.quantiles2 f false 0.2 = .ok (some h) ∧
    errorsAt Spec.quantiles2 f false 0.2 = some (e1, e2) ∧
    ∀ q ∈ (Frontend.combinedErrors h (some f.V) {}).1.upper, ∃ p, q = some p ∧
      min e1 e2 ≤ Spec.elevation (Spec.shown true true p) f.normal := by
  obtain ⟨svd, f, h, hs, hf, e, h0, h1, h2⟩ := tilted_axes
  obtain ⟨_, _, e1, e2, k, hall⟩ := C181_errors _ svd hs _ f hf false 0.2 h e h0 h1 h2 {} (by simp)
  refine ⟨svd, f, h, e1, e2, hs, hf, e, k, fun q hq => ?_⟩
  obtain ⟨p, hp, hb, _⟩ := hall q (.inl hq)
  exact ⟨p, hp, hb⟩

end Attitude.Props
