import Verif.Props.Coverage
import Verif.Props.LinearOrientation

/-!
# C207 - C208: errors in all directions and errors of elevation, for both kinds of fits
-/

namespace Attitude.Props

open Attitude Pca Matrix MeasureTheory ProbabilityTheory Filter Topology

namespace Spec

variable {Ω : Type*} [MeasurableSpace Ω]

/-- The measured points `X` are true points `T` on a plane with normal `w`, in which they extend in
two directions, plus errors `E` that do not depend on where the points are. -/
structure MeasuredPlane (P : Measure Ω) (T E X : ℕ → Ω → Vec 3) (w : Vec 3) : Prop where
  sum : ∀ i ω, X i ω = T i ω + E i ω
  unit : norm w = 1
  onPlane : ∃ c, ∀ i ω, w 0 * T i ω 0 + w 1 * T i ω 1 + w 2 * T i ω 2 = c
  extent : ∃ g > 0, ∀ u, norm u = 1 →
    g * (1 - (u 0 * w 0 + u 1 * w 1 + u 2 * w 2) ^ 2) ≤ varianceAlong P T u
  finiteT : ∀ j, MemLp (fun ω => T 0 ω j) 2 P
  finiteE : ∀ j, MemLp (fun ω => E 0 ω j) 2 P
  uncorrelated : ∀ j k, cov[fun ω => T 0 ω j, fun ω => E 0 ω k; P] = 0

/-- The errors of the three coordinates have the same size `σ` and do not depend on each other. -/
def EqualErrors (P : Measure Ω) (E : ℕ → Ω → Vec 3) (σ : ℝ) : Prop :=
  ∀ j k, cov[fun ω => E 0 ω j, fun ω => E 0 ω k; P] = if j = k then σ ^ 2 else 0

/-- Only the elevation has errors, of size `σ`. -/
def VerticalErrors (P : Measure Ω) (E : ℕ → Ω → Vec 3) (σ : ℝ) : Prop :=
  (∀ i ω, E i ω 0 = 0 ∧ E i ω 1 = 0) ∧ Var[fun ω => E 0 ω 2; P] = σ ^ 2

end Spec

variable {Ω : Type*} [MeasurableSpace Ω] {P : Measure Ω} [IsProbabilityMeasure P]
  {X T E : ℕ → Ω → Vec 3} {w : Vec 3}

/-! ## Covariances -/

lemma variance_cov {Y : ℕ → Ω → Vec 3} (h : ∀ j, MemLp (fun ω => Y 0 ω j) 2 P) (u : Vec 3) :
    Spec.varianceAlong P Y u =
      ∑ j, ∑ k, u j * u k * cov[fun ω => Y 0 ω j, fun ω => Y 0 ω k; P] := by
  have e : (fun ω => u 0 * Y 0 ω 0 + u 1 * Y 0 ω 1 + u 2 * Y 0 ω 2) =
      fun ω => ∑ j, (fun j ω => u j * Y 0 ω j) j ω := by
    funext ω
    rw [Fin.sum_univ_three]
  rw [Spec.varianceAlong, e, variance_fun_sum fun j => (h j).const_mul (u j)]
  refine Finset.sum_congr rfl fun j _ => Finset.sum_congr rfl fun k _ => ?_
  rw [covariance_const_mul_left, covariance_const_mul_right, mul_assoc]

lemma cov_measured (h : Spec.MeasuredPlane P T E X w) (j k : Fin 3) :
    cov[fun ω => X 0 ω j, fun ω => X 0 ω k; P] =
      cov[fun ω => T 0 ω j, fun ω => T 0 ω k; P] + cov[fun ω => E 0 ω j, fun ω => E 0 ω k; P] := by
  have e : ∀ j, (fun ω => X 0 ω j) = (fun ω => T 0 ω j) + fun ω => E 0 ω j := by
    intro j
    funext ω
    rw [h.sum]
    rfl
  rw [e, e, covariance_add_left (h.finiteT j) (h.finiteE j) ((h.finiteT k).add (h.finiteE k)),
    covariance_add_right (h.finiteT j) (h.finiteT k) (h.finiteE k),
    covariance_add_right (h.finiteE j) (h.finiteT k) (h.finiteE k), h.uncorrelated,
    covariance_comm (fun ω => E 0 ω j), h.uncorrelated]
  ring

omit [IsProbabilityMeasure P] in
lemma finite_measured (h : Spec.MeasuredPlane P T E X w) (j : Fin 3) : MemLp (fun ω => X 0 ω j) 2 P := by
  have e : (fun ω => X 0 ω j) = (fun ω => T 0 ω j) + fun ω => E 0 ω j := by
    funext ω
    rw [h.sum]
    rfl
  rw [e]
  exact (h.finiteT j).add (h.finiteE j)

lemma variance_measured (h : Spec.MeasuredPlane P T E X w) (u : Vec 3) :
    Spec.varianceAlong P X u = Spec.varianceAlong P T u + Spec.varianceAlong P E u := by
  rw [variance_cov (finite_measured h), variance_cov h.finiteT, variance_cov h.finiteE,
    ← Finset.sum_add_distrib]
  refine Finset.sum_congr rfl fun j _ => ?_
  rw [← Finset.sum_add_distrib]
  refine Finset.sum_congr rfl fun k _ => ?_
  rw [cov_measured h]
  ring

lemma variance_onPlane (h : Spec.MeasuredPlane P T E X w) : Spec.varianceAlong P T w = 0 := by
  obtain ⟨c, hc⟩ := h.onPlane
  rw [Spec.varianceAlong, show (fun ω => w 0 * T 0 ω 0 + w 1 * T 0 ω 1 + w 2 * T 0 ω 2) = fun _ => c from
    funext fun ω => hc 0 ω, show (fun _ : Ω => c) = fun ω => c + 0 * T 0 ω 0 from by funext; ring,
    variance_const_add ((h.finiteT 0).const_mul 0).aestronglyMeasurable, variance_const_mul]
  ring

lemma variance_equal {σ : ℝ} (h : Spec.EqualErrors P E σ) (hE : ∀ j, MemLp (fun ω => E 0 ω j) 2 P)
    {u : Vec 3} (hu : norm u = 1) : Spec.varianceAlong P E u = σ ^ 2 := by
  have hu' := norm_one_iff.1 hu
  rw [variance_cov hE]
  simp only [h _ _, mul_ite, mul_zero, Finset.sum_ite_eq, Finset.mem_univ, if_true]
  rw [← Finset.sum_mul]
  have : ∑ j, u j * u j = 1 := by rw [← hu']; exact Finset.sum_congr rfl fun j _ => (sq _).symm
  rw [this, one_mul]

omit [IsProbabilityMeasure P] in
lemma variance_vertical {σ : ℝ} (h : Spec.VerticalErrors P E σ) (u : Vec 3) :
    Spec.varianceAlong P E u = u 2 ^ 2 * σ ^ 2 := by
  rw [Spec.varianceAlong, ← h.2, ← variance_const_mul]
  congr 1
  funext ω
  rw [(h.1 0 ω).1, (h.1 0 ω).2]
  ring

omit [IsProbabilityMeasure P] in
lemma variance_nonneg' (u : Vec 3) : 0 ≤ Spec.varianceAlong P X u := variance_nonneg _ _

/-! ## C207: principal components -/

/-- Equal errors of the coordinates: strike and dip of the fits of more and more points converge to those
of the true plane. -/
theorem C207_equal_errors_partial (svd : SvdFn) (hs : svd.Valid) (P : Measure Ω) [IsProbabilityMeasure P]
    (T E X : ℕ → Ω → Vec 3) (w : Vec 3) (h : Spec.IndependentPoints P X)
    (hw : Spec.MeasuredPlane P T E X w) (σ : ℝ) (hσ : 0 < σ) (hE : Spec.EqualErrors P E σ)
    (s₀ d₀ : ℝ) (h0 : 0 ≤ d₀) (h1 : d₀ < 90) (hw2 : 0 ≤ w 2) (hrule : Spec.RightHandRule w s₀ d₀) :
    ∀ᵐ ω ∂P, ∀ ε > 0, ∃ N, ∀ n ≥ N, ∃ f s d, init svd (Spec.first X ω n) none none = .ok (some f) ∧
      strikeDip f = some (s, d) ∧ |d - d₀| < ε ∧ (0 < d₀ → ∃ k : ℤ, |s - s₀ - 360 * k| < ε) := by
  refine C205_strike_dip svd hs P X h w ⟨hw.unit, ?_, ?_⟩ s₀ d₀ h0 h1 hw2 hrule
  · rw [variance_measured hw, variance_onPlane hw, variance_equal hE hw.finiteE hw.unit]
    positivity
  · obtain ⟨g, hg, hx⟩ := hw.extent
    refine ⟨g, hg, fun u hu => ?_⟩
    rw [variance_measured hw, variance_measured hw, variance_onPlane hw, variance_equal hE hw.finiteE hu,
      variance_equal hE hw.finiteE hw.unit]
    linarith [hx u hu]

/-- A direction along which points with errors of elevation vary less than across the true plane. -/
lemma vertical_better {σ : ℝ} (hσ : 0 < σ) (hw : Spec.MeasuredPlane P T E X w)
    (hE : Spec.VerticalErrors P E σ) (hw2 : 0 < w 2) (hw1 : w 2 < 1) :
    ∃ u, norm u = 1 ∧ Spec.varianceAlong P X u < Spec.varianceAlong P X w := by
  have hn := norm_one_iff.1 hw.unit
  rw [Fin.sum_univ_three] at hn
  -- the direction of the plane that rises most
  set v : Vec 3 := ![-(w 0 * w 2), -(w 1 * w 2), 1 - w 2 ^ 2] with hv
  have v0 : v 0 = -(w 0 * w 2) := rfl
  have v1 : v 1 = -(w 1 * w 2) := rfl
  have v2 : v 2 = 1 - w 2 ^ 2 := rfl
  set V := Spec.varianceAlong P T v with hV
  have hV0 : 0 ≤ V := variance_nonneg' v
  have hb : 0 < 1 - w 2 ^ 2 := by nlinarith
  set b := 1 - w 2 ^ 2 with hbd
  -- along `w - t v`
  set t := w 2 * b * σ ^ 2 / (V + b ^ 2 * σ ^ 2) with ht
  have hden : 0 < V + b ^ 2 * σ ^ 2 := by positivity
  have ht0 : 0 < t := by positivity
  have htV : t * (V + b ^ 2 * σ ^ 2) = w 2 * b * σ ^ 2 := by rw [ht]; field_simp
  set r := Real.sqrt (1 + t ^ 2 * b) with hr
  have hr2 : r ^ 2 = 1 + t ^ 2 * b := Real.sq_sqrt (by positivity)
  have hr0 : 0 < r := Real.sqrt_pos.2 (by positivity)
  have hvT : ∀ ρ : ℝ, Spec.varianceAlong P T (ρ • (w - t • v)) = ρ ^ 2 * t ^ 2 * V := by
    intro ρ
    obtain ⟨c, hc⟩ := hw.onPlane
    have e : (fun ω => (ρ • (w - t • v)) 0 * T 0 ω 0 + (ρ • (w - t • v)) 1 * T 0 ω 1 +
        (ρ • (w - t • v)) 2 * T 0 ω 2) =
        fun ω => ρ * c + -(ρ * t) * (v 0 * T 0 ω 0 + v 1 * T 0 ω 1 + v 2 * T 0 ω 2) := by
      funext ω
      rw [← hc 0 ω]
      simp only [Pi.smul_apply, Pi.sub_apply, smul_eq_mul]
      ring
    have m : MemLp (fun ω => v 0 * T 0 ω 0 + v 1 * T 0 ω 1 + v 2 * T 0 ω 2) 2 P :=
      (((hw.finiteT 0).const_mul _).add ((hw.finiteT 1).const_mul _)).add ((hw.finiteT 2).const_mul _)
    rw [Spec.varianceAlong, e, variance_const_add (m.const_mul _).aestronglyMeasurable, variance_const_mul]
    show (-(ρ * t)) ^ 2 * V = _
    ring
  refine ⟨r⁻¹ • (w - t • v), ?_, ?_⟩
  · rw [norm_one_iff, Fin.sum_univ_three]
    simp only [Pi.smul_apply, Pi.sub_apply, smul_eq_mul, v0, v1, v2]
    have : (w 0 - t * -(w 0 * w 2)) ^ 2 + (w 1 - t * -(w 1 * w 2)) ^ 2 + (w 2 - t * b) ^ 2 = r ^ 2 := by
      have e2 : w 0 ^ 2 + w 1 ^ 2 = b := by rw [hbd]; linarith
      have e3 : w 2 ^ 2 = 1 - b := by rw [hbd]; ring
      rw [hr2]
      linear_combination (1 + t * w 2) ^ 2 * e2 + (t ^ 2 * b + 1) * e3
    field_simp
    linarith
  · rw [variance_measured hw, variance_measured hw, variance_onPlane hw, hvT, variance_vertical hE,
      variance_vertical hE]
    have e : (r⁻¹ • (w - t • v)) 2 = r⁻¹ * (w 2 - t * b) := rfl
    rw [e]
    have key : t ^ 2 * V + (w 2 - t * b) ^ 2 * σ ^ 2 < r ^ 2 * (w 2 ^ 2 * σ ^ 2) := by
      rw [hr2]
      have e1 : t ^ 2 * V + (w 2 - t * b) ^ 2 * σ ^ 2 = t * (t * (V + b ^ 2 * σ ^ 2)) + w 2 ^ 2 * σ ^ 2
          - 2 * t * b * w 2 * σ ^ 2 := by ring
      rw [e1, htV]
      have p1 : 0 < t * b * w 2 * σ ^ 2 := by positivity
      have p2 : 0 ≤ t ^ 2 * b * (w 2 ^ 2 * σ ^ 2) := by positivity
      linarith
    have : r⁻¹ ^ 2 * t ^ 2 * V + (r⁻¹ * (w 2 - t * b)) ^ 2 * σ ^ 2 =
        (t ^ 2 * V + (w 2 - t * b) ^ 2 * σ ^ 2) / r ^ 2 := by
      field_simp
    rw [this, zero_add, div_lt_iff₀ (by positivity)]
    linarith

/-- Only errors of elevation: the fits of more and more points are steeper than a true plane that is
inclined, and by how much does not tend to zero. -/
theorem C207_vertical_errors_false (svd : SvdFn) (hs : svd.Valid) (P : Measure Ω) [IsProbabilityMeasure P]
    (T E X : ℕ → Ω → Vec 3) (w : Vec 3) (h : Spec.IndependentPoints P X)
    (hw : Spec.MeasuredPlane P T E X w) (σ : ℝ) (hσ : 0 < σ) (hE : Spec.VerticalErrors P E σ)
    (s₀ d₀ : ℝ) (h0 : 0 < d₀) (h1 : d₀ < 90) (hw2 : 0 ≤ w 2) (hrule : Spec.RightHandRule w s₀ d₀) :
    ∃ ε > 0, ∀ᵐ ω ∂P, ∃ N, ∀ n ≥ N, ∃ f s d, init svd (Spec.first X ω n) none none = .ok (some f) ∧
      strikeDip f = some (s, d) ∧ d₀ + ε ≤ d := by
  have hpi := Real.pi_pos
  have hsd := normal_of_rule hw.unit h0.le h1 hw2 hrule
  have hw2e : w 2 = Real.cos (radians d₀) := by rw [hsd]; rfl
  have hrad : ∀ x, radians x = x * (Real.pi / 180) := fun x => by unfold radians; ring
  have hr0 : 0 < radians d₀ := by rw [hrad]; positivity
  have hr1 : radians d₀ < Real.pi / 2 := by rw [hrad]; nlinarith
  have hpos : 0 < w 2 := by
    rw [hw2e]
    exact Real.cos_pos_of_mem_Ioo ⟨by linarith, hr1⟩
  have hlt : w 2 < 1 := by
    rw [hw2e, ← Real.cos_zero]
    exact Real.cos_lt_cos_of_nonneg_of_le_pi le_rfl (by linarith) hr0
  obtain ⟨u, hu, hbetter⟩ := vertical_better hσ hw hE hpos hlt
  set γ := Spec.varianceAlong P X w - Spec.varianceAlong P X u with hγ
  have hγ0 : 0 < γ := by linarith
  -- how much smaller the cosine of the dip is
  set η := γ / (4 * σ ^ 2) with hη
  have hη0 : 0 < η := by positivity
  refine ⟨degrees η, by unfold degrees; positivity, ?_⟩
  filter_upwards [variance_converges h] with ω hω
  obtain ⟨N, h3, hN⟩ := hω (γ / 4) (by positivity)
  refine ⟨N, fun n hn => ?_⟩
  obtain ⟨f, hf⟩ := init_default_exists svd (by omega : 3 ≤ n) (Spec.first X ω n)
  obtain ⟨U, hF⟩ := init_default hs hf
  obtain ⟨s, d, h', -, -, r1, r2, -⟩ := strikeDipOf_spec (fit_axis_ne_zero hF 2)
  obtain ⟨s', d', e', -, hup, hn'⟩ := C14_fit_right_hand_rule svd hs _ f hf
  have h'' : strikeDip f = some (s, d) := h'
  rw [e'] at h''
  obtain ⟨rfl, rfl⟩ := Prod.mk.inj (Option.some.inj h'')
  refine ⟨f, s', d', hf, e', ?_⟩
  have hn'' : f.normal = sdNormal s' d' := hn'
  have hc' : f.normal 2 = Real.cos (radians d') := by rw [hn'']; rfl
  -- the fit is at least as good as `u`
  have a2 := hN n hn (f.V 2) (row_sq hF.svd 2)
  have au := hN n hn u (norm_one_iff.1 hu)
  rw [hF.svd.sum_sq_row] at a2
  have hopt := hF.svd.optimal u
  rw [norm_one_iff.1 hu, mul_one] at hopt
  have hnn : (0 : ℝ) < n := by
    have : 0 < n := by omega
    positivity
  have hopt' := div_le_div_of_nonneg_right hopt hnn.le
  obtain ⟨l2, -⟩ := abs_le.1 a2
  obtain ⟨-, ru⟩ := abs_le.1 au
  have hle : Spec.varianceAlong P X (f.V 2) ≤ Spec.varianceAlong P X w - γ / 2 := by linarith
  rw [variance_measured hw, variance_measured hw, variance_onPlane hw, variance_vertical hE,
    variance_vertical hE] at hle
  have hT0 : 0 ≤ Spec.varianceAlong P T (f.V 2) := variance_nonneg' _
  have hsq : f.normal 2 ^ 2 = f.V 2 2 ^ 2 := by
    rw [hF.normal]
    rcases upward_eq (f.V 2) with h | h <;> rw [h]
    simp
  have hγη : γ = 4 * σ ^ 2 * η := by rw [hη]; field_simp
  have hfin : f.normal 2 ^ 2 ≤ w 2 ^ 2 - 2 * η := by
    rw [hsq]
    have : f.V 2 2 ^ 2 * σ ^ 2 ≤ (w 2 ^ 2 - 2 * η) * σ ^ 2 := by
      rw [hγη] at hle
      linarith
    exact le_of_mul_le_mul_right this (by positivity)
  have hup' : 0 ≤ f.normal 2 := hup
  have hcos : Real.cos (radians d') + η ≤ Real.cos (radians d₀) := by
    rw [← hc', ← hw2e]
    have hxw : f.normal 2 ≤ w 2 := (abs_le_of_sq_le_sq' (by linarith) hpos.le).2
    nlinarith [mul_nonneg (sub_nonneg.2 hxw) (by linarith : 0 ≤ 2 - (w 2 + f.normal 2))]
  have hq0 : 0 ≤ radians d' := by rw [hrad]; positivity
  have hdd : radians d₀ < radians d' := by
    by_contra hcon
    push Not at hcon
    have := Real.cos_le_cos_of_nonneg_of_le_pi hq0 (by linarith) hcon
    linarith
  have hlip := Real.abs_cos_sub_cos_le (radians d₀) (radians d')
  have hfin' : η ≤ radians d' - radians d₀ := by
    rw [abs_of_nonneg (by linarith), abs_of_neg (by linarith)] at hlip
    linarith
  rw [hrad, hrad] at hfin'
  unfold degrees
  have e : η * 180 / Real.pi ≤ d' - d₀ := by
    rw [div_le_iff₀ hpi]
    nlinarith
  linarith

/-! ## C208: regression -/

/-- The covariances of the first points converge. -/
lemma cov_converges (h : Spec.IndependentPoints P X) :
    ∀ᵐ ω ∂P, ∀ j k, Tendsto (fun n : ℕ => (∑ i, Coordinates.centered (Spec.first X ω n) i j *
      Coordinates.centered (Spec.first X ω n) i k) / n) atTop
      (𝓝 cov[fun ω => X 0 ω j, fun ω => X 0 ω k; P]) := by
  have h2 : ∀ᵐ ω ∂P, ∀ j k : Fin 3, Tendsto (fun n : ℕ =>
      (∑ i, Spec.first X ω n i j * Spec.first X ω n i k) / n) atTop
      (𝓝 (∫ ω, X 0 ω j * X 0 ω k ∂P)) := by
    rw [ae_all_iff]
    intro j
    rw [ae_all_iff]
    intro k
    exact averages h (fun x => x j * x k) (by fun_prop) ((h.finite j).integrable_mul (h.finite k))
  have h1 : ∀ᵐ ω ∂P, ∀ j : Fin 3, Tendsto (fun n : ℕ =>
      (∑ i, Spec.first X ω n i j) / n) atTop (𝓝 (∫ ω, X 0 ω j ∂P)) := by
    rw [ae_all_iff]
    intro j
    exact averages h (fun x => x j) (by fun_prop) ((h.finite j).integrable (by norm_num))
  filter_upwards [h1, h2] with ω t1 t2 j k
  rw [covariance_eq_sub (h.finite j) (h.finite k)]
  refine ((t2 j k).sub ((t1 j).mul (t1 k))).congr' ?_
  filter_upwards [eventually_gt_atTop 0] with n hn
  have hn' : (n : ℝ) ≠ 0 := by positivity
  set a := Spec.first X ω n with ha
  have hm : ∀ j, ∑ i, a i j = n * meanRows a j := by
    intro j
    simp only [meanRows]
    field_simp
  have e : ∀ i, Coordinates.centered a i j * Coordinates.centered a i k =
      a i j * a i k - a i j * meanRows a k - meanRows a j * a i k + meanRows a j * meanRows a k := by
    intro i
    simp only [Coordinates.centered]
    ring
  rw [Finset.sum_congr rfl fun i _ => e i, Finset.sum_add_distrib, Finset.sum_sub_distrib,
    Finset.sum_sub_distrib, ← Finset.sum_mul, ← Finset.mul_sum, hm, hm, Finset.sum_const, Finset.card_univ,
    Fintype.card_fin, nsmul_eq_mul]
  field_simp
  ring

/-- The normal equations in terms of covariances. -/
lemma coefficients_cov {n : ℕ} {a : Fin n → Vec 3} {r : Linear.Regression n} (hr : Linear.initRows a = .ok r)
    {c : Vec 3} (hc : (Linear.coefficients r).1 = .ok c) (A : Fin 3 → Fin 3 → ℝ)
    (hA : ∀ j k, A j k = (∑ i, Coordinates.centered a i j * Coordinates.centered a i k) / n) :
    c 0 * A 0 0 + c 1 * A 0 1 = A 0 2 ∧ c 0 * A 0 1 + c 1 * A 1 1 = A 1 2 := by
  obtain ⟨_, o0, o1⟩ := residual_orthogonal hr hc
  have h2 := intercept_zero hr hc
  simp only [h2, add_zero, mul_sub, mul_add, Finset.sum_sub_distrib, Finset.sum_add_distrib] at o0 o1
  have m : ∀ j k l, ∑ i, Coordinates.centered a i j * (c l * Coordinates.centered a i k) =
      c l * ∑ i, Coordinates.centered a i j * Coordinates.centered a i k := by
    intro j k l
    rw [Finset.mul_sum]
    exact Finset.sum_congr rfl fun i _ => by ring
  have comm : ∑ i, Coordinates.centered a i 1 * Coordinates.centered a i 0 =
      ∑ i, Coordinates.centered a i 0 * Coordinates.centered a i 1 :=
    Finset.sum_congr rfl fun i _ => mul_comm _ _
  rw [m, m] at o0 o1
  rw [comm] at o1
  simp only [hA]
  constructor
  · rw [mul_div_assoc', mul_div_assoc', ← add_div]
    congr 1
    linarith
  · rw [mul_div_assoc', mul_div_assoc', ← add_div]
    congr 1
    linarith

lemma not_collinear_of_cov {n : ℕ} {a : Fin n → Vec 3} (hn : n ≠ 0) (A : Fin 3 → Fin 3 → ℝ)
    (hA : ∀ j k, A j k = (∑ i, Coordinates.centered a i j * Coordinates.centered a i k) / n)
    (hd : A 0 0 * A 1 1 - A 0 1 ^ 2 ≠ 0) : ¬ Spec.CollinearInPlan a := by
  rintro ⟨p, q, t, hpq, hl⟩
  have hn' : (n : ℝ) ≠ 0 := by exact_mod_cast hn
  have hx : ∀ i, p * Coordinates.centered a i 0 + q * Coordinates.centered a i 1 = 0 := by
    have hmean : p * meanRows a 0 + q * meanRows a 1 = t := by
      have : ∑ i, (p * a i 0 + q * a i 1) = n * t := by
        rw [Finset.sum_congr rfl fun i _ => hl i]
        simp
      rw [Finset.sum_add_distrib, ← Finset.mul_sum, ← Finset.mul_sum] at this
      simp only [meanRows]
      field_simp
      linarith
    intro i
    simp only [Coordinates.centered]
    linear_combination hl i - hmean
  have key : ∀ j, p * A 0 j + q * A 1 j = 0 := by
    intro j
    rw [hA, hA, mul_div_assoc', mul_div_assoc', ← add_div, Finset.mul_sum, Finset.mul_sum,
      ← Finset.sum_add_distrib]
    rw [Finset.sum_eq_zero, zero_div]
    intro i _
    linear_combination Coordinates.centered a i j * hx i
  have hcomm : A 1 0 = A 0 1 := by
    rw [hA, hA]
    congr 1
    exact Finset.sum_congr rfl fun i _ => mul_comm _ _
  have k0 := key 0
  have k1 := key 1
  rw [hcomm] at k0
  have d0 : p * (A 0 0 * A 1 1 - A 0 1 ^ 2) = 0 := by linear_combination A 1 1 * k0 - A 0 1 * k1
  have d1 : q * (A 0 0 * A 1 1 - A 0 1 ^ 2) = 0 := by linear_combination A 0 0 * k1 - A 0 1 * k0
  rcases hpq with hp | hq
  · exact (mul_ne_zero hp hd) d0
  · exact (mul_ne_zero hq hd) d1

/-- The coefficients of the regressions of more and more points converge to those for the covariances of the
distribution. -/
lemma regression_converges (h : Spec.IndependentPoints P X) (S : Fin 3 → Fin 3 → ℝ)
    (hS : ∀ j k, S j k = cov[fun ω => X 0 ω j, fun ω => X 0 ω k; P])
    (hd : 0 < S 0 0 * S 1 1 - S 0 1 ^ 2) {p q : ℝ} (hp : p * S 0 0 + q * S 0 1 = S 0 2)
    (hq : p * S 0 1 + q * S 1 1 = S 1 2) :
    ∀ᵐ ω ∂P, ∃ x y : ℕ → ℝ, Tendsto x atTop (𝓝 p) ∧ Tendsto y atTop (𝓝 q) ∧ ∃ N, ∀ n ≥ N,
      ∃ o r c, Linear.linearOrientation (Spec.first X ω n) = .ok o ∧
        Linear.initRows (Spec.first X ω n) = .ok r ∧ (Linear.coefficients r).1 = .ok c ∧
        c 0 = x n ∧ c 1 = y n := by
  filter_upwards [cov_converges h] with ω hω
  set A : ℕ → Fin 3 → Fin 3 → ℝ := fun n j k => (∑ i, Coordinates.centered (Spec.first X ω n) i j *
      Coordinates.centered (Spec.first X ω n) i k) / n with hA
  have hA' : ∀ j k, Tendsto (fun n => A n j k) atTop (𝓝 (S j k)) := by
    intro j k
    rw [hS]
    exact hω j k
  have tdet : Tendsto (fun n => A n 0 0 * A n 1 1 - A n 0 1 ^ 2) atTop (𝓝 (S 0 0 * S 1 1 - S 0 1 ^ 2)) :=
    ((hA' 0 0).mul (hA' 1 1)).sub ((hA' 0 1).pow 2)
  have tx := (((hA' 0 2).mul (hA' 1 1)).sub ((hA' 1 2).mul (hA' 0 1))).div tdet hd.ne'
  have ty := (((hA' 1 2).mul (hA' 0 0)).sub ((hA' 0 2).mul (hA' 0 1))).div tdet hd.ne'
  have ep : (S 0 2 * S 1 1 - S 1 2 * S 0 1) / (S 0 0 * S 1 1 - S 0 1 ^ 2) = p := by
    rw [div_eq_iff hd.ne', ← hp, ← hq]
    ring
  have eq : (S 1 2 * S 0 0 - S 0 2 * S 0 1) / (S 0 0 * S 1 1 - S 0 1 ^ 2) = q := by
    rw [div_eq_iff hd.ne', ← hp, ← hq]
    ring
  rw [ep] at tx
  rw [eq] at ty
  obtain ⟨N, hN⟩ := eventually_atTop.1 (tdet.eventually (lt_mem_nhds hd))
  refine ⟨_, _, tx, ty, max N 1, fun n hn => ?_⟩
  have hdn := hN n (le_of_max_le_left hn)
  have hn0 : n ≠ 0 := by have := le_of_max_le_right hn; omega
  have hcol := not_collinear_of_cov hn0 (A n) (fun j k => rfl) hdn.ne'
  obtain ⟨o, ho⟩ := linearOrientation_exists hn0 hcol
  obtain ⟨r, c, hr, hc, -⟩ := linearOrientation_ok ho
  obtain ⟨e0, e1⟩ := coefficients_cov hr hc (A n) (fun j k => rfl)
  refine ⟨o, r, c, ho, hr, hc, ?_, ?_⟩
  · show c 0 = _ / _
    rw [eq_div_iff hdn.ne']
    linear_combination A n 1 1 * e0 - A n 0 1 * e1
  · show c 1 = _ / _
    rw [eq_div_iff hdn.ne']
    linear_combination A n 0 0 * e1 - A n 0 1 * e0

/-- The covariances of true points. -/
lemma cov_plane (h : Spec.MeasuredPlane P T E X w) (j : Fin 3) :
    w 0 * cov[fun ω => T 0 ω j, fun ω => T 0 ω 0; P] + w 1 * cov[fun ω => T 0 ω j, fun ω => T 0 ω 1; P] +
      w 2 * cov[fun ω => T 0 ω j, fun ω => T 0 ω 2; P] = 0 := by
  obtain ⟨c, hc⟩ := h.onPlane
  have m : ∀ l, MemLp (fun ω => w l * T 0 ω l) 2 P := fun l => (h.finiteT l).const_mul _
  have e : cov[fun ω => T 0 ω j, ((fun ω => w 0 * T 0 ω 0) + fun ω => w 1 * T 0 ω 1) +
      fun ω => w 2 * T 0 ω 2; P] = 0 := by
    rw [show ((fun ω => w 0 * T 0 ω 0) + fun ω => w 1 * T 0 ω 1) + (fun ω => w 2 * T 0 ω 2) = fun _ => c from
      funext fun ω => hc 0 ω]
    exact covariance_const_right c
  rwa [covariance_add_right (h.finiteT j) ((m 0).add (m 1)) (m 2),
    covariance_add_right (h.finiteT j) (m 0) (m 1), covariance_const_mul_right, covariance_const_mul_right,
    covariance_const_mul_right] at e

/-- In map view the points extend in two directions. -/
lemma cov_positive (h : Spec.MeasuredPlane P T E X w) (hw2 : w 2 ≠ 0) : ∃ m > 0, ∀ a b : ℝ,
    m * (a ^ 2 + b ^ 2) ≤ a ^ 2 * cov[fun ω => T 0 ω 0, fun ω => T 0 ω 0; P] +
      2 * a * b * cov[fun ω => T 0 ω 0, fun ω => T 0 ω 1; P] +
      b ^ 2 * cov[fun ω => T 0 ω 1, fun ω => T 0 ω 1; P] := by
  obtain ⟨g, hg, hx⟩ := h.extent
  refine ⟨g * w 2 ^ 2, by positivity, fun a b => ?_⟩
  have hn := norm_one_iff.1 h.unit
  rw [Fin.sum_univ_three] at hn
  rcases eq_or_ne (a ^ 2 + b ^ 2) 0 with hz | hz
  · have ha : a = 0 := by nlinarith [sq_nonneg a, sq_nonneg b]
    have hb : b = 0 := by nlinarith [sq_nonneg a, sq_nonneg b]
    simp [ha, hb]
  · have hpos : 0 < a ^ 2 + b ^ 2 := lt_of_le_of_ne (by positivity) hz.symm
    set r := Real.sqrt (a ^ 2 + b ^ 2) with hr
    have hr2 : r ^ 2 = a ^ 2 + b ^ 2 := Real.sq_sqrt hpos.le
    have hr0 : 0 < r := Real.sqrt_pos.2 hpos
    have hu := hx ![a / r, b / r, 0] (by
      rw [norm_one_iff, Fin.sum_univ_three]
      simp only [Matrix.cons_val_zero, Matrix.cons_val_one, Matrix.cons_val]
      field_simp
      rw [hr2]
      ring)
    rw [variance_cov h.finiteT] at hu
    simp only [Fin.sum_univ_three, Matrix.cons_val_zero, Matrix.cons_val_one, Matrix.cons_val, zero_mul,
      mul_zero, add_zero] at hu
    rw [covariance_comm (fun ω => T 0 ω 1) (fun ω => T 0 ω 0)] at hu
    set c00 := cov[fun ω => T 0 ω 0, fun ω => T 0 ω 0; P]
    set c01 := cov[fun ω => T 0 ω 0, fun ω => T 0 ω 1; P]
    set c11 := cov[fun ω => T 0 ω 1, fun ω => T 0 ω 1; P]
    have hcs : (a * w 0 + b * w 1) ^ 2 ≤ r ^ 2 * (w 0 ^ 2 + w 1 ^ 2) := by
      rw [hr2]
      nlinarith [sq_nonneg (a * w 1 - b * w 0)]
    have e1 : r ^ 2 * (g * (1 - (a / r * w 0 + b / r * w 1) ^ 2)) = g * (r ^ 2 - (a * w 0 + b * w 1) ^ 2) := by
      field_simp
    have e2 : r ^ 2 * (a / r * (a / r) * c00 + a / r * (b / r) * c01 + (b / r * (a / r) * c01 +
        b / r * (b / r) * c11)) = a ^ 2 * c00 + 2 * a * b * c01 + b ^ 2 * c11 := by
      field_simp
      ring
    have := mul_le_mul_of_nonneg_left hu (sq_nonneg r)
    rw [e1, e2] at this
    rw [← hr2]
    have h3 : g * (r ^ 2 * w 2 ^ 2) ≤ g * (r ^ 2 - (a * w 0 + b * w 1) ^ 2) := by
      refine mul_le_mul_of_nonneg_left ?_ hg.le
      have : w 2 ^ 2 = 1 - (w 0 ^ 2 + w 1 ^ 2) := by linarith
      rw [this]
      linarith
    linarith

lemma det_positive {s t u m : ℝ} (hm : 0 < m)
    (h : ∀ a b : ℝ, m * (a ^ 2 + b ^ 2) ≤ a ^ 2 * s + 2 * a * b * t + b ^ 2 * u) : 0 < s * u - t ^ 2 := by
  have h1 := h 0 1
  have h2 := h u (-t)
  have hu : 0 < u := by linarith
  have : 0 < u * (s * u - t ^ 2) := by
    have : 0 < m * (u ^ 2 + (-t) ^ 2) := by positivity
    linarith
  exact (mul_pos_iff_of_pos_left hu).1 this

/-- Slopes of the true plane. -/
lemma slopes_of_normal {s₀ d₀ : ℝ} (h0 : 0 ≤ d₀) (h1 : d₀ < 90) (hw : w = sdNormal s₀ d₀) :
    0 < w 2 ∧ Spec.gradient (-w 0 / w 2) (-w 1 / w 2) = Real.tan (radians d₀) := by
  have hpi := Real.pi_pos
  have hrad : radians d₀ = d₀ * (Real.pi / 180) := by unfold radians; ring
  have hr0 : 0 ≤ radians d₀ := by rw [hrad]; positivity
  have hr1 : radians d₀ < Real.pi / 2 := by rw [hrad]; nlinarith
  have e2 : w 2 = Real.cos (radians d₀) := by rw [hw]; rfl
  have e0 : w 0 = Real.sin (radians d₀) * Real.cos (radians s₀) := by rw [hw]; rfl
  have e1 : w 1 = -(Real.sin (radians d₀) * Real.sin (radians s₀)) := by rw [hw]; rfl
  have hc : 0 < Real.cos (radians d₀) := Real.cos_pos_of_mem_Ioo ⟨by linarith, hr1⟩
  refine ⟨by rw [e2]; exact hc, ?_⟩
  unfold Spec.gradient
  rw [Real.tan_eq_sin_div_cos]
  have hs : 0 ≤ Real.sin (radians d₀) := Real.sin_nonneg_of_nonneg_of_le_pi hr0 (by linarith)
  rw [show (-w 0 / w 2) ^ 2 + (-w 1 / w 2) ^ 2 = (Real.sin (radians d₀) / Real.cos (radians d₀)) ^ 2 by
    rw [e0, e1, e2]
    field_simp
    linear_combination Real.sin (radians d₀) ^ 2 * Real.sin_sq_add_cos_sq (radians s₀)]
  exact Real.sqrt_sq (by positivity)

/-- Only errors of elevation: strike and dip of the regressions of more and more points converge to those of
the true plane. -/
theorem C208_vertical_errors_partial (P : Measure Ω) [IsProbabilityMeasure P]
    (T E X : ℕ → Ω → Vec 3) (w : Vec 3) (h : Spec.IndependentPoints P X)
    (hw : Spec.MeasuredPlane P T E X w) (σ : ℝ) (hE : Spec.VerticalErrors P E σ)
    (s₀ d₀ : ℝ) (h0 : 0 ≤ d₀) (h1 : d₀ < 90) (hw2 : 0 ≤ w 2) (hrule : Spec.RightHandRule w s₀ d₀) :
    ∀ᵐ ω ∂P, ∀ ε > 0, ∃ N, ∀ n ≥ N, ∃ o, Linear.linearOrientation (Spec.first X ω n) = .ok o ∧
      |(Linear.strikeDip o).2 - d₀| < ε ∧
      (0 < d₀ → ∃ k : ℤ, |(Linear.strikeDip o).1 - s₀ - 360 * k| < ε) := by
  have hsd := normal_of_rule hw.unit h0 h1 hw2 hrule
  obtain ⟨hpos, -⟩ := slopes_of_normal h0 h1 hsd
  set S : Fin 3 → Fin 3 → ℝ := fun j k => cov[fun ω => X 0 ω j, fun ω => X 0 ω k; P] with hS
  -- errors do not change these covariances
  have hST : ∀ j k, j ≠ 2 → S j k = cov[fun ω => T 0 ω j, fun ω => T 0 ω k; P] := by
    intro j k hj
    have hz : (fun ω => E 0 ω j) = fun _ => 0 := by
      funext ω
      fin_cases j
      · exact (hE.1 0 ω).1
      · exact (hE.1 0 ω).2
      · exact absurd rfl hj
    show cov[fun ω => X 0 ω j, fun ω => X 0 ω k; P] = _
    rw [cov_measured hw, hz, covariance_const_left, add_zero]
  have hdet : 0 < S 0 0 * S 1 1 - S 0 1 ^ 2 := by
    obtain ⟨m, hm, hq⟩ := cov_positive hw hpos.ne'
    rw [hST 0 0 (by decide), hST 1 1 (by decide), hST 0 1 (by decide)]
    exact det_positive hm hq
  have hcomm : S 1 0 = S 0 1 := covariance_comm _ _
  have hj : ∀ j, j ≠ 2 → (-w 0 / w 2) * S j 0 + (-w 1 / w 2) * S j 1 = S j 2 := by
    intro j hj
    have := cov_plane hw j
    rw [← hST j 0 hj, ← hST j 1 hj, ← hST j 2 hj] at this
    field_simp
    linarith
  have j1 := hj 1 (by decide)
  rw [hcomm] at j1
  filter_upwards [regression_converges h S (fun _ _ => rfl) hdet (hj 0 (by decide)) j1] with ω hω ε hε
  obtain ⟨x, y, tx, ty, N, hN⟩ := hω
  obtain ⟨δ, hδ, hclose⟩ := sd_close (s₀ := s₀) h0 h1 hε
  -- the normals converge
  have tdot : Tendsto (fun n => 1 - (-x n * w 0 + -y n * w 1 + w 2) /
      Real.sqrt (1 + Spec.gradient (x n) (y n) ^ 2)) atTop (𝓝 0) := by
    have tg : Tendsto (fun n => Real.sqrt (1 + Spec.gradient (x n) (y n) ^ 2)) atTop
        (𝓝 (Real.sqrt (1 + Spec.gradient (-w 0 / w 2) (-w 1 / w 2) ^ 2))) := by
      unfold Spec.gradient
      exact (((((tx.pow 2).add (ty.pow 2)).sqrt).pow 2).const_add 1).sqrt
    have hgr : Real.sqrt (1 + Spec.gradient (-w 0 / w 2) (-w 1 / w 2) ^ 2) = 1 / w 2 := by
      have hn := norm_one_iff.1 hw.unit
      rw [Fin.sum_univ_three] at hn
      rw [Spec.gradient, Real.sq_sqrt (by positivity),
        show 1 + ((-w 0 / w 2) ^ 2 + (-w 1 / w 2) ^ 2) = (1 / w 2) ^ 2 by
          field_simp; linarith]
      exact Real.sqrt_sq (by positivity)
    rw [hgr] at tg
    have := ((((tx.neg.mul_const (w 0)).add (ty.neg.mul_const (w 1))).add_const (w 2)).div tg
      (by positivity)).const_sub 1
    have hn := norm_one_iff.1 hw.unit
    rw [Fin.sum_univ_three] at hn
    have e : 1 - (-(-w 0 / w 2) * w 0 + -(-w 1 / w 2) * w 1 + w 2) / (1 / w 2) = 0 := by
      field_simp
      linarith
    rw [e] at this
    exact this
  obtain ⟨M, hM⟩ := eventually_atTop.1 (tdot.eventually (gt_mem_nhds hδ))
  refine ⟨max N M, fun n hn => ?_⟩
  obtain ⟨o, r, c, ho, hr, hc, c0, c1⟩ := hN n (le_of_max_le_left hn)
  have hlt := hM n (le_of_max_le_right hn)
  have hlin := linear_sdNormal ho hr hc
  obtain ⟨_, _, _, _, e0, e1⟩ := C34_right_hand_rule _ o ho
  refine ⟨o, ho, hclose _ _ e0 e1.le ?_⟩
  rw [← c0, ← c1] at hlt
  set R := Real.sqrt (1 + Spec.gradient (c 0) (c 1) ^ 2) with hR
  have hR0 : 0 < R := Real.sqrt_pos.2 (by positivity)
  have l0 : -c 0 = R * sdNormal (Linear.strikeDip o).1 (Linear.strikeDip o).2 0 := congrFun hlin 0
  have l1 : -c 1 = R * sdNormal (Linear.strikeDip o).1 (Linear.strikeDip o).2 1 := congrFun hlin 1
  have l2 : 1 = R * sdNormal (Linear.strikeDip o).1 (Linear.strikeDip o).2 2 := congrFun hlin 2
  refine lt_of_eq_of_lt ?_ hlt
  rw [← hsd]
  congr 1
  rw [eq_div_iff hR0.ne', l0, l1]
  linear_combination w 2 * (-l2)

/-- The regression of measurements with equal errors has a smaller gradient. -/
lemma smaller_gradient {s t u σ p q p' q' m : ℝ} (hσ : 0 < σ) (hm : 0 < m)
    (h : ∀ a b : ℝ, m * (a ^ 2 + b ^ 2) ≤ a ^ 2 * s + 2 * a * b * t + b ^ 2 * u)
    (e0 : p' * (s + σ ^ 2) + q' * t = p * s + q * t) (e1 : p' * t + q' * (u + σ ^ 2) = p * t + q * u)
    (hpq : 0 < p ^ 2 + q ^ 2) : p' ^ 2 + q' ^ 2 < p ^ 2 + q ^ 2 := by
  have h1 := h (p - p') (q - q')
  have e : (p - p') ^ 2 * s + 2 * (p - p') * (q - q') * t + (q - q') ^ 2 * u =
      σ ^ 2 * (p' * (p - p') + q' * (q - q')) := by
    linear_combination (-(p - p')) * e0 - (q - q') * e1
  rw [e] at h1
  -- not equal, or there would be no slope
  have hne : 0 < (p - p') ^ 2 + (q - q') ^ 2 := by
    refine lt_of_le_of_ne (by positivity) fun hz => ?_
    have ha : p - p' = 0 := by nlinarith [sq_nonneg (p - p'), sq_nonneg (q - q')]
    have hb : q - q' = 0 := by nlinarith [sq_nonneg (p - p'), sq_nonneg (q - q')]
    have z0 : p' * σ ^ 2 = 0 := by linear_combination e0 + s * ha + t * hb
    have z1 : q' * σ ^ 2 = 0 := by linear_combination e1 + t * ha + u * hb
    have hs : σ ^ 2 ≠ 0 := by positivity
    have k0 : p' = 0 := (mul_eq_zero.1 z0).resolve_right hs
    have k1 : q' = 0 := (mul_eq_zero.1 z1).resolve_right hs
    rw [k0, sub_zero] at ha
    rw [k1, sub_zero] at hb
    rw [ha, hb] at hpq
    norm_num at hpq
  have h2 : 0 < σ ^ 2 * (p' * (p - p') + q' * (q - q')) := lt_of_lt_of_le (by positivity) h1
  have h3 : 0 < p' * (p - p') + q' * (q - q') := (mul_pos_iff_of_pos_left (by positivity)).1 h2
  nlinarith

/-- Equal errors of the coordinates: the regressions of more and more points dip less than a true plane that
is inclined, and by how much does not tend to zero. -/
theorem C208_equal_errors_false (P : Measure Ω) [IsProbabilityMeasure P]
    (T E X : ℕ → Ω → Vec 3) (w : Vec 3) (h : Spec.IndependentPoints P X)
    (hw : Spec.MeasuredPlane P T E X w) (σ : ℝ) (hσ : 0 < σ) (hE : Spec.EqualErrors P E σ)
    (s₀ d₀ : ℝ) (h0 : 0 < d₀) (h1 : d₀ < 90) (hw2 : 0 ≤ w 2) (hrule : Spec.RightHandRule w s₀ d₀) :
    ∃ ε > 0, ∀ᵐ ω ∂P, ∃ N, ∀ n ≥ N, ∃ o, Linear.linearOrientation (Spec.first X ω n) = .ok o ∧
      (Linear.strikeDip o).2 + ε ≤ d₀ := by
  have hpi := Real.pi_pos
  have hsd := normal_of_rule hw.unit h0.le h1 hw2 hrule
  obtain ⟨hpos, hgrad⟩ := slopes_of_normal h0.le h1 hsd
  have hrad : radians d₀ = d₀ * (Real.pi / 180) := by unfold radians; ring
  have hr0 : 0 < radians d₀ := by rw [hrad]; positivity
  have hr1 : radians d₀ < Real.pi / 2 := by rw [hrad]; nlinarith
  set S : Fin 3 → Fin 3 → ℝ := fun j k => cov[fun ω => X 0 ω j, fun ω => X 0 ω k; P] with hS
  set C : Fin 3 → Fin 3 → ℝ := fun j k => cov[fun ω => T 0 ω j, fun ω => T 0 ω k; P] with hC
  have hST : ∀ j k, S j k = C j k + if j = k then σ ^ 2 else 0 := by
    intro j k
    show cov[fun ω => X 0 ω j, fun ω => X 0 ω k; P] = _
    rw [cov_measured hw, hE j k]
  obtain ⟨m, hm, hq⟩ := cov_positive hw hpos.ne'
  have s00 : S 0 0 = C 0 0 + σ ^ 2 := by rw [hST]; simp
  have s11 : S 1 1 = C 1 1 + σ ^ 2 := by rw [hST]; simp
  have s01 : S 0 1 = C 0 1 := by rw [hST]; simp
  have s02 : S 0 2 = C 0 2 := by rw [hST]; simp
  have s12 : S 1 2 = C 1 2 := by rw [hST]; simp
  have hcomm : C 1 0 = C 0 1 := covariance_comm _ _
  have hdet : 0 < S 0 0 * S 1 1 - S 0 1 ^ 2 := by
    rw [s00, s11, s01]
    refine det_positive hm fun a b => (hq a b).trans ?_
    have : 0 ≤ (a ^ 2 + b ^ 2) * σ ^ 2 := by positivity
    show a ^ 2 * C 0 0 + 2 * a * b * C 0 1 + b ^ 2 * C 1 1 ≤ _
    linarith
  set p := -w 0 / w 2 with hp
  set q := -w 1 / w 2 with hqd
  have j0 : p * C 0 0 + q * C 0 1 = C 0 2 := by
    have : w 0 * C 0 0 + w 1 * C 0 1 + w 2 * C 0 2 = 0 := cov_plane hw 0
    rw [hp, hqd]
    field_simp
    linarith
  have j1 : p * C 0 1 + q * C 1 1 = C 1 2 := by
    have : w 0 * C 1 0 + w 1 * C 1 1 + w 2 * C 1 2 = 0 := cov_plane hw 1
    rw [hcomm] at this
    rw [hp, hqd]
    field_simp
    linarith
  -- the limit of the coefficients
  obtain ⟨p', q', e0, e1⟩ : ∃ p' q', p' * S 0 0 + q' * S 0 1 = S 0 2 ∧ p' * S 0 1 + q' * S 1 1 = S 1 2 := by
    refine ⟨(S 0 2 * S 1 1 - S 1 2 * S 0 1) / (S 0 0 * S 1 1 - S 0 1 ^ 2),
      (S 1 2 * S 0 0 - S 0 2 * S 0 1) / (S 0 0 * S 1 1 - S 0 1 ^ 2), ?_, ?_⟩
    · rw [div_mul_eq_mul_div, div_mul_eq_mul_div, ← add_div, div_eq_iff hdet.ne']
      ring
    · rw [div_mul_eq_mul_div, div_mul_eq_mul_div, ← add_div, div_eq_iff hdet.ne']
      ring
  have hlt : Spec.gradient p' q' < Spec.gradient p q := by
    have hpq : 0 < p ^ 2 + q ^ 2 := by
      have : 0 < Spec.gradient p q := by
        rw [hgrad]
        exact Real.tan_pos_of_pos_of_lt_pi_div_two hr0 hr1
      exact Real.sqrt_pos.1 this
    refine Real.sqrt_lt_sqrt (by positivity) (smaller_gradient hσ hm hq (p := p) (q := q) ?_ ?_ hpq)
    · show p' * (C 0 0 + σ ^ 2) + q' * C 0 1 = p * C 0 0 + q * C 0 1
      rw [← s00, ← s01, e0, s02, s01, j0]
    · show p' * C 0 1 + q' * (C 1 1 + σ ^ 2) = p * C 0 1 + q * C 1 1
      rw [← s11, ← s01, e1, s12, s01, j1]
  have hdip : degrees (Real.arctan (Spec.gradient p q)) = d₀ := by
    rw [hgrad, Real.arctan_tan (by linarith) hr1]
    unfold degrees radians
    field_simp
  have hlt' : degrees (Real.arctan (Spec.gradient p' q')) < d₀ := by
    rw [← hdip]
    unfold degrees
    have := Real.arctan_strictMono hlt
    gcongr
  set D := degrees (Real.arctan (Spec.gradient p' q')) with hD
  refine ⟨(d₀ - D) / 2, by linarith, ?_⟩
  filter_upwards [regression_converges h S (fun _ _ => rfl) hdet e0 e1] with ω hω
  obtain ⟨x, y, tx, ty, N, hN⟩ := hω
  have td : Tendsto (fun n => degrees (Real.arctan (Spec.gradient (x n) (y n)))) atTop (𝓝 D) := by
    unfold degrees
    refine Tendsto.div_const (Tendsto.mul_const _ ?_) _
    refine (Real.continuous_arctan.tendsto _).comp ?_
    unfold Spec.gradient
    exact ((tx.pow 2).add (ty.pow 2)).sqrt
  obtain ⟨M, hM⟩ := eventually_atTop.1 (td.eventually (gt_mem_nhds (by linarith : D < (d₀ + D) / 2)))
  refine ⟨max N M, fun n hn => ?_⟩
  obtain ⟨o, r, c, ho, hr, hc, c0, c1⟩ := hN n (le_of_max_le_left hn)
  have hl := hM n (le_of_max_le_right hn)
  obtain ⟨r', c', hr', hc', _, haz, hco, hsl⟩ := linearOrientation_ok ho
  rw [hr] at hr'
  cases hr'
  rw [hc] at hc'
  cases hc'
  obtain ⟨k0, -, -⟩ := rotated_coefficients c
  rw [← haz, ← hco] at k0
  refine ⟨o, ho, ?_⟩
  have : (Linear.strikeDip o).2 = degrees (Real.arctan (Spec.gradient (x n) (y n))) := by
    show degrees o.slope = _
    rw [hsl, k0, neg_neg, c0, c1]
  rw [this]
  linarith

/-! ## An example: points on a plane with strike 0 and dip 45, all coordinates and errors normal -/

/-- Independent standard normal variables, five for each point. -/
lemma exists_normals (ι : Type) [Fintype ι] : ∃ (Ω : Type) (_ : MeasurableSpace Ω) (P : Measure Ω) (_ : IsProbabilityMeasure P)
    (Z : ℕ → Ω → ι → ℝ), (∀ i, Measurable (Z i)) ∧ (Pairwise fun i k => IndepFun (Z i) (Z k) P) ∧
      (∀ i, IdentDistrib (Z i) (Z 0) P P) ∧ (∀ j, MemLp (fun ω => Z 0 ω j) 2 P) ∧ (∀ j, ∫ ω, Z 0 ω j ∂P = 0) ∧
      ∀ c d : ι → ℝ, cov[fun ω => ∑ j, c j * Z 0 ω j, fun ω => ∑ j, d j * Z 0 ω j; P] = ∑ j, c j * d j := by
  set μ : Measure (ι → ℝ) := Measure.pi fun _ => gaussianReal 0 1 with hμ
  obtain ⟨Ω, mΩ, P, Z, hm, hl, hi, hP⟩ := exists_iid.{0, 0} ℕ μ
  have hev : ∀ j, P.map (fun ω => Z 0 ω j) = gaussianReal 0 1 := by
    intro j
    have h1 : P.map (fun ω => Z 0 ω j) = (P.map (Z 0)).map (fun z : ι → ℝ => z j) :=
      (Measure.map_map (measurable_pi_apply j) (hm 0)).symm
    rw [h1, (hl 0).map_eq]
    exact (measurePreserving_eval _ j).map_eq
  have hLp : ∀ j, MemLp (fun ω => Z 0 ω j) 2 P := by
    intro j
    have h1 : MemLp id 2 (P.map (fun ω => Z 0 ω j)) := by
      rw [hev j]
      exact memLp_id_gaussianReal' 2 (by norm_num)
    exact (memLp_map_measure_iff aestronglyMeasurable_id
      ((measurable_pi_apply j).comp (hm 0)).aemeasurable).1 h1
  have hvar : ∀ c : ι → ℝ, Var[fun ω => ∑ j, c j * Z 0 ω j; P] = ∑ j, c j ^ 2 := by
    intro c
    have e : (fun ω => ∑ j, c j * Z 0 ω j) = (∑ j, fun z : ι → ℝ => (fun j x => c j * x) j (z j)) ∘ Z 0 := by
      funext ω
      simp
    rw [e, ← variance_map (by fun_prop) (hm 0).aemeasurable, (hl 0).map_eq, hμ, variance_sum_pi]
    · refine Finset.sum_congr rfl fun j _ => ?_
      rw [variance_const_mul, variance_fun_id_gaussianReal]
      simp
    · intro j
      exact (memLp_id_gaussianReal' 2 (by norm_num)).const_mul (c j)
  have hmem : ∀ c : ι → ℝ, MemLp (fun ω => ∑ j, c j * Z 0 ω j) 2 P := fun c =>
    memLp_finsetSum _ fun j _ => (hLp j).const_mul (c j)
  refine ⟨Ω, mΩ, P, hP, Z, hm, fun i k hik => hi.indepFun hik, fun i =>
    ⟨(hm i).aemeasurable, (hm 0).aemeasurable, by rw [(hl i).map_eq, (hl 0).map_eq]⟩, hLp, fun j => ?_, fun c d => ?_⟩
  · have := integral_map (μ := P) ((measurable_pi_apply j).comp (hm 0)).aemeasurable
      (f := fun x : ℝ => x) aestronglyMeasurable_id
    rw [show P.map ((fun z : ι → ℝ => z j) ∘ Z 0) = gaussianReal 0 1 from hev j,
      integral_id_gaussianReal] at this
    exact this.symm
  have h1 := variance_add (hmem c) (hmem d)
  have e : ((fun ω => ∑ j, c j * Z 0 ω j) + fun ω => ∑ j, d j * Z 0 ω j) = fun ω => ∑ j, (c j + d j) * Z 0 ω j := by
    funext ω
    simp only [Pi.add_apply, add_mul, Finset.sum_add_distrib]
  rw [e, hvar (fun j => c j + d j), hvar, hvar] at h1
  have h2 : ∑ j, (c j + d j) ^ 2 = ∑ j, c j ^ 2 + 2 * ∑ j, c j * d j + ∑ j, d j ^ 2 := by
    rw [Finset.mul_sum, ← Finset.sum_add_distrib, ← Finset.sum_add_distrib]
    exact Finset.sum_congr rfl fun j _ => by ring
  linarith

/-- Points of the plane, with errors that are linear in further variables. -/
lemma exists_measured (C : Fin 3 → Fin 5 → ℝ) (hC : ∀ j, C j 0 = 0 ∧ C j 1 = 0) :
    ∃ (Ω : Type) (_ : MeasurableSpace Ω) (P : Measure Ω) (_ : IsProbabilityMeasure P) (T E X : ℕ → Ω → Vec 3),
      Spec.IndependentPoints P X ∧ Spec.MeasuredPlane P T E X (sdNormal 0 45) ∧
      (∀ j k, cov[fun ω => E 0 ω j, fun ω => E 0 ω k; P] = ∑ l, C j l * C k l) ∧
      ∀ j, (∀ l, C j l = 0) → ∀ i ω, E i ω j = 0 := by
  obtain ⟨Ω, mΩ, P, hP, Z, hm, hi, hid, hLp, -, hcov⟩ := exists_normals (Fin 5)
  set q := Real.sqrt 2 / 2 with hq
  have hq2 : q * q = 1 / 2 := by
    rw [hq]
    have := Real.mul_self_sqrt (by norm_num : (0 : ℝ) ≤ 2)
    linarith
  have hw : sdNormal 0 45 = ![q, 0, q] := by
    have e : radians 45 = Real.pi / 4 := by unfold radians; ring
    have e0 : radians 0 = 0 := by unfold radians; ring
    simp [sdNormal, e, e0, hq]
  set B : Fin 3 → Fin 5 → ℝ := ![![0, q, 0, 0, 0], ![1, 0, 0, 0, 0], ![0, -q, 0, 0, 0]] with hB
  have hmem : ∀ c : Fin 5 → ℝ, MemLp (fun ω => ∑ j, c j * Z 0 ω j) 2 P := fun c =>
    memLp_finsetSum _ fun j _ => (hLp j).const_mul (c j)
  set F : (Fin 5 → ℝ) → Vec 3 := fun z j => (∑ l, B j l * z l) + ∑ l, C j l * z l with hF
  have hFm : Measurable F := by
    rw [measurable_pi_iff]
    intro j
    show Measurable fun z : Fin 5 → ℝ => (∑ l, B j l * z l) + ∑ l, C j l * z l
    fun_prop
  refine ⟨Ω, mΩ, P, hP, fun i ω j => ∑ l, B j l * Z i ω l, fun i ω j => ∑ l, C j l * Z i ω l,
    fun i ω => F (Z i ω), ⟨fun i k hik => (hi hik).comp hFm hFm, fun i => (hid i).comp hFm, fun j =>
      (hmem (B j)).add (hmem (C j))⟩, ⟨fun i ω => rfl, ?_, ⟨0, fun i ω => ?_⟩, ⟨1, one_pos, fun u hu => ?_⟩,
      fun j => hmem _, fun j => hmem _, fun j k => ?_⟩, fun j k => hcov _ _, fun j hj i ω => ?_⟩
  · rw [hw, norm_one_iff, Fin.sum_univ_three]
    simp only [Matrix.cons_val_zero, Matrix.cons_val_one, Matrix.cons_val]
    linarith [hq2, sq q]
  · rw [hw]
    simp only [hB, Fin.sum_univ_five, Matrix.cons_val_zero, Matrix.cons_val_one, Matrix.cons_val]
    ring
  · have hu' := norm_one_iff.1 hu
    rw [Fin.sum_univ_three] at hu'
    rw [variance_cov (fun j => hmem _), hw]
    simp only [hcov]
    simp only [hB, Fin.sum_univ_five, Fin.sum_univ_three, Matrix.cons_val_zero, Matrix.cons_val_one,
      Matrix.cons_val]
    have : (u 0 * q + u 1 * 0 + u 2 * q) ^ 2 = (u 0 + u 2) ^ 2 / 2 := by
      linear_combination (u 0 + u 2) ^ 2 * hq2
    rw [this]
    apply le_of_eq
    linear_combination -hu' - (u 0 - u 2) ^ 2 * hq2
  · show cov[fun ω => ∑ l, B j l * Z 0 ω l, fun ω => ∑ l, C k l * Z 0 ω l; P] = 0
    rw [hcov]
    fin_cases j <;> simp [hB, Fin.sum_univ_five, (hC k).1, (hC k).2]
  · show ∑ l, C j l * Z i ω l = 0
    exact Finset.sum_eq_zero fun l _ => by rw [hj l, zero_mul]

lemma exists_equal : ∃ (Ω : Type) (_ : MeasurableSpace Ω) (P : Measure Ω) (_ : IsProbabilityMeasure P)
    (T E X : ℕ → Ω → Vec 3), Spec.IndependentPoints P X ∧ Spec.MeasuredPlane P T E X (sdNormal 0 45) ∧
      Spec.EqualErrors P E 1 := by
  obtain ⟨Ω, mΩ, P, hP, T, E, X, h, hw, hc, -⟩ := exists_measured
    ![![0, 0, 1, 0, 0], ![0, 0, 0, 1, 0], ![0, 0, 0, 0, 1]] (by intro j; fin_cases j <;> simp)
  refine ⟨Ω, mΩ, P, hP, T, E, X, h, hw, fun j k => ?_⟩
  rw [hc]
  fin_cases j <;> fin_cases k <;> simp [Fin.sum_univ_five]

lemma exists_vertical : ∃ (Ω : Type) (_ : MeasurableSpace Ω) (P : Measure Ω) (_ : IsProbabilityMeasure P)
    (T E X : ℕ → Ω → Vec 3), Spec.IndependentPoints P X ∧ Spec.MeasuredPlane P T E X (sdNormal 0 45) ∧
      Spec.VerticalErrors P E 1 := by
  obtain ⟨Ω, mΩ, P, hP, T, E, X, h, hw, hc, hz⟩ := exists_measured
    ![![0, 0, 0, 0, 0], ![0, 0, 0, 0, 0], ![0, 0, 0, 0, 1]] (by intro j; fin_cases j <;> simp)
  refine ⟨Ω, mΩ, P, hP, T, E, X, h, hw, fun i ω => ⟨hz 0 (by intro l; fin_cases l <;> rfl) i ω,
    hz 1 (by intro l; fin_cases l <;> rfl) i ω⟩, ?_⟩
  rw [← covariance_self (hw.finiteE 2).aestronglyMeasurable.aemeasurable, hc]
  simp [Fin.sum_univ_five]

lemma example_rule : Spec.RightHandRule (sdNormal 0 45) 0 45 ∧ 0 ≤ sdNormal 0 45 2 := by
  refine ⟨by simpa using rightHandRule_sdNormal 1 0 45, ?_⟩
  show 0 ≤ Real.cos (radians 45)
  have := Real.pi_pos
  refine Real.cos_nonneg_of_mem_Icc ⟨?_, ?_⟩ <;> unfold radians <;> nlinarith

/-- Non-vacuity: with equal errors, a fit comes close and a regression of the same points is too flat. -/
example : ∃ (svd : SvdFn) (Ω : Type) (_ : MeasurableSpace Ω) (P : Measure Ω) (_ : IsProbabilityMeasure P)
    (X : ℕ → Ω → Vec 3), svd.Valid ∧ ∃ ω n f s d o, init svd (Spec.first X ω n) none none = .ok (some f) ∧
      strikeDip f = some (s, d) ∧ |d - 45| < 1 / 100 ∧
      Linear.linearOrientation (Spec.first X ω n) = .ok o ∧ (Linear.strikeDip o).2 < 45 := by
  obtain ⟨svd, hs⟩ := exists_valid_svd
  obtain ⟨Ω, mΩ, P, hP, T, E, X, h, hw, hE⟩ := exists_equal
  obtain ⟨hr, h2⟩ := example_rule
  obtain ⟨ε, hε, hreg⟩ := C208_equal_errors_false P T E X _ h hw 1 one_pos hE 0 45 (by norm_num) (by norm_num) h2 hr
  obtain ⟨ω, hω, hω'⟩ := ((C207_equal_errors_partial svd hs P T E X _ h hw 1 one_pos hE 0 45 (by norm_num)
    (by norm_num) h2 hr).and hreg).exists
  obtain ⟨N, hN⟩ := hω (1 / 100) (by norm_num)
  obtain ⟨M, hM⟩ := hω'
  obtain ⟨f, s, d, hf, e, h3, -⟩ := hN (max N M) (le_max_left _ _)
  obtain ⟨o, ho, h4⟩ := hM (max N M) (le_max_right _ _)
  exact ⟨svd, Ω, mΩ, P, hP, X, hs, ω, _, f, s, d, o, hf, e, h3, ho, by linarith⟩

/-- Non-vacuity: with errors of elevation, a regression comes close and a fit of the same points is too
steep. -/
example : ∃ (svd : SvdFn) (Ω : Type) (_ : MeasurableSpace Ω) (P : Measure Ω) (_ : IsProbabilityMeasure P)
    (X : ℕ → Ω → Vec 3), svd.Valid ∧ ∃ ω n f s d o, init svd (Spec.first X ω n) none none = .ok (some f) ∧
      strikeDip f = some (s, d) ∧ 45 < d ∧
      Linear.linearOrientation (Spec.first X ω n) = .ok o ∧ |(Linear.strikeDip o).2 - 45| < 1 / 100 := by
  obtain ⟨svd, hs⟩ := exists_valid_svd
  obtain ⟨Ω, mΩ, P, hP, T, E, X, h, hw, hE⟩ := exists_vertical
  obtain ⟨hr, h2⟩ := example_rule
  obtain ⟨ε, hε, hfit⟩ := C207_vertical_errors_false svd hs P T E X _ h hw 1 one_pos hE 0 45 (by norm_num)
    (by norm_num) h2 hr
  obtain ⟨ω, hω, hω'⟩ := ((C208_vertical_errors_partial P T E X _ h hw 1 hE 0 45 (by norm_num)
    (by norm_num) h2 hr).and hfit).exists
  obtain ⟨N, hN⟩ := hω (1 / 100) (by norm_num)
  obtain ⟨M, hM⟩ := hω'
  obtain ⟨o, ho, h4, -⟩ := hN (max N M) (le_max_left _ _)
  obtain ⟨f, s, d, hf, e, h3⟩ := hM (max N M) (le_max_right _ _)
  exact ⟨svd, Ω, mΩ, P, hP, X, hs, ω, _, f, s, d, o, hf, e, by linarith, ho, h4⟩

end Attitude.Props
