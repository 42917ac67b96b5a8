import Verif.Props.Accumulate
import Mathlib.Probability.StrongLaw
import Mathlib.Probability.Moments.Variance
import Mathlib.Probability.HasLawExists
import Mathlib.Probability.Distributions.Gaussian.Real
import Mathlib.Analysis.SpecialFunctions.Trigonometric.Bounds

/-!
# C205 - C206: random measurements, the true plane and the confidence level
-/

namespace Attitude.Props

open Attitude Pca Matrix ErrorAxes MeasureTheory ProbabilityTheory Filter Topology

namespace Spec

variable {Ω : Type*} [MeasurableSpace Ω]

/-- Points that are measured independently of each other with the same distribution, whose coordinates
have variances. -/
structure IndependentPoints (P : Measure Ω) (X : ℕ → Ω → Vec 3) : Prop where
  indep : Pairwise fun i k => IndepFun (X i) (X k) P
  ident : ∀ i, IdentDistrib (X i) (X 0) P P
  finite : ∀ j, MemLp (fun ω => X 0 ω j) 2 P

/-- The variance of the points along a direction. -/
noncomputable def varianceAlong (P : Measure Ω) (X : ℕ → Ω → Vec 3) (u : Vec 3) : ℝ :=
  Var[fun ω => u 0 * X 0 ω 0 + u 1 * X 0 ω 1 + u 2 * X 0 ω 2; P]

/-- `w` is the normal of the true plane: the points scatter across it, and they extend more along it
than across it. -/
structure TruePlane (P : Measure Ω) (X : ℕ → Ω → Vec 3) (w : Vec 3) : Prop where
  unit : norm w = 1
  noise : 0 < varianceAlong P X w
  extent : ∃ g > 0, ∀ u, norm u = 1 →
    varianceAlong P X w + g * (1 - (u 0 * w 0 + u 1 * w 1 + u 2 * w 2) ^ 2) ≤ varianceAlong P X u

/-- The first `n` points. -/
def first (X : ℕ → Ω → Vec 3) (ω : Ω) (n : ℕ) : Fin n → Vec 3 := fun i => X i ω

/-- The angle between two planes, from their normals. -/
noncomputable def planeAngle (u v : Vec 3) : ℝ := Real.arcsin (sineBetween u v)

end Spec

/-! ## Data whose moments are close to those of the distribution -/

/-- A quadratic form from second and first moments. -/
def momentForm (M : Fin 3 → Fin 3 → ℝ) (m u : Vec 3) : ℝ :=
  ∑ j, ∑ k, u j * u k * (M j k - m j * m k)

lemma empirical_form {n : ℕ} (hn : 0 < n) (a : Fin n → Vec 3) (u : Vec 3) :
    (∑ i, (Matrix.of (Coordinates.centered a) *ᵥ u) i ^ 2) / n =
      momentForm (fun j k => (∑ i, a i j * a i k) / n) (meanRows a) u := by
  have hn' : (n : ℝ) ≠ 0 := by positivity
  have e : ∀ i, (Matrix.of (Coordinates.centered a) *ᵥ u) i ^ 2 =
      ∑ j, ∑ k, u j * u k * (a i j * a i k - a i j * meanRows a k - a i k * meanRows a j
        + meanRows a j * meanRows a k) := by
    intro i
    simp only [Matrix.mulVec, dotProduct, Matrix.of_apply, Coordinates.centered, Fin.sum_univ_three]
    ring
  have hm : ∀ j, ∑ i, a i j = n * meanRows a j := by
    intro j
    simp only [meanRows]
    field_simp
  rw [Finset.sum_congr rfl fun i _ => e i, Finset.sum_comm, momentForm, Finset.sum_div]
  refine Finset.sum_congr rfl fun j _ => ?_
  rw [Finset.sum_comm, Finset.sum_div]
  refine Finset.sum_congr rfl fun k _ => ?_
  rw [← Finset.mul_sum, Finset.sum_add_distrib, Finset.sum_sub_distrib, Finset.sum_sub_distrib,
    ← Finset.sum_mul, ← Finset.sum_mul, hm, hm, Finset.sum_const, Finset.card_univ, Fintype.card_fin,
    nsmul_eq_mul]
  field_simp
  ring

lemma abs_le_one {u : Vec 3} (hu : ∑ j, u j ^ 2 = 1) (j : Fin 3) : |u j| ≤ 1 := by
  rw [← sq_le_one_iff_abs_le_one, ← hu]
  exact Finset.single_le_sum (f := fun j => u j ^ 2) (fun j _ => sq_nonneg _) (Finset.mem_univ j)

lemma form_close {M M' : Fin 3 → Fin 3 → ℝ} {m m' u : Vec 3} (hu : ∑ j, u j ^ 2 = 1) :
    |momentForm M m u - momentForm M' m' u| ≤
      ∑ j, ∑ k, |(M j k - m j * m k) - (M' j k - m' j * m' k)| := by
  unfold momentForm
  rw [← Finset.sum_sub_distrib]
  refine (Finset.abs_sum_le_sum_abs _ _).trans (Finset.sum_le_sum fun j _ => ?_)
  rw [← Finset.sum_sub_distrib]
  refine (Finset.abs_sum_le_sum_abs _ _).trans (Finset.sum_le_sum fun k _ => ?_)
  rw [← mul_sub, abs_mul, abs_mul]
  have h1 := abs_le_one hu j
  have h2 := abs_le_one hu k
  have h3 : |u j| * |u k| ≤ 1 := mul_le_one₀ h1 (abs_nonneg _) h2
  have := mul_le_mul_of_nonneg_right h3 (abs_nonneg (M j k - m j * m k - (M' j k - m' j * m' k)))
  linarith

/-- What follows for a fit. -/
lemma fit_close {n : ℕ} {a : Fin n → Vec 3} {f : Fit n} {U : Mat n 3} (hF : IsFit a f U) {w : Vec 3}
    (hw : ∑ j, w j ^ 2 = 1) (q : Vec 3 → ℝ) (δ g : ℝ) (hg0 : 0 ≤ g)
    (hq : ∀ u : Vec 3, ∑ j, u j ^ 2 = 1 →
      |(∑ i, (Matrix.of (Coordinates.centered a) *ᵥ u) i ^ 2) / n - q u| ≤ δ)
    (hg : ∀ u : Vec 3, ∑ j, u j ^ 2 = 1 →
      q w + g * (1 - (u 0 * w 0 + u 1 * w 1 + u 2 * w 2) ^ 2) ≤ q u) :
    g * Spec.sineBetween f.normal w ^ 2 ≤ 2 * δ ∧ n * (q w - δ) ≤ f.s 2 ^ 2 ∧
      f.s 0 ^ 2 ≤ n * (q (f.V 0) + δ) := by
  have hn : (0 : ℝ) < n := by
    have := hF.size
    positivity
  have h2 := hq (f.V 2) (row_sq hF.svd 2)
  have h0 := hq (f.V 0) (row_sq hF.svd 0)
  have hw' := hq w hw
  rw [hF.svd.sum_sq_row] at h2 h0
  have hopt := hF.svd.optimal w
  rw [hw, mul_one] at hopt
  have hg2 := hg (f.V 2) (row_sq hF.svd 2)
  have hopt' := div_le_div_of_nonneg_right hopt hn.le
  obtain ⟨l2, r2⟩ := abs_le.1 h2
  obtain ⟨l0, r0⟩ := abs_le.1 h0
  obtain ⟨lw, rw'⟩ := abs_le.1 hw'
  have edot : (f.normal 0 * w 0 + f.normal 1 * w 1 + f.normal 2 * w 2) ^ 2 =
      (f.V 2 0 * w 0 + f.V 2 1 * w 1 + f.V 2 2 * w 2) ^ 2 := by
    rw [hF.normal]
    rcases upward_eq (f.V 2) with h | h <;> rw [h]
    simp only [Pi.neg_apply]
    ring
  have esine : Spec.sineBetween f.normal w ^ 2 =
      1 - (f.V 2 0 * w 0 + f.V 2 1 * w 1 + f.V 2 2 * w 2) ^ 2 := by
    unfold Spec.sineBetween
    rw [edot, Real.sq_sqrt]
    have := Finset.sum_mul_sq_le_sq_mul_sq Finset.univ (f.V 2) w
    rw [row_sq hF.svd 2, hw, Fin.sum_univ_three] at this
    linarith
  have g0 : 0 ≤ f.s 2 ^ 2 := sq_nonneg _
  refine ⟨?_, ?_, ?_⟩
  · rw [esine]
    linarith
  · have h3 := mul_nonneg hg0 (sq_nonneg (Spec.sineBetween f.normal w))
    rw [esine] at h3
    have h4 : q w - δ ≤ f.s 2 ^ 2 / n := by linarith
    rw [le_div_iff₀ hn] at h4
    linarith
  · have h4 : f.s 0 ^ 2 / n ≤ q (f.V 0) + δ := by linarith
    rw [div_le_iff₀ hn] at h4
    linarith

/-! ## The law of large numbers -/

variable {Ω : Type*} [MeasurableSpace Ω] {P : Measure Ω} [IsProbabilityMeasure P] {X : ℕ → Ω → Vec 3}

omit [IsProbabilityMeasure P] in
/-- Averages converge. -/
lemma averages (h : Spec.IndependentPoints P X) (φ : Vec 3 → ℝ) (hφ : Measurable φ)
    (hi : Integrable (fun ω => φ (X 0 ω)) P) :
    ∀ᵐ ω ∂P, Tendsto (fun n : ℕ => (∑ i, φ (Spec.first X ω n i)) / n) atTop
      (𝓝 (∫ ω, φ (X 0 ω) ∂P)) := by
  have := strong_law_ae_real (fun i ω => φ (X i ω)) hi
    (fun i k hik => (h.indep hik).comp hφ hφ) (fun i => (h.ident i).comp hφ)
  filter_upwards [this] with ω hω
  refine hω.congr fun n => ?_
  rw [← Fin.sum_univ_eq_sum_range (fun i => φ (X i ω)) n]
  rfl

lemma variance_form (h : Spec.IndependentPoints P X) (u : Vec 3) :
    Spec.varianceAlong P X u = momentForm (fun j k => ∫ ω, X 0 ω j * X 0 ω k ∂P)
      (fun j => ∫ ω, X 0 ω j ∂P) u := by
  have e : (fun ω => u 0 * X 0 ω 0 + u 1 * X 0 ω 1 + u 2 * X 0 ω 2) =
      fun ω => ∑ j, (fun j ω => u j * X 0 ω j) j ω := by
    funext ω
    rw [Fin.sum_univ_three]
  rw [Spec.varianceAlong, e, variance_fun_sum fun j => (h.finite j).const_mul (u j), momentForm]
  refine Finset.sum_congr rfl fun j _ => Finset.sum_congr rfl fun k _ => ?_
  rw [covariance_const_mul_left, covariance_const_mul_right, covariance_eq_sub (h.finite j) (h.finite k),
    mul_assoc]
  rfl

/-- The variance of the first points along all directions converges. -/
lemma variance_converges (h : Spec.IndependentPoints P X) :
    ∀ᵐ ω ∂P, ∀ δ > 0, ∃ N, 3 ≤ N ∧ ∀ n ≥ N, ∀ u : Vec 3, ∑ j, u j ^ 2 = 1 →
      |(∑ i, (Matrix.of (Coordinates.centered (Spec.first X ω n)) *ᵥ u) i ^ 2) / n -
        Spec.varianceAlong P X u| ≤ δ := by
  have h2 : ∀ᵐ ω ∂P, ∀ j k : Fin 3, Tendsto (fun n : ℕ =>
      (∑ i, Spec.first X ω n i j * Spec.first X ω n i k) / n) atTop
      (𝓝 (∫ ω, X 0 ω j * X 0 ω k ∂P)) := by
    rw [ae_all_iff]
    intro j
    rw [ae_all_iff]
    intro k
    exact averages h (fun x => x j * x k) (by fun_prop) ((h.finite j).integrable_mul (h.finite k))
  have h1 : ∀ᵐ ω ∂P, ∀ j : Fin 3, Tendsto (fun n : ℕ =>
      (∑ i, Spec.first X ω n i j) / n) atTop (𝓝 (∫ ω, X 0 ω j ∂P)) := by
    rw [ae_all_iff]
    intro j
    exact averages h (fun x => x j) (by fun_prop) ((h.finite j).integrable (by norm_num))
  filter_upwards [h1, h2] with ω t1 t2 δ hδ
  have ht : Tendsto (fun n : ℕ => ∑ j, ∑ k,
      |((∑ i, Spec.first X ω n i j * Spec.first X ω n i k) / n -
        meanRows (Spec.first X ω n) j * meanRows (Spec.first X ω n) k) -
      ((∫ ω, X 0 ω j * X 0 ω k ∂P) - (∫ ω, X 0 ω j ∂P) * (∫ ω, X 0 ω k ∂P))|) atTop (𝓝 0) := by
    have : (0 : ℝ) = ∑ _j : Fin 3, ∑ _k : Fin 3, 0 := by simp
    rw [this]
    refine tendsto_finsetSum _ fun j _ => tendsto_finsetSum _ fun k _ => ?_
    have := (((t2 j k).sub ((t1 j).mul (t1 k))).sub_const
      ((∫ ω, X 0 ω j * X 0 ω k ∂P) - (∫ ω, X 0 ω j ∂P) * (∫ ω, X 0 ω k ∂P))).abs
    rwa [sub_self, abs_zero] at this
  obtain ⟨N, hN⟩ := eventually_atTop.1 (ht.eventually (gt_mem_nhds hδ))
  refine ⟨max N 3, le_max_right _ _, fun n hn u hu => ?_⟩
  rw [empirical_form (by have := le_of_max_le_right hn; omega), variance_form h]
  exact (form_close hu).trans (hN n (le_of_max_le_left hn)).le

lemma norm_one_iff {u : Vec 3} : norm u = 1 ↔ ∑ j, u j ^ 2 = 1 := by
  rw [norm, Real.sqrt_eq_one]

/-! ## C205 -/

/-- Almost surely, the fits of more and more points come as close to the true plane as one likes. -/
theorem C205_consistent (svd : SvdFn) (hs : svd.Valid) (P : Measure Ω) [IsProbabilityMeasure P]
    (X : ℕ → Ω → Vec 3) (h : Spec.IndependentPoints P X) (w : Vec 3) (hw : Spec.TruePlane P X w) :
    ∀ᵐ ω ∂P, ∀ ε > 0, ∃ N, ∀ n ≥ N, ∃ f, init svd (Spec.first X ω n) none none = .ok (some f) ∧
      Spec.sineBetween f.normal w < ε := by
  obtain ⟨g, hg, hgap⟩ := hw.extent
  filter_upwards [variance_converges h] with ω hω ε hε
  obtain ⟨N, h3, hN⟩ := hω (g * ε ^ 2 / 4) (by positivity)
  refine ⟨N, fun n hn => ?_⟩
  obtain ⟨f, hf⟩ := init_default_exists svd (by omega : 3 ≤ n) (Spec.first X ω n)
  obtain ⟨U, hF⟩ := init_default hs hf
  obtain ⟨k, -, -⟩ := fit_close hF (norm_one_iff.1 hw.unit) (Spec.varianceAlong P X) _ g hg.le (hN n hn)
    fun u hu => hgap u (norm_one_iff.2 hu)
  refine ⟨f, hf, ?_⟩
  have hsq : Spec.sineBetween f.normal w ^ 2 < ε ^ 2 := by
    have h5 : g * Spec.sineBetween f.normal w ^ 2 < g * ε ^ 2 := by
      have : 0 < g * ε ^ 2 := by positivity
      linarith
    exact lt_of_mul_lt_mul_left h5 hg.le
  exact lt_of_pow_lt_pow_left₀ 2 hε.le hsq

/-- If an angle has a cosine close to one, it is close to a full turn. -/
lemma near_turn {x ε : ℝ} (hε : 0 < ε) (h : 1 - Real.cos (radians x) < 2 / Real.pi ^ 2 * radians ε ^ 2) :
    ∃ k : ℤ, |x - 360 * k| < ε := by
  refine ⟨round (x / 360), ?_⟩
  set y := x - 360 * round (x / 360) with hy
  have h180 : |y| ≤ 180 := by
    have := abs_sub_round (x / 360)
    have e : y = 360 * (x / 360 - round (x / 360)) := by rw [hy]; ring
    rw [e, abs_mul, abs_of_pos (by norm_num : (0 : ℝ) < 360)]
    linarith
  have hc : Real.cos (radians x) = Real.cos (radians y) := by
    have e : radians x = radians y + round (x / 360) * (2 * Real.pi) := by
      rw [hy]; unfold radians; ring
    rw [e, Real.cos_add_int_mul_two_pi]
  have hpi := Real.pi_pos
  have habs : |radians y| = |y| * Real.pi / 180 := by
    unfold radians
    rw [abs_div, abs_mul, abs_of_pos hpi, abs_of_pos (by norm_num : (0 : ℝ) < 180)]
  have hb := Real.cos_le_one_sub_mul_cos_sq (x := radians y) (by rw [habs]; nlinarith)
  rw [hc] at h
  have h1 : 2 / Real.pi ^ 2 * radians y ^ 2 < 2 / Real.pi ^ 2 * radians ε ^ 2 := by linarith
  have h2 := lt_of_mul_lt_mul_left h1 (by positivity)
  have h3 : |radians y| < |radians ε| := sq_lt_sq.1 h2
  have e2 : |radians ε| = ε * Real.pi / 180 := by
    unfold radians
    exact abs_of_pos (by positivity)
  rw [habs, e2] at h3
  by_contra hcon
  push Not at hcon
  have := mul_le_mul_of_nonneg_right hcon hpi.le
  linarith

lemma sine_sq_eq {u v : Vec 3} (hu : norm u = 1) (hv : norm v = 1) :
    Spec.sineBetween u v ^ 2 = 1 - (u 0 * v 0 + u 1 * v 1 + u 2 * v 2) ^ 2 := by
  unfold Spec.sineBetween
  rw [Real.sq_sqrt]
  have := Finset.sum_mul_sq_le_sq_mul_sq Finset.univ u v
  rw [norm_one_iff.1 hu, norm_one_iff.1 hv, Fin.sum_univ_three] at this
  linarith

/-- Two upward normals of planes that are close, one of them not vertical. -/
lemma upward_close {u w : Vec 3} (hu : norm u = 1) (hw : norm w = 1) (hu2 : 0 ≤ u 2) (hw2 : 0 < w 2) {ε : ℝ}
    (hε : ε ≤ w 2 / 2) (h : Spec.sineBetween u w < ε) :
    1 - (u 0 * w 0 + u 1 * w 1 + u 2 * w 2) ≤ Spec.sineBetween u w ^ 2 := by
  have hs0 : 0 ≤ Spec.sineBetween u w := Real.sqrt_nonneg _
  have hsq := sine_sq_eq hu hw
  have hu' := norm_one_iff.1 hu
  have hw' := norm_one_iff.1 hw
  rw [Fin.sum_univ_three] at hu' hw'
  set c := u 0 * w 0 + u 1 * w 1 + u 2 * w 2 with hc
  have hw1 : w 2 ≤ 1 := by nlinarith [sq_nonneg (w 0), sq_nonneg (w 1)]
  have hc1 : c ≤ 1 := by nlinarith [sq_nonneg (Spec.sineBetween u w)]
  -- the part of `u` perpendicular to `w`
  have hr : (u 2 - c * w 2) ^ 2 ≤ Spec.sineBetween u w ^ 2 := by
    rw [hsq]
    have e : (u 0 - c * w 0) ^ 2 + (u 1 - c * w 1) ^ 2 + (u 2 - c * w 2) ^ 2 = 1 - c ^ 2 := by
      have : (u 0 - c * w 0) ^ 2 + (u 1 - c * w 1) ^ 2 + (u 2 - c * w 2) ^ 2 =
          (u 0 ^ 2 + u 1 ^ 2 + u 2 ^ 2) - 2 * c * (u 0 * w 0 + u 1 * w 1 + u 2 * w 2) +
          c ^ 2 * (w 0 ^ 2 + w 1 ^ 2 + w 2 ^ 2) := by ring
      rw [this, hu', hw', ← hc]
      ring
    nlinarith [sq_nonneg (u 0 - c * w 0), sq_nonneg (u 1 - c * w 1)]
  have hr' := abs_le_of_sq_le_sq' hr hs0
  have hcpos : 0 ≤ c := by
    by_contra hcon
    push Not at hcon
    have h1 : c ^ 2 > 1 / 4 := by nlinarith
    have h2 : c < -(1 / 2) := by nlinarith
    nlinarith [hr'.2]
  rw [hsq]
  nlinarith

lemma normal_of_rule {w : Vec 3} {s d : ℝ} (hw : norm w = 1) (h0 : 0 ≤ d) (h1 : d < 90) (hw2 : 0 ≤ w 2)
    (h : Spec.RightHandRule w s d) : w = sdNormal s d := by
  obtain ⟨a, b⟩ := h
  rw [heading_eq] at a
  rw [plunging_eq] at b
  simp only [Spec.InPlane, Matrix.cons_val_zero, Matrix.cons_val_one, Matrix.cons_val] at a b
  have hc : 0 < Real.cos (radians d) := by
    have := Real.pi_pos
    refine Real.cos_pos_of_mem_Ioo ⟨?_, ?_⟩ <;> unfold radians <;> nlinarith
  have n1 := norm_one_iff.1 hw
  rw [Fin.sum_univ_three] at n1
  have p1 := Real.sin_sq_add_cos_sq (radians s)
  have p2 := Real.sin_sq_add_cos_sq (radians d)
  set S := Real.sin (radians s) with hS
  set C := Real.cos (radians s) with hC
  -- the horizontal part is perpendicular to the strike
  set t := w 0 * C - w 1 * S with ht
  have e0 : w 0 = t * C := by
    rw [ht]; linear_combination (-w 0) * p1 + S * a
  have e1 : w 1 = -(t * S) := by
    rw [ht]; linear_combination (-w 1) * p1 + C * a
  have en : t ^ 2 + w 2 ^ 2 = 1 := by
    rw [← n1, e0, e1]; linear_combination (-t ^ 2) * p1
  have eb : t * Real.cos (radians d) = w 2 * Real.sin (radians d) := by
    rw [e0, e1] at b; linear_combination b + (-t * Real.cos (radians d)) * p1
  set D := Real.sin (radians d) with hD
  set c := Real.cos (radians d) with hcc
  set r := t * D + w 2 * c with hr
  have et : t = r * D := by rw [hr]; linear_combination (-t) * p2 + c * eb
  have e2 : w 2 = r * c := by rw [hr]; linear_combination (-w 2) * p2 - D * eb
  have er : r ^ 2 = 1 := by
    rw [← en, et, e2]; linear_combination (-r ^ 2) * p2
  have hr0 : 0 ≤ r := by
    rw [e2] at hw2
    exact nonneg_of_mul_nonneg_left hw2 hc
  have r1 : r = 1 := by
    nlinarith
  rw [r1, one_mul] at et e2
  funext i
  fin_cases i
  · simp only [sdNormal, Fin.zero_eta, Matrix.cons_val_zero]
    rw [e0, et]
  · show w 1 = -(D * S)
    rw [e1, et]
  · simpa [sdNormal] using e2

lemma sd_dot (s d s₀ d₀ : ℝ) : 1 - (sdNormal s d 0 * sdNormal s₀ d₀ 0 + sdNormal s d 1 * sdNormal s₀ d₀ 1 +
    sdNormal s d 2 * sdNormal s₀ d₀ 2) = (1 - Real.cos (radians (d - d₀))) +
      Real.sin (radians d) * Real.sin (radians d₀) * (1 - Real.cos (radians (s - s₀))) := by
  simp only [sdNormal, radians_sub, Real.cos_sub, Matrix.cons_val_zero, Matrix.cons_val_one, Matrix.cons_val]
  ring

/-- Normals that are close have dips that are close, and strikes. -/
lemma sd_close {s₀ d₀ ε : ℝ} (h0 : 0 ≤ d₀) (h1 : d₀ < 90) (hε : 0 < ε) : ∃ δ > 0, ∀ s d, 0 ≤ d → d ≤ 90 →
    1 - (sdNormal s d 0 * sdNormal s₀ d₀ 0 + sdNormal s d 1 * sdNormal s₀ d₀ 1 +
      sdNormal s d 2 * sdNormal s₀ d₀ 2) < δ →
    |d - d₀| < ε ∧ (0 < d₀ → ∃ k : ℤ, |s - s₀ - 360 * k| < ε) := by
  have hpi := Real.pi_pos
  have hsin : ∀ x : ℝ, 0 ≤ x → x ≤ 90 → 0 ≤ Real.sin (radians x) := by
    intro x hx hx'
    refine Real.sin_nonneg_of_nonneg_of_le_pi ?_ ?_ <;> unfold radians <;> nlinarith
  have hrad : ∀ x : ℝ, 0 < x → 0 < radians x := by
    intro x hx; unfold radians; positivity
  have hdip : ∀ ε' : ℝ, 0 < ε' → ∀ s d, 0 ≤ d → d ≤ 90 →
      1 - (sdNormal s d 0 * sdNormal s₀ d₀ 0 + sdNormal s d 1 * sdNormal s₀ d₀ 1 +
        sdNormal s d 2 * sdNormal s₀ d₀ 2) < min (2 / Real.pi ^ 2 * radians ε' ^ 2) (1 / 2) →
      |d - d₀| < ε' := by
    intro ε' hε' s d hd hd' hlt
    rw [sd_dot] at hlt
    have g1 := mul_nonneg (mul_nonneg (hsin d hd hd') (hsin d₀ h0 h1.le))
      (by linarith [Real.cos_le_one (radians (s - s₀))] : 0 ≤ 1 - Real.cos (radians (s - s₀)))
    have hl := lt_of_lt_of_le hlt (min_le_left _ _)
    have hb := Real.cos_le_one_sub_mul_cos_sq (x := radians (d - d₀)) (by
      rw [abs_le]; constructor <;> unfold radians <;> nlinarith)
    have h2 : 2 / Real.pi ^ 2 * radians (d - d₀) ^ 2 < 2 / Real.pi ^ 2 * radians ε' ^ 2 := by linarith
    have h3 := sq_lt_sq.1 (lt_of_mul_lt_mul_left h2 (by positivity))
    unfold radians at h3
    rw [abs_div, abs_div, abs_mul, abs_mul, abs_of_pos hpi, abs_of_pos hε'] at h3
    have h4 := (div_lt_div_iff_of_pos_right (by norm_num)).1 h3
    exact lt_of_mul_lt_mul_right h4 hpi.le
  rcases h0.eq_or_lt with e | hpos
  · refine ⟨_, lt_min (by have := hrad ε hε; positivity) (by norm_num), fun s d hd hd' hlt =>
      ⟨hdip ε hε s d hd hd' hlt, fun hcon => absurd hcon (by rw [← e]; exact lt_irrefl _)⟩⟩
  · have hm : 0 < Real.sin (radians (d₀ / 2)) * Real.sin (radians d₀) := by
      refine mul_pos (Real.sin_pos_of_pos_of_lt_pi (hrad _ (by linarith)) ?_)
        (Real.sin_pos_of_pos_of_lt_pi (hrad _ hpos) ?_) <;> unfold radians <;> nlinarith
    have he := hrad ε hε
    have he' := hrad (min ε (d₀ / 2)) (lt_min hε (by linarith))
    refine ⟨min (min (2 / Real.pi ^ 2 * radians (min ε (d₀ / 2)) ^ 2) (1 / 2))
      (Real.sin (radians (d₀ / 2)) * Real.sin (radians d₀) * (2 / Real.pi ^ 2 * radians ε ^ 2)),
      lt_min (lt_min (by positivity) (by norm_num)) (mul_pos hm (by positivity)), fun s d hd hd' hlt => ?_⟩
    have hd1 := hdip _ (lt_min hε (by linarith)) s d hd hd' (lt_of_lt_of_le hlt (min_le_left _ _))
    refine ⟨lt_of_lt_of_le hd1 (min_le_left _ _), fun _ => ?_⟩
    have hd2 := abs_lt.1 (lt_of_lt_of_le hd1 (min_le_right _ _))
    have hl := lt_of_lt_of_le hlt (min_le_right _ _)
    rw [sd_dot] at hl
    have hmono : Real.sin (radians (d₀ / 2)) ≤ Real.sin (radians d) := by
      refine Real.sin_le_sin_of_le_of_le_pi_div_two ?_ ?_ ?_ <;> unfold radians <;> nlinarith
    have c1 : 0 ≤ 1 - Real.cos (radians (s - s₀)) := by linarith [Real.cos_le_one (radians (s - s₀))]
    have c2 : 0 ≤ 1 - Real.cos (radians (d - d₀)) := by linarith [Real.cos_le_one (radians (d - d₀))]
    have g1 := mul_le_mul_of_nonneg_right
      (mul_le_mul_of_nonneg_right hmono (hsin d₀ h0 h1.le)) c1
    exact near_turn hε (lt_of_mul_lt_mul_left (by linarith) hm.le)

/-- Strike and dip of the fits of more and more points converge to those of the true plane; strike as
far as it is defined. -/
theorem C205_strike_dip (svd : SvdFn) (hs : svd.Valid) (P : Measure Ω) [IsProbabilityMeasure P]
    (X : ℕ → Ω → Vec 3) (h : Spec.IndependentPoints P X) (w : Vec 3) (hw : Spec.TruePlane P X w)
    (s₀ d₀ : ℝ) (h0 : 0 ≤ d₀) (h1 : d₀ < 90) (hw2 : 0 ≤ w 2) (hrule : Spec.RightHandRule w s₀ d₀) :
    ∀ᵐ ω ∂P, ∀ ε > 0, ∃ N, ∀ n ≥ N, ∃ f s d, init svd (Spec.first X ω n) none none = .ok (some f) ∧
      strikeDip f = some (s, d) ∧ |d - d₀| < ε ∧ (0 < d₀ → ∃ k : ℤ, |s - s₀ - 360 * k| < ε) := by
  have hpi := Real.pi_pos
  have hsd := normal_of_rule hw.unit h0 h1 hw2 hrule
  have hpos : 0 < w 2 := by
    rw [hsd]
    show 0 < Real.cos (radians d₀)
    refine Real.cos_pos_of_mem_Ioo ⟨?_, ?_⟩ <;> unfold radians <;> nlinarith
  filter_upwards [C205_consistent svd hs P X h w hw] with ω hω ε hε
  obtain ⟨δ, hδ, hclose⟩ := sd_close (s₀ := s₀) h0 h1 hε
  obtain ⟨N, hN⟩ := hω (min (w 2 / 2) (Real.sqrt δ)) (lt_min (by linarith) (Real.sqrt_pos.2 hδ))
  refine ⟨N, fun n hn => ?_⟩
  obtain ⟨f, hf, hsine⟩ := hN n hn
  obtain ⟨U, hF⟩ := init_default hs hf
  obtain ⟨s, d, h', -, -, r1, r2, -⟩ := strikeDipOf_spec (fit_axis_ne_zero hF 2)
  obtain ⟨s', d', e', -, hup, hn'⟩ := C14_fit_right_hand_rule svd hs _ f hf
  have hun : norm f.normal = 1 := by
    rw [hF.normal]
    rcases upward_eq (f.V 2) with h | h <;> rw [h]
    · exact hF.svd.row_norm 2
    · rw [norm_neg']
      exact hF.svd.row_norm 2
  have h'' : strikeDip f = some (s, d) := h'
  rw [e'] at h''
  obtain ⟨rfl, rfl⟩ := Prod.mk.inj (Option.some.inj h'')
  have hc := upward_close hun hw.unit hup hpos (min_le_left _ _) hsine
  have hlt : Spec.sineBetween f.normal w ^ 2 < δ := by
    have h1 := lt_of_lt_of_le hsine (min_le_right _ _)
    have h2 : 0 ≤ Spec.sineBetween f.normal w := Real.sqrt_nonneg _
    calc _ < Real.sqrt δ ^ 2 := by gcongr
      _ = δ := Real.sq_sqrt hδ.le
  have hn'' : f.normal = sdNormal s' d' := hn'
  have hfin := lt_of_le_of_lt hc hlt
  rw [hn'', hsd] at hfin
  obtain ⟨q1, q2⟩ := hclose s' d' r1 r2 hfin
  exact ⟨f, s', d', hf, e', q1, q2⟩

/-! ## C206 -/

omit [IsProbabilityMeasure P] in
lemma angle_le {u v : Vec 3} {t : ℝ} (ht0 : 0 ≤ t) (ht : t < Real.pi / 2)
    (h : Spec.sineBetween u v < Real.sin t) : Spec.planeAngle u v ≤ t := by
  have h0 : 0 ≤ Spec.sineBetween u v := Real.sqrt_nonneg _
  have h1 := Real.sin_le_one t
  unfold Spec.planeAngle
  exact ((Real.arcsin_lt_iff_lt_sin ⟨by linarith, by linarith⟩ ⟨by linarith, ht.le⟩).2 h).le

lemma variance_bounded (h : Spec.IndependentPoints P X) : ∃ L, ∀ u : Vec 3, ∑ j, u j ^ 2 = 1 →
    Spec.varianceAlong P X u ≤ L := by
  refine ⟨∑ j, ∑ k, |((∫ ω, X 0 ω j * X 0 ω k ∂P) - (∫ ω, X 0 ω j ∂P) * ∫ ω, X 0 ω k ∂P) - (0 - 0 * 0)|,
    fun u hu => ?_⟩
  have := form_close (M := fun j k => ∫ ω, X 0 ω j * X 0 ω k ∂P) (m := fun j => ∫ ω, X 0 ω j ∂P)
    (M' := 0) (m' := 0) hu
  have e : momentForm 0 0 u = 0 := by simp [momentForm]
  rw [e, sub_zero, ← variance_form h] at this
  exact (le_abs_self _).trans this

/-- The confidence level ought to be the share of repetitions of the measurement in which the errors
contain the true plane.  For many points, almost surely the errors of all methods and at all levels
contain it, even at level zero. -/
theorem C206_many_points_partial (Q : Quantiles) (hQ : Spec.QuantilesOK Q) (svd : SvdFn) (hs : svd.Valid)
    (P : Measure Ω) [IsProbabilityMeasure P]
    (X : ℕ → Ω → Vec 3) (h : Spec.IndependentPoints P X) (w : Vec 3) (hw : Spec.TruePlane P X w) :
    ∀ᵐ ω ∂P, ∃ N, ∀ n ≥ N, ∃ f, init svd (Spec.first X ω n) none none = .ok (some f) ∧
      ∀ (sampling : Bool) (cl : ℝ), 0 ≤ cl → cl < 1 → ∃ x y, errorsAt Q f sampling cl = some (x, y) ∧
        Spec.planeAngle f.normal w ≤ x ∧ Spec.planeAngle f.normal w ≤ y := by
  obtain ⟨g, hg, hgap⟩ := hw.extent
  obtain ⟨L, hL⟩ := variance_bounded h
  set v := Spec.varianceAlong P X w with hv
  have hv0 : 0 < v := hw.noise
  have hLv : v ≤ L := hL w (norm_one_iff.1 hw.unit)
  have hLp : 0 < L + v / 2 := by linarith
  set r := Real.sqrt (v / 2 / (L + v / 2)) with hr
  have hr0 : 0 < r := Real.sqrt_pos.2 (by positivity)
  have hr2 : r ^ 2 * (L + v / 2) = v / 2 := by
    rw [hr, Real.sq_sqrt (by positivity)]
    exact div_mul_cancel₀ _ hLp.ne'
  have ht0 : 0 < Real.arctan r := Real.arctan_pos.2 hr0
  have ht1 := Real.arctan_lt_pi_div_two r
  have hsin : 0 < Real.sin (Real.arctan r) := Real.sin_pos_of_pos_of_lt_pi ht0 (by linarith [Real.pi_pos])
  filter_upwards [variance_converges h, C205_consistent svd hs P X h w hw] with ω hω hc
  obtain ⟨N, h3, hN⟩ := hω (v / 2) (by positivity)
  obtain ⟨N', hN'⟩ := hc _ hsin
  refine ⟨max N N', fun n hn => ?_⟩
  obtain ⟨f, hf, hsine⟩ := hN' n (le_of_max_le_right hn)
  obtain ⟨U, hF⟩ := init_default hs hf
  obtain ⟨-, k2, k0⟩ := fit_close hF (norm_one_iff.1 hw.unit) (Spec.varianceAlong P X) _ g hg.le
    (hN n (le_of_max_le_left hn)) fun u hu => hgap u (norm_one_iff.2 hu)
  have hn0 : (0 : ℝ) < n := by
    have := hF.size
    positivity
  have hV := hL (f.V 0) (row_sq hF.svd 0)
  have s2 : 0 < f.s 2 := by
    refine lt_of_le_of_ne (hF.svd.nonneg' 2) fun e => ?_
    rw [← e, ← hv] at k2
    have := mul_pos hn0 (by linarith : 0 < v - v / 2)
    norm_num at k2
    linarith
  have s1 : 0 < f.s 1 := lt_of_lt_of_le s2 hF.svd.le12
  have s0 : 0 < f.s 0 := lt_of_lt_of_le s1 hF.svd.le01
  have hratio : r * f.s 0 ≤ f.s 2 := by
    refine (abs_le_of_sq_le_sq' ?_ s2.le).2
    have h1 : f.s 0 ^ 2 ≤ n * (L + v / 2) :=
      k0.trans (mul_le_mul_of_nonneg_left (by linarith) hn0.le)
    calc (r * f.s 0) ^ 2 = r ^ 2 * f.s 0 ^ 2 := by ring
      _ ≤ r ^ 2 * (n * (L + v / 2)) := mul_le_mul_of_nonneg_left h1 (sq_nonneg _)
      _ = n * (v - v / 2) := by linear_combination (n : ℝ) * hr2
      _ ≤ _ := k2
  have ha : ∀ j : Fin 3, 0 < f.s j → f.s j ≤ f.s 0 → Real.arctan r ≤ Spec.scatterAngle f j := by
    intro j hj hj0
    rw [Spec.scatterAngle, arctan2_of_pos _ hj]
    refine Real.arctan_strictMono.monotone ?_
    rw [le_div_iff₀ hj]
    exact (mul_le_mul_of_nonneg_left hj0 hr0.le).trans hratio
  have hang := angle_le ht0.le ht1 hsine
  refine ⟨f, hf, fun sampling cl h0 h1 => ?_⟩
  obtain ⟨x, y, e, hx, hy⟩ := C204_floor Q hQ svd hs _ f hf sampling cl h0 h1
  exact ⟨x, y, e, hang.trans ((ha 0 s0 le_rfl).trans hx), hang.trans ((ha 1 s1 hF.svd.le01).trans hy)⟩

/-- Three points lie on a plane. -/
lemma three_coplanar (a : Fin 3 → Vec 3) : ∃ m d, norm m = 1 ∧ ∀ i, Spec.OnPlane m d (a i) := by
  obtain ⟨v, hv, hz⟩ := Matrix.exists_mulVec_eq_zero_iff.2
    (by rw [Matrix.det_fin_three]; simp : (Matrix.of ![a 1 - a 0, a 2 - a 0, 0]).det = 0)
  have hp : 0 < norm v := (norm_pos_iff' v).2 hv
  have z1 := congrFun hz 0
  have z2 := congrFun hz 1
  simp only [Matrix.mulVec, dotProduct, Fin.sum_univ_three, Matrix.of_apply, Matrix.cons_val_zero,
    Matrix.cons_val_one, Pi.sub_apply, Pi.zero_apply] at z1 z2
  refine ⟨(norm v)⁻¹ • v, (norm v)⁻¹ * (v 0 * a 0 0 + v 1 * a 0 1 + v 2 * a 0 2), ?_, fun i => ?_⟩
  · rw [norm_one_iff]
    have h2 : ∑ j, v j ^ 2 = norm v ^ 2 := (norm_sq' v).symm
    simp only [Pi.smul_apply, smul_eq_mul, mul_pow, ← Finset.mul_sum, h2]
    field_simp
  · unfold Spec.OnPlane
    simp only [Pi.smul_apply, smul_eq_mul]
    fin_cases i
    · show _ * a 0 0 + _ * a 0 1 + _ * a 0 2 = _
      ring
    · show _ * a 1 0 + _ * a 1 1 + _ * a 1 2 = _
      linear_combination (norm v)⁻¹ * z1
    · show _ * a 2 0 + _ * a 2 1 + _ * a 2 2 = _
      linear_combination (norm v)⁻¹ * z2

/-- Independent points never have the same coordinate if no value has a positive probability. -/
lemma never_equal (h : Spec.IndependentPoints P X) (w : Vec 3)
    (hatom : ∀ c, P {ω | w 0 * X 0 ω 0 + w 1 * X 0 ω 1 + w 2 * X 0 ω 2 = c} = 0) :
    ∀ᵐ ω ∂P, w 0 * X 0 ω 0 + w 1 * X 0 ω 1 + w 2 * X 0 ω 2 ≠
      w 0 * X 1 ω 0 + w 1 * X 1 ω 1 + w 2 * X 1 ω 2 := by
  set φ : Vec 3 → ℝ := fun x => w 0 * x 0 + w 1 * x 1 + w 2 * x 2 with hφ
  have hm : Measurable φ := by fun_prop
  have h0 : AEMeasurable (fun ω => φ (X 0 ω)) P := hm.comp_aemeasurable (h.ident 0).aemeasurable_fst
  have h1 : AEMeasurable (fun ω => φ (X 1 ω)) P := hm.comp_aemeasurable (h.ident 1).aemeasurable_fst
  have hind : IndepFun (fun ω => φ (X 1 ω)) (fun ω => φ (X 0 ω)) P :=
    (h.indep (by norm_num : (1 : ℕ) ≠ 0)).comp hm hm
  have hprod := (indepFun_iff_map_prod_eq_prod_map_map h1 h0).1 hind
  have hnull : (P.map fun ω => (φ (X 1 ω), φ (X 0 ω))) (Set.diagonal ℝ) = 0 := by
    rw [hprod]
    have : IsProbabilityMeasure (P.map fun ω => φ (X 0 ω)) := Measure.isProbabilityMeasure_map h0
    rw [Measure.measure_prod_null measurableSet_diagonal]
    refine Eventually.of_forall fun c => ?_
    have e : Prod.mk c ⁻¹' Set.diagonal ℝ = {c} := by
      ext x
      simp [eq_comm]
    show (P.map fun ω => φ (X 0 ω)) (Prod.mk c ⁻¹' Set.diagonal ℝ) = 0
    rw [e, Measure.map_apply_of_aemeasurable h0 (measurableSet_singleton c)]
    exact hatom c
  rw [Measure.map_apply_of_aemeasurable (h1.prodMk h0) measurableSet_diagonal] at hnull
  rw [ae_iff]
  refine measure_mono_null (fun ω hω => ?_) hnull
  simp only [Set.mem_ofPred_eq, not_not] at hω
  exact hω.symm

lemma sq_sum_zero {x y z : ℝ} (h : x ^ 2 + y ^ 2 + z ^ 2 = 0) : x = 0 :=
  pow_eq_zero_iff (two_ne_zero) |>.1 (by linarith [sq_nonneg x, sq_nonneg y, sq_nonneg z])

/-- With three points the errors never contain the true plane, at no level: they are zero, and the fitted
plane is another one. -/
theorem C206_three_points_false (Q : Quantiles) (hQ : Spec.QuantilesOK Q) (svd : SvdFn) (hs : svd.Valid)
    (P : Measure Ω) [IsProbabilityMeasure P]
    (X : ℕ → Ω → Vec 3) (h : Spec.IndependentPoints P X) (w : Vec 3) (hw : Spec.TruePlane P X w)
    (hatom : ∀ c, P {ω | w 0 * X 0 ω 0 + w 1 * X 0 ω 1 + w 2 * X 0 ω 2 = c} = 0) :
    ∀ᵐ ω ∂P, ∃ f, init svd (Spec.first X ω 3) none none = .ok (some f) ∧
      ∀ (sampling : Bool) (cl : ℝ), 0 ≤ cl → cl < 1 → ∃ x y, errorsAt Q f sampling cl = some (x, y) ∧
        x < Spec.planeAngle f.normal w ∧ y < Spec.planeAngle f.normal w := by
  filter_upwards [never_equal h w hatom] with ω hω
  obtain ⟨f, hf⟩ := init_default_exists svd le_rfl (Spec.first X ω 3)
  obtain ⟨U, hF⟩ := init_default hs hf
  have hcop := three_coplanar (Spec.first X ω 3)
  refine ⟨f, hf, fun sampling cl h0 h1 => ⟨0, 0,
    (C174_zero_errors_iff_exact Q hQ svd hs _ f hf sampling cl h0 h1).2 hcop, ?_⟩⟩
  have s2 := (coplanar_iff hs hf).1 hcop
  suffices 0 < Spec.sineBetween f.normal w by
    have := Real.arcsin_pos.2 this
    exact ⟨this, this⟩
  refine lt_of_le_of_ne (Real.sqrt_nonneg _) fun e => hω ?_
  have hun : norm (f.V 2) = 1 := hF.svd.row_norm 2
  have hun' : norm f.normal = 1 := by
    rw [hF.normal]
    rcases upward_eq (f.V 2) with h | h <;> rw [h]
    · exact hun
    · rw [norm_neg']
      exact hun
  have hsq := sine_sq_eq hun' hw.unit
  rw [← e] at hsq
  -- the third axis is the true normal up to sign
  obtain ⟨t, ht⟩ : ∃ t : ℝ, w = t • f.V 2 := by
    have hd : ∃ t : ℝ, w = t • f.normal := by
      refine ⟨f.normal 0 * w 0 + f.normal 1 * w 1 + f.normal 2 * w 2, ?_⟩
      have n1 := norm_one_iff.1 hun'
      have n2 := norm_one_iff.1 hw.unit
      rw [Fin.sum_univ_three] at n1 n2
      set t := f.normal 0 * w 0 + f.normal 1 * w 1 + f.normal 2 * w 2 with ht
      have hz : (w 0 - t * f.normal 0) ^ 2 + (w 1 - t * f.normal 1) ^ 2 + (w 2 - t * f.normal 2) ^ 2 = 0 := by
        linear_combination n2 + t ^ 2 * n1 - hsq + 2 * t * ht
      have q0 : w 0 - t * f.normal 0 = 0 := sq_sum_zero hz
      have q1 : w 1 - t * f.normal 1 = 0 := sq_sum_zero (by rw [← hz]; ring : _ + (w 0 - t * f.normal 0) ^ 2 + (w 2 - t * f.normal 2) ^ 2 = 0)
      have q2 : w 2 - t * f.normal 2 = 0 := sq_sum_zero (by rw [← hz]; ring : _ + (w 0 - t * f.normal 0) ^ 2 + (w 1 - t * f.normal 1) ^ 2 = 0)
      funext j
      simp only [Pi.smul_apply, smul_eq_mul]
      fin_cases j
      · exact sub_eq_zero.1 q0
      · exact sub_eq_zero.1 q1
      · exact sub_eq_zero.1 q2
    obtain ⟨t, ht⟩ := hd
    rw [hF.normal] at ht
    rcases upward_eq (f.V 2) with h | h <;> rw [h] at ht
    · exact ⟨t, ht⟩
    · exact ⟨-t, by rw [ht]; simp⟩
  have hrow := hF.svd.sum_sq_row 2
  rw [s2] at hrow
  have hz : ∀ i, (Matrix.of (Coordinates.centered (Spec.first X ω 3)) *ᵥ f.V 2) i = 0 := by
    intro i
    have := (Finset.sum_eq_zero_iff_of_nonneg (fun i _ => sq_nonneg _)).1 (hrow.trans (by norm_num)) i
      (Finset.mem_univ i)
    exact pow_eq_zero_iff (by norm_num) |>.1 this
  have z0 := hz 0
  have z1 := hz 1
  simp only [Matrix.mulVec, dotProduct, Fin.sum_univ_three, Matrix.of_apply, Coordinates.centered] at z0 z1
  have f0 : ∀ j, Spec.first X ω 3 0 j = X 0 ω j := fun _ => rfl
  have f1 : ∀ j, Spec.first X ω 3 1 j = X 1 ω j := fun _ => rfl
  rw [f0, f0, f0] at z0
  rw [f1, f1, f1] at z1
  rw [ht]
  simp only [Pi.smul_apply, smul_eq_mul]
  linear_combination t * z0 - t * z1

/-! ## An example: normally distributed points around a plane that dips by 45 degrees -/

open scoped NNReal ENNReal in
/-- Standard deviations 3 and 2 along the plane, 1 across it. -/
lemma exists_measurements : ∃ (Ω : Type) (_ : MeasurableSpace Ω) (P : Measure Ω) (_ : IsProbabilityMeasure P)
    (X : ℕ → Ω → Vec 3), Spec.IndependentPoints P X ∧ Spec.TruePlane P X (sdNormal 0 45) ∧
      ∀ c, P {ω | sdNormal 0 45 0 * X 0 ω 0 + sdNormal 0 45 1 * X 0 ω 1 + sdNormal 0 45 2 * X 0 ω 2 = c} =
        0 := by
  set v : Fin 3 → ℝ≥0 := ![9, 4, 1] with hv
  set μ : Measure (Vec 3) := Measure.pi fun j => gaussianReal 0 (v j) with hμ
  obtain ⟨Ω, mΩ, P, Z, hm, hl, hi, hP⟩ := exists_iid.{0, 0} ℕ μ
  set q := Real.sqrt 2 / 2 with hq
  have hq2 : q * q = 1 / 2 := by
    rw [hq]
    have := Real.mul_self_sqrt (by norm_num : (0 : ℝ) ≤ 2)
    linarith
  have hw : sdNormal 0 45 = ![q, 0, q] := by
    have e : radians 45 = Real.pi / 4 := by unfold radians; ring
    have e0 : radians 0 = 0 := by unfold radians; ring
    simp [sdNormal, e, e0, hq]
  set T : Vec 3 → Vec 3 := fun z => ![q * (z 1 + z 2), z 0, q * (z 2 - z 1)] with hT
  have hTm : Measurable T := by
    rw [measurable_pi_iff]
    intro j
    fin_cases j
    · show Measurable fun z : Vec 3 => q * (z 1 + z 2)
      fun_prop
    · show Measurable fun z : Vec 3 => z 0
      fun_prop
    · show Measurable fun z : Vec 3 => q * (z 2 - z 1)
      fun_prop
  have hev : ∀ j, P.map (fun ω => Z 0 ω j) = gaussianReal 0 (v j) := by
    intro j
    have h1 : P.map (fun ω => Z 0 ω j) = (P.map (Z 0)).map (fun z : Vec 3 => z j) :=
      (Measure.map_map (measurable_pi_apply j) (hm 0)).symm
    rw [h1, (hl 0).map_eq]
    exact (measurePreserving_eval _ j).map_eq
  have hLp : ∀ j, MemLp (fun ω => Z 0 ω j) 2 P := by
    intro j
    have h1 : MemLp id 2 (P.map (fun ω => Z 0 ω j)) := by
      rw [hev j]
      exact memLp_id_gaussianReal' 2 (by norm_num)
    exact (memLp_map_measure_iff aestronglyMeasurable_id
      ((measurable_pi_apply j).comp (hm 0)).aemeasurable).1 h1
  have hvar : ∀ c : Vec 3, Var[fun ω => c 0 * Z 0 ω 0 + c 1 * Z 0 ω 1 + c 2 * Z 0 ω 2; P] =
      9 * c 0 ^ 2 + 4 * c 1 ^ 2 + c 2 ^ 2 := by
    intro c
    have e : (fun ω => c 0 * Z 0 ω 0 + c 1 * Z 0 ω 1 + c 2 * Z 0 ω 2) =
        (∑ j, fun z : Vec 3 => (fun j x => c j * x) j (z j)) ∘ Z 0 := by
      funext ω
      simp [Fin.sum_univ_three]
    rw [e, ← variance_map (by fun_prop) (hm 0).aemeasurable, (hl 0).map_eq, hμ, variance_sum_pi]
    · have e2 : ∀ j, Var[fun x => c j * x; gaussianReal 0 (v j)] = c j ^ 2 * v j := by
        intro j
        rw [variance_const_mul, variance_fun_id_gaussianReal]
      rw [Finset.sum_congr rfl fun j _ => e2 j, Fin.sum_univ_three, hv]
      simp
      ring
    · intro j
      exact (memLp_id_gaussianReal' 2 (by norm_num)).const_mul (c j)
  have hlaw : ∀ u : Vec 3, Spec.varianceAlong P (fun i ω => T (Z i ω)) u =
      9 * u 1 ^ 2 + 4 * (q * (u 0 - u 2)) ^ 2 + (q * (u 0 + u 2)) ^ 2 := by
    intro u
    have := hvar ![u 1, q * (u 0 - u 2), q * (u 0 + u 2)]
    simp only [Matrix.cons_val_zero, Matrix.cons_val_one, Matrix.cons_val] at this
    rw [← this, Spec.varianceAlong]
    congr 1
    funext ω
    simp only [hT, Matrix.cons_val_zero, Matrix.cons_val_one, Matrix.cons_val]
    ring
  refine ⟨Ω, mΩ, P, hP, fun i ω => T (Z i ω), ⟨?_, ?_, ?_⟩, ⟨?_, ?_, ?_⟩, ?_⟩
  · intro i k hik
    exact (hi.indepFun hik).comp hTm hTm
  · intro i
    refine IdentDistrib.comp ⟨(hm i).aemeasurable, (hm 0).aemeasurable, ?_⟩ hTm
    rw [(hl i).map_eq, (hl 0).map_eq]
  · intro j
    fin_cases j
    · exact ((hLp 1).add (hLp 2)).const_mul q
    · exact hLp 0
    · exact ((hLp 2).sub (hLp 1)).const_mul q
  · rw [hw, norm_one_iff, Fin.sum_univ_three]
    simp only [Matrix.cons_val_zero, Matrix.cons_val_one, Matrix.cons_val]
    linarith [hq2, sq q]
  · rw [hlaw, hw]
    simp only [Matrix.cons_val_zero, Matrix.cons_val_one, Matrix.cons_val]
    have : (q * (q + q)) ^ 2 = 1 := by
      have : q * (q + q) = 1 := by linarith
      rw [this, one_pow]
    nlinarith
  · refine ⟨1, one_pos, fun u hu => ?_⟩
    have hu' := norm_one_iff.1 hu
    rw [Fin.sum_univ_three] at hu'
    rw [hlaw, hlaw, hw]
    simp only [Matrix.cons_val_zero, Matrix.cons_val_one, Matrix.cons_val]
    have e1 : (q * (q + q)) = 1 := by linarith
    have e2 : (q * (u 0 - u 2)) ^ 2 = (u 0 - u 2) ^ 2 / 2 := by
      linear_combination (u 0 - u 2) ^ 2 * hq2
    have e3 : (q * (u 0 + u 2)) ^ 2 = (u 0 + u 2) ^ 2 / 2 := by
      linear_combination (u 0 + u 2) ^ 2 * hq2
    have e4 : (u 0 * q + u 1 * 0 + u 2 * q) ^ 2 = (u 0 + u 2) ^ 2 / 2 := by
      linear_combination (u 0 + u 2) ^ 2 * hq2
    rw [e1, e2, e3, e4, sub_self]
    nlinarith [sq_nonneg (u 1), sq_nonneg (u 0 - u 2)]
  · intro c
    have e : {ω | sdNormal 0 45 0 * T (Z 0 ω) 0 + sdNormal 0 45 1 * T (Z 0 ω) 1 +
        sdNormal 0 45 2 * T (Z 0 ω) 2 = c} = (fun ω => Z 0 ω 2) ⁻¹' {c} := by
      ext ω
      simp only [Set.mem_ofPred_eq, Set.mem_preimage, Set.mem_singleton_iff]
      rw [hw]
      simp only [hT, Matrix.cons_val_zero, Matrix.cons_val_one, Matrix.cons_val]
      have : q * (q * (Z 0 ω 1 + Z 0 ω 2)) + 0 * Z 0 ω 0 + q * (q * (Z 0 ω 2 - Z 0 ω 1)) = Z 0 ω 2 := by
        linear_combination 2 * Z 0 ω 2 * hq2
      rw [this]
    have hm2 : Measurable fun ω => Z 0 ω 2 := (measurable_pi_apply 2).comp (hm 0)
    rw [e, ← Measure.map_apply hm2 (measurableSet_singleton c), hev 2]
    have : NullSingletonClass (gaussianReal 0 (v 2)) := nullSingletonClass_gaussianReal (by simp [hv])
    exact measure_singleton c

/-- Non-vacuity: the fits of the example converge to strike 0 and dip 45. -/
example : ∃ (svd : SvdFn) (Ω : Type) (_ : MeasurableSpace Ω) (P : Measure Ω) (_ : IsProbabilityMeasure P)
    (X : ℕ → Ω → Vec 3), svd.Valid ∧ ∃ ω, ∃ n f s d, init svd (Spec.first X ω n) none none = .ok (some f) ∧
      strikeDip f = some (s, d) ∧ |d - 45| < 1 / 100 ∧ ∃ k : ℤ, |s - 360 * k| < 1 / 100 := by
  obtain ⟨svd, hs⟩ := exists_valid_svd
  obtain ⟨Ω, mΩ, P, hP, X, h, hw, -⟩ := exists_measurements
  have hr : Spec.RightHandRule (sdNormal 0 45) 0 45 := by
    simpa using rightHandRule_sdNormal 1 0 45
  have h2 : 0 ≤ sdNormal 0 45 2 := by
    show 0 ≤ Real.cos (radians 45)
    have := Real.pi_pos
    refine Real.cos_nonneg_of_mem_Icc ⟨?_, ?_⟩ <;> unfold radians <;> nlinarith
  obtain ⟨ω, hω⟩ := (C205_strike_dip svd hs P X h _ hw 0 45 (by norm_num) (by norm_num) h2 hr).exists
  obtain ⟨N, hN⟩ := hω (1 / 100) (by norm_num)
  obtain ⟨f, s, d, hf, e, h1, h3⟩ := hN N le_rfl
  obtain ⟨k, hk⟩ := h3 (by norm_num)
  exact ⟨svd, Ω, mΩ, P, hP, X, hs, ω, N, f, s, d, hf, e, h1, k, by simpa using hk⟩

/-- Non-vacuity: both kinds of measurements of the example occur. -/
example : ∃ (svd : SvdFn) (Ω : Type) (_ : MeasurableSpace Ω) (P : Measure Ω) (_ : IsProbabilityMeasure P)
    (X : ℕ → Ω → Vec 3), svd.Valid ∧ ∃ ω,
      (∃ n f, init svd (Spec.first X ω n) none none = .ok (some f) ∧ ∃ x y,
        errorsAt Spec.quantiles2 f false 0 = some (x, y) ∧ Spec.planeAngle f.normal (sdNormal 0 45) ≤ x) ∧
      ∃ f, init svd (Spec.first X ω 3) none none = .ok (some f) ∧ ∃ x y,
        errorsAt Spec.quantiles2 f false (99 / 100) = some (x, y) ∧
        x < Spec.planeAngle f.normal (sdNormal 0 45) := by
  obtain ⟨svd, hs⟩ := exists_valid_svd
  obtain ⟨Ω, mΩ, P, hP, X, h, hw, ha⟩ := exists_measurements
  obtain ⟨ω, h1, h2⟩ := ((C206_many_points_partial _ Spec.quantiles2_ok svd hs P X h _ hw).and
    (C206_three_points_false _ Spec.quantiles2_ok svd hs P X h _ hw ha)).exists
  obtain ⟨N, hN⟩ := h1
  obtain ⟨f, hf, he⟩ := hN N le_rfl
  obtain ⟨x, y, e, hx, -⟩ := he false 0 le_rfl (by norm_num)
  obtain ⟨f', hf', he'⟩ := h2
  obtain ⟨x', y', e', hx', -⟩ := he' false (99 / 100) (by norm_num) (by norm_num)
  exact ⟨svd, Ω, mΩ, P, hP, X, hs, ω, ⟨N, f, hf, x, y, e, hx⟩, f', hf', x', y', e', hx'⟩

end Attitude.Props
