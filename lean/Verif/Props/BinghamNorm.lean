import Verif.Props.Statistics
import Mathlib.Analysis.SpecialFunctions.Gamma.Basic
import Mathlib.MeasureTheory.Integral.DominatedConvergence
import Mathlib.Analysis.SpecialFunctions.Integrals.Basic
import Mathlib.Analysis.Normed.Ring.InfiniteSum
import Mathlib.Analysis.Complex.ExponentialBounds
import Mathlib.Analysis.Real.Pi.Bounds

/-!
# C243: the normalisation of Bingham distributions
-/

namespace Attitude.Props

open Attitude Statistics MeasureTheory Filter Topology

/-! ## Specification -/

/-- The integral of a function over the surface of the unit sphere, in longitude and latitude. -/
noncomputable def Spec.overSphere (f : ℝ → ℝ → ℝ → ℝ) : ℝ :=
  ∫ lat in (-(Real.pi / 2))..(Real.pi / 2), ∫ lon in (-Real.pi)..Real.pi,
    f (Real.cos lat * Real.cos lon) (Real.cos lat * Real.sin lon) (Real.sin lat) * Real.cos lat

/-! ## Helper lemmas -/

/-- Moments over the longitudes. -/
noncomputable def lonMoment (i j : ℕ) : ℝ :=
  ∫ t in (-Real.pi)..Real.pi, Real.cos t ^ (2 * i) * Real.sin t ^ (2 * j)

/-- Moments over the latitudes. -/
noncomputable def latMoment (m : ℕ) : ℝ := ∫ t in (-(Real.pi / 2))..(Real.pi / 2), Real.cos t ^ (2 * m + 1)

lemma lonMoment_add (i j : ℕ) : lonMoment i j = lonMoment (i + 1) j + lonMoment i (j + 1) := by
  unfold lonMoment
  rw [← intervalIntegral.integral_add (Continuous.intervalIntegrable (by fun_prop) _ _)
    (Continuous.intervalIntegrable (by fun_prop) _ _)]
  refine intervalIntegral.integral_congr fun t _ => ?_
  have := Real.sin_sq_add_cos_sq t
  rw [show 2 * (i + 1) = 2 * i + 2 by ring, show 2 * (j + 1) = 2 * j + 2 by ring, pow_add, pow_add]
  linear_combination (-(Real.cos t ^ (2 * i) * Real.sin t ^ (2 * j))) * this

lemma lonMoment_parts (i j : ℕ) :
    (2 * j + 1 : ℝ) * lonMoment (i + 1) j = (2 * i + 1) * lonMoment i (j + 1) := by
  have hd : ∀ t ∈ Set.uIcc (-Real.pi) Real.pi,
      HasDerivAt (fun t => Real.cos t ^ (2 * i + 1) * Real.sin t ^ (2 * j + 1))
        ((2 * j + 1 : ℝ) * (Real.cos t ^ (2 * (i + 1)) * Real.sin t ^ (2 * j))
          - (2 * i + 1) * (Real.cos t ^ (2 * i) * Real.sin t ^ (2 * (j + 1)))) t := by
    intro t _
    have h1 := ((Real.hasDerivAt_cos t).pow (2 * i + 1)).mul ((Real.hasDerivAt_sin t).pow (2 * j + 1))
    refine h1.congr_deriv ?_
    simp only [Nat.add_sub_cancel, Pi.pow_apply]
    push_cast
    rw [show 2 * (i + 1) = 2 * i + 2 by ring, show 2 * (j + 1) = 2 * j + 2 by ring]
    ring
  have h := intervalIntegral.integral_eq_sub_of_hasDerivAt hd (Continuous.intervalIntegrable (by fun_prop) _ _)
  rw [intervalIntegral.integral_sub (Continuous.intervalIntegrable (by fun_prop) _ _)
    (Continuous.intervalIntegrable (by fun_prop) _ _), intervalIntegral.integral_const_mul, intervalIntegral.integral_const_mul] at h
  simp only [Real.sin_neg, Real.sin_pi, neg_zero, ne_eq, Nat.add_eq_zero_iff, one_ne_zero, and_false,
    not_false_eq_true, zero_pow, mul_zero, sub_self] at h
  unfold lonMoment
  linarith

lemma lonMoment_succ (i j : ℕ) : lonMoment (i + 1) j = (i + 1 / 2) / (i + j + 1) * lonMoment i j := by
  have h1 := lonMoment_add i j
  have h2 := lonMoment_parts i j
  have h3 : (0 : ℝ) < i + j + 1 := by positivity
  field_simp
  linear_combination (2 * i + 1 : ℝ) * (-h1) + h2

lemma lonMoment_swap (i j : ℕ) : lonMoment i (j + 1) = (j + 1 / 2) / (i + j + 1) * lonMoment i j := by
  have h1 := lonMoment_add i j
  have h2 := lonMoment_parts i j
  have h3 : (0 : ℝ) < i + j + 1 := by positivity
  field_simp
  linear_combination (2 * j + 1 : ℝ) * (-h1) - h2

lemma lonMoment_eq (i j : ℕ) : lonMoment i j =
    2 * (Real.Gamma (i + 1 / 2) * Real.Gamma (j + 1 / 2)) / Real.Gamma (i + j + 1) := by
  have g : ∀ x : ℝ, 0 < x → Real.Gamma (x + 1) = x * Real.Gamma x := fun x hx => Real.Gamma_add_one hx.ne'
  have gp : ∀ i : ℕ, 0 < Real.Gamma (i + 1 / 2) := fun i => Real.Gamma_pos_of_pos (by positivity)
  have gq : ∀ i j : ℕ, 0 < Real.Gamma ((i : ℝ) + j + 1) := fun i j => Real.Gamma_pos_of_pos (by positivity)
  induction i with
  | zero =>
    induction j with
    | zero =>
      simp only [lonMoment, mul_zero, pow_zero, mul_one, intervalIntegral.integral_const, smul_eq_mul, Nat.cast_zero, zero_add,
        Real.Gamma_one, div_one, Real.Gamma_one_half_eq]
      rw [Real.mul_self_sqrt Real.pi_pos.le]
      ring
    | succ j ih =>
      rw [lonMoment_swap, ih]
      push_cast
      rw [show (j : ℝ) + 1 + 1 / 2 = (j + 1 / 2) + 1 by ring, g (j + 1 / 2) (by positivity),
        show (0 : ℝ) + (j + 1) + 1 = (0 + j + 1) + 1 by ring, g (0 + j + 1) (by positivity)]
      have := gq 0 j
      push_cast at this
      have : (0 : ℝ) < 0 + j + 1 := by positivity
      field_simp
  | succ i ih =>
    rw [lonMoment_succ, ih]
    push_cast
    rw [show (i : ℝ) + 1 + 1 / 2 = (i + 1 / 2) + 1 by ring, g (i + 1 / 2) (by positivity),
      show (i : ℝ) + 1 + j + 1 = (i + j + 1) + 1 by ring, g (i + j + 1) (by positivity)]
    have := gq i j
    have : (0 : ℝ) < i + j + 1 := by positivity
    field_simp

lemma latMoment_succ (m : ℕ) : (2 * m + 3 : ℝ) * latMoment (m + 1) = (2 * m + 2) * latMoment m := by
  have hd : ∀ t ∈ Set.uIcc (-(Real.pi / 2)) (Real.pi / 2),
      HasDerivAt (fun t => Real.sin t * Real.cos t ^ (2 * m + 2))
        ((2 * m + 3 : ℝ) * Real.cos t ^ (2 * (m + 1) + 1) - (2 * m + 2) * Real.cos t ^ (2 * m + 1)) t := by
    intro t _
    have h1 := (Real.hasDerivAt_sin t).mul ((Real.hasDerivAt_cos t).pow (2 * m + 2))
    refine h1.congr_deriv ?_
    simp only [Pi.pow_apply]
    push_cast
    rw [show 2 * (m + 1) + 1 = 2 * m + 3 by ring]
    have := Real.sin_sq_add_cos_sq t
    linear_combination (-(2 * m + 2 : ℝ) * Real.cos t ^ (2 * m + 1)) * this
  have h := intervalIntegral.integral_eq_sub_of_hasDerivAt hd (Continuous.intervalIntegrable (by fun_prop) _ _)
  rw [intervalIntegral.integral_sub (Continuous.intervalIntegrable (by fun_prop) _ _)
    (Continuous.intervalIntegrable (by fun_prop) _ _), intervalIntegral.integral_const_mul, intervalIntegral.integral_const_mul] at h
  simp only [Real.cos_neg, Real.cos_pi_div_two, ne_eq, Nat.add_eq_zero_iff, OfNat.ofNat_ne_zero, and_false,
    not_false_eq_true, zero_pow, mul_zero, sub_self] at h
  unfold latMoment
  linarith

lemma latMoment_eq (m : ℕ) : latMoment m =
    Real.sqrt Real.pi * Real.Gamma (m + 1) / Real.Gamma (m + 3 / 2) := by
  have g : ∀ x : ℝ, 0 < x → Real.Gamma (x + 1) = x * Real.Gamma x := fun x hx => Real.Gamma_add_one hx.ne'
  induction m with
  | zero =>
    have h : latMoment 0 = 2 := by
      simp [latMoment, integral_cos]
      norm_num
    rw [h]
    simp only [Nat.cast_zero, zero_add, Real.Gamma_one, mul_one]
    rw [show (3 / 2 : ℝ) = 1 / 2 + 1 by norm_num, g _ (by norm_num), Real.Gamma_one_half_eq]
    have : 0 < Real.sqrt Real.pi := Real.sqrt_pos.2 Real.pi_pos
    field_simp
  | succ m ih =>
    have h := latMoment_succ m
    rw [ih] at h
    push_cast
    rw [g (m + 1) (by positivity), show (m : ℝ) + 1 + 3 / 2 = (m + 3 / 2) + 1 by ring,
      g (m + 3 / 2) (by positivity)]
    have h1 : 0 < Real.Gamma ((m : ℝ) + 3 / 2) := Real.Gamma_pos_of_pos (by positivity)
    have h2 : (0 : ℝ) < 2 * m + 3 := by positivity
    have h3 : latMoment (m + 1) = (2 * m + 2) * (Real.sqrt Real.pi * Real.Gamma (m + 1) / Real.Gamma (m + 3 / 2))
        / (2 * m + 3) := by
      field_simp
      field_simp at h
      linarith
    rw [h3]
    field_simp

/-- The terms of the series. -/
noncomputable def normTerm (k1 k2 : ℝ) (q : ℕ × ℕ) : ℝ :=
  Real.Gamma (q.1 + 0.5) * Real.Gamma (q.2 + 0.5) * k1 ^ q.1 * k2 ^ q.2
      / (Real.Gamma (q.1 + q.2 + 3 / 2) * q.1.factorial * q.2.factorial)

lemma hypergeometric_eq (k1 k2 : ℝ) (n : ℕ) :
    hypergeometric k1 k2 n = ∑ q ∈ Finset.range n ×ˢ Finset.range n, normTerm k1 k2 q := by
  rw [Finset.sum_product]
  rfl

lemma moments_term (k1 k2 : ℝ) (q : ℕ × ℕ) :
    k1 ^ q.1 / q.1.factorial * (k2 ^ q.2 / q.2.factorial) * (lonMoment q.1 q.2 * latMoment (q.1 + q.2))
      = 2 * Real.sqrt Real.pi * normTerm k1 k2 q := by
  rw [lonMoment_eq, latMoment_eq, normTerm]
  push_cast
  norm_num only
  have h1 : 0 < Real.Gamma ((q.1 : ℝ) + q.2 + 1) := Real.Gamma_pos_of_pos (by positivity)
  have h2 : 0 < Real.Gamma ((q.1 : ℝ) + q.2 + 3 / 2) := Real.Gamma_pos_of_pos (by positivity)
  field_simp

lemma exp_hasSum (x : ℝ) : HasSum (fun n : ℕ => x ^ n / n.factorial) (Real.exp x) := by
  rw [Real.exp_eq_exp_ℝ]
  exact NormedSpace.expSeries_div_hasSum_exp x

lemma exp_summable_norm (x : ℝ) : Summable fun n : ℕ => ‖x ^ n / (n.factorial : ℝ)‖ := by
  refine (exp_hasSum |x|).summable.congr fun n => ?_
  rw [Real.norm_eq_abs, abs_div, abs_pow, Nat.abs_cast]

lemma exp_product (a b : ℝ) : HasSum (fun q : ℕ × ℕ => a ^ q.1 / q.1.factorial * (b ^ q.2 / q.2.factorial))
    (Real.exp a * Real.exp b) := by
  have hs := summable_mul_of_summable_norm (exp_summable_norm a) (exp_summable_norm b)
  exact HasSum.mul (exp_hasSum a) (exp_hasSum b) hs

lemma abs_cos_pow_le (t : ℝ) (i : ℕ) : |Real.cos t ^ i| ≤ 1 := by
  rw [abs_pow]
  exact pow_le_one₀ (abs_nonneg _) (Real.abs_cos_le_one t)

lemma abs_sin_pow_le (t : ℝ) (i : ℕ) : |Real.sin t ^ i| ≤ 1 := by
  rw [abs_pow]
  exact pow_le_one₀ (abs_nonneg _) (Real.abs_sin_le_one t)

lemma lonMoment_le (i j : ℕ) : |lonMoment i j| ≤ 2 * Real.pi := by
  have := intervalIntegral.norm_integral_le_of_norm_le_const (a := -Real.pi) (b := Real.pi) (C := 1)
    (f := fun t => Real.cos t ^ (2 * i) * Real.sin t ^ (2 * j)) (fun t _ => by
      rw [Real.norm_eq_abs, abs_mul]
      exact mul_le_one₀ (abs_cos_pow_le _ _) (abs_nonneg _) (abs_sin_pow_le _ _))
  rw [Real.norm_eq_abs, one_mul, abs_of_pos (show 0 < Real.pi - -Real.pi by linarith [Real.pi_pos])] at this
  unfold lonMoment
  linarith

/-- The coefficients of the exponential series. -/
noncomputable def expCoeff (k1 k2 : ℝ) (q : ℕ × ℕ) : ℝ := k1 ^ q.1 / q.1.factorial * (k2 ^ q.2 / q.2.factorial)

lemma expCoeff_summable (k1 k2 : ℝ) : Summable fun q => |expCoeff k1 k2 q| := by
  refine (exp_product |k1| |k2|).summable.congr fun q => ?_
  simp [expCoeff, abs_mul, abs_div, abs_pow]

lemma expCoeff_point (k1 k2 lat lon : ℝ) : HasSum (fun q => expCoeff k1 k2 q * Real.cos lat ^ (2 * (q.1 + q.2) + 1) *
      (Real.cos lon ^ (2 * q.1) * Real.sin lon ^ (2 * q.2)))
    (Real.exp (k1 * (Real.cos lat * Real.cos lon) ^ 2 + k2 * (Real.cos lat * Real.sin lon) ^ 2) * Real.cos lat) := by
  have h := (exp_product (k1 * (Real.cos lat * Real.cos lon) ^ 2) (k2 * (Real.cos lat * Real.sin lon) ^ 2)).mul_right
    (Real.cos lat)
  rw [← Real.exp_add] at h
  refine h.congr_fun fun q => ?_
  unfold expCoeff
  rw [mul_pow k1, mul_pow k2, ← pow_mul, ← pow_mul, mul_pow, mul_pow]
  ring

/-- The integral over a circle of latitude as a series. -/
lemma circle_series (k1 k2 lat : ℝ) :
    HasSum (fun q => expCoeff k1 k2 q * Real.cos lat ^ (2 * (q.1 + q.2) + 1) * lonMoment q.1 q.2)
      (∫ lon in (-Real.pi)..Real.pi, Real.exp (k1 * (Real.cos lat * Real.cos lon) ^ 2
        + k2 * (Real.cos lat * Real.sin lon) ^ 2) * Real.cos lat) := by
  have h := intervalIntegral.hasSum_integral_of_dominated_convergence (μ := volume) (a := -Real.pi) (b := Real.pi)
    (F := fun (q : ℕ × ℕ) lon => expCoeff k1 k2 q * Real.cos lat ^ (2 * (q.1 + q.2) + 1) *
      (Real.cos lon ^ (2 * q.1) * Real.sin lon ^ (2 * q.2)))
    (fun q _ => |expCoeff k1 k2 q|) (fun q => Continuous.aestronglyMeasurable (by fun_prop))
    (fun q => ae_of_all _ fun t _ => by
      rw [Real.norm_eq_abs, abs_mul, abs_mul, abs_mul]
      have h1 := abs_cos_pow_le lat (2 * (q.1 + q.2) + 1)
      have h2 := abs_cos_pow_le t (2 * q.1)
      have h3 := abs_sin_pow_le t (2 * q.2)
      calc |expCoeff k1 k2 q| * |Real.cos lat ^ (2 * (q.1 + q.2) + 1)|
            * (|Real.cos t ^ (2 * q.1)| * |Real.sin t ^ (2 * q.2)|)
          ≤ |expCoeff k1 k2 q| * 1 * (1 * 1) := by gcongr
        _ = |expCoeff k1 k2 q| := by ring)
    (ae_of_all _ fun t _ => expCoeff_summable k1 k2) intervalIntegrable_const
    (ae_of_all _ fun t _ => expCoeff_point k1 k2 lat t)
  simp only [intervalIntegral.integral_const_mul] at h
  exact h

/-- The integral over the sphere as a series. -/
lemma sphere_series (k1 k2 : ℝ) : HasSum (fun q => 2 * Real.sqrt Real.pi * normTerm k1 k2 q)
    (Spec.overSphere fun x y _ => Real.exp (k1 * x ^ 2 + k2 * y ^ 2)) := by
  have outer := intervalIntegral.hasSum_integral_of_dominated_convergence (μ := volume) (a := -(Real.pi / 2))
    (b := Real.pi / 2)
    (F := fun (q : ℕ × ℕ) lat => expCoeff k1 k2 q * Real.cos lat ^ (2 * (q.1 + q.2) + 1) * lonMoment q.1 q.2)
    (fun q _ => |expCoeff k1 k2 q| * (2 * Real.pi)) (fun q => Continuous.aestronglyMeasurable (by fun_prop))
    (fun q => ae_of_all _ fun t _ => by
      rw [Real.norm_eq_abs, abs_mul, abs_mul]
      have h1 := abs_cos_pow_le t (2 * (q.1 + q.2) + 1)
      have h2 := lonMoment_le q.1 q.2
      calc |expCoeff k1 k2 q| * |Real.cos t ^ (2 * (q.1 + q.2) + 1)| * |lonMoment q.1 q.2|
          ≤ |expCoeff k1 k2 q| * 1 * (2 * Real.pi) := by gcongr
        _ = |expCoeff k1 k2 q| * (2 * Real.pi) := by ring)
    (ae_of_all _ fun t _ => (expCoeff_summable k1 k2).mul_right _) intervalIntegrable_const
    (ae_of_all _ fun t _ => circle_series k1 k2 t)
  refine outer.congr_fun fun q => ?_
  rw [intervalIntegral.integral_mul_const, intervalIntegral.integral_const_mul, ← moments_term]
  simp only [expCoeff, latMoment]
  ring

lemma latMoment_le (m : ℕ) : |latMoment m| ≤ Real.pi := by
  have := intervalIntegral.norm_integral_le_of_norm_le_const (a := -(Real.pi / 2)) (b := Real.pi / 2) (C := 1)
    (f := fun t => Real.cos t ^ (2 * m + 1)) (fun t _ => abs_cos_pow_le _ _)
  rw [Real.norm_eq_abs, one_mul, abs_of_pos (show 0 < Real.pi / 2 - -(Real.pi / 2) by linarith [Real.pi_pos])] at this
  unfold latMoment
  linarith

lemma normTerm_le (k1 k2 : ℝ) (q : ℕ × ℕ) :
    |Real.sqrt Real.pi * normTerm k1 k2 q| ≤ Real.pi ^ 2 * expCoeff |k1| |k2| q := by
  have h := moments_term k1 k2 q
  have e : Real.sqrt Real.pi * normTerm k1 k2 q
      = expCoeff k1 k2 q * (lonMoment q.1 q.2 * latMoment (q.1 + q.2)) / 2 := by
    unfold expCoeff
    linarith
  have e2 : |expCoeff k1 k2 q| = expCoeff |k1| |k2| q := by
    simp [expCoeff, abs_mul, abs_div, abs_pow]
  rw [e, abs_div, abs_mul, abs_mul, e2, abs_of_pos (zero_lt_two' ℝ)]
  have h1 := lonMoment_le q.1 q.2
  have h2 := latMoment_le (q.1 + q.2)
  have h3 : 0 ≤ expCoeff |k1| |k2| q := by unfold expCoeff; positivity
  have h4 : |lonMoment q.1 q.2| * |latMoment (q.1 + q.2)| ≤ 2 * Real.pi * Real.pi := by
    have := Real.pi_pos
    gcongr
  nlinarith

/-- A series and its partial sum, compared with a series of larger terms. -/
lemma partial_sum_close {ι : Type} [DecidableEq ι] {f g : ι → ℝ} {a b : ℝ} (hf : HasSum f a) (hg : HasSum g b)
    (h : ∀ i, |f i| ≤ g i) (s : Finset ι) : |a - ∑ i ∈ s, f i| ≤ b - ∑ i ∈ s, g i := by
  have h1 : Tendsto (fun t => |∑ i ∈ t, f i - ∑ i ∈ s, f i|) atTop (𝓝 |a - ∑ i ∈ s, f i|) :=
    (hf.sub_const _).abs
  have h2 : Tendsto (fun t => ∑ i ∈ t, g i - ∑ i ∈ s, g i) atTop (𝓝 (b - ∑ i ∈ s, g i)) := hg.sub_const _
  refine le_of_tendsto_of_tendsto h1 h2 ?_
  filter_upwards [eventually_ge_atTop s] with t hst
  rw [← Finset.sum_sdiff hst, ← Finset.sum_sdiff hst, add_sub_cancel_right, add_sub_cancel_right]
  exact (Finset.abs_sum_le_sum_abs _ _).trans (Finset.sum_le_sum fun i _ => h i)

lemma exp_tail {x : ℝ} (h0 : 0 ≤ x) (h1 : x ≤ 1) :
    Real.exp x - ∑ m ∈ Finset.range 10, x ^ m / m.factorial ≤ 1 / 1000000 := by
  have h := Real.exp_bound (x := x) (by rwa [abs_of_nonneg h0]) (n := 10) (by norm_num)
  refine ((le_abs_self _).trans h).trans ?_
  rw [abs_of_nonneg h0]
  have : x ^ 10 ≤ 1 := pow_le_one₀ h0 h1
  norm_num [Nat.factorial]
  linarith

/-! ## C243 -/

/-- With more and more terms, the square root of pi times `confluent_hypergeometric_function` converges to what
normalises the Bingham distribution of directions of a hemisphere: half of the integral over the sphere.  For
all arguments. -/
theorem C243_converges (k1 k2 : ℝ) :
    Tendsto (fun n => Real.sqrt Real.pi * hypergeometric k1 k2 n) atTop
      (𝓝 ((Spec.overSphere fun x y _ => Real.exp (k1 * x ^ 2 + k2 * y ^ 2)) / 2)) := by
  have h := (sphere_series k1 k2).div_const 2
  have ht : Tendsto (fun n : ℕ => Finset.range n ×ˢ Finset.range n) atTop atTop := by
    refine tendsto_atTop_finset_of_monotone (fun a b hab => ?_) fun q => ⟨max q.1 q.2 + 1, ?_⟩
    · exact Finset.product_subset_product (Finset.range_mono hab) (Finset.range_mono hab)
    · simp only [Finset.mem_product, Finset.mem_range]
      omega
  refine (h.comp ht).congr fun n => ?_
  simp only [Function.comp, hypergeometric_eq, Finset.mul_sum]
  exact Finset.sum_congr rfl fun q _ => by ring

/-- With the default number of terms and arguments of at most one, the result is accurate to four decimals. -/
theorem C243_default_partial (k1 k2 : ℝ) (h1 : |k1| ≤ 1) (h2 : |k2| ≤ 1) :
    |(Spec.overSphere fun x y _ => Real.exp (k1 * x ^ 2 + k2 * y ^ 2)) / 2
      - Real.sqrt Real.pi * hypergeometric k1 k2| ≤ 1 / 10000 := by
  have hf : HasSum (fun q => Real.sqrt Real.pi * normTerm k1 k2 q)
      ((Spec.overSphere fun x y _ => Real.exp (k1 * x ^ 2 + k2 * y ^ 2)) / 2) :=
    ((sphere_series k1 k2).div_const 2).congr_fun fun q => by ring
  have hg := (exp_product |k1| |k2|).mul_left (Real.pi ^ 2)
  have h := partial_sum_close hf hg (normTerm_le k1 k2) (Finset.range 10 ×ˢ Finset.range 10)
  rw [hypergeometric_eq, Finset.mul_sum]
  refine h.trans ?_
  have hprod : ∑ q ∈ Finset.range 10 ×ˢ Finset.range 10,
      |k1| ^ q.1 / (q.1.factorial : ℝ) * (|k2| ^ q.2 / (q.2.factorial : ℝ)) =
      (∑ m ∈ Finset.range 10, |k1| ^ m / (m.factorial : ℝ)) * ∑ m ∈ Finset.range 10, |k2| ^ m / (m.factorial : ℝ) := by
    rw [Finset.sum_product, Finset.sum_mul_sum]
  rw [← Finset.mul_sum, hprod, ← mul_sub]
  set A := ∑ m ∈ Finset.range 10, |k1| ^ m / (m.factorial : ℝ)
  set B := ∑ m ∈ Finset.range 10, |k2| ^ m / (m.factorial : ℝ)
  have a1 : Real.exp |k1| - A ≤ 1 / 1000000 := exp_tail (abs_nonneg _) h1
  have b1 : Real.exp |k2| - B ≤ 1 / 1000000 := exp_tail (abs_nonneg _) h2
  have a2 : A ≤ Real.exp |k1| := Real.sum_le_exp_of_nonneg (abs_nonneg _) 10
  have b2 : B ≤ Real.exp |k2| := Real.sum_le_exp_of_nonneg (abs_nonneg _) 10
  have e1 : Real.exp |k1| ≤ 3 := (Real.exp_le_exp.2 h1).trans (by linarith [Real.exp_one_lt_d9])
  have e2 : Real.exp |k2| ≤ 3 := (Real.exp_le_exp.2 h2).trans (by linarith [Real.exp_one_lt_d9])
  have p1 := Real.exp_pos |k1|
  have p2 := Real.exp_pos |k2|
  have hp : Real.pi ^ 2 ≤ 10 := by
    have := Real.pi_lt_d2
    have := Real.pi_pos
    nlinarith
  have key : Real.exp |k1| * Real.exp |k2| - A * B ≤ 6 / 1000000 := by
    have : Real.exp |k1| * Real.exp |k2| - A * B
        = (Real.exp |k1| - A) * Real.exp |k2| + A * (Real.exp |k2| - B) := by ring
    rw [this]
    have : (Real.exp |k1| - A) * Real.exp |k2| ≤ 1 / 1000000 * 3 := by
      apply mul_le_mul a1 e2 p2.le (by norm_num)
    have hA : 0 ≤ A := Finset.sum_nonneg fun m _ => by positivity
    have : A * (Real.exp |k2| - B) ≤ 3 * (1 / 1000000) := by
      apply mul_le_mul (a2.trans e1) b1 (by linarith) (by norm_num)
    linarith
  have hnn : 0 ≤ Real.exp |k1| * Real.exp |k2| - A * B := by
    have hB : 0 ≤ B := Finset.sum_nonneg fun m _ => by positivity
    have := mul_le_mul a2 b2 hB p1.le
    linarith
  calc Real.pi ^ 2 * (Real.exp |k1| * Real.exp |k2| - A * B) ≤ 10 * (6 / 1000000) := by gcongr
    _ ≤ 1 / 10000 := by norm_num

lemma normTerm_zero (k : ℝ) (i : ℕ) : normTerm k 0 (i, 0) =
    Real.sqrt Real.pi * (k ^ i / ((i + 1 / 2) * i.factorial)) := by
  unfold normTerm
  have h1 : 0 < Real.Gamma ((i : ℝ) + 1 / 2) := Real.Gamma_pos_of_pos (by positivity)
  have h2 : Real.Gamma ((i : ℝ) + ((0 : ℕ) : ℝ) + 3 / 2) = (i + 1 / 2) * Real.Gamma (i + 1 / 2) := by
    rw [← Real.Gamma_add_one (by positivity)]
    congr 1
    push_cast
    ring
  rw [h2]
  norm_num only [Nat.cast_zero, zero_add, Real.Gamma_one_half_eq, pow_zero, mul_one, Nat.factorial_zero, Nat.cast_one]
  field_simp

lemma normTerm_zero_succ (k : ℝ) (i j : ℕ) : normTerm k 0 (i, j + 1) = 0 := by
  simp [normTerm]

lemma terms_grow {k : ℝ} (hk : 40 ≤ k) (n : ℕ) (hn : n ≤ 10) :
    2 * ∑ i ∈ Finset.range n, k ^ i / (((i : ℝ) + 1 / 2) * i.factorial)
      ≤ k ^ n / (((n : ℝ) + 1 / 2) * n.factorial) := by
  induction n with
  | zero => simp
  | succ n ih =>
    have h := ih (by omega)
    rw [Finset.sum_range_succ]
    have hn' : (n : ℝ) ≤ 9 := by exact_mod_cast (by omega : n ≤ 9)
    have h0 : (0 : ℝ) ≤ n := Nat.cast_nonneg n
    set a := k ^ n / (((n : ℝ) + 1 / 2) * n.factorial) with ha
    have hapos : 0 < a := by positivity
    have e : k ^ (n + 1) / ((((n + 1 : ℕ) : ℝ) + 1 / 2) * (n + 1).factorial)
        = a * (k * (n + 1 / 2) / ((n + 3 / 2) * (n + 1))) := by
      rw [ha, Nat.factorial_succ]
      push_cast
      have : (0 : ℝ) < n.factorial := by positivity
      field_simp
      ring
    rw [e]
    have : 3 ≤ k * (n + 1 / 2) / ((n + 3 / 2) * (n + 1)) := by
      rw [le_div_iff₀ (by positivity)]
      nlinarith
    nlinarith

/-- For a concentration of forty or more the default number of terms is not enough: the result is at most a third
of the normalisation. -/
theorem C243_default_false (k : ℝ) (hk : 40 ≤ k) :
    3 * (Real.sqrt Real.pi * hypergeometric k 0)
      ≤ (Spec.overSphere fun x y _ => Real.exp (k * x ^ 2 + 0 * y ^ 2)) / 2 := by
  have hf : HasSum (fun q => Real.sqrt Real.pi * normTerm k 0 q)
      ((Spec.overSphere fun x y _ => Real.exp (k * x ^ 2 + 0 * y ^ 2)) / 2) :=
    ((sphere_series k 0).div_const 2).congr_fun fun q => by ring
  have hnn : ∀ q, 0 ≤ Real.sqrt Real.pi * normTerm k 0 q := by
    intro q
    have hs := Real.sqrt_nonneg Real.pi
    rcases q with ⟨i, _ | j⟩
    · rw [normTerm_zero]
      have : 0 ≤ k := by linarith
      positivity
    · rw [normTerm_zero_succ, mul_zero]
  have h := sum_le_hasSum (Finset.range 11 ×ˢ Finset.range 1) (fun q _ => hnn q) hf
  refine le_trans ?_ h
  have e1 : hypergeometric k 0 = Real.sqrt Real.pi *
      ∑ i ∈ Finset.range 10, k ^ i / (((i : ℝ) + 1 / 2) * i.factorial) := by
    rw [hypergeometric_eq, Finset.sum_product, Finset.mul_sum]
    refine Finset.sum_congr rfl fun i _ => ?_
    rw [Finset.sum_range_succ', Finset.sum_eq_zero fun j _ => normTerm_zero_succ k i j, zero_add, normTerm_zero]
  have e2 : ∑ q ∈ Finset.range 11 ×ˢ Finset.range 1, Real.sqrt Real.pi * normTerm k 0 q
      = Real.pi * ∑ i ∈ Finset.range 11, k ^ i / (((i : ℝ) + 1 / 2) * i.factorial) := by
    rw [Finset.sum_product, Finset.mul_sum]
    refine Finset.sum_congr rfl fun i _ => ?_
    rw [Finset.sum_range_one, normTerm_zero, ← mul_assoc, Real.mul_self_sqrt Real.pi_pos.le]
  rw [e1, e2, ← mul_assoc (Real.sqrt Real.pi), Real.mul_self_sqrt Real.pi_pos.le, Finset.sum_range_succ _ 10]
  have := terms_grow hk 10 le_rfl
  have := Real.pi_pos
  nlinarith

lemma sphere_le {f : ℝ → ℝ → ℝ} {c : ℝ} (hc : 0 ≤ c) (h0 : ∀ lon lat, 0 ≤ f lon lat) (h : ∀ lon lat, f lon lat ≤ c) :
    ∫ lat in (-(Real.pi / 2))..(Real.pi / 2), ∫ lon in (-Real.pi)..Real.pi, f lon lat * Real.cos lat
      ≤ 2 * Real.pi ^ 2 * c := by
  have hp := Real.pi_pos
  have h1 : ∀ lat, ‖∫ lon in (-Real.pi)..Real.pi, f lon lat * Real.cos lat‖ ≤ c * |Real.pi - -Real.pi| := by
    intro lat
    refine intervalIntegral.norm_integral_le_of_norm_le_const fun lon _ => ?_
    rw [Real.norm_eq_abs, abs_mul, abs_of_nonneg (h0 _ _)]
    calc f lon lat * |Real.cos lat| ≤ c * 1 := mul_le_mul (h _ _) (Real.abs_cos_le_one _) (abs_nonneg _) hc
      _ = c := mul_one c
  have h2 := intervalIntegral.norm_integral_le_of_norm_le_const (a := -(Real.pi / 2)) (b := Real.pi / 2)
    fun lat _ => h1 lat
  rw [abs_of_pos (show 0 < Real.pi / 2 - -(Real.pi / 2) by linarith),
    abs_of_pos (show 0 < Real.pi - -Real.pi by linarith)] at h2
  refine (le_abs_self _).trans ((Real.norm_eq_abs _).symm.le.trans (h2.trans (le_of_eq ?_)))
  ring

/-- The density of `bingham_pdf` is not normalised: for a plane whose errors are the same in all directions, and a
last hyperbolic axis of at most a fifth, its integral over the whole sphere is less than one. -/
theorem C243_density_false (hyp1f1 : ℝ → ℝ → ℝ → ℝ) (hexp : ∀ a x, 0 < a → hyp1f1 a a x = Real.exp x) (h : Vec 3)
    (h2 : 0 < h 2) (h5 : h 2 ≤ 1 / 5) (h01 : h 0 = h 1) (h12 : h 2 ≤ h 1) (axes : Mat 3 3)
    (ho : axes * axes.transpose = 1) :
    ∃ p : ℝ → ℝ → ℝ, (∀ lon lat, binghamPdf hyp1f1 h axes lon lat = some (p lon lat)) ∧
      ∫ lat in (-(Real.pi / 2))..(Real.pi / 2), ∫ lon in (-Real.pi)..Real.pi, p lon lat * Real.cos lat < 1 := by
  have h1 : 0 < h 1 := h2.trans_le h12
  have h0 : 0 < h 0 := h01 ▸ h1
  set E : ℝ → ℝ → ℝ := fun lon lat => binghamExponent (fun i => 1 / (h 2 ^ 2 / h i)) axes
    ![(Rotations.sph2cart lon lat).1, (Rotations.sph2cart lon lat).2.1, (Rotations.sph2cart lon lat).2.2] with hE
  refine ⟨fun lon lat => 1 / (1 / Real.exp (h 2) * Real.exp (E lon lat)), fun lon lat => ?_, ?_⟩
  · have hne : ¬ (h 0 = 0 ∨ h 1 = 0 ∨ h 2 = 0) := by
      push Not
      exact ⟨h0.ne', h1.ne', h2.ne'⟩
    have hw : hyp1f1 (1 / (1 / (h 2 ^ 2 / h 0))) (1 / (1 / (h 2 ^ 2 / h 1))) (1 / (1 / (h 2 ^ 2 / h 2)))
        = Real.exp (h 2) := by
      rw [h01, hexp _ _ (by positivity)]
      congr 1
      field_simp
    simp only [binghamPdf, if_neg hne, hw, (Real.exp_pos _).ne', if_false, hE]
  · have hlow : ∀ lon lat, 1 / h 2 ≤ E lon lat := by
      intro lon lat
      set x : Vec 3 := ![(Rotations.sph2cart lon lat).1, (Rotations.sph2cart lon lat).2.1,
        (Rotations.sph2cart lon lat).2.2] with hx
      have hunit : ∑ i, x i ^ 2 = 1 := by
        simp only [hx, Rotations.sph2cart, Fin.sum_univ_three, Matrix.cons_val_zero, Matrix.cons_val_one,
          Matrix.cons_val]
        have := Real.sin_sq_add_cos_sq lat
        have := Real.sin_sq_add_cos_sq lon
        nlinarith
      have hrot : ∑ j, (∑ i, x i * axes i j) ^ 2 = 1 := by
        have e : ∀ j, ∑ i, x i * axes i j = Matrix.vecMul x axes j := fun j => rfl
        have : ∑ j, (Matrix.vecMul x axes j) ^ 2 = Matrix.vecMul x axes ⬝ᵥ Matrix.vecMul x axes := by
          simp [dotProduct, sq]
        simp only [e]
        rw [this, ← Matrix.dotProduct_mulVec, ← Matrix.vecMul_transpose, Matrix.vecMul_vecMul, ho, Matrix.vecMul_one,
          ← hunit]
        simp [dotProduct, sq]
      have hz : ∀ j, 1 / h 2 ≤ 1 / (h 2 ^ 2 / h j) := by
        intro j
        have hj : h 2 ≤ h j ∧ 0 < h j := by
          fin_cases j
          · exact ⟨h01 ▸ h12, h0⟩
          · exact ⟨h12, h1⟩
          · exact ⟨le_rfl, h2⟩
        rw [one_div_div, div_le_div_iff₀ h2 (by positivity)]
        nlinarith [hj.1, hj.2]
      calc 1 / h 2 = 1 / h 2 * ∑ j, (∑ i, x i * axes i j) ^ 2 := by rw [hrot, mul_one]
        _ = ∑ j, 1 / h 2 * (∑ i, x i * axes i j) ^ 2 := Finset.mul_sum _ _ _
        _ ≤ E lon lat := Finset.sum_le_sum fun j _ => mul_le_mul_of_nonneg_right (hz j) (sq_nonneg _)
    have hp : ∀ lon lat, 1 / (1 / Real.exp (h 2) * Real.exp (E lon lat)) ≤ Real.exp (-(4 : ℝ)) := by
      intro lon lat
      have e : 1 / (1 / Real.exp (h 2) * Real.exp (E lon lat)) = Real.exp (h 2 - E lon lat) := by
        rw [Real.exp_sub]
        field_simp
      rw [e]
      apply Real.exp_le_exp.2
      have : (5 : ℝ) ≤ 1 / h 2 := by
        rw [le_div_iff₀ h2]
        linarith
      linarith [hlow lon lat]
    refine (sphere_le (Real.exp_pos _).le (fun lon lat => by positivity) hp).trans_lt ?_
    have h4 : (50 : ℝ) < Real.exp 4 := by
      have h := Real.exp_one_gt_d9
      have e : Real.exp 4 = Real.exp 1 ^ 4 := by
        rw [← Real.exp_nat_mul]
        norm_num
      rw [e]
      calc (50 : ℝ) < 2.7 ^ 4 := by norm_num
        _ ≤ Real.exp 1 ^ 4 := by gcongr; linarith
    have hpi : Real.pi ^ 2 ≤ 10 := by
      have := Real.pi_lt_d2
      have := Real.pi_pos
      nlinarith
    rw [Real.exp_neg, ← div_eq_mul_inv, div_lt_one (by linarith)]
    linarith

/-- The surface of the sphere, as a check of the specification. -/
example : Spec.overSphere (fun _ _ _ => 1) = 4 * Real.pi := by
  have : ∀ lat : ℝ, ∫ _ in (-Real.pi)..Real.pi, 1 * Real.cos lat = 2 * Real.pi * Real.cos lat := by
    intro lat
    rw [intervalIntegral.integral_const, smul_eq_mul]
    ring
  unfold Spec.overSphere
  simp only [this]
  rw [intervalIntegral.integral_const_mul, integral_cos]
  simp
  ring

/-- Arguments of at most one, and one that is too large for the default. -/
example : |(1 / 2 : ℝ)| ≤ 1 ∧ |(-1 : ℝ)| ≤ 1 ∧ (40 : ℝ) ≤ 100 := by norm_num [abs_le]

/-- A plane with the same errors in all directions, and axes that are not those of the coordinates. -/
example : ∃ (hyp1f1 : ℝ → ℝ → ℝ → ℝ) (h : Vec 3) (axes : Mat 3 3), (∀ a x, 0 < a → hyp1f1 a a x = Real.exp x) ∧ 0 < h 2 ∧
    h 2 ≤ 1 / 5 ∧ h 0 = h 1 ∧ h 2 ≤ h 1 ∧ axes * axes.transpose = 1 ∧ axes ≠ 1 := by
  refine ⟨fun _ _ x => Real.exp x, ![3, 3, 1 / 10], !![0, 1, 0; 0, 0, 1; 1, 0, 0], fun _ _ _ => rfl, by simp, by simp; norm_num,
    by simp, by simp; norm_num, ?_, fun h => ?_⟩
  · ext i j
    fin_cases i <;> fin_cases j <;> simp [Matrix.mul_apply, Fin.sum_univ_three]
  · have := congrFun (congrFun h 0) 0
    simp at this

end Attitude.Props
