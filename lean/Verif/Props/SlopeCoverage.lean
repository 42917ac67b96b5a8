import Verif.Props.StandardErrors
import Verif.Props.ErrorKinds

/-!
# C242: how often a slope lies within its standard errors
-/

namespace Attitude.Props

open Attitude Linear Matrix MeasureTheory ProbabilityTheory Filter Topology

/-! ## Specification -/

/-- Errors of more and more points: with mean zero and the same distribution, of variance `v`, and
independent. -/
structure Spec.IndependentErrors {Ω : Type} [MeasurableSpace Ω] (P : Measure Ω) (e : ℕ → Ω → ℝ) (v : ℝ) :
    Prop where
  finite : MemLp (e 0) 2 P
  ident : ∀ i, IdentDistrib (e i) (e 0) P P
  indep : Pairwise fun i k => IndepFun (e i) (e k) P
  mean : ∫ ω, e 0 ω ∂P = 0
  second : ∫ ω, e 0 ω ^ 2 ∂P = v

/-- The slopes of the plane `z = p x + q y + c`. -/
def Spec.slopes (p q : ℝ) : Fin 2 → ℝ := ![p, q]

/-! ## Helper lemmas -/

lemma standardErrors_nonneg {n : ℕ} {a : Fin n → Vec 3} {s : Vec 3} (hs : Spec.StandardErrors a s) (j : Fin 3) :
    0 ≤ s j := by
  obtain ⟨r, -, h⟩ := hs
  unfold standardErrors at h
  rcases hc : covarianceMatrix r with ⟨v, r'⟩
  rw [hc] at h
  cases v with
  | error e => simp at h
  | ok m =>
    obtain rfl := Except.ok.inj h
    exact Real.sqrt_nonneg _

/-- With three points the standard errors are zero. -/
lemma standardErrors_three {a : Fin 3 → Vec 3} {b s : Vec 3} (hb : Spec.Coefficients a b)
    (hs : Spec.StandardErrors a s) : s = 0 := by
  obtain ⟨r, hr, hc⟩ := hb
  obtain ⟨r', hr', h⟩ := hs
  obtain rfl : r = r' := by rw [hr] at hr'; exact Except.ok.inj hr'
  have hcol := (C31_singular_iff _ r hr).2.1 ⟨b, hc⟩
  obtain ⟨m, u, hm, hu, h3, -, -, -⟩ := C36_covariance _ r hr hcol
  unfold standardErrors at h
  rcases hcm : covarianceMatrix r with ⟨v, r'⟩
  rw [hcm] at hm h
  obtain rfl : v = .ok m := hm
  obtain rfl := Except.ok.inj h
  funext j
  simp [h3 rfl]

lemma slope_errors {n : ℕ} {x y : Fin n → ℝ} {p q c : ℝ} {e : Fin n → ℝ} {b : Vec 3}
    (hb : Spec.Coefficients (Spec.surveyed x y p q c e) b) (j : Fin 2) :
    b j.castSucc - Spec.slopes p q j = ∑ i, (invOf x y * (designOf x y)ᵀ) j.castSucc i * e i := by
  obtain ⟨-, -, h⟩ := surveyed_coefficients hb
  rw [h]
  fin_cases j <;> simp [Spec.slopes, Matrix.mulVec, dotProduct]

/-- Independent errors are plain. -/
lemma Spec.IndependentErrors.plain {Ω : Type} [MeasurableSpace Ω] {P : Measure Ω} [IsProbabilityMeasure P]
    {e : ℕ → Ω → ℝ} {v : ℝ} (he : Spec.IndependentErrors P e v) (n : ℕ) :
    Spec.PlainErrors P (fun i : Fin n => e i) v where
  finite i := (he.ident i).memLp_iff.2 he.finite
  mean i := by rw [(he.ident i).integral_eq, he.mean]
  second i k := by
    split_ifs with h
    · subst h
      have := ((he.ident i).comp (measurable_id.pow_const 2)).integral_eq
      simp only [Function.comp_def, id] at this
      rw [← he.second, ← this]
      exact integral_congr_ae (ae_of_all _ fun ω => by ring)
    · have hne : (i : ℕ) ≠ k := fun h' => h (Fin.ext h')
      have hm := fun i => (he.ident i).memLp_iff.2 he.finite
      have := (he.indep hne).integral_fun_mul_eq_mul_integral (hm i).aestronglyMeasurable
        (hm k).aestronglyMeasurable
      rw [this, (he.ident i).integral_eq, he.mean, zero_mul]

/-- Markov's inequality for a mean that is at most a multiple of the bound. -/
lemma markov {Ω : Type} [MeasurableSpace Ω] {P : Measure Ω} [IsProbabilityMeasure P] {f : Ω → ℝ}
    (h0 : ∀ ω, 0 ≤ f ω) (hf : Integrable f P) {t r : ℝ} (ht : 0 < t) (h : ∫ ω, f ω ∂P = r * t) :
    P.real {ω | t ≤ f ω} ≤ r := by
  have := mul_meas_ge_le_integral_of_nonneg (ae_of_all _ h0) hf t
  rw [h, mul_comm r] at this
  exact le_of_mul_le_mul_left this ht

/-- The mean of the squares of many errors is seldom much smaller than their variance. -/
lemma squares_small {Ω : Type} [MeasurableSpace Ω] {P : Measure Ω} [IsProbabilityMeasure P]
    {e : ℕ → Ω → ℝ} {v : ℝ} (hv : 0 < v) (he : Spec.IndependentErrors P e v) {ε : ℝ} (hε : 0 < ε) :
    ∃ N, ∀ n ≥ N, P.real {ω | ∑ i : Fin n, e i ω ^ 2 ≤ 3 / 4 * v * n} ≤ ε := by
  have hm := fun i => (he.ident i).memLp_iff.2 he.finite
  have hmeas : Measurable fun x : ℝ => x ^ 2 := measurable_id.pow_const 2
  have hl := strong_law_ae_real (fun i ω => e i ω ^ 2) he.finite.integrable_sq
    (fun i k hik => (he.indep hik).comp hmeas hmeas) (fun i => (he.ident i).comp hmeas)
  have hmea : ∀ n : ℕ, AEStronglyMeasurable (fun ω => (∑ i ∈ Finset.range n, e i ω ^ 2) / n) P := by
    intro n
    have : AEMeasurable (fun ω => (∑ i ∈ Finset.range n, e i ω ^ 2) / n) P :=
      (Finset.aemeasurable_fun_sum _ fun i _ => ((hm i).aestronglyMeasurable.aemeasurable.pow_const 2)).div_const _
    exact this.aestronglyMeasurable
  have ht := tendstoInMeasure_of_tendsto_ae hmea hl
  rw [he.second, tendstoInMeasure_iff_measureReal_norm] at ht
  have h1 := ht (v / 4) (by positivity)
  obtain ⟨N, hN⟩ := eventually_atTop.1 (h1.eventually (gt_mem_nhds hε))
  refine ⟨max N 1, fun n hn => ?_⟩
  refine le_trans (measureReal_mono ?_) (hN n ((le_max_left _ _).trans hn)).le
  have hn0 : (0 : ℝ) < n := by exact_mod_cast (le_max_right N 1).trans hn
  intro ω hω
  simp only [Set.mem_ofPred_eq] at hω ⊢
  rw [Fin.sum_univ_eq_sum_range (fun i => e i ω ^ 2) n] at hω
  have : (∑ i ∈ Finset.range n, e i ω ^ 2) / n ≤ 3 / 4 * v := by
    rw [div_le_iff₀ hn0]
    exact hω
  rw [Real.norm_eq_abs, abs_sub_comm]
  refine le_trans ?_ (le_abs_self _)
  linarith

/-- What the residuals miss of the errors is a sum of squares. -/
lemma missed_nonneg {n : ℕ} {x y : Fin n → ℝ} (hd : (matrixSquared (designOf x y)).det ≠ 0) (e : Fin n → ℝ) :
    0 ≤ ∑ i, e i ^ 2 - ∑ i, ∑ k, makerOf x y i k * (e i * e k) := by
  have h1 : ∑ i, ∑ k, makerOf x y i k * (e i * e k) = e ⬝ᵥ (makerOf x y *ᵥ e) := by
    simp only [dotProduct, Matrix.mulVec, Finset.mul_sum]
    exact Finset.sum_congr rfl fun i _ => Finset.sum_congr rfl fun k _ => by ring
  have h2 : e ⬝ᵥ (makerOf x y *ᵥ e) = (makerOf x y *ᵥ e) ⬝ᵥ (makerOf x y *ᵥ e) := by
    conv_rhs => rw [Matrix.dotProduct_mulVec, Matrix.vecMul_mulVec, maker_symm, maker_idem hd]
    rw [Matrix.dotProduct_mulVec, ← Matrix.mulVec_transpose, maker_symm]
  have h3 : ∑ i, e i ^ 2 - e ⬝ᵥ (makerOf x y *ᵥ e)
      = (e - makerOf x y *ᵥ e) ⬝ᵥ (e - makerOf x y *ᵥ e) := by
    rw [sub_dotProduct, dotProduct_sub, dotProduct_sub, dotProduct_comm (makerOf x y *ᵥ e) e, ← h2]
    simp only [dotProduct, sq]
    ring
  rw [h1, h3]
  exact Finset.sum_nonneg fun i _ => mul_self_nonneg _

lemma invOf_pos {n : ℕ} {x y : Fin n → ℝ} (hd : (matrixSquared (designOf x y)).det ≠ 0) (j : Fin 3) :
    0 < invOf x y j j ∧ ∑ i, (invOf x y * (designOf x y)ᵀ) j i ^ 2 = invOf x y j j := by
  set A := invOf x y * (designOf x y)ᵀ with hA
  have hAA : ∑ i, A j i ^ 2 = invOf x y j j := by
    have : A * Aᵀ = invOf x y := by
      rw [hA, Matrix.transpose_mul, Matrix.transpose_transpose, invOf_symm, Matrix.mul_assoc,
        ← Matrix.mul_assoc (designOf x y)ᵀ,
        show (designOf x y)ᵀ * designOf x y = matrixSquared (designOf x y) from rfl]
      unfold invOf
      rw [Matrix.mul_nonsing_inv _ (isUnit_iff_ne_zero.2 hd), Matrix.mul_one]
    rw [← this, Matrix.mul_apply]
    exact Finset.sum_congr rfl fun i _ => by rw [Matrix.transpose_apply, sq]
  refine ⟨?_, hAA⟩
  have hAX : A * designOf x y = 1 := by
    rw [hA, Matrix.mul_assoc,
      show (designOf x y)ᵀ * designOf x y = matrixSquared (designOf x y) from rfl]
    exact Matrix.nonsing_inv_mul _ (isUnit_iff_ne_zero.2 hd)
  rw [← hAA]
  refine lt_of_le_of_ne (Finset.sum_nonneg fun i _ => sq_nonneg _) fun h => ?_
  have hz : ∀ i, A j i = 0 := by
    intro i
    have := (Finset.sum_eq_zero_iff_of_nonneg fun i _ => sq_nonneg (A j i)).1 h.symm i (Finset.mem_univ i)
    exact pow_eq_zero_iff (two_ne_zero) |>.1 this
  have k := congrFun (congrFun hAX j) j
  rw [Matrix.mul_apply] at k
  simp [hz] at k

/-! ## C242 -/

/-- Whether a slope lies within `k` standard errors of the true one depends on the positions and on the
errors relative to each other only: not on the true plane, and not on the unit or size of the errors. -/
theorem C242_pivot_partial {n : ℕ} (x y e : Fin n → ℝ) (p q c p' q' c' l k : ℝ) (hl : l ≠ 0) (b s b' s' : Vec 3)
    (hb : Spec.Coefficients (Spec.surveyed x y p q c fun i => l * e i) b)
    (hs : Spec.StandardErrors (Spec.surveyed x y p q c fun i => l * e i) s)
    (hb' : Spec.Coefficients (Spec.surveyed x y p' q' c' e) b')
    (hs' : Spec.StandardErrors (Spec.surveyed x y p' q' c' e) s') (j : Fin 2) :
    |b j.castSucc - Spec.slopes p q j| ≤ k * s j.castSucc ↔
      |b' j.castSucc - Spec.slopes p' q' j| ≤ k * s' j.castSucc := by
  have hl' : 0 < |l| := abs_pos.2 hl
  have hS : s j.castSucc = |l| * s' j.castSucc := by
    by_cases h3 : n = 3
    · subst h3
      rw [standardErrors_three hb hs, standardErrors_three hb' hs']
      simp
    · have h1 := surveyed_standardErrors h3 hb hs j.castSucc
      have h2 := surveyed_standardErrors h3 hb' hs' j.castSucc
      have : s j.castSucc ^ 2 = (|l| * s' j.castSucc) ^ 2 := by
        rw [h1, mul_pow, h2, sq_abs, ← mul_assoc, Finset.mul_sum]
        congr 1
        refine Finset.sum_congr rfl fun i _ => ?_
        rw [Finset.mul_sum]
        exact Finset.sum_congr rfl fun k _ => by ring
      exact (pow_left_inj₀ (standardErrors_nonneg hs _) (mul_nonneg hl'.le (standardErrors_nonneg hs' _))
        two_ne_zero).1 this
  have hB : b j.castSucc - Spec.slopes p q j = l * (b' j.castSucc - Spec.slopes p' q' j) := by
    rw [slope_errors hb, slope_errors hb', Finset.mul_sum]
    exact Finset.sum_congr rfl fun i _ => by ring
  rw [hB, hS, abs_mul, mul_left_comm]
  exact mul_le_mul_iff_right₀ hl'

/-- The share of repetitions ought to be the usual one for `k` standard errors, such as 68 percent for one.
Instead it tends to one for all `k`, however small, wherever the points are. -/
theorem C242_many_false {Ω : Type} [MeasurableSpace Ω] (P : Measure Ω) [IsProbabilityMeasure P]
    (e : ℕ → Ω → ℝ) (v : ℝ) (hv : 0 < v) (he : Spec.IndependentErrors P e v) (k : ℝ) (hk : 0 < k)
    (ε : ℝ) (hε : 0 < ε) :
    ∃ N, ∀ n ≥ N, ∀ (x y : Fin n → ℝ) (p q c : ℝ) (b s : Ω → Vec 3),
      (∀ ω, Spec.Coefficients (Spec.surveyed x y p q c fun i => e i ω) (b ω)) →
      (∀ ω, Spec.StandardErrors (Spec.surveyed x y p q c fun i => e i ω) (s ω)) →
      ∀ j : Fin 2, 1 - ε ≤ P.real {ω | |b ω j.castSucc - Spec.slopes p q j| ≤ k * s ω j.castSucc} := by
  obtain ⟨N₁, hN₁⟩ := squares_small hv he (show 0 < ε / 3 by positivity)
  obtain ⟨N₂, hN₂⟩ := exists_nat_gt (36 / ε)
  obtain ⟨N₃, hN₃⟩ := exists_nat_gt (6 / (k ^ 2 * ε))
  refine ⟨max (max N₁ N₂) (max N₃ 4), fun n hn x y p q c b s hb hs j => ?_⟩
  have hn1 : N₁ ≤ n := le_trans (le_max_left _ _) ((le_max_left _ _).trans hn)
  have hn2 : (N₂ : ℝ) ≤ n := by exact_mod_cast le_trans (le_max_right _ _) ((le_max_left _ _).trans hn)
  have hn3 : (N₃ : ℝ) ≤ n := by exact_mod_cast le_trans (le_max_left _ _) ((le_max_right _ _).trans hn)
  have hn4 : 4 ≤ n := le_trans (le_max_right _ _) ((le_max_right _ _).trans hn)
  have hn0 : (0 : ℝ) < n := by exact_mod_cast (by omega : 0 < n)
  have hp := he.plain n
  obtain ⟨ω₀⟩ : Nonempty Ω := nonempty_of_isProbabilityMeasure P
  obtain ⟨-, hd, -⟩ := surveyed_coefficients (hb ω₀)
  obtain ⟨hpos, -⟩ := invOf_pos hd j.castSucc
  set m := invOf x y j.castSucc j.castSucc with hm
  obtain ⟨s0, s1, hse, -⟩ := survey_moments P (by omega : n ≠ 3) x y p q c (fun i => e i) v hp b s hb hs
  have int2 : ∀ i k : Fin n, Integrable (fun ω => e i ω * e k ω) P := fun i k =>
    (hp.finite i).integrable_mul (hp.finite k)
  -- the error of the slope
  have hvar : ∫ ω, (b ω j.castSucc - Spec.slopes p q j) ^ 2 ∂P = v * m := by
    rw [hm]
    fin_cases j
    · exact s0.2
    · exact s1.2
  have hint : Integrable (fun ω => (b ω j.castSucc - Spec.slopes p q j) ^ 2) P := by
    simp only [slope_errors (hb _)]
    exact (memLp_finsetSum _ fun i _ => (hp.finite i).const_mul _).integrable_sq
  have hA : P.real {ω | k ^ 2 * (n * v / 2 * m) ≤ (b ω j.castSucc - Spec.slopes p q j) ^ 2} ≤ ε / 3 := by
    refine (markov (r := 2 / (k ^ 2 * n)) (fun ω => sq_nonneg _) hint (by positivity) ?_).trans ?_
    · rw [hvar]
      field_simp
    · rw [div_le_iff₀ (by positivity)]
      rw [div_lt_iff₀ (by positivity)] at hN₃
      have : (N₃ : ℝ) * (k ^ 2 * ε) ≤ n * (k ^ 2 * ε) := by gcongr
      nlinarith
  -- what the residuals miss
  set S : Ω → ℝ := fun ω => ∑ i, ∑ k, makerOf x y i k * (e i ω * e k ω) with hS
  have hsS : ∀ ω, s ω j.castSucc ^ 2 = S ω * m := fun ω =>
    surveyed_standardErrors (by omega : n ≠ 3) (hb ω) (hs ω) j.castSucc
  have hSi : Integrable S P := integrable_finsetSum _ fun i _ => integrable_finsetSum _ fun k _ =>
    (int2 i k).const_mul _
  have hES : ∫ ω, S ω ∂P = ((n : ℝ) - 3) * v := by
    have h1 := hse j.castSucc
    simp only [hsS] at h1
    rw [integral_mul_const, ← hm, ← mul_assoc] at h1
    exact mul_right_cancel₀ hpos.ne' h1
  have hei : Integrable (fun ω => ∑ i : Fin n, e i ω ^ 2) P := integrable_finsetSum _ fun i _ =>
    (hp.finite i).integrable_sq
  have hEe : ∫ ω, ∑ i : Fin n, e i ω ^ 2 ∂P = n * v := by
    rw [integral_finsetSum _ fun i _ => (hp.finite i).integrable_sq]
    have : ∀ i : Fin n, ∫ ω, e i ω ^ 2 ∂P = v := by
      intro i
      have := hp.second i i
      rw [if_pos rfl] at this
      rw [← this]
      exact integral_congr_ae (ae_of_all _ fun ω => by ring)
    simp [this]
  have hQ : P.real {ω | n * v / 4 ≤ ∑ i : Fin n, e i ω ^ 2 - S ω} ≤ ε / 3 := by
    refine (markov (r := 12 / n) (fun ω => missed_nonneg hd fun i => e i ω) (hei.sub hSi) (by positivity)
      ?_).trans ?_
    · rw [integral_sub hei hSi, hEe, hES]
      field_simp
      ring
    · rw [div_le_iff₀ hn0]
      rw [div_lt_iff₀ hε] at hN₂
      have : (N₂ : ℝ) * ε ≤ n * ε := by gcongr
      nlinarith
  -- together
  have hsub : {ω | ¬ |b ω j.castSucc - Spec.slopes p q j| ≤ k * s ω j.castSucc} ⊆
      {ω | k ^ 2 * (n * v / 2 * m) ≤ (b ω j.castSucc - Spec.slopes p q j) ^ 2} ∪
      ({ω | n * v / 4 ≤ ∑ i : Fin n, e i ω ^ 2 - S ω} ∪ {ω | ∑ i : Fin n, e i ω ^ 2 ≤ 3 / 4 * v * n}) := by
    intro ω hω
    simp only [Set.mem_ofPred_eq, not_le, Set.mem_union] at hω ⊢
    by_contra hcon
    push Not at hcon
    obtain ⟨h1, h2, h3⟩ := hcon
    have h4 : n * v / 2 < S ω := by linarith
    have h5 : (k * s ω j.castSucc) ^ 2 < (b ω j.castSucc - Spec.slopes p q j) ^ 2 := by
      rw [← sq_abs (b ω j.castSucc - _)]
      exact pow_lt_pow_left₀ hω (mul_nonneg hk.le (standardErrors_nonneg (hs ω) _)) two_ne_zero
    rw [mul_pow, hsS] at h5
    have h6 : k ^ 2 * (n * v / 2 * m) ≤ k ^ 2 * (S ω * m) := by gcongr
    linarith
  have hnot : P.real {ω | ¬ |b ω j.castSucc - Spec.slopes p q j| ≤ k * s ω j.castSucc} ≤ ε := by
    refine (measureReal_mono hsub).trans ((measureReal_union_le _ _).trans ?_)
    have := measureReal_union_le (μ := P) {ω | n * v / 4 ≤ ∑ i : Fin n, e i ω ^ 2 - S ω}
      {ω | ∑ i : Fin n, e i ω ^ 2 ≤ 3 / 4 * v * n}
    linarith [hN₁ n hn1]
  have hun : (Set.univ : Set Ω) ⊆ {ω | |b ω j.castSucc - Spec.slopes p q j| ≤ k * s ω j.castSucc} ∪
      {ω | ¬ |b ω j.castSucc - Spec.slopes p q j| ≤ k * s ω j.castSucc} := by
    intro ω _
    exact em _
  have h1 := (measureReal_mono (μ := P) hun).trans (measureReal_union_le _ _)
  rw [probReal_univ] at h1
  linarith

/-- With three points it is never within any number of standard errors, except if it is exact. -/
theorem C242_three_false (x y e : Fin 3 → ℝ) (p q c k : ℝ) (b s : Vec 3)
    (hb : Spec.Coefficients (Spec.surveyed x y p q c e) b)
    (hs : Spec.StandardErrors (Spec.surveyed x y p q c e) s) (j : Fin 2) :
    |b j.castSucc - Spec.slopes p q j| ≤ k * s j.castSucc ↔ b j.castSucc = Spec.slopes p q j := by
  rw [standardErrors_three hb hs, Pi.zero_apply, mul_zero, abs_nonpos_iff, sub_eq_zero]

/-- Five points, errors of one of them, and two planes. -/
example : ∃ b s b' s' : Vec 3,
    Spec.Coefficients (Spec.surveyed (Spec.stakes 5).1 (Spec.stakes 5).2 2 (-1) 7 fun i => 3 * (![1, 0, 0, 0, 0] : Fin 5 → ℝ) i) b ∧
    Spec.StandardErrors (Spec.surveyed (Spec.stakes 5).1 (Spec.stakes 5).2 2 (-1) 7 fun i => 3 * (![1, 0, 0, 0, 0] : Fin 5 → ℝ) i) s ∧
    Spec.Coefficients (Spec.surveyed (Spec.stakes 5).1 (Spec.stakes 5).2 0 4 1 ![1, 0, 0, 0, 0]) b' ∧
    Spec.StandardErrors (Spec.surveyed (Spec.stakes 5).1 (Spec.stakes 5).2 0 4 1 ![1, 0, 0, 0, 0]) s' := by
  obtain ⟨b, s, h1, h2⟩ := exists_regression (by omega : 5 ≠ 0)
    (stakes_not_collinear (by omega) 2 (-1) 7 fun i => 3 * (![1, 0, 0, 0, 0] : Fin 5 → ℝ) i)
  obtain ⟨b', s', h3, h4⟩ := exists_regression (by omega : 5 ≠ 0)
    (stakes_not_collinear (by omega) 0 4 1 ![1, 0, 0, 0, 0])
  exact ⟨b, s, b', s', h1, h2, h3, h4⟩

/-- Standard normal errors: for some number of points the slopes are within a hundredth of their standard
errors in 99 percent of the repetitions. -/
example : ∃ (Ω : Type) (_ : MeasurableSpace Ω) (P : Measure Ω) (_ : IsProbabilityMeasure P) (e : ℕ → Ω → ℝ)
    (n : ℕ) (b s : Ω → Vec 3), Spec.IndependentErrors P e 1 ∧
    (∀ ω, Spec.Coefficients (Spec.surveyed (Spec.stakes n).1 (Spec.stakes n).2 2 (-1) 7 fun i => e i ω) (b ω)) ∧
    (∀ ω, Spec.StandardErrors (Spec.surveyed (Spec.stakes n).1 (Spec.stakes n).2 2 (-1) 7 fun i => e i ω) (s ω)) ∧
    99 / 100 ≤ P.real {ω | |b ω 0 - 2| ≤ 1 / 100 * s ω 0} := by
  obtain ⟨Ω, mΩ, P, hP, Z, hm, hi, hid, hLp, h0, hc⟩ := exists_normals (Fin 1)
  have hev : Measurable fun z : Fin 1 → ℝ => z 0 := measurable_pi_apply 0
  have he : Spec.IndependentErrors P (fun i ω => Z i ω 0) 1 := by
    refine ⟨hLp 0, fun i => (hid i).comp hev, fun i k hik => (hi hik).comp hev hev, h0 0, ?_⟩
    have h := hc 1 1
    simp only [Pi.one_apply, one_mul, Fin.sum_univ_one] at h
    rw [covariance_self (hLp 0).aestronglyMeasurable.aemeasurable,
      variance_of_integral_eq_zero (hLp 0).aestronglyMeasurable.aemeasurable (h0 0)] at h
    exact h
  obtain ⟨N, hN⟩ := C242_many_false P _ 1 one_pos he (1 / 100) (by norm_num) (1 / 100) (by norm_num)
  have hex := fun ω => exists_regression (by omega : N + 3 ≠ 0)
    (stakes_not_collinear (by omega) 2 (-1) 7 fun i : Fin (N + 3) => Z i ω 0)
  choose b s hb hs using hex
  refine ⟨Ω, mΩ, P, hP, _, N + 3, b, s, he, hb, hs, ?_⟩
  have := hN (N + 3) (by omega) _ _ 2 (-1) 7 b s hb hs 0
  norm_num [Spec.slopes] at this ⊢
  exact this

/-- Three points whose slopes are not exact. -/
example : ∃ b s : Vec 3, Spec.Coefficients (Spec.surveyed (Spec.stakes 3).1 (Spec.stakes 3).2 2 (-1) 7 ![1, 0, 0]) b ∧
    Spec.StandardErrors (Spec.surveyed (Spec.stakes 3).1 (Spec.stakes 3).2 2 (-1) 7 ![1, 0, 0]) s :=
  exists_regression (by omega : 3 ≠ 0) (stakes_not_collinear (by omega) 2 (-1) 7 ![1, 0, 0])

end Attitude.Props
