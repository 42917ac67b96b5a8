import Verif.Props.Linear
import Verif.Props.PcaMotion
import Mathlib.Probability.Moments.Variance

/-!
# C228: the standard errors of a regression
-/

namespace Attitude.Props

open Attitude Linear Matrix MeasureTheory

/-! ## Specification -/

/-- Points of the plane `z = p x + q y + c` at the positions `x`, `y`, with errors of elevation. -/
def Spec.surveyed {n : ℕ} (x y : Fin n → ℝ) (p q c : ℝ) (e : Fin n → ℝ) : Fin n → Vec 3 :=
  fun i => ![x i, y i, p * x i + q * y i + c + e i]

/-- Errors with mean zero and the same variance that are not correlated. -/
structure Spec.PlainErrors {Ω : Type} [MeasurableSpace Ω] (P : Measure Ω) {n : ℕ} (e : Fin n → Ω → ℝ)
    (v : ℝ) : Prop where
  finite : ∀ i, MemLp (e i) 2 P
  mean : ∀ i, ∫ ω, e i ω ∂P = 0
  second : ∀ i j, ∫ ω, e i ω * e j ω ∂P = if i = j then v else 0

/-- The regression of an array of points, as far as its coefficients go. -/
def Spec.Coefficients {n : ℕ} (a : Fin n → Vec 3) (c : Vec 3) : Prop :=
  ∃ r, initRows a = .ok r ∧ (coefficients r).1 = .ok c

/-- The regression of an array of points, as far as its standard errors go. -/
def Spec.StandardErrors {n : ℕ} (a : Fin n → Vec 3) (s : Vec 3) : Prop :=
  ∃ r, initRows a = .ok r ∧ (standardErrors r).1 = .ok s

/-! ## Helper lemmas -/

/-- The centred design matrix only depends on the positions. -/
noncomputable def designOf {n : ℕ} (x y : Fin n → ℝ) : Mat n 3 :=
  (ofCentered (Coordinates.centered (Spec.surveyed x y 0 0 0 0))).C

lemma surveyed_mean01 {n : ℕ} (x y : Fin n → ℝ) (p q c : ℝ) (e : Fin n → ℝ) :
    meanRows (Spec.surveyed x y p q c e) 0 = (∑ i, x i) / n ∧
    meanRows (Spec.surveyed x y p q c e) 1 = (∑ i, y i) / n := by
  simp [meanRows, Spec.surveyed]

lemma surveyed_mean2 {n : ℕ} (hn : n ≠ 0) (x y : Fin n → ℝ) (p q c : ℝ) (e : Fin n → ℝ) :
    meanRows (Spec.surveyed x y p q c e) 2
      = p * ((∑ i, x i) / n) + q * ((∑ i, y i) / n) + c + (∑ i, e i) / n := by
  have hn' : (n : ℝ) ≠ 0 := by exact_mod_cast hn
  simp only [meanRows, Spec.surveyed, Matrix.cons_val, Finset.sum_add_distrib, ← Finset.mul_sum,
    Finset.sum_const, Finset.card_univ, Fintype.card_fin, nsmul_eq_mul]
  field_simp

lemma surveyed_design {n : ℕ} (x y : Fin n → ℝ) (p q c : ℝ) (e : Fin n → ℝ) :
    (ofCentered (Coordinates.centered (Spec.surveyed x y p q c e))).C = designOf x y := by
  unfold designOf
  ext i j
  simp only [ofCentered, addOnes, Matrix.of_apply, Coordinates.centered,
    (surveyed_mean01 x y p q c e).1, (surveyed_mean01 x y p q c e).2,
    (surveyed_mean01 x y 0 0 0 0).1, (surveyed_mean01 x y 0 0 0 0).2]
  rfl

/-- The response, as the plane plus errors plus a constant. -/
lemma surveyed_response {n : ℕ} (hn : n ≠ 0) (x y : Fin n → ℝ) (p q c : ℝ) (e : Fin n → ℝ) :
    (ofCentered (Coordinates.centered (Spec.surveyed x y p q c e))).Z
      = designOf x y *ᵥ ![p, q, -((∑ i, e i) / n)] + e := by
  funext i
  unfold designOf
  rw [Pi.add_apply, ofCentered_mulVec]
  show Spec.surveyed x y p q c e i 2 - meanRows (Spec.surveyed x y p q c e) 2 = _
  rw [surveyed_mean2 hn]
  simp only [Coordinates.centered, (surveyed_mean01 x y 0 0 0 0).1, (surveyed_mean01 x y 0 0 0 0).2]
  simp only [Spec.surveyed, Matrix.cons_val_zero, Matrix.cons_val_one, Matrix.cons_val]
  ring

/-- The inverse normal matrix. -/
noncomputable def invOf {n : ℕ} (x y : Fin n → ℝ) : Mat 3 3 := (matrixSquared (designOf x y))⁻¹

/-- Coefficients as a function of the errors. -/
lemma surveyed_coefficients {n : ℕ} {x y : Fin n → ℝ} {p q c : ℝ} {e : Fin n → ℝ} {b : Vec 3}
    (hb : Spec.Coefficients (Spec.surveyed x y p q c e) b) :
    n ≠ 0 ∧ (matrixSquared (designOf x y)).det ≠ 0 ∧
      b = ![p, q, -((∑ i, e i) / n)] + (invOf x y * (designOf x y)ᵀ) *ᵥ e := by
  obtain ⟨r, hr, hc⟩ := hb
  obtain ⟨hr', h0, hd, hcc⟩ := coefficients_rows hr hc
  rw [hr', surveyed_design] at hd
  refine ⟨h0, hd, ?_⟩
  rw [hcc, hr', surveyed_design, surveyed_response h0, Matrix.mulVec_add, Matrix.mulVec_mulVec,
    Matrix.mulVec_add, Matrix.mulVec_mulVec, Matrix.mulVec_mulVec,
    show (designOf x y)ᵀ * designOf x y = matrixSquared (designOf x y) from rfl,
    Matrix.nonsing_inv_mul _ (isUnit_iff_ne_zero.2 hd), Matrix.one_mulVec]
  rfl

/-- The matrix that takes errors to residuals. -/
noncomputable def makerOf {n : ℕ} (x y : Fin n → ℝ) : Mat n n :=
  1 - designOf x y * invOf x y * (designOf x y)ᵀ

lemma invOf_symm {n : ℕ} (x y : Fin n → ℝ) : (invOf x y)ᵀ = invOf x y := by
  unfold invOf
  rw [Matrix.transpose_nonsing_inv]
  congr 1
  simp [matrixSquared, Matrix.transpose_mul]

lemma maker_symm {n : ℕ} (x y : Fin n → ℝ) : (makerOf x y)ᵀ = makerOf x y := by
  unfold makerOf
  rw [Matrix.transpose_sub, Matrix.transpose_one, Matrix.transpose_mul, Matrix.transpose_mul,
    Matrix.transpose_transpose, invOf_symm, Matrix.mul_assoc]

lemma maker_design {n : ℕ} {x y : Fin n → ℝ} (hd : (matrixSquared (designOf x y)).det ≠ 0) :
    makerOf x y * designOf x y = 0 := by
  unfold makerOf invOf
  rw [Matrix.sub_mul, Matrix.one_mul, Matrix.mul_assoc, Matrix.mul_assoc,
    show (designOf x y)ᵀ * designOf x y = matrixSquared (designOf x y) from rfl,
    Matrix.nonsing_inv_mul _ (isUnit_iff_ne_zero.2 hd), Matrix.mul_one, sub_self]

lemma maker_idem {n : ℕ} {x y : Fin n → ℝ} (hd : (matrixSquared (designOf x y)).det ≠ 0) :
    makerOf x y * makerOf x y = makerOf x y := by
  conv_lhs => rhs; unfold makerOf
  rw [Matrix.mul_sub, Matrix.mul_one, ← Matrix.mul_assoc, ← Matrix.mul_assoc, maker_design hd,
    Matrix.zero_mul, Matrix.zero_mul, sub_zero]

lemma maker_trace {n : ℕ} {x y : Fin n → ℝ} (hd : (matrixSquared (designOf x y)).det ≠ 0) :
    ∑ i, makerOf x y i i = (n : ℝ) - 3 := by
  have : (makerOf x y).trace = (n : ℝ) - 3 := by
    unfold makerOf invOf
    rw [Matrix.trace_sub, Matrix.trace_one, Matrix.mul_assoc, Matrix.trace_mul_comm, Matrix.mul_assoc,
      show (designOf x y)ᵀ * designOf x y = matrixSquared (designOf x y) from rfl,
      Matrix.nonsing_inv_mul _ (isUnit_iff_ne_zero.2 hd), Matrix.trace_one]
    simp
  exact this

/-- Squares of the standard errors as a function of the errors. -/
lemma surveyed_standardErrors {n : ℕ} (h3 : n ≠ 3) {x y : Fin n → ℝ} {p q c : ℝ} {e : Fin n → ℝ}
    {b s : Vec 3} (hb : Spec.Coefficients (Spec.surveyed x y p q c e) b)
    (hs : Spec.StandardErrors (Spec.surveyed x y p q c e) s) (j : Fin 3) :
    s j ^ 2 = (∑ i, ∑ k, makerOf x y i k * (e i * e k)) * invOf x y j j := by
  obtain ⟨h0, hd, hbe⟩ := surveyed_coefficients hb
  obtain ⟨r, hr, hc⟩ := hb
  obtain ⟨r', hr', hse⟩ := hs
  obtain rfl : r = r' := by rw [hr] at hr'; exact Except.ok.inj hr'
  have hcol := (C31_singular_iff _ r hr).2.1 ⟨b, hc⟩
  obtain ⟨m, u, hm, hu, -, hm3, -, hdiag⟩ := C36_covariance _ r hr hcol
  have hsm : s = fun j => Real.sqrt (m j j) := by
    unfold standardErrors at hse
    rcases hcm : covarianceMatrix r with ⟨v, r'⟩
    rw [hcm] at hm hse
    obtain rfl : v = .ok m := hm
    exact (Except.ok.inj hse).symm
  obtain ⟨hrr, -, -, -⟩ := coefficients_rows hr hc
  have hC : r.C = designOf x y := by rw [hrr, surveyed_design]
  have hmK : m = (∑ i, u i ^ 2) • invOf x y := by
    have k := hm3 h3
    rw [hC] at k
    have k2 := congrArg (· * invOf x y) k
    rw [Matrix.mul_assoc] at k2
    unfold invOf at k2
    rw [show (designOf x y)ᵀ * designOf x y = matrixSquared (designOf x y) from rfl,
      Matrix.mul_nonsing_inv _ (isUnit_iff_ne_zero.2 hd), Matrix.mul_one, Matrix.smul_mul,
      Matrix.one_mul] at k2
    exact k2
  obtain ⟨u', hu', hres, -⟩ := C31_residuals _ r hr b hc
  obtain rfl : u = u' := by rw [hu] at hu'; exact Except.ok.inj hu'
  have hue : u = makerOf x y *ᵥ e := by
    have k : u = r.Z - r.C *ᵥ b := by
      funext i
      rw [hres, Pi.sub_apply, hrr, ofCentered_mulVec, intercept_zero hr hc]
      show _ = Coordinates.centered _ i 2 - _
      simp only [Coordinates.centered, Spec.intercept]
      ring
    rw [k, hC, hbe, hrr, surveyed_response h0, Matrix.mulVec_add, Matrix.mulVec_mulVec]
    unfold makerOf
    rw [Matrix.sub_mulVec, Matrix.one_mulVec, ← Matrix.mul_assoc]
    abel
  rw [hsm]
  simp only
  rw [Real.sq_sqrt (hdiag j), hmK]
  simp only [Matrix.smul_apply, smul_eq_mul]
  congr 1
  have k : ∑ i, u i ^ 2 = e ⬝ᵥ (makerOf x y *ᵥ e) := by
    have : ∑ i, u i ^ 2 = u ⬝ᵥ u := by simp [dotProduct, sq]
    rw [this, hue, Matrix.dotProduct_mulVec, Matrix.vecMul_mulVec, maker_symm, maker_idem hd,
      Matrix.dotProduct_mulVec, ← Matrix.mulVec_transpose, maker_symm]
  rw [k]
  simp only [dotProduct, Matrix.mulVec, Finset.mul_sum]
  refine Finset.sum_congr rfl fun i _ => Finset.sum_congr rfl fun l _ => by ring


lemma survey_moments {Ω : Type} [MeasurableSpace Ω] (P : Measure Ω) [IsProbabilityMeasure P]
    {n : ℕ} (h3 : n ≠ 3) (x y : Fin n → ℝ) (p q c : ℝ) (e : Fin n → Ω → ℝ) (v : ℝ)
    (he : Spec.PlainErrors P e v) (b s : Ω → Vec 3)
    (hb : ∀ ω, Spec.Coefficients (Spec.surveyed x y p q c fun i => e i ω) (b ω))
    (hs : ∀ ω, Spec.StandardErrors (Spec.surveyed x y p q c fun i => e i ω) (s ω)) :
    (∫ ω, b ω 0 ∂P = p ∧ ∫ ω, (b ω 0 - p) ^ 2 ∂P = v * invOf x y 0 0) ∧
    (∫ ω, b ω 1 ∂P = q ∧ ∫ ω, (b ω 1 - q) ^ 2 ∂P = v * invOf x y 1 1) ∧
    (∀ j, ∫ ω, s ω j ^ 2 ∂P = ((n : ℝ) - 3) * (v * invOf x y j j)) ∧
    0 < invOf x y 0 0 := by
  obtain ⟨ω₀⟩ : Nonempty Ω := nonempty_of_isProbabilityMeasure P
  obtain ⟨h0, hd, -⟩ := surveyed_coefficients (hb ω₀)
  set A := invOf x y * (designOf x y)ᵀ with hA
  have hAA : ∀ j, ∑ i, A j i ^ 2 = invOf x y j j := by
    intro j
    have : A * Aᵀ = invOf x y := by
      rw [hA, Matrix.transpose_mul, Matrix.transpose_transpose, invOf_symm, Matrix.mul_assoc,
        ← Matrix.mul_assoc (designOf x y)ᵀ,
        show (designOf x y)ᵀ * designOf x y = matrixSquared (designOf x y) from rfl]
      unfold invOf
      rw [Matrix.mul_nonsing_inv _ (isUnit_iff_ne_zero.2 hd), Matrix.mul_one]
    rw [← this, Matrix.mul_apply]
    exact Finset.sum_congr rfl fun i _ => by rw [Matrix.transpose_apply, sq]
  have int1 : ∀ i, Integrable (e i) P := fun i => (he.finite i).integrable (by norm_num)
  have int2 : ∀ i k, Integrable (fun ω => e i ω * e k ω) P := fun i k =>
    (he.finite i).integrable_mul (he.finite k)
  -- the slopes
  have slope : ∀ (j : Fin 3) (t : ℝ), (∀ ω, b ω j = t + ∑ i, A j i * e i ω) →
      ∫ ω, b ω j ∂P = t ∧ ∫ ω, (b ω j - t) ^ 2 ∂P = v * invOf x y j j := by
    intro j t hj
    constructor
    · simp only [hj]
      rw [integral_add (integrable_const _) (integrable_finsetSum _ fun i _ => (int1 i).const_mul _),
        integral_finsetSum _ fun i _ => (int1 i).const_mul _]
      simp [integral_const_mul, he.mean]
    · have hexp : ∀ ω, (b ω j - t) ^ 2 = ∑ i, ∑ k, A j i * A j k * (e i ω * e k ω) := by
        intro ω
        rw [hj, add_sub_cancel_left, sq, Finset.sum_mul_sum]
        exact Finset.sum_congr rfl fun i _ => Finset.sum_congr rfl fun k _ => by ring
      simp only [hexp]
      rw [integral_finsetSum _ fun i _ => integrable_finsetSum _ fun k _ => (int2 i k).const_mul _]
      have : ∀ i, ∫ ω, ∑ k, A j i * A j k * (e i ω * e k ω) ∂P = v * A j i ^ 2 := by
        intro i
        rw [integral_finsetSum _ fun k _ => (int2 i k).const_mul _]
        simp only [integral_const_mul, he.second, mul_ite, mul_zero, Finset.sum_ite_eq,
          Finset.mem_univ, if_true]
        ring
      simp only [this]
      rw [← Finset.mul_sum, hAA]
  have hb' : ∀ ω, b ω 0 = p + ∑ i, A 0 i * e i ω ∧ b ω 1 = q + ∑ i, A 1 i * e i ω := by
    intro ω
    obtain ⟨-, -, k⟩ := surveyed_coefficients (hb ω)
    rw [k]
    simp [Matrix.mulVec, dotProduct, hA]
  obtain ⟨m0, v0⟩ := slope 0 p fun ω => (hb' ω).1
  obtain ⟨m1, v1⟩ := slope 1 q fun ω => (hb' ω).2
  -- the standard errors
  have hse : ∀ j, ∫ ω, s ω j ^ 2 ∂P = ((n : ℝ) - 3) * (v * invOf x y j j) := by
    intro j
    obtain ⟨M, hM⟩ : ∃ M : Fin n → Fin n → ℝ, ∀ i k, M i k = makerOf x y i k := ⟨_, fun _ _ => rfl⟩
    have htr := maker_trace hd
    simp only [← hM] at htr
    have : ∀ ω, s ω j ^ 2 = (∑ i, ∑ k, M i k * (e i ω * e k ω)) * invOf x y j j := fun ω => by
      rw [surveyed_standardErrors h3 (hb ω) (hs ω) j]
      simp only [hM]
    simp only [this]
    rw [integral_mul_const, integral_finsetSum _ fun i _ =>
      integrable_finsetSum _ fun k _ => (int2 i k).const_mul _]
    have k : ∀ i, ∫ ω, ∑ k, M i k * (e i ω * e k ω) ∂P = M i i * v := by
      intro i
      rw [integral_finsetSum _ fun k _ => (int2 i k).const_mul _]
      simp only [integral_const_mul, he.second, mul_ite, mul_zero, Finset.sum_ite_eq,
        Finset.mem_univ, if_true]
    simp only [k]
    rw [← Finset.sum_mul, htr]
    ring
  refine ⟨⟨m0, v0⟩, ⟨m1, v1⟩, hse, ?_⟩
  have hAX : A * designOf x y = 1 := by
    rw [hA, Matrix.mul_assoc,
      show (designOf x y)ᵀ * designOf x y = matrixSquared (designOf x y) from rfl]
    exact Matrix.nonsing_inv_mul _ (isUnit_iff_ne_zero.2 hd)
  rw [← hAA]
  have hnn : 0 ≤ ∑ i, A 0 i ^ 2 := Finset.sum_nonneg fun i _ => sq_nonneg _
  refine lt_of_le_of_ne hnn fun h => ?_
  have hz : ∀ i, A 0 i = 0 := by
    intro i
    have := (Finset.sum_eq_zero_iff_of_nonneg fun i _ => sq_nonneg (A 0 i)).1 h.symm i (Finset.mem_univ i)
    exact pow_eq_zero_iff (two_ne_zero) |>.1 this
  have k := congrFun (congrFun hAX 0) 0
  rw [Matrix.mul_apply] at k
  simp [hz] at k

/-! ## C228 -/

/-- Errors of elevation with mean zero and the same variance, not correlated: the slopes are right on
average, and the squares of their standard errors are, on average, `n - 3` times their variance. -/
theorem C228_inflated_partial {Ω : Type} [MeasurableSpace Ω] (P : Measure Ω) [IsProbabilityMeasure P]
    {n : ℕ} (h3 : n ≠ 3) (x y : Fin n → ℝ) (p q c : ℝ) (e : Fin n → Ω → ℝ) (v : ℝ)
    (he : Spec.PlainErrors P e v) (b s : Ω → Vec 3)
    (hb : ∀ ω, Spec.Coefficients (Spec.surveyed x y p q c fun i => e i ω) (b ω))
    (hs : ∀ ω, Spec.StandardErrors (Spec.surveyed x y p q c fun i => e i ω) (s ω)) :
    ∫ ω, b ω 0 ∂P = p ∧ ∫ ω, b ω 1 ∂P = q ∧
    ∫ ω, s ω 0 ^ 2 ∂P = ((n : ℝ) - 3) * ∫ ω, (b ω 0 - p) ^ 2 ∂P ∧
    ∫ ω, s ω 1 ^ 2 ∂P = ((n : ℝ) - 3) * ∫ ω, (b ω 1 - q) ^ 2 ∂P := by
  obtain ⟨⟨m0, v0⟩, ⟨m1, v1⟩, hse, -⟩ := survey_moments P h3 x y p q c e v he b s hb hs
  exact ⟨m0, m1, by rw [hse, v0], by rw [hse, v1]⟩

/-- A point one step to the east, one a step to the north, and all others at the same place. -/
def Spec.stakes (n : ℕ) : (Fin n → ℝ) × (Fin n → ℝ) :=
  (fun i => if i.val = 0 then 1 else 0, fun i => if i.val = 1 then 1 else 0)

/-- Errors of one point at a time, up or down. -/
noncomputable def Spec.oneAtATime (n : ℕ) (i : Fin n) (ω : Fin n × Bool) : ℝ :=
  if ω.1 = i then (if ω.2 then Real.sqrt n else -Real.sqrt n) else 0

lemma exists_plain (n : ℕ) (hn : 0 < n) : ∃ (P : Measure (Fin n × Bool)) (_ : IsProbabilityMeasure P),
    Spec.PlainErrors P (Spec.oneAtATime n) 1 := by
  have hn' : (n : ℝ) ≠ 0 := by exact_mod_cast hn.ne'
  let P : Measure (Fin n × Bool) := ((2 * n : ℕ) : ENNReal)⁻¹ • Measure.count
  have hP : IsProbabilityMeasure P := by
    constructor
    show ((2 * n : ℕ) : ENNReal)⁻¹ * Measure.count Set.univ = 1
    rw [Measure.count_univ]
    simp only [ENat.card_eq_coe_fintype_card, Fintype.card_prod, Fintype.card_fin, Fintype.card_bool]
    rw [mul_comm n 2]
    exact ENNReal.inv_mul_cancel (by simp; omega) (ENNReal.natCast_ne_top _)
  have hint : ∀ g : Fin n × Bool → ℝ, ∫ ω, g ω ∂P = (∑ k, (g (k, true) + g (k, false))) / (2 * n) := by
    intro g
    rw [integral_fintype (Integrable.of_finite)]
    have hs : ∀ ω : Fin n × Bool, P.real {ω} = 1 / (2 * n) := by
      intro ω
      show (((2 * n : ℕ) : ENNReal)⁻¹ * Measure.count {ω}).toReal = _
      rw [Measure.count_singleton, mul_one, ENNReal.toReal_inv]
      simp
    simp only [hs, smul_eq_mul, ← Finset.mul_sum]
    rw [Fintype.sum_prod_type]
    simp only [Fintype.sum_bool]
    ring
  refine ⟨P, hP, fun i => MemLp.of_discrete, fun i => ?_, fun i j => ?_⟩
  · rw [hint]
    have : ∀ k, Spec.oneAtATime n i (k, true) + Spec.oneAtATime n i (k, false) = 0 := by
      intro k
      simp only [Spec.oneAtATime, if_true, Bool.false_eq_true, if_false]
      split_ifs <;> ring
    simp [this]
  · rw [hint]
    have : ∀ k, Spec.oneAtATime n i (k, true) * Spec.oneAtATime n j (k, true)
        + Spec.oneAtATime n i (k, false) * Spec.oneAtATime n j (k, false)
        = if k = i then (if i = j then 2 * (n : ℝ) else 0) else 0 := by
      intro k
      have hq := Real.mul_self_sqrt (Nat.cast_nonneg (α := ℝ) n)
      simp only [Spec.oneAtATime, if_true, Bool.false_eq_true, if_false]
      by_cases h1 : k = i
      · subst h1
        by_cases h2 : k = j
        · simp only [h2, if_true]; linarith
        · simp [h2]
      · simp [h1]
    simp only [this, Finset.sum_ite_eq', Finset.mem_univ, if_true]
    split_ifs
    · field_simp
    · simp

/-- A regression of points that are not collinear in map view has coefficients and standard errors. -/
lemma exists_regression {n : ℕ} (hn : n ≠ 0) {a : Fin n → Vec 3} (h : ¬ Spec.CollinearInPlan a) :
    ∃ b s, Spec.Coefficients a b ∧ Spec.StandardErrors a s := by
  have hr : initRows a = .ok (ofCentered (Coordinates.centered a)) := by simp [initRows, hn]
  obtain ⟨b, hb⟩ := (C31_singular_iff a _ hr).2.2 h
  obtain ⟨m, -, hm, -⟩ := C36_covariance a _ hr h
  refine ⟨b, fun j => Real.sqrt (m j j), ⟨_, hr, hb⟩, _, hr, ?_⟩
  unfold standardErrors
  rcases hc : covarianceMatrix (ofCentered (Coordinates.centered a)) with ⟨v, r'⟩
  rw [hc] at hm
  obtain rfl : v = .ok m := hm
  rfl

lemma stakes_not_collinear {n : ℕ} (hn : 3 ≤ n) (p q c : ℝ) (e : Fin n → ℝ) :
    ¬ Spec.CollinearInPlan (Spec.surveyed (Spec.stakes n).1 (Spec.stakes n).2 p q c e) := by
  rintro ⟨u, v, t, hne, h⟩
  have h0 := h ⟨0, by omega⟩
  have h1 := h ⟨1, by omega⟩
  have h2 := h ⟨2, by omega⟩
  simp [Spec.surveyed, Spec.stakes] at h0 h1 h2
  rcases hne with k | k
  · exact k (by linarith)
  · exact k (by linarith)

/-- With more than four points the squares of the standard errors are not the variances of the
slopes, not even on average: here for every number of points, with errors of variance one. -/
theorem C228_variance_false (n : ℕ) (hn : 4 < n) (p q c : ℝ) :
    ∃ (P : Measure (Fin n × Bool)) (_ : IsProbabilityMeasure P) (b s : Fin n × Bool → Vec 3),
      Spec.PlainErrors P (Spec.oneAtATime n) 1 ∧
      (∀ ω, Spec.Coefficients (Spec.surveyed (Spec.stakes n).1 (Spec.stakes n).2 p q c
        fun i => Spec.oneAtATime n i ω) (b ω)) ∧
      (∀ ω, Spec.StandardErrors (Spec.surveyed (Spec.stakes n).1 (Spec.stakes n).2 p q c
        fun i => Spec.oneAtATime n i ω) (s ω)) ∧
      ∫ ω, (b ω 0 - p) ^ 2 ∂P < ∫ ω, s ω 0 ^ 2 ∂P := by
  obtain ⟨P, hP, he⟩ := exists_plain n (by omega)
  have hex : ∀ ω, ∃ bs : Vec 3 × Vec 3,
      Spec.Coefficients (Spec.surveyed (Spec.stakes n).1 (Spec.stakes n).2 p q c
        fun i => Spec.oneAtATime n i ω) bs.1 ∧
      Spec.StandardErrors (Spec.surveyed (Spec.stakes n).1 (Spec.stakes n).2 p q c
        fun i => Spec.oneAtATime n i ω) bs.2 := by
    intro ω
    obtain ⟨b, s, h1, h2⟩ := exists_regression (by omega : n ≠ 0)
      (stakes_not_collinear (by omega) p q c fun i => Spec.oneAtATime n i ω)
    exact ⟨(b, s), h1, h2⟩
  choose bs hb hs using hex
  refine ⟨P, hP, fun ω => (bs ω).1, fun ω => (bs ω).2, he, hb, hs, ?_⟩
  obtain ⟨⟨-, v0⟩, -, hse, hpos⟩ := survey_moments P (by omega) _ _ p q c _ 1 he _ _ hb hs
  rw [hse, v0, one_mul]
  have : (4 : ℝ) < n := by exact_mod_cast hn
  nlinarith

/-- With four points they are the variances, on average. -/
theorem C228_four_partial {Ω : Type} [MeasurableSpace Ω] (P : Measure Ω) [IsProbabilityMeasure P]
    (x y : Fin 4 → ℝ) (p q c : ℝ) (e : Fin 4 → Ω → ℝ) (v : ℝ)
    (he : Spec.PlainErrors P e v) (b s : Ω → Vec 3)
    (hb : ∀ ω, Spec.Coefficients (Spec.surveyed x y p q c fun i => e i ω) (b ω))
    (hs : ∀ ω, Spec.StandardErrors (Spec.surveyed x y p q c fun i => e i ω) (s ω)) :
    ∫ ω, s ω 0 ^ 2 ∂P = ∫ ω, (b ω 0 - p) ^ 2 ∂P ∧ ∫ ω, s ω 1 ^ 2 ∂P = ∫ ω, (b ω 1 - q) ^ 2 ∂P := by
  obtain ⟨-, -, h1, h2⟩ := C228_inflated_partial P (by norm_num) x y p q c e v he b s hb hs
  norm_num at h1 h2
  exact ⟨h1, h2⟩

/-- Four points, one of them a stake to the east and one to the north, and errors of one at a time. -/
example : ∃ (P : Measure (Fin 4 × Bool)) (_ : IsProbabilityMeasure P) (b s : Fin 4 × Bool → Vec 3),
    Spec.PlainErrors P (Spec.oneAtATime 4) 1 ∧
    (∀ ω, Spec.Coefficients (Spec.surveyed (Spec.stakes 4).1 (Spec.stakes 4).2 2 (-1) 7
      fun i => Spec.oneAtATime 4 i ω) (b ω)) ∧
    (∀ ω, Spec.StandardErrors (Spec.surveyed (Spec.stakes 4).1 (Spec.stakes 4).2 2 (-1) 7
      fun i => Spec.oneAtATime 4 i ω) (s ω)) := by
  obtain ⟨P, hP, he⟩ := exists_plain 4 (by omega)
  have hex := fun ω => exists_regression (by omega : 4 ≠ 0)
    (stakes_not_collinear (by omega) 2 (-1) 7 fun i => Spec.oneAtATime 4 i ω)
  choose b s hb hs using hex
  exact ⟨P, hP, b, s, he, hb, hs⟩

/-- Measuring every point `k` times, in any order, leaves the coefficients and the standard errors as
they are: they do not shrink with the number of measurements. -/
theorem C228_repeated_false {m n k : ℕ} (hk : 0 < k) (φ : Fin m → Fin n) (hφ : Spec.EachTaken k φ)
    (hn : n ≠ 3) (hm : m ≠ 3) (a : Fin n → Vec 3) (b s : Vec 3) (hb : Spec.Coefficients a b)
    (hs : Spec.StandardErrors a s) :
    Spec.Coefficients (fun j => a (φ j)) b ∧ Spec.StandardErrors (fun j => a (φ j)) s := by
  have hk' : (k : ℝ) ≠ 0 := by exact_mod_cast hk.ne'
  obtain ⟨r, hr, hc⟩ := hb
  obtain ⟨r', hr', hse⟩ := hs
  obtain rfl : r = r' := by rw [hr] at hr'; exact Except.ok.inj hr'
  have hcol := (C31_singular_iff _ r hr).2.1 ⟨b, hc⟩
  obtain ⟨hrr, h0, hd, hbe⟩ := coefficients_rows hr hc
  have hmn : m ≠ 0 := by
    have := sum_eachTaken hφ fun _ => (1 : ℝ)
    simp at this
    intro h
    rw [h] at this
    have hn0 : (n : ℝ) ≠ 0 := by exact_mod_cast h0
    exact mul_ne_zero hk' hn0 (by simpa using this.symm)
  -- every point is taken
  have hsurj : ∀ i, ∃ j, φ j = i := by
    intro i
    have : 0 < (Finset.univ.filter fun j => φ j = i).card := by rw [hφ i]; exact hk
    obtain ⟨j, hj⟩ := Finset.card_pos.1 this
    exact ⟨j, (Finset.mem_filter.1 hj).2⟩
  have hcol' : ¬ Spec.CollinearInPlan (fun j => a (φ j)) := by
    rintro ⟨p, q, t, hpq, h⟩
    refine hcol ⟨p, q, t, hpq, fun i => ?_⟩
    obtain ⟨j, rfl⟩ := hsurj i
    exact h j
  obtain ⟨b', s', ⟨r₂, hr₂, hc₂⟩, hs₂⟩ := exists_regression hmn hcol'
  obtain ⟨hrr₂, -, hd₂, hbe₂⟩ := coefficients_rows hr₂ hc₂
  have hG : matrixSquared r₂.C = (k : ℝ) • matrixSquared r.C := by
    ext i j
    rw [hrr₂, hrr, centered_taken hφ]
    simp only [matrixSquared, Matrix.mul_apply, Matrix.transpose_apply, Matrix.smul_apply, smul_eq_mul]
    exact sum_eachTaken hφ fun l => (ofCentered (Coordinates.centered a)).C l i
      * (ofCentered (Coordinates.centered a)).C l j
  have hXZ : r₂.Cᵀ *ᵥ r₂.Z = (k : ℝ) • (r.Cᵀ *ᵥ r.Z) := by
    funext i
    rw [hrr₂, hrr, centered_taken hφ]
    simp only [Matrix.mulVec, dotProduct, Matrix.transpose_apply, Pi.smul_apply, smul_eq_mul]
    exact sum_eachTaken hφ fun l => (ofCentered (Coordinates.centered a)).C l i
      * (ofCentered (Coordinates.centered a)).Z l
  have hu := isUnit_iff_ne_zero.2 hd
  have hbb : b' = b := by
    have h1 : matrixSquared r.C *ᵥ b = r.Cᵀ *ᵥ r.Z := by
      rw [hbe, Matrix.mulVec_mulVec, Matrix.mul_nonsing_inv _ hu, Matrix.one_mulVec]
    have h2 : matrixSquared r₂.C *ᵥ b' = r₂.Cᵀ *ᵥ r₂.Z := by
      rw [hbe₂, Matrix.mulVec_mulVec, Matrix.mul_nonsing_inv _ (isUnit_iff_ne_zero.2 hd₂),
        Matrix.one_mulVec]
    rw [hG, hXZ, ← h1, Matrix.smul_mulVec] at h2
    have h3 : matrixSquared r.C *ᵥ b' = matrixSquared r.C *ᵥ b := by
      have := congrArg (fun w => (k : ℝ)⁻¹ • w) h2
      simpa [smul_smul, hk'] using this
    have h4 := congrArg (fun w => (matrixSquared r.C)⁻¹ *ᵥ w) h3
    simpa [Matrix.mulVec_mulVec, Matrix.nonsing_inv_mul _ hu] using h4
  rw [hbb] at hc₂
  refine ⟨⟨r₂, hr₂, hc₂⟩, ?_⟩
  -- the covariances
  obtain ⟨M, u, hM, hu1, -, hM3, -, -⟩ := C36_covariance a r hr hcol
  obtain ⟨M', u', hM', hu1', -, hM3', -, -⟩ := C36_covariance _ r₂ hr₂ hcol'
  obtain ⟨w, hw, hres, -⟩ := C31_residuals _ r hr b hc
  obtain ⟨w', hw', hres', -⟩ := C31_residuals _ r₂ hr₂ b hc₂
  obtain rfl : u = w := by rw [hu1] at hw; exact Except.ok.inj hw
  obtain rfl : u' = w' := by rw [hu1'] at hw'; exact Except.ok.inj hw'
  have hmean : meanRows (fun j => a (φ j)) = meanRows a := by
    have hmk : (m : ℝ) = k * n := by
      have := sum_eachTaken hφ fun _ => (1 : ℝ)
      simpa using this
    have hn0 : (n : ℝ) ≠ 0 := by exact_mod_cast h0
    funext j
    simp only [meanRows]
    rw [sum_eachTaken hφ fun i => a i j, hmk]
    field_simp
  have huu : ∀ j, u' j = u (φ j) := by
    intro j
    rw [hres', hres]
    simp only [Spec.intercept, hmean]
  have hsse : ∑ j, u' j ^ 2 = k * ∑ i, u i ^ 2 := by
    simp only [huu]
    exact sum_eachTaken hφ fun i => u i ^ 2
  have hMM : M' = M := by
    have h1 := hM3 hn
    have h2 := hM3' hm
    rw [show r₂.Cᵀ * r₂.C = matrixSquared r₂.C from rfl, hG, hsse, Matrix.mul_smul, mul_smul,
      ← h1] at h2
    have h3 : M' * matrixSquared r.C = M * matrixSquared r.C := by
      have := congrArg (fun w => (k : ℝ)⁻¹ • w) h2
      simpa [smul_smul, hk', matrixSquared] using this
    have h4 := congrArg (fun w => w * (matrixSquared r.C)⁻¹) h3
    simpa [Matrix.mul_assoc, Matrix.mul_nonsing_inv _ hu] using h4
  have hval : ∀ {l : ℕ} (ρ : Regression l) (N : Mat 3 3), (covarianceMatrix ρ).1 = .ok N →
      (standardErrors ρ).1 = .ok fun j => Real.sqrt (N j j) := by
    intro l ρ N h
    unfold standardErrors
    rcases hc : covarianceMatrix ρ with ⟨v, ρ'⟩
    rw [hc] at h
    obtain rfl : v = .ok N := h
    rfl
  refine ⟨r₂, hr₂, ?_⟩
  rw [hval r₂ M' hM', hMM, ← hval r M hM, hse]

/-- Four points measured twice each. -/
example : ∃ (φ : Fin 8 → Fin 4) (b s : Vec 3), Spec.EachTaken 2 φ ∧
    Spec.Coefficients fourPoints b ∧ Spec.StandardErrors fourPoints s := by
  obtain ⟨b, s, h1, h2⟩ := exists_regression (by norm_num) fourPoints_not_collinear
  exact ⟨fun j => ⟨j.val % 4, by omega⟩, b, s, by intro i; fin_cases i <;> rfl, h1, h2⟩

end Attitude.Props
