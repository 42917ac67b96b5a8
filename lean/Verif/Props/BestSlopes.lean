import Verif.Props.StandardErrors

/-!
# C237: no better way to get slopes from the same points
-/

namespace Attitude.Props

open Attitude Linear Matrix MeasureTheory

/-! ## Specification -/

/-- A way to compute the slope `u₀ p + u₁ q` (along the horizontal direction `u`) from elevations at the positions
`x`, `y`: a sum with weights, which is right for all planes if there are no errors. -/
def Spec.FindsSlope {n : ℕ} (x y : Fin n → ℝ) (u : Vec 2) (W : Fin n → ℝ) : Prop :=
  ∀ p q c : ℝ, ∑ i, W i * (p * x i + q * y i + c) = u 0 * p + u 1 * q

/-- The elevations that the regression of an array of points gives at the positions of the points. -/
def Spec.Elevations {n : ℕ} (a : Fin n → Vec 3) (f : Fin n → ℝ) : Prop :=
  ∃ r g, initRows a = .ok r ∧ (predictions r).1 = .ok g ∧ ∀ i, f i = g i + (∑ k, a k 2) / n

/-! ## Helper lemmas -/

/-- The variance of a sum of errors with weights. -/
lemma plain_sum {Ω : Type} [MeasurableSpace Ω] {P : Measure Ω} [IsProbabilityMeasure P] {n : ℕ}
    {e : Fin n → Ω → ℝ} {v : ℝ} (he : Spec.PlainErrors P e v) (k : Fin n → ℝ) :
    ∫ ω, (∑ i, k i * e i ω) ^ 2 ∂P = v * ∑ i, k i ^ 2 := by
  have int2 : ∀ i k, Integrable (fun ω => e i ω * e k ω) P := fun i k =>
    (he.finite i).integrable_mul (he.finite k)
  have hexp : ∀ ω, (∑ i, k i * e i ω) ^ 2 = ∑ i, ∑ j, k i * k j * (e i ω * e j ω) := by
    intro ω
    rw [sq, Finset.sum_mul_sum]
    exact Finset.sum_congr rfl fun i _ => Finset.sum_congr rfl fun k _ => by ring
  simp only [hexp]
  rw [integral_finsetSum _ fun i _ => integrable_finsetSum _ fun k _ => (int2 i k).const_mul _, Finset.mul_sum]
  refine Finset.sum_congr rfl fun i _ => ?_
  rw [integral_finsetSum _ fun k _ => (int2 i k).const_mul _]
  simp only [integral_const_mul, he.second, mul_ite, mul_zero, Finset.sum_ite_eq, Finset.mem_univ, if_true]
  ring

lemma plain_nonneg {Ω : Type} [MeasurableSpace Ω] {P : Measure Ω} {n : ℕ} (hn : n ≠ 0)
    {e : Fin n → Ω → ℝ} {v : ℝ} (he : Spec.PlainErrors P e v) : 0 ≤ v := by
  have := he.second ⟨0, Nat.pos_of_ne_zero hn⟩ ⟨0, Nat.pos_of_ne_zero hn⟩
  rw [if_pos rfl] at this
  rw [← this]
  exact integral_nonneg fun ω => mul_self_nonneg _

/-- The weights that the regression uses for the slope along `u`. -/
noncomputable def slopeWeights {n : ℕ} (x y : Fin n → ℝ) (u : Vec 2) : Fin n → ℝ :=
  designOf x y *ᵥ (invOf x y *ᵥ ![u 0, u 1, 0])

lemma slopeWeights_apply {n : ℕ} (x y : Fin n → ℝ) (u : Vec 2) (i : Fin n) :
    slopeWeights x y u i = u 0 * (invOf x y * (designOf x y)ᵀ) 0 i + u 1 * (invOf x y * (designOf x y)ᵀ) 1 i := by
  have h : (invOf x y * (designOf x y)ᵀ)ᵀ = designOf x y * invOf x y := by
    rw [Matrix.transpose_mul, Matrix.transpose_transpose, invOf_symm]
  have h' : ∀ j, (invOf x y * (designOf x y)ᵀ) j i = (designOf x y * invOf x y) i j := fun j => by
    rw [← h, Matrix.transpose_apply]
  rw [h' 0, h' 1, slopeWeights, Matrix.mulVec_mulVec]
  simp only [Matrix.mulVec, dotProduct, Fin.sum_univ_three, Matrix.cons_val_zero, Matrix.cons_val_one, Matrix.cons_val]
  ring

lemma designOf_apply {n : ℕ} (x y : Fin n → ℝ) (i : Fin n) :
    designOf x y i 0 = x i - (∑ k, x k) / n ∧ designOf x y i 1 = y i - (∑ k, y k) / n ∧ designOf x y i 2 = 1 := by
  simp only [designOf, ofCentered, addOnes, Matrix.of_apply, Coordinates.centered,
    (surveyed_mean01 x y 0 0 0 0).1, (surveyed_mean01 x y 0 0 0 0).2]
  simp [Spec.surveyed]

/-- Weights that find the slope differ from those of the regression by something perpendicular to them. -/
lemma weights_split {n : ℕ} {x y : Fin n → ℝ} (hd : (matrixSquared (designOf x y)).det ≠ 0) {u : Vec 2}
    {W : Fin n → ℝ} (hW : Spec.FindsSlope x y u W) :
    ∑ i, W i ^ 2 = ∑ i, slopeWeights x y u i ^ 2 + ∑ i, (W i - slopeWeights x y u i) ^ 2 := by
  have h1 : (designOf x y)ᵀ *ᵥ W = ![u 0, u 1, 0] := by
    have hc := hW 0 0 1
    have hx := hW 1 0 0
    have hy := hW 0 1 0
    simp at hc hx hy
    funext j
    fin_cases j
    · simp only [Matrix.mulVec, dotProduct, Matrix.transpose_apply, Fin.zero_eta, (designOf_apply x y _).1, sub_mul,
        Finset.sum_sub_distrib, ← Finset.mul_sum, hc]
      rw [← hx]
      simp [mul_comm]
    · simp only [Matrix.mulVec, dotProduct, Matrix.transpose_apply, Fin.mk_one, (designOf_apply x y _).2.1, sub_mul,
        Finset.sum_sub_distrib, ← Finset.mul_sum, hc]
      rw [← hy]
      simp [mul_comm]
    · simp [Matrix.mulVec, dotProduct, Matrix.transpose_apply, (designOf_apply x y _).2.2, hc]
  have h2 : (designOf x y)ᵀ *ᵥ slopeWeights x y u = ![u 0, u 1, 0] := by
    unfold slopeWeights
    rw [Matrix.mulVec_mulVec, show (designOf x y)ᵀ * designOf x y = matrixSquared (designOf x y) from rfl,
      Matrix.mulVec_mulVec]
    unfold invOf
    rw [Matrix.mul_nonsing_inv _ (isUnit_iff_ne_zero.2 hd), Matrix.one_mulVec]
  have h3 : slopeWeights x y u ⬝ᵥ (W - slopeWeights x y u) = 0 := by
    conv_lhs => lhs; unfold slopeWeights
    rw [dotProduct_comm, Matrix.dotProduct_mulVec, ← Matrix.mulVec_transpose, Matrix.mulVec_sub, h1, h2, sub_self,
      zero_dotProduct]
  have h4 : ∑ i, slopeWeights x y u i * (W i - slopeWeights x y u i) = 0 := h3
  have h5 : ∀ i, W i ^ 2 = slopeWeights x y u i ^ 2 + (W i - slopeWeights x y u i) ^ 2 +
      2 * (slopeWeights x y u i * (W i - slopeWeights x y u i)) := fun i => by ring
  simp only [h5, Finset.sum_add_distrib, ← Finset.mul_sum, h4]
  ring

/-! ## C237 -/

/-- Errors of elevation with mean zero and the same variance, not correlated.  The slope along any direction that
the regression gives is, on average of the squares, at least as close to the true one as that of any other way to
compute it as a sum of the elevations with weights, if that is right for all planes without errors; and just
as close only for weights that give the same answer for all elevations. -/
theorem C237_best {Ω : Type} [MeasurableSpace Ω] (P : Measure Ω) [IsProbabilityMeasure P] {n : ℕ}
    (x y : Fin n → ℝ) (p q c : ℝ) (e : Fin n → Ω → ℝ) (v : ℝ) (he : Spec.PlainErrors P e v) (b : Ω → Vec 3)
    (hb : ∀ ω, Spec.Coefficients (Spec.surveyed x y p q c fun i => e i ω) (b ω)) (u : Vec 2) (W : Fin n → ℝ)
    (hW : Spec.FindsSlope x y u W) :
    ∫ ω, (u 0 * b ω 0 + u 1 * b ω 1 - (u 0 * p + u 1 * q)) ^ 2 ∂P ≤
      ∫ ω, (∑ i, W i * Spec.surveyed x y p q c (fun i => e i ω) i 2 - (u 0 * p + u 1 * q)) ^ 2 ∂P ∧
    (0 < v → ∫ ω, (u 0 * b ω 0 + u 1 * b ω 1 - (u 0 * p + u 1 * q)) ^ 2 ∂P =
      ∫ ω, (∑ i, W i * Spec.surveyed x y p q c (fun i => e i ω) i 2 - (u 0 * p + u 1 * q)) ^ 2 ∂P →
      ∀ (a : Fin n → Vec 3) (b' : Vec 3), (∀ i, a i 0 = x i ∧ a i 1 = y i) → Spec.Coefficients a b' →
        ∑ i, W i * a i 2 = u 0 * b' 0 + u 1 * b' 1) := by
  obtain ⟨ω₀⟩ : Nonempty Ω := nonempty_of_isProbabilityMeasure P
  obtain ⟨h0, hd, -⟩ := surveyed_coefficients (hb ω₀)
  have hv := plain_nonneg h0 he
  have hreg : ∀ (p q c : ℝ) (e : Fin n → ℝ) (b : Vec 3), Spec.Coefficients (Spec.surveyed x y p q c e) b →
      u 0 * b 0 + u 1 * b 1 - (u 0 * p + u 1 * q) = ∑ i, slopeWeights x y u i * e i := by
    intro p q c e b hb
    obtain ⟨-, -, k⟩ := surveyed_coefficients hb
    have k0 : b 0 = p + ∑ i, (invOf x y * (designOf x y)ᵀ) 0 i * e i := by rw [k]; simp [Matrix.mulVec, dotProduct]
    have k1 : b 1 = q + ∑ i, (invOf x y * (designOf x y)ᵀ) 1 i * e i := by rw [k]; simp [Matrix.mulVec, dotProduct]
    simp only [k0, k1, slopeWeights_apply, add_mul, Finset.sum_add_distrib, mul_assoc, ← Finset.mul_sum]
    ring
  have hoth : ∀ (p q c : ℝ) (e : Fin n → ℝ), ∑ i, W i * Spec.surveyed x y p q c e i 2 - (u 0 * p + u 1 * q) =
      ∑ i, W i * e i := by
    intro p q c e
    rw [← hW p q c, ← Finset.sum_sub_distrib]
    refine Finset.sum_congr rfl fun i _ => ?_
    simp only [Spec.surveyed, Matrix.cons_val]
    ring
  have hl : ∫ ω, (u 0 * b ω 0 + u 1 * b ω 1 - (u 0 * p + u 1 * q)) ^ 2 ∂P = v * ∑ i, slopeWeights x y u i ^ 2 := by
    simp only [fun ω => hreg p q c _ _ (hb ω)]
    exact plain_sum he _
  have hr : ∫ ω, (∑ i, W i * Spec.surveyed x y p q c (fun i => e i ω) i 2 - (u 0 * p + u 1 * q)) ^ 2 ∂P =
      v * ∑ i, W i ^ 2 := by
    simp only [hoth]
    exact plain_sum he _
  have hs := weights_split hd hW
  have hpos : 0 ≤ ∑ i, (W i - slopeWeights x y u i) ^ 2 := Finset.sum_nonneg fun i _ => sq_nonneg _
  rw [hl, hr]
  refine ⟨mul_le_mul_of_nonneg_left (by linarith) hv, fun hv0 heq a b' ha hb' => ?_⟩
  have h1 := mul_left_cancel₀ hv0.ne' heq
  have h2 : ∑ i, (W i - slopeWeights x y u i) ^ 2 = 0 := by linarith
  have h3 : ∀ i, W i = slopeWeights x y u i := fun i => by
    have := (Finset.sum_eq_zero_iff_of_nonneg fun i _ => sq_nonneg (W i - slopeWeights x y u i)).1 h2 i (Finset.mem_univ i)
    have := pow_eq_zero_iff (two_ne_zero) |>.1 this
    linarith
  have ha' : a = Spec.surveyed x y 0 0 0 fun i => a i 2 := by
    funext i j
    fin_cases j
    · exact (ha i).1
    · exact (ha i).2
    · simp [Spec.surveyed]
  rw [ha'] at hb'
  have := hreg 0 0 0 _ _ hb'
  simp only [h3]
  linarith

/-- The elevations of the fitted plane at the positions of the points are right on average; each is at least as
accurate as the measured one, and the variances of all of them together are three times that of a measurement. -/
theorem C237_elevations {Ω : Type} [MeasurableSpace Ω] (P : Measure Ω) [IsProbabilityMeasure P] {n : ℕ}
    (x y : Fin n → ℝ) (p q c : ℝ) (e : Fin n → Ω → ℝ) (v : ℝ) (he : Spec.PlainErrors P e v) (f : Ω → Fin n → ℝ)
    (hf : ∀ ω, Spec.Elevations (Spec.surveyed x y p q c fun i => e i ω) (f ω)) :
    (∀ i, ∫ ω, f ω i ∂P = p * x i + q * y i + c) ∧
    (∀ i, ∫ ω, (f ω i - (p * x i + q * y i + c)) ^ 2 ∂P ≤
      ∫ ω, (Spec.surveyed x y p q c (fun i => e i ω) i 2 - (p * x i + q * y i + c)) ^ 2 ∂P) ∧
    ∑ i, ∫ ω, (f ω i - (p * x i + q * y i + c)) ^ 2 ∂P = 3 * v := by
  obtain ⟨ω₀⟩ : Nonempty Ω := nonempty_of_isProbabilityMeasure P
  have hco : ∀ ω, ∃ b, Spec.Coefficients (Spec.surveyed x y p q c fun i => e i ω) b ∧
      ∀ i, f ω i = (designOf x y *ᵥ b) i + (∑ k, Spec.surveyed x y p q c (fun i => e i ω) k 2) / n := by
    intro ω
    obtain ⟨r, g, hr, hg, hfg⟩ := hf ω
    have hr' : r = ofCentered (Coordinates.centered (Spec.surveyed x y p q c fun i => e i ω)) := by
      unfold initRows at hr
      split_ifs at hr
      cases hr
      rfl
    unfold predictions at hg
    rcases hc : coefficients r with ⟨w, r'⟩
    rw [hc] at hg
    cases w with
    | error err => cases hg
    | ok b =>
      have hC : r'.C = r.C := by
        have : r' = (coefficients r).2 := by rw [hc]
        rw [this]
        unfold coefficients
        split
        · rfl
        · split_ifs <;> rfl
      obtain rfl : r'.C *ᵥ b = g := by simpa using hg
      refine ⟨b, ⟨r, hr, by rw [hc]⟩, fun i => ?_⟩
      rw [hfg, hC, hr', surveyed_design]
  choose b hb hfb using hco
  obtain ⟨h0, hd, -⟩ := surveyed_coefficients (hb ω₀)
  have hn : (n : ℝ) ≠ 0 := by exact_mod_cast h0
  have hv := plain_nonneg h0 he
  obtain ⟨H, hH⟩ : ∃ H : Fin n → Fin n → ℝ, ∀ i k, H i k = (designOf x y * invOf x y * (designOf x y)ᵀ) i k :=
    ⟨_, fun _ _ => rfl⟩
  have herr : ∀ ω i, f ω i = (p * x i + q * y i + c) + ∑ k, H i k * e k ω := by
    intro ω i
    obtain ⟨-, -, k⟩ := surveyed_coefficients (hb ω)
    have k2 : (designOf x y *ᵥ b ω) i =
        (designOf x y *ᵥ ![p, q, -((∑ i, e i ω) / n)]) i + ∑ k, H i k * e k ω := by
      rw [k, Matrix.mulVec_add, Matrix.mulVec_mulVec, Pi.add_apply, ← Matrix.mul_assoc]
      simp only [hH, Matrix.mulVec, dotProduct]
    rw [hfb, k2]
    have k3 := surveyed_mean2 h0 x y p q c fun i => e i ω
    unfold meanRows at k3
    rw [k3]
    simp only [Matrix.mulVec, dotProduct, Fin.sum_univ_three, Matrix.cons_val_zero, Matrix.cons_val_one, Matrix.cons_val,
      (designOf_apply x y i).1, (designOf_apply x y i).2.1, (designOf_apply x y i).2.2]
    ring
  have hHm : ∀ i k, H i k = (if i = k then 1 else 0) - makerOf x y i k := by
    intro i k
    rw [hH, makerOf, Matrix.sub_apply, Matrix.one_apply]
    ring
  have hHs : ∀ i k, H i k = H k i := by
    intro i k
    rw [hHm, hHm]
    have : makerOf x y i k = makerOf x y k i := by
      conv_lhs => rw [← maker_symm]
      rfl
    rw [this]
    simp only [eq_comm]
  have hM2 : ∀ i, ∑ k, makerOf x y i k ^ 2 = makerOf x y i i := by
    intro i
    conv_rhs => rw [← maker_idem hd]
    rw [Matrix.mul_apply]
    refine Finset.sum_congr rfl fun k _ => ?_
    have : makerOf x y k i = makerOf x y i k := by
      conv_lhs => rw [← maker_symm]
      rfl
    rw [this, sq]
  have hH2 : ∀ i, ∑ k, H i k ^ 2 = 1 - makerOf x y i i := by
    intro i
    have : ∀ k, H i k ^ 2 = (if i = k then 1 - 2 * makerOf x y i k else 0) + makerOf x y i k ^ 2 := fun k => by
      rw [hHm]
      split_ifs <;> ring
    simp only [this, Finset.sum_add_distrib, Finset.sum_ite_eq, Finset.mem_univ, if_true, hM2]
    ring
  have int1 : ∀ i, Integrable (e i) P := fun i => (he.finite i).integrable (by norm_num)
  have hvar : ∀ i, ∫ ω, (f ω i - (p * x i + q * y i + c)) ^ 2 ∂P = v * (1 - makerOf x y i i) := by
    intro i
    simp only [herr, add_sub_cancel_left]
    rw [plain_sum he, hH2]
  refine ⟨fun i => ?_, fun i => ?_, ?_⟩
  · simp only [herr]
    rw [integral_add (integrable_const _) (integrable_finsetSum _ fun i _ => (int1 i).const_mul _),
      integral_finsetSum _ fun i _ => (int1 i).const_mul _]
    simp [integral_const_mul, he.mean]
  · rw [hvar]
    have h1 : ∀ ω, (Spec.surveyed x y p q c (fun i => e i ω) i 2 - (p * x i + q * y i + c)) ^ 2 = e i ω * e i ω := by
      intro ω
      simp only [Spec.surveyed, Matrix.cons_val]
      ring
    simp only [h1, he.second, if_true]
    have h2 : 0 ≤ makerOf x y i i := by
      rw [← hM2]
      exact Finset.sum_nonneg fun k _ => sq_nonneg _
    nlinarith
  · simp only [hvar]
    rw [← Finset.mul_sum, Finset.sum_sub_distrib, maker_trace hd]
    simp
    ring

/-- An example: errors of one point at a time; the slope to the east from the first and the third point alone is
not better than that of the regression. -/
example (n : ℕ) (hn : 4 < n) (p q c : ℝ) : ∃ (P : Measure (Fin n × Bool)) (_ : IsProbabilityMeasure P)
    (b : Fin n × Bool → Vec 3) (f : Fin n × Bool → Fin n → ℝ),
    (∀ ω, Spec.Elevations (Spec.surveyed (Spec.stakes n).1 (Spec.stakes n).2 p q c
        fun i => Spec.oneAtATime n i ω) (f ω)) ∧
    ∑ i, ∫ ω, (f ω i - (p * (Spec.stakes n).1 i + q * (Spec.stakes n).2 i + c)) ^ 2 ∂P = 3 ∧
    ∫ ω, (b ω 0 - p) ^ 2 ∂P ≤ ∫ ω, ((Spec.surveyed (Spec.stakes n).1 (Spec.stakes n).2 p q c
      (fun i => Spec.oneAtATime n i ω) ⟨0, by omega⟩ 2 - Spec.surveyed (Spec.stakes n).1 (Spec.stakes n).2 p q c
      (fun i => Spec.oneAtATime n i ω) ⟨2, by omega⟩ 2) - p) ^ 2 ∂P := by
  obtain ⟨P, hP, he⟩ := exists_plain n (by omega)
  have hex : ∀ ω, ∃ b g : _, Spec.Coefficients (Spec.surveyed (Spec.stakes n).1 (Spec.stakes n).2 p q c
        fun i => Spec.oneAtATime n i ω) b ∧ Spec.Elevations (Spec.surveyed (Spec.stakes n).1 (Spec.stakes n).2 p q c
        fun i => Spec.oneAtATime n i ω) g := by
    intro ω
    obtain ⟨b, s, ⟨r, hr, hc⟩, -⟩ := exists_regression (by omega : n ≠ 0)
      (stakes_not_collinear (by omega) p q c fun i => Spec.oneAtATime n i ω)
    rcases hcc : coefficients r with ⟨w, r'⟩
    rw [hcc] at hc
    obtain rfl : w = .ok b := hc
    exact ⟨b, _, ⟨r, hr, by rw [hcc]⟩, r, r'.C *ᵥ b, hr, by unfold predictions; rw [hcc], fun i => rfl⟩
  choose b g hb hg using hex
  refine ⟨P, hP, b, g, hg, ?_, ?_⟩
  · have := (C237_elevations P _ _ p q c _ 1 he g hg).2.2
    rw [this]; norm_num
  · set W : Fin n → ℝ := fun i => (if i = ⟨0, by omega⟩ then 1 else 0) - (if i = ⟨2, by omega⟩ then 1 else 0) with hW
    have key : ∀ z : Fin n → ℝ, ∑ i, W i * z i = z ⟨0, by omega⟩ - z ⟨2, by omega⟩ := by
      intro z
      simp [hW, sub_mul, Finset.sum_sub_distrib]
    have hfind : Spec.FindsSlope (Spec.stakes n).1 (Spec.stakes n).2 ![1, 0] W := by
      intro p q c
      rw [key fun i => p * (Spec.stakes n).1 i + q * (Spec.stakes n).2 i + c]
      simp [Spec.stakes]
    have h := (C237_best P _ _ p q c _ 1 he b hb ![1, 0] W hfind).1
    simp only [fun ω => key fun i => Spec.surveyed (Spec.stakes n).1 (Spec.stakes n).2 p q c (fun i => Spec.oneAtATime n i ω) i 2] at h
    simpa using h

end Attitude.Props
