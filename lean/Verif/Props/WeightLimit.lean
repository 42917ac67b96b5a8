import Verif.Props.Weighted
import Verif.Props.TotalLeastSquares
import Verif.Props.StandardErrors

/-!
# C269: a large weight of the heights leads to the regression

With `weights=[1, 1, k]` the heights are taken to have errors `k` times as large as the
positions.  The theorems compare the plane of such a fit (C239) with that of `Regression`, which
takes only the heights to have errors.
-/

namespace Attitude.Props

open Attitude Matrix Attitude.Pca

/-! ## Specification -/

/-- The slopes of the plane that a fit with weights finds: the plane with the normal of the fit,
each component divided by its weight (C239). -/
noncomputable def Spec.weightedSlopes {n : ℕ} (w : Vec 3) (f : Fit n) : Vec 2 :=
  Spec.slopesOf fun j => f.normal j / w j

/-- The points extend, in map view, by at least the root of `μ` in every direction. -/
def Spec.ExtendInPlan {n : ℕ} (a : Fin n → Vec 3) (μ : ℝ) : Prop :=
  ∀ u v : ℝ, μ * (u ^ 2 + v ^ 2) ≤
    ∑ i, (u * (a i 0 - (∑ l, a l 0) / n) + v * (a i 1 - (∑ l, a l 1) / n)) ^ 2

/-- Sum of the squared vertical distances from the plane of the regression. -/
noncomputable def Spec.leftOver {n : ℕ} (a : Fin n → Vec 3) (c : Vec 3) : ℝ :=
  Spec.verticalSquares a (c 0) (c 1) (Spec.intercept a (c 0) (c 1))

/-- Length of a pair of slopes: the slope along the dip. -/
noncomputable def Spec.steepness (b0 b1 : ℝ) : ℝ := Real.sqrt (b0 ^ 2 + b1 ^ 2)

/-! ## Helper lemmas -/

lemma moment_form2 {n : ℕ} (a : Fin n → Vec 3) (u v : ℝ) :
    ∑ i, (u * (a i 0 - (∑ l, a l 0) / n) + v * (a i 1 - (∑ l, a l 1) / n)) ^ 2
      = u * (Spec.moment a 0 0 * u + Spec.moment a 0 1 * v)
        + v * (Spec.moment a 0 1 * u + Spec.moment a 1 1 * v) := by
  simp only [Spec.moment, Finset.sum_mul, ← Finset.sum_add_distrib, Finset.mul_sum]
  exact Finset.sum_congr rfl fun i _ => by ring

/-- The normal equations of the regression, with moments. -/
lemma regression_moments {n : ℕ} {a : Fin n → Vec 3} {c : Vec 3} (hc : Spec.Coefficients a c) :
    Spec.moment a 0 2 = c 0 * Spec.moment a 0 0 + c 1 * Spec.moment a 0 1 ∧
    Spec.moment a 1 2 = c 0 * Spec.moment a 0 1 + c 1 * Spec.moment a 1 1 := by
  obtain ⟨r, hr, hc⟩ := hc
  have h2 := intercept_zero hr hc
  obtain ⟨_, o1, o2⟩ := residual_orthogonal hr hc
  have key : ∀ j : Fin 3, ∑ i, Coordinates.centered a i j * (Coordinates.centered a i 2
      - (c 0 * Coordinates.centered a i 0 + c 1 * Coordinates.centered a i 1 + c 2))
      = Spec.moment a j 2 - (c 0 * Spec.moment a j 0 + c 1 * Spec.moment a j 1) := by
    intro j
    rw [h2, Spec.moment, Spec.moment, Spec.moment, Finset.mul_sum, Finset.mul_sum,
      ← Finset.sum_add_distrib, ← Finset.sum_sub_distrib]
    refine Finset.sum_congr rfl fun i _ => ?_
    simp only [Coordinates.centered, meanRows]
    ring
  have k0 := key 0
  have k1 := key 1
  rw [moment_comm a 1 0] at k1
  constructor
  · linarith [k0.symm.trans o1]
  · linarith [k1.symm.trans o2]

/-- What is known about the normal of a fit with the weights `[1, 1, k]`. -/
lemma weighted_normal (svd : SvdFn) (hs : svd.Valid) {n : ℕ} (a : Fin n → Vec 3) (k : ℝ) (hk : 0 < k)
    (f : Fit n) (hf : init svd a (some ![1, 1, k]) none = .ok (some f)) :
    ∃ σ : ℝ, 0 ≤ σ ∧ f.normal 0 ^ 2 + f.normal 1 ^ 2 + f.normal 2 ^ 2 = 1 ∧ 0 ≤ f.normal 2 ∧
      Spec.moment a 0 0 * f.normal 0 + Spec.moment a 0 1 * f.normal 1
        + Spec.moment a 0 2 / k * f.normal 2 = σ * f.normal 0 ∧
      Spec.moment a 0 1 * f.normal 0 + Spec.moment a 1 1 * f.normal 1
        + Spec.moment a 1 2 / k * f.normal 2 = σ * f.normal 1 ∧
      (∀ u : Vec 3, σ * (u 0 ^ 2 + u 1 ^ 2 + u 2 ^ 2) ≤ ∑ i, (u 0 * Coordinates.centered a i 0
        + u 1 * Coordinates.centered a i 1 + u 2 * (Coordinates.centered a i 2 / k)) ^ 2) ∧
      ∃ s d, strikeDip f = some (s, d) ∧ 0 ≤ d ∧ d ≤ 90 ∧ Real.cos (radians d) = f.normal 2 := by
  have hw : ∀ j, (![1, 1, k] : Vec 3) j ≠ 0 := by
    intro j; fin_cases j <;> simp [hk.ne']
  have hn : 3 ≤ n := by
    by_contra h
    simp [init, runSvd, not_le.1 h, bind, Except.bind] at hf
  obtain ⟨f', g, hf', hg, hV, hN, hsd, -, -, -⟩ := C239_scaled svd hn a _ hw
  rw [hf] at hf'
  cases hf'
  obtain ⟨U, hG⟩ := init_default hs hg
  set b := Spec.inUnits ![1, 1, k] a with hb
  have hm : ∀ j l : Fin 3, Spec.moment b j l
      = Spec.moment a j l / ((![1, 1, k] : Vec 3) j * (![1, 1, k] : Vec 3) l) := by
    intro j l
    refine Eq.trans (Finset.sum_congr rfl fun i _ => ?_) (Finset.sum_div _ _ _).symm
    have e : ∀ j, (∑ l, a l j / (![1, 1, k] : Vec 3) j) / n = (∑ l, a l j) / n / (![1, 1, k] : Vec 3) j := by
      intro j
      rw [← Finset.sum_div, div_right_comm]
    simp only [hb, Spec.inUnits]
    rw [e j, e l, ← sub_div, ← sub_div, div_mul_div_comm]
  have r0 := moment_rows hG.svd 2 0
  have r1 := moment_rows hG.svd 2 1
  rw [hm, hm, hm] at r0 r1
  simp only [Matrix.cons_val_zero, Matrix.cons_val_one, Matrix.cons_val, mul_one, one_mul, div_one] at r0 r1
  rw [moment_comm a 1 0] at r1
  have hnormal : f.normal = upward (g.V 2) := by rw [hN, hG.normal]
  have hrow : ∑ j, g.V 2 j ^ 2 = 1 := row_sq hG.svd 2
  rw [Fin.sum_univ_three] at hrow
  have hvne : g.V 2 ≠ 0 := by
    intro h
    rw [h] at hrow
    simp at hrow
  refine ⟨g.s 2 ^ 2, sq_nonneg _, ?_, by rw [hnormal]; exact upward_nonneg _, ?_, ?_, ?_, ?_⟩
  · rcases upward_eq (g.V 2) with e | e <;> rw [hnormal, e]
    · exact hrow
    · simpa using hrow
  · rcases upward_eq (g.V 2) with e | e <;> rw [hnormal, e]
    · exact r0
    · simp only [Pi.neg_apply]; linarith
  · rcases upward_eq (g.V 2) with e | e <;> rw [hnormal, e]
    · exact r1
    · simp only [Pi.neg_apply]; linarith
  · intro u
    have := hG.svd.optimal u
    rw [Fin.sum_univ_three] at this
    refine this.trans (le_of_eq (Finset.sum_congr rfl fun i _ => ?_))
    simp only [Matrix.mulVec, dotProduct, Fin.sum_univ_three, Matrix.of_apply, hb, centered_inUnits,
      Matrix.cons_val_zero, Matrix.cons_val_one, Matrix.cons_val]
    ring
  · obtain ⟨s, d, hsd', -, -, d0, d1, hup⟩ := strikeDipOf_spec hvne
    rw [show norm (g.V 2) = 1 from hG.svd.row_norm 2, one_smul] at hup
    refine ⟨s, d, by rw [hsd]; exact hsd', d0, d1, ?_⟩
    have := congrFun hup 2
    rw [hnormal, ← this]
    simp [sdNormal]

/-- The smallest singular value is bounded by what the regression leaves over. -/
lemma weighted_sigma {n : ℕ} {a : Fin n → Vec 3} {c : Vec 3} {k σ : ℝ} (hk : 0 < k) (h0 : 0 ≤ σ)
    (ho : ∀ u : Vec 3, σ * (u 0 ^ 2 + u 1 ^ 2 + u 2 ^ 2) ≤ ∑ i, (u 0 * Coordinates.centered a i 0
        + u 1 * Coordinates.centered a i 1 + u 2 * (Coordinates.centered a i 2 / k)) ^ 2) :
    σ * k ^ 2 ≤ Spec.leftOver a c := by
  have h := ho ![c 0, c 1, -k]
  simp only [Matrix.cons_val_zero, Matrix.cons_val_one, Matrix.cons_val] at h
  have e : ∑ i, (c 0 * Coordinates.centered a i 0 + c 1 * Coordinates.centered a i 1
      + -k * (Coordinates.centered a i 2 / k)) ^ 2 = Spec.leftOver a c := by
    refine Finset.sum_congr rfl fun i _ => ?_
    simp only [Coordinates.centered, Spec.intercept]
    field_simp
    ring
  rw [e] at h
  have := mul_nonneg h0 (add_nonneg (sq_nonneg (c 0)) (sq_nonneg (c 1)))
  nlinarith

lemma weightedSlopes_eq {n : ℕ} (k : ℝ) (f : Fit n) :
    Spec.weightedSlopes ![1, 1, k] f = ![-f.normal 0 / (f.normal 2 / k), -f.normal 1 / (f.normal 2 / k)] := by
  simp [Spec.weightedSlopes, Spec.slopesOf]

/-- The equations that the slopes satisfy. -/
lemma weighted_equations {A B C P Q k σ N0 N1 N2 c0 c1 b0 b1 : ℝ} (hk : 0 < k) (hN : N2 ≠ 0)
    (e0 : A * N0 + B * N1 + P / k * N2 = σ * N0) (e1 : B * N0 + C * N1 + Q / k * N2 = σ * N1)
    (hP : P = c0 * A + c1 * B) (hQ : Q = c0 * B + c1 * C) (h0 : b0 = -N0 / (N2 / k)) (h1 : b1 = -N1 / (N2 / k)) :
    A * (b0 - c0) + B * (b1 - c1) = σ * b0 ∧ B * (b0 - c0) + C * (b1 - c1) = σ * b1 := by
  have hk' := hk.ne'
  have t0 : N0 = -(b0 * N2) / k := by rw [h0]; field_simp
  have t1 : N1 = -(b1 * N2) / k := by rw [h1]; field_simp
  rw [t0, t1, hP] at e0
  rw [t0, t1, hQ] at e1
  constructor
  · have : N2 * (A * (b0 - c0) + B * (b1 - c1)) = N2 * (σ * b0) := by
      field_simp at e0
      linear_combination (-N2) * e0
    exact mul_left_cancel₀ hN this
  · have : N2 * (B * (b0 - c0) + C * (b1 - c1)) = N2 * (σ * b1) := by
      field_simp at e1
      linear_combination (-N2) * e1
    exact mul_left_cancel₀ hN this

/-- Two vectors, one of them of the form given by the equations. -/
lemma weighted_bound {μ σ b0 b1 c0 c1 : ℝ} (h0 : 0 ≤ σ)
    (hq : μ * ((b0 - c0) ^ 2 + (b1 - c1) ^ 2) ≤ σ * (b0 * (b0 - c0) + b1 * (b1 - c1))) :
    Spec.steepness (b0 - c0) (b1 - c1) * (μ - σ) ≤ σ * Spec.steepness c0 c1 := by
  set D := Spec.steepness (b0 - c0) (b1 - c1) with hD
  set E := Spec.steepness c0 c1 with hE
  have D2 : D ^ 2 = (b0 - c0) ^ 2 + (b1 - c1) ^ 2 := Real.sq_sqrt (by positivity)
  have E2 : E ^ 2 = c0 ^ 2 + c1 ^ 2 := Real.sq_sqrt (by positivity)
  have D0 : 0 ≤ D := Real.sqrt_nonneg _
  have E0 : 0 ≤ E := Real.sqrt_nonneg _
  have cs : c0 * (b0 - c0) + c1 * (b1 - c1) ≤ E * D := by
    apply le_of_sq_le_sq _ (by positivity)
    rw [mul_pow, D2, E2]
    nlinarith [sq_nonneg (c0 * (b1 - c1) - c1 * (b0 - c0))]
  have hle : D * (D * (μ - σ)) ≤ D * (σ * E) := by
    have e : b0 * (b0 - c0) + b1 * (b1 - c1) = D ^ 2 + (c0 * (b0 - c0) + c1 * (b1 - c1)) := by
      rw [D2]; ring
    rw [e, ← D2] at hq
    have := mul_le_mul_of_nonneg_left cs h0
    nlinarith
  rcases D0.eq_or_lt with hz | hp
  · rw [← hz, zero_mul]; positivity
  · exact le_of_mul_le_mul_left hle hp

/-! ## C269 -/

/-- The plane of a fit with weights `[1, 1, k]` is close to that of the regression: the difference
of the slopes is at most the fraction `SSE / (k² μ - SSE)` of the slope of the regression, where
`SSE` is the sum of squares that the regression leaves over and `μ` the extent of the points in map
view.  For such `k` the plane is not vertical. -/
theorem C269_close (svd : SvdFn) (hs : svd.Valid) {n : ℕ} (a : Fin n → Vec 3) (c : Vec 3)
    (hc : Spec.Coefficients a c) (μ : ℝ) (hμ : Spec.ExtendInPlan a μ) (k : ℝ) (hk : 0 < k)
    (hbig : Spec.leftOver a c < k ^ 2 * μ) (f : Fit n)
    (hf : init svd a (some ![1, 1, k]) none = .ok (some f)) :
    0 < f.normal 2 ∧
    Spec.steepness (Spec.weightedSlopes ![1, 1, k] f 0 - c 0) (Spec.weightedSlopes ![1, 1, k] f 1 - c 1)
        * (k ^ 2 * μ - Spec.leftOver a c) ≤ Spec.leftOver a c * Spec.steepness (c 0) (c 1) := by
  obtain ⟨σ, h0, hu, hN, e0, e1, ho, -⟩ := weighted_normal svd hs a k hk f hf
  obtain ⟨hP, hQ⟩ := regression_moments hc
  have hσ := weighted_sigma (c := c) hk h0 ho
  have k2 : 0 < k ^ 2 := by positivity
  have hσμ : σ < μ := by
    by_contra h
    push Not at h
    have : k ^ 2 * μ ≤ k ^ 2 * σ := mul_le_mul_of_nonneg_left h k2.le
    linarith
  have hN2 : f.normal 2 ≠ 0 := by
    intro hz
    have := hμ (f.normal 0) (f.normal 1)
    rw [moment_form2] at this
    rw [hz, mul_zero, add_zero] at e0 e1
    rw [e0, e1] at this
    rw [hz] at hu
    nlinarith
  refine ⟨lt_of_le_of_ne hN hN2.symm, ?_⟩
  rw [weightedSlopes_eq]
  simp only [Matrix.cons_val_zero, Matrix.cons_val_one]
  set b0 := -f.normal 0 / (f.normal 2 / k) with hb0
  set b1 := -f.normal 1 / (f.normal 2 / k) with hb1
  obtain ⟨q0, q1⟩ := weighted_equations hk hN2 e0 e1 hP hQ hb0 hb1
  have hq := hμ (b0 - c 0) (b1 - c 1)
  rw [moment_form2, q0, q1] at hq
  have hD := weighted_bound (c0 := c 0) (c1 := c 1) h0 (by linarith : μ * ((b0 - c 0) ^ 2 + (b1 - c 1) ^ 2)
    ≤ σ * (b0 * (b0 - c 0) + b1 * (b1 - c 1)))
  have D0 : 0 ≤ Spec.steepness (b0 - c 0) (b1 - c 1) := Real.sqrt_nonneg _
  have E0 : 0 ≤ Spec.steepness (c 0) (c 1) := Real.sqrt_nonneg _
  have s1 := mul_le_mul_of_nonneg_left hσ D0
  have s2 := mul_le_mul_of_nonneg_right hσ E0
  have s3 := mul_le_mul_of_nonneg_right hD k2.le
  nlinarith

/-- For every weight the plane of the fit is at least as steep as that of the regression. -/
theorem C269_least (svd : SvdFn) (hs : svd.Valid) {n : ℕ} (a : Fin n → Vec 3) (c : Vec 3)
    (hc : Spec.Coefficients a c) (k : ℝ) (hk : 0 < k) (f : Fit n)
    (hf : init svd a (some ![1, 1, k]) none = .ok (some f)) (hN2 : f.normal 2 ≠ 0) :
    Spec.steepness (c 0) (c 1) ≤
      Spec.steepness (Spec.weightedSlopes ![1, 1, k] f 0) (Spec.weightedSlopes ![1, 1, k] f 1) := by
  obtain ⟨σ, h0, hu, hN, e0, e1, ho, -⟩ := weighted_normal svd hs a k hk f hf
  obtain ⟨hP, hQ⟩ := regression_moments hc
  rw [weightedSlopes_eq]
  simp only [Matrix.cons_val_zero, Matrix.cons_val_one]
  set b0 := -f.normal 0 / (f.normal 2 / k) with hb0
  set b1 := -f.normal 1 / (f.normal 2 / k) with hb1
  obtain ⟨q0, q1⟩ := weighted_equations hk hN2 e0 e1 hP hQ hb0 hb1
  have hform := moment_form2 a (b0 - c 0) (b1 - c 1)
  rw [q0, q1] at hform
  have hopt : σ * ((b0 - c 0) ^ 2 + (b1 - c 1) ^ 2) ≤ σ * (b0 * (b0 - c 0) + b1 * (b1 - c 1)) := by
    have := ho ![b0 - c 0, b1 - c 1, 0]
    simp only [Matrix.cons_val_zero, Matrix.cons_val_one, Matrix.cons_val, zero_mul, add_zero,
      ne_eq, OfNat.ofNat_ne_zero, not_false_eq_true, zero_pow] at this
    refine this.trans (le_of_eq (Eq.trans (Finset.sum_congr rfl fun i _ => ?_) (hform.trans (by ring))))
    simp only [Coordinates.centered, meanRows]
  unfold Spec.steepness
  apply Real.sqrt_le_sqrt
  rcases h0.eq_or_lt with hz | hp
  · rw [← hz, zero_mul, zero_mul] at hform
    obtain ⟨r, hr, hc'⟩ := hc
    have hncol : ¬ Spec.CollinearInPlan a := (C31_singular_iff a r hr).2.1 ⟨c, hc'⟩
    have hzero : ∑ i, ((b0 - c 0) * (a i 0 - (∑ l, a l 0) / n)
        + (b1 - c 1) * (a i 1 - (∑ l, a l 1) / n)) ^ 2 = 0 := by rw [hform]; ring
    have hall := (Finset.sum_eq_zero_iff_of_nonneg (fun i _ => sq_nonneg _)).1 hzero
    have hd : b0 - c 0 = 0 ∧ b1 - c 1 = 0 := by
      by_contra hcon
      apply hncol
      refine ⟨b0 - c 0, b1 - c 1, (b0 - c 0) * ((∑ l, a l 0) / n) + (b1 - c 1) * ((∑ l, a l 1) / n), ?_,
        fun i => ?_⟩
      · by_contra hh
        push Not at hh
        exact hcon hh
      · have := pow_eq_zero_iff two_ne_zero |>.1 (hall i (Finset.mem_univ i))
        linarith
    rw [sub_eq_zero.1 hd.1, sub_eq_zero.1 hd.2]
  · have := le_of_mul_le_mul_left hopt hp
    nlinarith [sq_nonneg (b0 - c 0), sq_nonneg (b1 - c 1)]

/-- Four points that are not in a plane, and their regression. -/
def Spec.saddle : Fin 4 → Vec 3 := ![![1, 1, 3], ![1, -1, 0], ![-1, 1, 0], ![-1, -1, -1]]

lemma saddle_coefficients : ∃ c, Spec.Coefficients Spec.saddle c := by
  have hr : Linear.initRows Spec.saddle = .ok (Linear.ofCentered (Coordinates.centered Spec.saddle)) := by
    simp [Linear.initRows]
  obtain ⟨c, hc⟩ := (C31_singular_iff Spec.saddle _ hr).2.2 (by
    rintro ⟨p, q, t, hpq, h⟩
    have h0 := h 0
    have h1 := h 1
    have h2 := h 2
    have h3 := h 3
    simp [Spec.saddle] at h0 h1 h2 h3
    rcases hpq with e | e <;> apply e <;> linarith)
  exact ⟨c, _, hr, hc⟩

lemma saddle_extent : Spec.ExtendInPlan Spec.saddle 4 := by
  intro u v
  simp [Spec.saddle, Fin.sum_univ_four]
  nlinarith [sq_nonneg u, sq_nonneg v]

/-- What the regression of these points leaves over is less than four times the square of a weight of three:
it is at most the sum of the squared heights. -/
lemma saddle_left {c : Vec 3} (hc : Spec.Coefficients Spec.saddle c) : Spec.leftOver Spec.saddle c < 3 ^ 2 * 4 := by
  obtain ⟨r, hr, hc⟩ := hc
  have := (C31_least_squares Spec.saddle r hr c hc).2.1 0 0 0
  refine lt_of_le_of_lt this ?_
  simp [Spec.verticalSquares, Spec.saddle, Fin.sum_univ_four]
  norm_num

example : ∃ (svd : SvdFn) (f : Fit 4) (c : Vec 3), svd.Valid ∧
    init svd Spec.saddle (some ![1, 1, 3]) none = .ok (some f) ∧ Spec.Coefficients Spec.saddle c ∧
    0 < f.normal 2 ∧ Spec.steepness (c 0) (c 1) ≤
      Spec.steepness (Spec.weightedSlopes ![1, 1, 3] f 0) (Spec.weightedSlopes ![1, 1, 3] f 1) ∧
    Spec.steepness (Spec.weightedSlopes ![1, 1, 3] f 0 - c 0) (Spec.weightedSlopes ![1, 1, 3] f 1 - c 1)
        * (3 ^ 2 * 4 - Spec.leftOver Spec.saddle c) ≤ Spec.leftOver Spec.saddle c * Spec.steepness (c 0) (c 1) := by
  obtain ⟨svd, hs⟩ := exists_valid_svd
  obtain ⟨f, _, hf, _⟩ := C239_scaled svd (by norm_num) Spec.saddle ![1, 1, 3]
    (by intro j; fin_cases j <;> simp)
  obtain ⟨c, hc⟩ := saddle_coefficients
  obtain ⟨h1, h2⟩ := C269_close svd hs _ c hc 4 saddle_extent 3 (by norm_num) (saddle_left hc) f hf
  exact ⟨svd, f, c, hs, hf, hc, h1, C269_least svd hs _ c hc 3 (by norm_num) f hf h1.ne', h2⟩

/-- Points that are not on a line in map view have some extent in all directions. -/
lemma exists_extent {n : ℕ} {a : Fin n → Vec 3} {c : Vec 3} (hc : Spec.Coefficients a c) :
    ∃ μ, 0 < μ ∧ Spec.ExtendInPlan a μ := by
  obtain ⟨r, hr, hc⟩ := hc
  have hncol : ¬ Spec.CollinearInPlan a := (C31_singular_iff a r hr).2.1 ⟨c, hc⟩
  set A := Spec.moment a 0 0 with hA
  set B := Spec.moment a 0 1 with hB
  set C := Spec.moment a 1 1 with hC
  have pos : ∀ u v : ℝ, (u ≠ 0 ∨ v ≠ 0) → 0 < u * (A * u + B * v) + v * (B * u + C * v) := by
    intro u v huv
    rw [hA, hB, hC, ← moment_form2]
    refine lt_of_le_of_ne (Finset.sum_nonneg fun i _ => sq_nonneg _) fun hz => hncol ?_
    have hall := (Finset.sum_eq_zero_iff_of_nonneg (fun i _ => sq_nonneg _)).1 hz.symm
    refine ⟨u, v, u * ((∑ l, a l 0) / n) + v * ((∑ l, a l 1) / n), huv, fun i => ?_⟩
    have := pow_eq_zero_iff two_ne_zero |>.1 (hall i (Finset.mem_univ i))
    linarith
  have hA0 : 0 < A := by have := pos 1 0 (.inl one_ne_zero); linarith
  have hC0 : 0 < C := by have := pos 0 1 (.inr one_ne_zero); linarith
  have hdet : 0 < A * C - B ^ 2 := by
    have := pos (-B) A (.inr hA0.ne')
    have e : -B * (A * -B + B * A) + A * (B * -B + C * A) = A * (A * C - B ^ 2) := by ring
    rw [e] at this
    exact (mul_pos_iff_of_pos_left hA0).1 this
  refine ⟨(A * C - B ^ 2) / (A + C), by positivity, fun u v => ?_⟩
  rw [moment_form2, div_mul_eq_mul_div, div_le_iff₀ (by positivity)]
  have : (u * (A * u + B * v) + v * (B * u + C * v)) * (A + C) - (A * C - B ^ 2) * (u ^ 2 + v ^ 2)
      = (A * u + B * v) ^ 2 + (B * u + C * v) ^ 2 := by ring
  nlinarith [sq_nonneg (A * u + B * v), sq_nonneg (B * u + C * v)]

/-- With growing weight of the heights the plane of the fit tends to that of the regression,
uniformly over all ways to compute the decomposition. -/
theorem C269_limit {n : ℕ} (a : Fin n → Vec 3) (c : Vec 3) (hc : Spec.Coefficients a c) (ε : ℝ) (hε : 0 < ε) :
    ∃ K, 0 < K ∧ ∀ k, K ≤ k → ∀ svd : SvdFn, svd.Valid → ∀ f : Fit n,
      init svd a (some ![1, 1, k]) none = .ok (some f) → 0 < f.normal 2 ∧
      Spec.steepness (Spec.weightedSlopes ![1, 1, k] f 0 - c 0)
        (Spec.weightedSlopes ![1, 1, k] f 1 - c 1) < ε := by
  obtain ⟨μ, hμ0, hμ⟩ := exists_extent hc
  set S := Spec.leftOver a c with hS
  set E := Spec.steepness (c 0) (c 1) with hE
  have S0 : 0 ≤ S := by
    rw [hS, Spec.leftOver, Spec.verticalSquares]
    exact Finset.sum_nonneg fun i _ => sq_nonneg _
  have E0 : 0 ≤ E := Real.sqrt_nonneg _
  set T := (S + S * E / ε + 1) / μ with hT
  have T0 : 0 < T := by positivity
  refine ⟨Real.sqrt T, Real.sqrt_pos.2 T0, fun k hk svd hs f hf => ?_⟩
  have k0 : 0 < k := lt_of_lt_of_le (Real.sqrt_pos.2 T0) hk
  have hk2 : T ≤ k ^ 2 := by
    rw [← Real.sq_sqrt T0.le]
    exact pow_le_pow_left₀ (Real.sqrt_nonneg _) hk 2
  have hkm : S + S * E / ε + 1 ≤ k ^ 2 * μ := by
    have := mul_le_mul_of_nonneg_right hk2 hμ0.le
    rwa [hT, div_mul_cancel₀ _ hμ0.ne'] at this
  have q0 : 0 ≤ S * E / ε := by positivity
  obtain ⟨h1, h2⟩ := C269_close svd hs a c hc μ hμ k k0 (by linarith) f hf
  refine ⟨h1, ?_⟩
  rw [← hS, ← hE] at h2
  by_contra hcon
  push Not at hcon
  have hgap : S * E / ε + 1 ≤ k ^ 2 * μ - S := by linarith
  have h3 := mul_le_mul hcon hgap (by linarith) (le_trans hε.le hcon)
  have h4 : ε * (S * E / ε + 1) = S * E + ε := by field_simp
  rw [h4] at h3
  linarith

example : ∃ c, Spec.Coefficients Spec.saddle c ∧ ∃ K, 0 < K ∧ ∀ k, K ≤ k → ∀ svd : SvdFn, svd.Valid →
    ∀ f : Fit 4, init svd Spec.saddle (some ![1, 1, k]) none = .ok (some f) →
      Spec.steepness (Spec.weightedSlopes ![1, 1, k] f 0 - c 0) (Spec.weightedSlopes ![1, 1, k] f 1 - c 1)
        < 1 / 1000 := by
  obtain ⟨c, hc⟩ := saddle_coefficients
  obtain ⟨K, hK, h⟩ := C269_limit _ c hc (1 / 1000) (by norm_num)
  exact ⟨c, hc, K, hK, fun k hk svd hs f hf => (h k hk svd hs f hf).2⟩

/-- The reported dip belongs to a plane with slopes `k` times smaller ... -/
theorem C269_reported_partial (svd : SvdFn) (hs : svd.Valid) {n : ℕ} (a : Fin n → Vec 3) (k : ℝ) (hk : 0 < k)
    (f : Fit n) (hf : init svd a (some ![1, 1, k]) none = .ok (some f)) (hN2 : f.normal 2 ≠ 0) :
    ∃ s d, strikeDip f = some (s, d) ∧ 0 ≤ d ∧ d < 90 ∧ k * Real.tan (radians d) =
      Spec.steepness (Spec.weightedSlopes ![1, 1, k] f 0) (Spec.weightedSlopes ![1, 1, k] f 1) := by
  obtain ⟨σ, h0, hu, hN, -, -, -, s, d, hsd, d0, d1, hcos⟩ := weighted_normal svd hs a k hk f hf
  have hNp : 0 < f.normal 2 := lt_of_le_of_ne hN hN2.symm
  have hπ := Real.pi_pos
  have hd : d < 90 := by
    refine lt_of_le_of_ne d1 fun e => hN2 ?_
    rw [← hcos, e, show radians 90 = Real.pi / 2 by unfold radians; ring, Real.cos_pi_div_two]
  refine ⟨s, d, hsd, d0, hd, ?_⟩
  have hsin : 0 ≤ Real.sin (radians d) := by
    apply Real.sin_nonneg_of_nonneg_of_le_pi
    · unfold radians; positivity
    · unfold radians; nlinarith
  have hsin2 : Real.sin (radians d) ^ 2 = f.normal 0 ^ 2 + f.normal 1 ^ 2 := by
    have := Real.sin_sq_add_cos_sq (radians d)
    rw [hcos] at this
    linarith
  rw [weightedSlopes_eq, Real.tan_eq_sin_div_cos, hcos]
  simp only [Matrix.cons_val_zero, Matrix.cons_val_one]
  unfold Spec.steepness
  symm
  rw [Real.sqrt_eq_iff_mul_self_eq (by positivity) (by positivity)]
  have hk' := hk.ne'
  field_simp
  linear_combination (-1) * hsin2

example : ∃ (svd : SvdFn) (f : Fit 4) (s d : ℝ), svd.Valid ∧
    init svd Spec.saddle (some ![1, 1, 3]) none = .ok (some f) ∧ strikeDip f = some (s, d) ∧
    3 * Real.tan (radians d) =
      Spec.steepness (Spec.weightedSlopes ![1, 1, 3] f 0) (Spec.weightedSlopes ![1, 1, 3] f 1) := by
  obtain ⟨svd, hs⟩ := exists_valid_svd
  obtain ⟨f, _, hf, _⟩ := C239_scaled svd (by norm_num) Spec.saddle ![1, 1, 3]
    (by intro j; fin_cases j <;> simp)
  obtain ⟨c, hc⟩ := saddle_coefficients
  obtain ⟨h1, _⟩ := C269_close svd hs _ c hc 4 saddle_extent 3 (by norm_num) (saddle_left hc) f hf
  obtain ⟨s, d, hsd, _, _, ht⟩ := C269_reported_partial svd hs _ 3 (by norm_num) f hf h1.ne'
  exact ⟨svd, f, s, d, hs, hf, hsd, ht⟩

/-- ... so that it does not tend to the dip of the regression but to zero, for all points. -/
theorem C269_reported_false {n : ℕ} (a : Fin n → Vec 3) (c : Vec 3) (hc : Spec.Coefficients a c) (ε : ℝ)
    (hε : 0 < ε) : ∃ K, 0 < K ∧ ∀ k, K ≤ k → ∀ svd : SvdFn, svd.Valid → ∀ f : Fit n,
      init svd a (some ![1, 1, k]) none = .ok (some f) →
      ∃ s d, strikeDip f = some (s, d) ∧ 0 ≤ d ∧ d < ε := by
  obtain ⟨K, hK, hlim⟩ := C269_limit a c hc 1 one_pos
  set E := Spec.steepness (c 0) (c 1) with hE
  have E0 : 0 ≤ E := Real.sqrt_nonneg _
  have hπ := Real.pi_pos
  have hr : 0 < radians ε := by unfold radians; positivity
  refine ⟨max K ((E + 1) / radians ε), lt_max_of_lt_left hK, fun k hk svd hs f hf => ?_⟩
  have hk0 : 0 < k := lt_of_lt_of_le hK ((le_max_left _ _).trans hk)
  obtain ⟨hN, hlt⟩ := hlim k ((le_max_left _ _).trans hk) svd hs f hf
  obtain ⟨s, d, hsd, d0, d1, ht⟩ := C269_reported_partial svd hs a k hk0 f hf hN.ne'
  refine ⟨s, d, hsd, d0, ?_⟩
  set b0 := Spec.weightedSlopes ![1, 1, k] f 0
  set b1 := Spec.weightedSlopes ![1, 1, k] f 1
  have htri : Spec.steepness b0 b1 ≤ E + Spec.steepness (b0 - c 0) (b1 - c 1) := by
    set D := Spec.steepness (b0 - c 0) (b1 - c 1) with hD
    have D2 : D ^ 2 = (b0 - c 0) ^ 2 + (b1 - c 1) ^ 2 := Real.sq_sqrt (by positivity)
    have E2 : E ^ 2 = c 0 ^ 2 + c 1 ^ 2 := Real.sq_sqrt (by positivity)
    have D0 : 0 ≤ D := Real.sqrt_nonneg _
    have cs : c 0 * (b0 - c 0) + c 1 * (b1 - c 1) ≤ E * D := by
      apply le_of_sq_le_sq _ (by positivity)
      rw [mul_pow, D2, E2]
      nlinarith [sq_nonneg (c 0 * (b1 - c 1) - c 1 * (b0 - c 0))]
    unfold Spec.steepness
    rw [Real.sqrt_le_left (by positivity)]
    nlinarith
  have htan : radians d ≤ Real.tan (radians d) := by
    rcases d0.eq_or_lt with e | hp
    · rw [← e]; simp [radians]
    · refine (Real.lt_tan (by unfold radians; positivity) ?_).le
      unfold radians; nlinarith
  have hkE : E + 1 ≤ k * radians ε := by
    have := (le_max_right K ((E + 1) / radians ε)).trans hk
    rwa [div_le_iff₀ hr] at this
  have h1 : k * radians d < k * radians ε := by
    have := mul_le_mul_of_nonneg_left htan hk0.le
    linarith
  have h2 := lt_of_mul_lt_mul_left h1 hk0.le
  unfold radians at h2
  nlinarith

/-- The slope of the regression of the example is not zero, so that its dip is not the limit. -/
example : ∃ c, Spec.Coefficients Spec.saddle c ∧ c 0 = 1 ∧ c 1 = 1 ∧ ∃ K, 0 < K ∧ ∀ k, K ≤ k →
    ∀ svd : SvdFn, svd.Valid → ∀ f : Fit 4, init svd Spec.saddle (some ![1, 1, k]) none = .ok (some f) →
      ∃ s d, strikeDip f = some (s, d) ∧ d < 1 / 10 := by
  obtain ⟨c, hc⟩ := saddle_coefficients
  obtain ⟨K, hK, h⟩ := C269_reported_false _ c hc (1 / 10) (by norm_num)
  obtain ⟨e0, e1⟩ := regression_moments hc
  simp [Spec.moment, Spec.saddle, Fin.sum_univ_four] at e0 e1
  refine ⟨c, hc, by linarith, by linarith, K, hK, fun k hk svd hs f hf => ?_⟩
  obtain ⟨s, d, h1, _, h2⟩ := h k hk svd hs f hf
  exact ⟨s, d, h1, h2⟩

end Attitude.Props
