import Verif.Lemmas.Pca2
import Verif.Props.ErrorAxes

/-!
# C184, C185: fits of two-column arrays
-/

namespace Attitude.Props

open Attitude Pca2 Matrix

/-! ## Specification -/

/-- The point lies on the line with normal `m` and offset `d`. -/
def Spec.OnLine2 (m : Vec 2) (d : ℝ) (p : Vec 2) : Prop := m 0 * p 0 + m 1 * p 1 = d

/-- Squared distance of a point from the line with unit normal `m` and offset `d`. -/
def Spec.lineDist2 (m : Vec 2) (d : ℝ) (p : Vec 2) : ℝ := (m 0 * p 0 + m 1 * p 1 - d) ^ 2

/-- Sum of the squared distances of all points from a line. -/
def Spec.misfit2 {n : ℕ} (a : Fin n → Vec 2) (m : Vec 2) (d : ℝ) : ℝ :=
  ∑ i, Spec.lineDist2 m d (a i)

/-- All points lie on one line. -/
def Spec.Collinear2 {n : ℕ} (a : Fin n → Vec 2) : Prop :=
  ∃ (m : Vec 2) (d : ℝ), norm m = 1 ∧ ∀ i, Spec.OnLine2 m d (a i)

/-- `lineDist2` is the least squared distance from `p` to a point of the line. -/
theorem Spec.lineDist2_is_distance (m p : Vec 2) (d : ℝ) (hm : norm m = 1) :
    (∀ q, Spec.OnLine2 m d q → Spec.lineDist2 m d p ≤ (p 0 - q 0) ^ 2 + (p 1 - q 1) ^ 2) ∧
    ∃ q, Spec.OnLine2 m d q ∧ Spec.lineDist2 m d p = (p 0 - q 0) ^ 2 + (p 1 - q 1) ^ 2 := by
  have h1 : m 0 ^ 2 + m 1 ^ 2 = 1 := by
    have := norm_sq' m
    rw [hm, Fin.sum_univ_two] at this
    linarith
  constructor
  · intro q hq
    unfold Spec.OnLine2 at hq
    unfold Spec.lineDist2
    have e : m 0 * p 0 + m 1 * p 1 - d = m 0 * (p 0 - q 0) + m 1 * (p 1 - q 1) := by
      rw [← hq]; ring
    rw [e]
    nlinarith [sq_nonneg (m 0 * (p 1 - q 1) - m 1 * (p 0 - q 0))]
  · set t := m 0 * p 0 + m 1 * p 1 - d with ht
    refine ⟨fun j => p j - t * m j, ?_, ?_⟩
    · unfold Spec.OnLine2
      linear_combination (-t) * h1 + ht
    · unfold Spec.lineDist2
      rw [← ht]
      linear_combination (-t ^ 2) * h1

/-! ## Helper facts -/

lemma mulVec_centered2 {n : ℕ} (a : Fin n → Vec 2) (m : Vec 2) (i : Fin n) :
    (Matrix.of (Pca2.centered a) *ᵥ m) i
      = (m 0 * a i 0 + m 1 * a i 1) - (m 0 * Pca2.meanRows a 0 + m 1 * Pca2.meanRows a 1) := by
  simp only [Matrix.mulVec, dotProduct, Fin.sum_univ_two, Matrix.of_apply, Pca2.centered]
  ring

lemma sum_centered2 {n : ℕ} (a : Fin n → Vec 2) (j : Fin 2) : ∑ i, Pca2.centered a i j = 0 := by
  rcases Nat.eq_zero_or_pos n with h | h
  · subst h; simp
  · have : (n : ℝ) ≠ 0 := by exact_mod_cast h.ne'
    simp only [Pca2.centered, Pca2.meanRows, Finset.sum_sub_distrib, Finset.sum_const,
      Finset.card_univ, Fintype.card_fin, nsmul_eq_mul]
    field_simp
    ring

lemma sum_mulVec_centered2 {n : ℕ} (a : Fin n → Vec 2) (m : Vec 2) :
    ∑ i, (Matrix.of (Pca2.centered a) *ᵥ m) i = 0 := by
  simp only [Matrix.mulVec, dotProduct, Fin.sum_univ_two, Matrix.of_apply,
    Finset.sum_add_distrib, ← Finset.sum_mul, sum_centered2]
  ring

lemma misfit2_split {n : ℕ} (a : Fin n → Vec 2) (m : Vec 2) (d : ℝ) :
    Spec.misfit2 a m d = ∑ i, (Matrix.of (Pca2.centered a) *ᵥ m) i ^ 2
      + n * (m 0 * Pca2.meanRows a 0 + m 1 * Pca2.meanRows a 1 - d) ^ 2 := by
  set μ := m 0 * Pca2.meanRows a 0 + m 1 * Pca2.meanRows a 1 with hμ
  have h : ∀ i, Spec.lineDist2 m d (a i)
      = (Matrix.of (Pca2.centered a) *ᵥ m) i ^ 2
        + 2 * (μ - d) * (Matrix.of (Pca2.centered a) *ᵥ m) i + (μ - d) ^ 2 := by
    intro i
    rw [mulVec_centered2, ← hμ]
    unfold Spec.lineDist2
    ring
  unfold Spec.misfit2
  simp only [h, Finset.sum_add_distrib, ← Finset.mul_sum, sum_mulVec_centered2, Finset.sum_const,
    Finset.card_univ, Fintype.card_fin, nsmul_eq_mul]
  ring

lemma normal2_misfit {n : ℕ} {a : Fin n → Vec 2} {f : Pca2.Fit n} (h : Pca2.IsFit a f) :
    ∑ i, (Matrix.of (Pca2.centered a) *ᵥ f.normal) i ^ 2 = f.s 1 ^ 2 := by
  rw [h.normal, ← h.svd.sum_sq_row 1]
  rcases upward_cases (f.V 1) with e | e <;> rw [e]
  simp [Matrix.mulVec_neg]

lemma normal2_unit {n : ℕ} {a : Fin n → Vec 2} {f : Pca2.Fit n} (h : Pca2.IsFit a f) :
    norm f.normal = 1 := by
  rw [h.normal]
  rcases upward_cases (f.V 1) with e | e <;> rw [e]
  · exact h.svd.row_norm 1
  · rw [← h.svd.row_norm 1]; simp [norm]

/-- The least possible misfit is zero exactly when the points are collinear. -/
lemma collinear2_iff {n : ℕ} {a : Fin n → Vec 2} {f : Pca2.Fit n} (h : Pca2.IsFit a f) :
    f.s 1 = 0 ↔ Spec.Collinear2 a := by
  constructor
  · intro h0
    refine ⟨f.normal, f.normal 0 * Pca2.meanRows a 0 + f.normal 1 * Pca2.meanRows a 1,
      normal2_unit h, fun i => ?_⟩
    have e := normal2_misfit h
    rw [h0, zero_pow two_ne_zero] at e
    have := (Finset.sum_eq_zero_iff_of_nonneg fun i _ => sq_nonneg _).1 e i (Finset.mem_univ i)
    have := pow_eq_zero_iff two_ne_zero |>.1 this
    rw [mulVec_centered2] at this
    unfold Spec.OnLine2
    linarith
  · rintro ⟨m, d, hm, hp⟩
    have e : Spec.misfit2 a m d = 0 := by
      unfold Spec.misfit2
      refine Finset.sum_eq_zero fun i _ => ?_
      have := hp i
      unfold Spec.OnLine2 at this
      unfold Spec.lineDist2
      rw [this, sub_self]; norm_num
    rw [misfit2_split] at e
    have h1 : ∑ j, m j ^ 2 = 1 := by rw [← norm_sq', hm]; norm_num
    have h2 := h.svd.optimal m
    rw [h1, mul_one] at h2
    have h3 : (0 : ℝ) ≤ n * (m 0 * Pca2.meanRows a 0 + m 1 * Pca2.meanRows a 1 - d) ^ 2 := by
      positivity
    have : f.s 1 ^ 2 = 0 := le_antisymm (by linarith) (sq_nonneg _)
    exact pow_eq_zero_iff two_ne_zero |>.1 this

/-! ## Witnesses -/

/-- Four points that are not on one line. -/
def Witness.kite : Fin 4 → Vec 2 := ![![3, 0], ![-3, 0], ![0, 1], ![0, -1]]

/-- Three points on a line. -/
def Witness.threeOnLine : Fin 3 → Vec 2 := ![![0, 1], ![1, 3], ![2, 5]]

lemma kite_not_collinear : ¬ Spec.Collinear2 Witness.kite := by
  rintro ⟨m, d, hm, h⟩
  have h0 := h 0
  have h1 := h 1
  have h2 := h 2
  have h3 := h 3
  simp [Spec.OnLine2, Witness.kite] at h0 h1 h2 h3
  have n2 := norm_sq' m
  rw [hm, Fin.sum_univ_two] at n2
  have a : m 0 = 0 := by linarith
  have b : m 1 = 0 := by linarith
  rw [a, b] at n2
  norm_num at n2

lemma threeOnLine_collinear : Spec.Collinear2 Witness.threeOnLine := by
  refine ⟨![2 / Real.sqrt 5, -1 / Real.sqrt 5], -1 / Real.sqrt 5, ?_, ?_⟩
  · rw [norm, Fin.sum_univ_two]
    simp [div_pow]
    norm_num
  · intro i
    fin_cases i <;> simp [Spec.OnLine2, Witness.threeOnLine] <;> ring

lemma exists_fit2 {n : ℕ} (hn : 3 ≤ n) (a : Fin n → Vec 2) :
    ∃ (svd : Pca2.SvdFn) (f : Pca2.Fit n), svd.Valid ∧ Pca2.init svd a = .ok f := by
  obtain ⟨svd, hs⟩ := Pca2.exists_valid
  have h : ∃ f, Pca2.init svd a = .ok f := by
    unfold Pca2.init
    rw [if_neg (by omega)]
    exact ⟨_, rfl⟩
  exact ⟨svd, h.choose, hs, h.choose_spec⟩

/-! ## C184 -/

/-- Two-column data: the line through the mean perpendicular to the normal has the least
total squared distance among all lines, and that total is the square of the last singular
value. -/
theorem C184_best_line (svd : Pca2.SvdFn) (hs : svd.Valid) {n : ℕ} (a : Fin n → Vec 2)
    (f : Pca2.Fit n) (hf : Pca2.init svd a = .ok f) :
    norm f.normal = 1 ∧ 0 ≤ f.normal 1 ∧
    Spec.misfit2 a f.normal (f.normal 0 * f.mean 0 + f.normal 1 * f.mean 1) = f.s 1 ^ 2 ∧
    ∀ (m : Vec 2) (d : ℝ), norm m = 1 →
      Spec.misfit2 a f.normal (f.normal 0 * f.mean 0 + f.normal 1 * f.mean 1)
        ≤ Spec.misfit2 a m d := by
  have h := Pca2.init_ok hs hf
  have e : Spec.misfit2 a f.normal (f.normal 0 * f.mean 0 + f.normal 1 * f.mean 1)
      = f.s 1 ^ 2 := by
    rw [h.mean, misfit2_split, normal2_misfit h, sub_self]
    ring
  refine ⟨normal2_unit h, ?_, e, fun m d hm => ?_⟩
  · rw [h.normal]
    unfold Pca2.upward
    split
    · simp only [Pi.neg_apply]; linarith
    · linarith
  · rw [e, misfit2_split]
    have h1 : ∑ j, m j ^ 2 = 1 := by rw [← norm_sq', hm]; norm_num
    have h2 := h.svd.optimal m
    rw [h1, mul_one] at h2
    have h3 : (0 : ℝ) ≤ n * (m 0 * Pca2.meanRows a 0 + m 1 * Pca2.meanRows a 1 - d) ^ 2 := by
      positivity
    linarith

example : ∃ (svd : Pca2.SvdFn) (f : Pca2.Fit 4), svd.Valid ∧
    Pca2.init svd Witness.kite = .ok f ∧ f.s 1 ≠ 0 := by
  obtain ⟨svd, f, hs, hf⟩ := exists_fit2 (by norm_num) Witness.kite
  exact ⟨svd, f, hs, hf, fun h => kite_not_collinear ((collinear2_iff (Pca2.init_ok hs hf)).1 h)⟩

/-- The residual of every point is its displacement from the fitted line: perpendicular to
the line, of the length of the distance, and taking it away puts the point on the line. -/
theorem C184_residuals (svd : Pca2.SvdFn) (hs : svd.Valid) {n : ℕ} (a : Fin n → Vec 2)
    (f : Pca2.Fit n) (hf : Pca2.init svd a = .ok f) (i : Fin n) :
    (∃ t : ℝ, ∀ j, Pca2.residuals f i j = t * f.normal j) ∧
    Spec.OnLine2 f.normal (f.normal 0 * f.mean 0 + f.normal 1 * f.mean 1)
      (fun j => a i j - Pca2.residuals f i j) ∧
    Pca2.residuals f i 0 ^ 2 + Pca2.residuals f i 1 ^ 2
      = Spec.lineDist2 f.normal (f.normal 0 * f.mean 0 + f.normal 1 * f.mean 1) (a i) := by
  have h := Pca2.init_ok hs hf
  have hV := h.svd.orthV'
  have v00 := congrFun (congrFun hV 0) 0
  have v01 := congrFun (congrFun hV 0) 1
  have v11 := congrFun (congrFun hV 1) 1
  simp only [Matrix.mul_apply, Matrix.transpose_apply, Fin.sum_univ_two, Matrix.one_apply,
    if_true] at v00 v01 v11
  rw [if_neg (by decide)] at v01
  have n1 : f.normal 0 ^ 2 + f.normal 1 ^ 2 = 1 := by
    have := norm_sq' f.normal
    rw [normal2_unit h, Fin.sum_univ_two] at this
    linarith
  set c := a i with hc
  have r : ∀ j, Pca2.residuals f i j
      = (f.normal 0 * (a i 0 - f.mean 0) + f.normal 1 * (a i 1 - f.mean 1)) * f.normal j := by
    intro j
    have e : Pca2.residuals f i j
        = (f.V 1 0 * (a i 0 - f.mean 0) + f.V 1 1 * (a i 1 - f.mean 1)) * f.V 1 j := by
      rw [h.mean]
      simp only [Pca2.residuals, Pca2.rotated, h.arr, Matrix.sub_apply, Matrix.of_apply,
        Matrix.mul_apply, Fin.sum_univ_two, Matrix.transpose_apply, Pca2.centered]
      simp only [if_true, if_neg (show ¬ ((0 : Fin 2) = 1) by decide)]
      fin_cases j
      · simp only [Fin.zero_eta]
        linear_combination (-(a i 0 - Pca2.meanRows a 0)) * v00
          - (a i 1 - Pca2.meanRows a 1) * v01
      · simp only [Fin.mk_one]
        linear_combination (-(a i 0 - Pca2.meanRows a 0)) * v01
          - (a i 1 - Pca2.meanRows a 1) * v11
    rw [e, h.normal]
    rcases upward_cases (f.V 1) with e | e <;> rw [e]
    simp only [Pi.neg_apply]
    ring
  refine ⟨⟨_, r⟩, ?_, ?_⟩
  · unfold Spec.OnLine2
    simp only [r]
    linear_combination
      (-(f.normal 0 * (a i 0 - f.mean 0) + f.normal 1 * (a i 1 - f.mean 1))) * n1
  · rw [r, r]
    unfold Spec.lineDist2
    linear_combination
      ((f.normal 0 * (a i 0 - f.mean 0) + f.normal 1 * (a i 1 - f.mean 1)) ^ 2) * n1

example : ∃ (svd : Pca2.SvdFn) (f : Pca2.Fit 4), svd.Valid ∧
    Pca2.init svd Witness.kite = .ok f ∧ ∃ i j, Pca2.residuals f i j ≠ 0 := by
  obtain ⟨svd, f, hs, hf⟩ := exists_fit2 (by norm_num) Witness.kite
  refine ⟨svd, f, hs, hf, ?_⟩
  by_contra hc
  push Not at hc
  refine kite_not_collinear ⟨f.normal, f.normal 0 * f.mean 0 + f.normal 1 * f.mean 1,
    (C184_best_line svd hs _ f hf).1, fun i => ?_⟩
  have := (C184_residuals svd hs _ f hf i).2.1
  simpa [hc] using this

/-- The fit reports an exact line (last singular value zero, all residuals zero) exactly
when the points are collinear. -/
theorem C184_exact (svd : Pca2.SvdFn) (hs : svd.Valid) {n : ℕ} (a : Fin n → Vec 2)
    (f : Pca2.Fit n) (hf : Pca2.init svd a = .ok f) :
    (f.s 1 = 0 ↔ Spec.Collinear2 a) ∧ (Pca2.residuals f = 0 ↔ Spec.Collinear2 a) := by
  have h := Pca2.init_ok hs hf
  refine ⟨collinear2_iff h, ?_⟩
  constructor
  · intro h0
    refine ⟨f.normal, f.normal 0 * f.mean 0 + f.normal 1 * f.mean 1, normal2_unit h, fun i => ?_⟩
    have := (C184_residuals svd hs a f hf i).2.1
    simpa [h0] using this
  · intro hc
    have h1 := (collinear2_iff h).2 hc
    have h2 := (C184_best_line svd hs a f hf).2.2.1
    rw [h1, zero_pow two_ne_zero] at h2
    have h3 := (Finset.sum_eq_zero_iff_of_nonneg fun i _ => by
      unfold Spec.lineDist2; positivity).1 h2
    ext i j
    have h4 := (C184_residuals svd hs a f hf i).2.2
    rw [h3 i (Finset.mem_univ i)] at h4
    have a0 : Pca2.residuals f i 0 = 0 := by nlinarith [sq_nonneg (Pca2.residuals f i 1)]
    have a1 : Pca2.residuals f i 1 = 0 := by nlinarith [sq_nonneg (Pca2.residuals f i 0)]
    fin_cases j
    · exact a0
    · exact a1

example : ∃ (svd : Pca2.SvdFn) (f : Pca2.Fit 3), svd.Valid ∧
    Pca2.init svd Witness.threeOnLine = .ok f ∧ Spec.Collinear2 Witness.threeOnLine ∧
    Pca2.residuals f = 0 := by
  obtain ⟨svd, f, hs, hf⟩ := exists_fit2 (by norm_num) Witness.threeOnLine
  exact ⟨svd, f, hs, hf, threeOnLine_collinear,
    (C184_exact svd hs _ f hf).2.2 threeOnLine_collinear⟩

/-- The number in the attribute `offset` is zero exactly when the points are collinear. -/
theorem C184_offset (svd : Pca2.SvdFn) (hs : svd.Valid) {n : ℕ} (a : Fin n → Vec 2)
    (f : Pca2.Fit n) (hf : Pca2.init svd a = .ok f) : f.offset = 0 ↔ Spec.Collinear2 a := by
  have h := Pca2.init_ok hs hf
  rw [← collinear2_iff h]
  have e : f.offset = f.s 0 * f.s 1 := by
    unfold Pca2.init at hf
    split at hf
    · cases hf
    · cases hf
      simp [Pca2.derive, Pca2.cross2]
  rw [e]
  have h0 := h.svd.nonneg
  have h1 := h.svd.le01
  constructor
  · intro hz
    rcases mul_eq_zero.1 hz with hz | hz
    · linarith
    · exact hz
  · intro hz
    rw [hz, mul_zero]

example : ∃ (svd : Pca2.SvdFn) (f : Pca2.Fit 4), svd.Valid ∧
    Pca2.init svd Witness.kite = .ok f ∧ f.offset ≠ 0 := by
  obtain ⟨svd, f, hs, hf⟩ := exists_fit2 (by norm_num) Witness.kite
  exact ⟨svd, f, hs, hf, fun h => kite_not_collinear ((C184_offset svd hs _ f hf).1 h)⟩

/-- The number in the attribute `strike` is the sine of the slope of the fitted line: positive
where the line falls to the right, negative where it rises. -/
theorem C184_slope (svd : Pca2.SvdFn) (hs : svd.Valid) {n : ℕ} (a : Fin n → Vec 2)
    (f : Pca2.Fit n) (hf : Pca2.init svd a = .ok f) :
    ∃ t, -90 ≤ t ∧ t ≤ 90 ∧ f.strike = Real.sin (t * Real.pi / 180) ∧
      ∀ r, Spec.OnLine2 f.normal (f.normal 0 * f.mean 0 + f.normal 1 * f.mean 1)
        ![f.mean 0 + r * Real.cos (t * Real.pi / 180), f.mean 1 - r * Real.sin (t * Real.pi / 180)] := by
  obtain ⟨hu, hn1, -, -⟩ := C184_best_line svd hs a f hf
  have n2 := norm_sq' f.normal
  rw [hu, Fin.sum_univ_two] at n2
  have e : f.strike = f.normal 0 := by
    unfold Pca2.init at hf
    split at hf
    · cases hf
    · cases hf
      simp [Pca2.derive, Pca2.cross2]
  have hpi := Real.pi_pos
  have b1 : -1 ≤ f.normal 0 := by nlinarith [sq_nonneg (f.normal 1)]
  have b2 : f.normal 0 ≤ 1 := by nlinarith [sq_nonneg (f.normal 1)]
  have et : Real.arcsin (f.normal 0) * 180 / Real.pi * Real.pi / 180 = Real.arcsin (f.normal 0) := by
    field_simp
  have hc : Real.cos (Real.arcsin (f.normal 0)) = f.normal 1 := by
    rw [Real.cos_arcsin]
    have : 1 - f.normal 0 ^ 2 = f.normal 1 ^ 2 := by linarith
    rw [this, Real.sqrt_sq hn1]
  refine ⟨Real.arcsin (f.normal 0) * 180 / Real.pi, ?_, ?_, ?_, fun r => ?_⟩
  · rw [le_div_iff₀ hpi]
    linarith [Real.neg_pi_div_two_le_arcsin (f.normal 0)]
  · rw [div_le_iff₀ hpi]
    linarith [Real.arcsin_le_pi_div_two (f.normal 0)]
  · rw [et, Real.sin_arcsin b1 b2, e]
  · rw [et, Real.sin_arcsin b1 b2, hc]
    simp only [Spec.OnLine2, Matrix.cons_val_zero, Matrix.cons_val_one]
    ring

/-- Non-vacuity: the line through the three points rises to the right. -/
example : ∃ (svd : Pca2.SvdFn) (f : Pca2.Fit 3), svd.Valid ∧
    Pca2.init svd Witness.threeOnLine = .ok f ∧ f.strike < 0 := by
  obtain ⟨svd, f, hs, hf⟩ := exists_fit2 (by norm_num) Witness.threeOnLine
  refine ⟨svd, f, hs, hf, ?_⟩
  obtain ⟨hu, hn1, -, -⟩ := C184_best_line svd hs _ f hf
  have hz := (C184_exact svd hs _ f hf).2.2 threeOnLine_collinear
  have hr : ∀ i, Spec.OnLine2 f.normal (f.normal 0 * f.mean 0 + f.normal 1 * f.mean 1)
      (Witness.threeOnLine i) := by
    intro i
    have := (C184_residuals svd hs _ f hf i).2.1
    simpa [hz] using this
  have h0 := hr 0
  have h1 := hr 1
  simp [Spec.OnLine2, Witness.threeOnLine] at h0 h1
  have n2 := norm_sq' f.normal
  rw [hu, Fin.sum_univ_two] at n2
  have e : f.strike = f.normal 0 := by
    unfold Pca2.init at hf
    split at hf
    · cases hf
    · cases hf
      simp [Pca2.derive, Pca2.cross2]
  rw [e]
  nlinarith

/-- A single angular error is reported; it lies between 0 and 90 degrees and is zero
exactly for collinear points. -/
theorem C184_error (Q : ErrorAxes.Quantiles) (hQ : Spec.QuantilesOK Q) (svd : Pca2.SvdFn)
    (hs : svd.Valid) {n : ℕ} (a : Fin n → Vec 2) (f : Pca2.Fit n)
    (hf : Pca2.init svd a = .ok f) :
    ∃ e, Pca2.angularErrors Q f = some [e] ∧ 0 ≤ e ∧ e ≤ 90 ∧ (e = 0 ↔ Spec.Collinear2 a) := by
  have h := Pca2.init_ok hs hf
  have hn := h.size
  have hn' : (3 : ℝ) ≤ n := by exact_mod_cast hn
  set z := Q.f 0.95 2 (n - 2) with hz
  have hz0 : 0 ≤ z := hQ.f_nonneg _ _ _ (by norm_num) (by norm_num) (by norm_num) (by omega)
  have hF : ErrorAxes.fisherStatistic Q n 0.95 = some z := by
    unfold ErrorAxes.fisherStatistic
    rw [if_pos ⟨by norm_num, by omega, by norm_num, by norm_num⟩]
  set e0 := Pca2.eigenvalues f 0 with he0
  set e1 := Pca2.eigenvalues f 1 with he1
  have p1 : 0 ≤ e1 := by
    rw [he1]; unfold Pca2.eigenvalues
    exact div_nonneg (sq_nonneg _) (by linarith)
  set h0 := |e0 - z * Real.sqrt (4 * e0 * (e1 / ((n : ℝ) - 2)))| with hh0
  set h1 := |-e1 - z * Real.sqrt (4 * e1 * (e1 / ((n : ℝ) - 2)))| with hh1
  have hH : Pca2.hyperbolicAxes Q f = some ![h0, h1] := by
    unfold Pca2.hyperbolicAxes
    rw [hF]
    simp only [Option.bind_eq_bind, Option.bind_some, Option.some.injEq]
    funext j
    fin_cases j <;> simp [hh0, hh1, he0, he1]
  refine ⟨degrees (arctan2 (Real.sqrt h1) (Real.sqrt h0)), ?_, ?_, ?_, ?_⟩
  · simp [Pca2.angularErrors, hH]
  · have : 0 ≤ arctan2 (Real.sqrt h1) (Real.sqrt h0) :=
      Complex.arg_nonneg_iff.2 (Real.sqrt_nonneg _)
    unfold degrees
    have := Real.pi_pos
    positivity
  · have : arctan2 (Real.sqrt h1) (Real.sqrt h0) ≤ Real.pi / 2 :=
      Complex.arg_le_pi_div_two_iff.2 (.inl (Real.sqrt_nonneg _))
    have h2 := degrees_le.2 this
    have : degrees (Real.pi / 2) = 90 := by
      unfold degrees
      have := Real.pi_pos
      field_simp
      norm_num
    linarith
  · have hs1 : e1 = 0 ↔ f.s 1 = 0 := by
      rw [he1]; unfold Pca2.eigenvalues
      have : (n : ℝ) - 1 ≠ 0 := by linarith
      simp [this]
    rw [← collinear2_iff h, ← hs1]
    have hz : degrees (arctan2 (Real.sqrt h1) (Real.sqrt h0)) = 0
        ↔ arctan2 (Real.sqrt h1) (Real.sqrt h0) = 0 := by
      unfold degrees
      have := Real.pi_pos.ne'
      simp [this]
    rw [hz]
    have key : arctan2 (Real.sqrt h1) (Real.sqrt h0) = 0 ↔ Real.sqrt h1 = 0 := by
      unfold arctan2
      rw [Complex.arg_eq_zero_iff]
      simp only
      exact ⟨fun h => h.2, fun h => ⟨Real.sqrt_nonneg _, h⟩⟩
    rw [key, Real.sqrt_eq_zero (abs_nonneg _), abs_eq_zero]
    constructor
    · intro he
      have : 0 ≤ z * Real.sqrt (4 * e1 * (e1 / ((n : ℝ) - 2))) := by positivity
      linarith
    · intro he
      rw [he]
      simp

example : ∃ (svd : Pca2.SvdFn) (f : Pca2.Fit 4) (e : ℝ), svd.Valid ∧
    Pca2.init svd Witness.kite = .ok f ∧
    Pca2.angularErrors Spec.quantiles2 f = some [e] ∧ 0 < e := by
  obtain ⟨svd, f, hs, hf⟩ := exists_fit2 (by norm_num) Witness.kite
  obtain ⟨e, h1, h2, _, h4⟩ := C184_error _ Spec.quantiles2_ok svd hs _ f hf
  exact ⟨svd, f, e, hs, hf, h1, lt_of_le_of_ne h2 fun h => kite_not_collinear (h4.1 h.symm)⟩

/-! ## C185 -/

/-- Fewer than three points are refused, any other two-column array is accepted. -/
theorem C185_accepted (svd : Pca2.SvdFn) {n : ℕ} (a : Fin n → Vec 2) :
    (n < 3 → Pca2.init svd a = .error .valueError) ∧
    (3 ≤ n → ∃ f, Pca2.init svd a = .ok f) := by
  unfold Pca2.init
  constructor
  · intro h
    rw [if_pos h]
  · intro h
    rw [if_neg (by omega)]
    exact ⟨_, rfl⟩

example (svd : Pca2.SvdFn) : ∃ f, Pca2.init svd Witness.kite = .ok f :=
  (C185_accepted svd Witness.kite).2 (by norm_num)

example (svd : Pca2.SvdFn) :
    Pca2.init svd (![![0, 1], ![1, 3]] : Fin 2 → Vec 2) = .error .valueError :=
  (C185_accepted svd _).1 (by norm_num)

/-- No object made from a two-column array has an orientation: strike and dip, the
coefficients and the exported mapping all raise `IndexError`, and the direction of dip is
`None`. -/
theorem C185_no_orientation_false (svd : Pca2.SvdFn) {n : ℕ} (a : Fin n → Vec 2) (f : Pca2.Fit n)
    (hf : Pca2.init svd a = .ok f) :
    Pca2.strikeDip f = .error .indexError ∧ Pca2.coefficients f = .error .indexError ∧
    Pca2.toMapping f = .error .indexError ∧ f.dipDr = none := by
  refine ⟨rfl, rfl, rfl, ?_⟩
  unfold Pca2.init at hf
  split at hf
  · cases hf
  · simp only [Except.ok.injEq] at hf
    subst hf
    rfl

example : ∃ (svd : Pca2.SvdFn) (f : Pca2.Fit 4), svd.Valid ∧
    Pca2.init svd Witness.kite = .ok f ∧ Pca2.strikeDip f = .error .indexError := by
  obtain ⟨svd, f, hs, hf⟩ := exists_fit2 (by norm_num) Witness.kite
  exact ⟨svd, f, hs, hf, (C185_no_orientation_false svd _ f hf).1⟩

/-- The explained variance says nothing in two dimensions: it is 1 for all points that do
not coincide, also for points far from any line. -/
theorem C185_explained_false :
    (∀ (svd : Pca2.SvdFn), svd.Valid → ∀ {n : ℕ} (a : Fin n → Vec 2) (f : Pca2.Fit n),
      Pca2.init svd a = .ok f → (∃ i k, a i ≠ a k) → Pca2.explainedVariance f = some 1) ∧
    ∃ (svd : Pca2.SvdFn) (f : Pca2.Fit 4), svd.Valid ∧ Pca2.init svd Witness.kite = .ok f ∧
      ¬ Spec.Collinear2 Witness.kite ∧ Pca2.explainedVariance f = some 1 := by
  have key : ∀ (svd : Pca2.SvdFn), svd.Valid → ∀ {n : ℕ} (a : Fin n → Vec 2) (f : Pca2.Fit n),
      Pca2.init svd a = .ok f → (∃ i k, a i ≠ a k) → Pca2.explainedVariance f = some 1 := by
    rintro svd hs n a f hf ⟨i, k, hik⟩
    have h := Pca2.init_ok hs hf
    have hn : (0 : ℝ) < n := by exact_mod_cast (by have := h.size; omega : 0 < n)
    have hcol : ∀ j, Pca2.varRows (Pca2.rotated f) j = f.s j ^ 2 / n := by
      intro j
      have e : ∀ i, Pca2.rotated f i j = (Matrix.of (Pca2.centered a) *ᵥ f.V j) i := by
        intro i
        simp only [Pca2.rotated, h.arr, Matrix.mul_apply, Matrix.transpose_apply, Matrix.mulVec,
          dotProduct]
      unfold Pca2.varRows
      simp only [e, sum_mulVec_centered2, zero_div, sub_zero, h.svd.sum_sq_row]
    have hcov : ∀ j, Pca2.covarianceMatrix f j j = 4 * f.s j ^ 3 / n := by
      intro j
      simp only [Pca2.covarianceMatrix, Matrix.of_apply, Matrix.diagonal_apply_eq, hcol]
      ring
    have s1 := h.svd.nonneg
    have s0 : 0 < f.s 0 := by
      by_contra hc
      have z0 : f.s 0 = 0 := le_antisymm (not_lt.1 hc) (by linarith [h.svd.le01])
      have z1 : f.s 1 = 0 := le_antisymm (by linarith [h.svd.le01]) s1
      have hz : Matrix.of (Pca2.centered a) = 0 := by
        rw [h.svd.recon]
        have : Matrix.diagonal f.s = 0 := by
          ext p q
          fin_cases p <;> fin_cases q <;> simp [Matrix.diagonal, z0, z1]
        rw [this]; simp
      apply hik
      funext j
      have e1 := congrFun (congrFun hz i) j
      have e2 := congrFun (congrFun hz k) j
      simp only [Matrix.of_apply, Pca2.centered, Matrix.zero_apply] at e1 e2
      linarith
    unfold Pca2.explainedVariance fdiv
    simp only [hcov]
    have pos : 0 < 4 * f.s 0 ^ 3 / n + 4 * f.s 1 ^ 3 / n := by positivity
    rw [if_neg pos.ne', div_self pos.ne']
  refine ⟨key, ?_⟩
  obtain ⟨svd, f, hs, hf⟩ := exists_fit2 (by norm_num) Witness.kite
  refine ⟨svd, f, hs, hf, kite_not_collinear, key svd hs _ f hf ⟨0, 1, fun h => ?_⟩⟩
  have := congrFun h 0
  simp [Witness.kite] at this
  norm_num at this

end Attitude.Props
