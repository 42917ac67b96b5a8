import Verif.Props.Pca2

/-!
# C220: which line is fitted to two columns
-/

namespace Attitude.Props

open Attitude Matrix

/-! ## Helper lemmas -/

/-- The misfit of a unit normal in terms of its components along the fitted axes. -/
lemma form2_axes {n : ℕ} {a : Fin n → Vec 2} {f : Pca2.Fit n} (h : Pca2.IsFit a f) {m : Vec 2}
    (hm : norm m = 1) :
    ∑ i, (Matrix.of (Pca2.centered a) *ᵥ m) i ^ 2
      = f.s 1 ^ 2 + (f.s 0 ^ 2 - f.s 1 ^ 2) * (f.V *ᵥ m) 0 ^ 2 := by
  have h1 : ∑ j, m j ^ 2 = 1 := by rw [← norm_sq', hm]; norm_num
  have h2 := h.svd.norm_V m
  rw [h1, Fin.sum_univ_two] at h2
  rw [h.svd.sum_sq, Fin.sum_univ_two]
  linear_combination f.s 1 ^ 2 * h2

/-- A unit vector without component along the first axis is the second axis or its opposite. -/
lemma second_axis {n : ℕ} {a : Fin n → Vec 2} {f : Pca2.Fit n} (h : Pca2.IsFit a f) {m : Vec 2}
    (hm : norm m = 1) (h0 : (f.V *ᵥ m) 0 = 0) : m = f.normal ∨ m = -f.normal := by
  have h1 : ∑ j, m j ^ 2 = 1 := by rw [← norm_sq', hm]; norm_num
  have h2 := h.svd.norm_V m
  rw [h1, Fin.sum_univ_two, h0] at h2
  have h3 : (f.V *ᵥ m) 1 = 1 ∨ (f.V *ᵥ m) 1 = -1 := by
    have : ((f.V *ᵥ m) 1 - 1) * ((f.V *ᵥ m) 1 + 1) = 0 := by linarith
    rcases mul_eq_zero.1 this with k | k
    · left; linarith
    · right; linarith
  have e : m = (f.V *ᵥ m) 1 • f.V 1 := by
    have : f.V.transpose *ᵥ (f.V *ᵥ m) = m := by
      rw [Matrix.mulVec_mulVec, h.svd.orthV', Matrix.one_mulVec]
    conv_lhs => rw [← this]
    funext j
    simp [Matrix.mulVec, dotProduct, Fin.sum_univ_two, Matrix.transpose_apply] at h0 ⊢
    rw [h0]
    ring
  have key : m = f.V 1 ∨ m = -f.V 1 := by
    rcases h3 with k | k
    · left; rw [e, k, one_smul]
    · right; rw [e, k, neg_one_smul]
  rw [h.normal]
  unfold Pca2.upward
  split
  · rw [neg_neg]; exact key.symm
  · exact key

/-! ## C220 -/

/-- If the points spread further along the fitted line than across it, no other line is as close to
them: the line of least squared distances is the fitted one. -/
theorem C220_unique (svd : Pca2.SvdFn) (hs : svd.Valid) {n : ℕ} (a : Fin n → Vec 2)
    (f : Pca2.Fit n) (hf : Pca2.init svd a = .ok f) (hlt : f.s 1 < f.s 0) (m : Vec 2) (d : ℝ)
    (hm : norm m = 1)
    (hle : Spec.misfit2 a m d
      ≤ Spec.misfit2 a f.normal (f.normal 0 * f.mean 0 + f.normal 1 * f.mean 1)) (p : Vec 2) :
    Spec.OnLine2 m d p ↔
      Spec.OnLine2 f.normal (f.normal 0 * f.mean 0 + f.normal 1 * f.mean 1) p := by
  have h := Pca2.init_ok hs hf
  have hn : (0 : ℝ) < n := by
    have := h.size
    exact_mod_cast (by omega : 0 < n)
  rw [(C184_best_line svd hs a f hf).2.2.1, misfit2_split, form2_axes h hm] at hle
  have hd : 0 < f.s 0 ^ 2 - f.s 1 ^ 2 := by nlinarith [h.svd.nonneg]
  have h1 : 0 ≤ (f.s 0 ^ 2 - f.s 1 ^ 2) * (f.V *ᵥ m) 0 ^ 2 := by positivity
  have h2 : 0 ≤ (n : ℝ) * (m 0 * Pca2.meanRows a 0 + m 1 * Pca2.meanRows a 1 - d) ^ 2 := by positivity
  have h3 : (f.V *ᵥ m) 0 = 0 := by
    have : (f.s 0 ^ 2 - f.s 1 ^ 2) * (f.V *ᵥ m) 0 ^ 2 = 0 := by linarith
    simpa [hd.ne'] using this
  have h4 : d = m 0 * f.mean 0 + m 1 * f.mean 1 := by
    have : (n : ℝ) * (m 0 * Pca2.meanRows a 0 + m 1 * Pca2.meanRows a 1 - d) ^ 2 = 0 := by linarith
    rw [mul_eq_zero, or_iff_right hn.ne', sq_eq_zero_iff, sub_eq_zero] at this
    rw [h.mean, this]
  unfold Spec.OnLine2
  rcases second_axis h hm h3 with rfl | rfl
  · rw [h4]
  · rw [h4]
    simp only [Pi.neg_apply]
    constructor <;> intro k <;> linarith

/-- Otherwise all lines through the mean are equally close, and the fitted one is arbitrary. -/
theorem C220_round (svd : Pca2.SvdFn) (hs : svd.Valid) {n : ℕ} (a : Fin n → Vec 2)
    (f : Pca2.Fit n) (hf : Pca2.init svd a = .ok f) :
    f.s 1 = f.s 0 ↔ ∀ m m' : Vec 2, norm m = 1 → norm m' = 1 →
      Spec.misfit2 a m (m 0 * f.mean 0 + m 1 * f.mean 1)
        = Spec.misfit2 a m' (m' 0 * f.mean 0 + m' 1 * f.mean 1) := by
  have h := Pca2.init_ok hs hf
  have key : ∀ m : Vec 2, norm m = 1 → Spec.misfit2 a m (m 0 * f.mean 0 + m 1 * f.mean 1)
      = f.s 1 ^ 2 + (f.s 0 ^ 2 - f.s 1 ^ 2) * (f.V *ᵥ m) 0 ^ 2 := by
    intro m hm
    rw [misfit2_split, form2_axes h hm, h.mean]
    ring
  constructor
  · intro e m m' hm hm'
    rw [key m hm, key m' hm', e]
    ring
  · intro k
    have := k (f.V 0) (f.V 1) (h.svd.row_norm 0) (h.svd.row_norm 1)
    rw [key _ (h.svd.row_norm 0), key _ (h.svd.row_norm 1), h.svd.V_row, h.svd.V_row] at this
    simp at this
    have h0 := h.svd.nonneg
    have h1 := h.svd.le01
    nlinarith

/-- Any two implementations of the decomposition give the same singular values and, if these differ,
the same line; the attribute `strike` is then the same too, unless the line is vertical. -/
theorem C220_implementation (svd svd' : Pca2.SvdFn) (hs : svd.Valid) (hs' : svd'.Valid) {n : ℕ}
    (a : Fin n → Vec 2) (f f' : Pca2.Fit n) (hf : Pca2.init svd a = .ok f)
    (hf' : Pca2.init svd' a = .ok f') :
    f'.s = f.s ∧ f'.mean = f.mean ∧ (f.s 1 < f.s 0 →
      (f'.normal = f.normal ∨ f.normal 1 = 0 ∧ f'.normal = -f.normal) ∧
      (f.normal 1 ≠ 0 → f'.strike = f.strike)) := by
  have h := Pca2.init_ok hs hf
  have h' := Pca2.init_ok hs' hf'
  have hst : ∀ {svd : Pca2.SvdFn} {f : Pca2.Fit n}, Pca2.init svd a = .ok f →
      f.strike = f.normal 0 := by
    intro svd f hf
    unfold Pca2.init at hf
    split at hf
    · cases hf
    · cases hf
      simp [Pca2.derive, Pca2.cross2]
  have e1 : f'.s 1 ^ 2 = f.s 1 ^ 2 := by
    obtain ⟨u, -, e, b⟩ := C184_best_line svd hs a f hf
    obtain ⟨u', -, e', b'⟩ := C184_best_line svd' hs' a f' hf'
    apply le_antisymm
    · rw [← e', ← e]; exact b' _ _ u
    · rw [← e', ← e]; exact b _ _ u'
  have ht : ∀ {g : Pca2.Fit n}, Pca2.IsFit a g → g.s 0 ^ 2 + g.s 1 ^ 2
      = ∑ i, (Matrix.of (Pca2.centered a) *ᵥ ![1, 0]) i ^ 2
        + ∑ i, (Matrix.of (Pca2.centered a) *ᵥ ![0, 1]) i ^ 2 := by
    intro g hg
    have n0 := norm_sq' (g.V 0)
    have n1 := norm_sq' (g.V 1)
    rw [hg.svd.row_norm, Fin.sum_univ_two] at n0 n1
    rw [hg.svd.sum_sq, hg.svd.sum_sq]
    simp [Matrix.mulVec, dotProduct, Fin.sum_univ_two]
    linear_combination g.s 0 ^ 2 * n0 + g.s 1 ^ 2 * n1
  have e0 : f'.s 0 ^ 2 = f.s 0 ^ 2 := by linarith [ht h, ht h']
  have n0 := h.svd.nonneg
  have n0' := h'.svd.nonneg
  have l := h.svd.le01
  have l' := h'.svd.le01
  refine ⟨?_, by rw [h.mean, h'.mean], fun hlt => ?_⟩
  · funext j
    fin_cases j
    · exact (sq_eq_sq₀ (n0'.trans l') (n0.trans l)).1 e0
    · exact (sq_eq_sq₀ n0' n0).1 e1
  have hu' := normal2_unit h'
  have h3 : (f.V *ᵥ f'.normal) 0 = 0 := by
    have k1 := form2_axes h hu'
    rw [normal2_misfit h', e1] at k1
    have hd : 0 < f.s 0 ^ 2 - f.s 1 ^ 2 := by nlinarith
    have : (f.s 0 ^ 2 - f.s 1 ^ 2) * (f.V *ᵥ f'.normal) 0 ^ 2 = 0 := by linarith
    simpa [hd.ne'] using this
  have key : f'.normal = f.normal ∨ f.normal 1 = 0 ∧ f'.normal = -f.normal := by
    rcases second_axis h hu' h3 with k | k
    · exact .inl k
    · refine .inr ⟨?_, k⟩
      have p := (C184_best_line svd hs a f hf).2.1
      have p' := (C184_best_line svd' hs' a f' hf').2.1
      rw [k] at p'
      simp only [Pi.neg_apply] at p'
      linarith
  refine ⟨key, fun hv => ?_⟩
  rw [hst hf, hst hf']
  rcases key with k | k
  · rw [k]
  · exact absurd k.1 hv

lemma kite_longer {svd : Pca2.SvdFn} (hs : svd.Valid) {f : Pca2.Fit 4}
    (hf : Pca2.init svd Witness.kite = .ok f) : f.s 1 < f.s 0 := by
  have h := Pca2.init_ok hs hf
  refine lt_of_le_of_ne h.svd.le01 fun e => ?_
  have := (C220_round svd hs _ f hf).1 e ![1, 0] ![0, 1] (by simp [norm]) (by simp [norm])
  simp [Spec.misfit2, Spec.lineDist2, Fin.sum_univ_four, Witness.kite, h.mean, Pca2.meanRows] at this
  norm_num at this

/-- The line through the long diagonal of a kite is the only best one. -/
example : ∃ (svd : Pca2.SvdFn) (f : Pca2.Fit 4), svd.Valid ∧
    Pca2.init svd Witness.kite = .ok f ∧ f.s 1 < f.s 0 ∧
    Spec.misfit2 Witness.kite ![0, 1] 0
      ≤ Spec.misfit2 Witness.kite f.normal (f.normal 0 * f.mean 0 + f.normal 1 * f.mean 1) := by
  obtain ⟨svd, f, hs, hf⟩ := exists_fit2 (by norm_num) Witness.kite
  refine ⟨svd, f, hs, hf, kite_longer hs hf, ?_⟩
  have h := Pca2.init_ok hs hf
  have n2 := norm_sq' f.normal
  rw [normal2_unit h, Fin.sum_univ_two] at n2
  simp [Spec.misfit2, Spec.lineDist2, Fin.sum_univ_four, Witness.kite, h.mean, Pca2.meanRows]
  nlinarith [sq_nonneg (f.normal 0)]

/-- The corners of a square have no best line. -/
example : ∃ (svd : Pca2.SvdFn) (f : Pca2.Fit 4), svd.Valid ∧
    Pca2.init svd ![![1, 0], ![-1, 0], ![0, 1], ![0, -1]] = .ok f ∧ f.s 1 = f.s 0 := by
  obtain ⟨svd, f, hs, hf⟩ := exists_fit2 (by norm_num) ![![1, 0], ![-1, 0], ![0, 1], ![0, -1]]
  refine ⟨svd, f, hs, hf, (C220_round svd hs _ f hf).2 fun m m' hm hm' => ?_⟩
  have h := Pca2.init_ok hs hf
  have n1 := norm_sq' m
  have n2 := norm_sq' m'
  rw [hm, Fin.sum_univ_two] at n1
  rw [hm', Fin.sum_univ_two] at n2
  simp [Spec.misfit2, Spec.lineDist2, Fin.sum_univ_four, h.mean, Pca2.meanRows]
  linarith

end Attitude.Props
