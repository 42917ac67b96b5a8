import Verif.Props.Display
import Verif.Props.PcaFit
import Verif.Props.TurnedCurves

/-!
# Size and caption of the figure of `plot_aligned`
-/

namespace Attitude.Props

open Attitude Matrix Display

/-! ## C266 -/

/-- Extent of some numbers: the largest distance between two of them. -/
def Spec.IsExtent {ι : Type*} (x : ι → ℝ) (e : ℝ) : Prop := (∃ i j, x i - x j = e) ∧ ∀ i j, x i - x j ≤ e

/-- The largest of some numbers. -/
def Spec.IsLargest {ι : Type*} (x : ι → ℝ) (m : ℝ) : Prop := (∃ i, x i = m) ∧ ∀ i, x i ≤ m

lemma lengths_extent {n : ℕ} (A : Mat (n + 1) 3) (j : Fin 3) : Spec.IsExtent (fun i => A i j) (lengths A j) := by
  obtain ⟨p, -, hp⟩ := Finset.exists_mem_eq_sup' (Finset.univ_nonempty (α := Fin (n + 1))) fun i => A i j
  obtain ⟨q, -, hq⟩ := Finset.exists_mem_eq_inf' (Finset.univ_nonempty (α := Fin (n + 1))) fun i => A i j
  refine ⟨⟨p, q, ?_⟩, fun i k => ?_⟩
  · simp only [lengths, minMax, hp, hq]
  · have h1 := Finset.le_sup' (fun i => A i j) (Finset.mem_univ i)
    have h2 := Finset.inf'_le (fun i => A i j) (Finset.mem_univ k)
    simp only [lengths, minMax]
    linarith

lemma extent_unique {ι : Type*} {x : ι → ℝ} {e e' : ℝ} (h : Spec.IsExtent x e) (h' : Spec.IsExtent x e') : e = e' := by
  obtain ⟨⟨i, j, hij⟩, hle⟩ := h
  obtain ⟨⟨i', j', hij'⟩, hle'⟩ := h'
  have := hle i' j'
  have := hle' i j
  linarith

lemma extent_nonneg {ι : Type*} {x : ι → ℝ} {e : ℝ} (h : Spec.IsExtent x e) : 0 ≤ e := by
  obtain ⟨⟨i, j, hij⟩, hle⟩ := h
  have := hle i i
  linarith

/-- The squared extent of some numbers is at most twice the sum of their squares. -/
lemma extent_sq_le {ι : Type*} [Fintype ι] {x : ι → ℝ} {e : ℝ} (h : Spec.IsExtent x e) : e ^ 2 ≤ 2 * ∑ i, x i ^ 2 := by
  classical
  obtain ⟨⟨i, j, hij⟩, -⟩ := h
  by_cases hne : i = j
  · subst hne
    rw [sub_self] at hij
    rw [← hij]
    simpa using Finset.sum_nonneg fun i _ => sq_nonneg (x i)
  · have hs : ∑ k ∈ ({i, j} : Finset ι), x k ^ 2 ≤ ∑ k, x k ^ 2 :=
      Finset.sum_le_sum_of_subset_of_nonneg (Finset.subset_univ _) fun _ _ _ => sq_nonneg _
    rw [Finset.sum_pair hne] at hs
    rw [← hij]
    nlinarith [sq_nonneg (x i + x j)]

/-- The sum of the squares of numbers whose mean is zero is at most a quarter of their number times
their squared extent. -/
lemma sum_sq_le_extent {n : ℕ} {x : Fin n → ℝ} {e : ℝ} (h : Spec.IsExtent x e) (hz : ∑ i, x i = 0) :
    ∑ i, x i ^ 2 ≤ n * e ^ 2 / 4 := by
  obtain ⟨⟨p, q, hpq⟩, hle⟩ := h
  have h1 : ∀ i, x i ^ 2 ≤ (x p + x q) * x i - x p * x q := fun i => by
    nlinarith [mul_nonneg (show 0 ≤ x i - x q by linarith [hle p i]) (show 0 ≤ x p - x i by linarith [hle i q])]
  have h2 := Finset.sum_le_sum fun i (_ : i ∈ Finset.univ) => h1 i
  rw [Finset.sum_sub_distrib, ← Finset.mul_sum, hz] at h2
  simp only [Finset.sum_const, Finset.card_univ, Fintype.card_fin, nsmul_eq_mul] at h2
  have h3 : -(x p * x q) ≤ e ^ 2 / 4 := by rw [← hpq]; nlinarith [sq_nonneg (x p + x q)]
  have h4 : (0 : ℝ) ≤ n := Nat.cast_nonneg n
  nlinarith

lemma aligned_sums {svd : Pca.SvdFn} (hs : svd.Valid) {n : ℕ} {a : Fin n → Vec 3} {f : Pca.Fit n}
    (hf : Pca.init svd a none none = .ok (some f)) :
    (∀ j, ∑ i, alignedData f i j = 0) ∧ ∑ i, alignedData f i 1 ^ 2 ≤ ∑ i, alignedData f i 0 ^ 2 ∧
      ∑ i, alignedData f i 2 ^ 2 ≤ ∑ i, alignedData f i 0 ^ 2 := by
  obtain ⟨-, hz, -, hv, -, h21, h10⟩ := C08_rotated_and_eigenvalues svd hs a f hf
  obtain ⟨U, h⟩ := Pca.init_default hs hf
  have hn : (0 : ℝ) < (n : ℝ) - 1 := by
    have : (3 : ℝ) ≤ n := by exact_mod_cast h.size
    linarith
  rw [aligned_eq hs hf]
  have e : ∀ j, Pca.eigenvalues f j = (∑ i, Pca.rotated f i j ^ 2) / ((n : ℝ) - 1) := fun j => by
    rw [hv j, Spec.sampleVariance]
    simp only [hz j, zero_div, sub_zero]
  simp only [e] at h21 h10
  have h10' := (div_le_div_iff_of_pos_right hn).1 h10
  exact ⟨hz, h10', ((div_le_div_iff_of_pos_right hn).1 h21).trans h10'⟩

/-- Positions along an axis of the fit in the figure and in space differ by a constant. -/
lemma aligned_diff {svd : Pca.SvdFn} (hs : svd.Valid) {n : ℕ} {a : Fin n → Vec 3} {f : Pca.Fit n}
    (hf : Pca.init svd a none none = .ok (some f)) (i k : Fin n) (j : Fin 3) :
    alignedData f i j - alignedData f k j = vdot (a i) (f.V j) - vdot (a k) (f.V j) := by
  obtain ⟨U, h⟩ := Pca.init_default hs hf
  have hs' := (C01_centered_zero_mean_same_shape a).2 i k
  have h0 := hs' 0
  have h1 := hs' 1
  have h2 := hs' 2
  rw [aligned_eq hs hf]
  simp only [Pca.rotated, Matrix.mul_apply, Matrix.transpose_apply, Matrix.of_apply, Fin.sum_univ_three, h.arr,
    vdot3]
  linear_combination f.V j 0 * h0 + f.V j 1 * h1 + f.V j 2 * h2

lemma aligned_extent {svd : Pca.SvdFn} (hs : svd.Valid) {n : ℕ} {a : Fin (n + 1) → Vec 3} {f : Pca.Fit (n + 1)}
    (hf : Pca.init svd a none none = .ok (some f)) (j : Fin 3) (e : ℝ) :
    Spec.IsExtent (fun i => vdot (a i) (f.V j)) e ↔ e = lengths (alignedData f) j := by
  have hl : Spec.IsExtent (fun i => vdot (a i) (f.V j)) (lengths (alignedData f) j) := by
    have := lengths_extent (alignedData f) j
    simpa only [Spec.IsExtent, aligned_diff hs hf] using this
  exact ⟨fun h => extent_unique h hl, fun h => h ▸ hl⟩

lemma lengths_zero_iff {svd : Pca.SvdFn} (hs : svd.Valid) {n : ℕ} {a : Fin (n + 1) → Vec 3} {f : Pca.Fit (n + 1)}
    (hf : Pca.init svd a none none = .ok (some f)) : lengths (alignedData f) 0 = 0 ↔ ∀ i k, a i = a k := by
  obtain ⟨hz, h1, h2⟩ := aligned_sums hs hf
  constructor
  · intro h0
    have hx := sum_sq_le_extent (lengths_extent (alignedData f) 0) (hz 0)
    rw [h0] at hx
    have zero : ∀ j, ∑ i, alignedData f i j ^ 2 = 0 := fun j => by
      refine le_antisymm ?_ (Finset.sum_nonneg fun _ _ => sq_nonneg _)
      fin_cases j <;> simp at hx h1 h2 ⊢ <;> linarith
    have all : ∀ i j, alignedData f i j = 0 := fun i j => by
      have := (Finset.sum_eq_zero_iff_of_nonneg fun i _ => sq_nonneg (alignedData f i j)).1 (zero j) i (Finset.mem_univ i)
      exact pow_eq_zero_iff (two_ne_zero) |>.1 this
    obtain ⟨U, h⟩ := Pca.init_default hs hf
    intro i k
    have hd : ∀ j, (a i - a k) ⬝ᵥ f.V j = 0 := fun j => by
      have e := aligned_diff hs hf i k j
      rw [all, all, sub_zero] at e
      rw [sub_dotProduct]
      simpa only [vdot, dotProduct] using e.symm
    funext j
    have e := expand_rows h.svd.orthV (a i - a k) j
    rw [hd, hd, hd] at e
    simp only [Pi.sub_apply, zero_mul, add_zero] at e
    linarith
  · intro h
    obtain ⟨⟨i, k, hik⟩, -⟩ := (aligned_extent hs hf 0 _).2 rfl
    rw [← hik]
    beta_reduce
    rw [h i k, sub_self]

/-- The figure has a height for all data but points that coincide: the extents of the data along the
second axis and twice that along the third, relative to that along the first, but at least 3 inches;
and it is at most as many inches as 36 times the square root of half the number of points. -/
theorem C266_height (svd : Pca.SvdFn) (hs : svd.Valid) {n : ℕ} (a : Fin (n + 1) → Vec 3) (f : Pca.Fit (n + 1))
    (hf : Pca.init svd a none none = .ok (some f)) (hne : ∃ i k, a i ≠ a k) (e : Vec 3)
    (he : ∀ j, Spec.IsExtent (fun i => vdot (a i) (f.V j)) (e j)) :
    0 < e 0 ∧ figureHeight (alignedData f) = some (max 3 (12 * (e 1 + 2 * e 2) / e 0)) ∧
      12 * (e 1 + 2 * e 2) / e 0 ≤ 36 * Real.sqrt ((n + 1 : ℕ) / 2) := by
  have hl : ∀ j, lengths (alignedData f) j = e j := fun j => ((aligned_extent hs hf j _).1 (he j)).symm
  have hnn : ∀ j, 0 ≤ e j := fun j => extent_nonneg (he j)
  have h0 : e 0 ≠ 0 := fun h => by
    rw [← hl, lengths_zero_iff hs hf] at h
    obtain ⟨i, k, hik⟩ := hne
    exact hik (h i k)
  have h0' : 0 < e 0 := lt_of_le_of_ne (hnn 0) (Ne.symm h0)
  refine ⟨h0', ?_, ?_⟩
  · unfold figureHeight
    rw [hl, hl, hl, if_neg h0]
    simp only []
    rw [show 8 * ((e 2 * 2 + e 1) / e 0 * 1.5) = 12 * (e 1 + 2 * e 2) / e 0 by field_simp; ring, max_def]
    split_ifs <;> first | rfl | (congr 1; linarith)
  · obtain ⟨hz, h1, h2⟩ := aligned_sums hs hf
    have b := sum_sq_le_extent (lengths_extent (alignedData f) 0) (hz 0)
    have b1 := extent_sq_le (lengths_extent (alignedData f) 1)
    have b2 := extent_sq_le (lengths_extent (alignedData f) 2)
    rw [hl] at b b1 b2
    have hq : 0 ≤ (((n + 1 : ℕ) : ℝ) / 2) := by positivity
    have key : ∀ x, 0 ≤ x → x ^ 2 ≤ ((n + 1 : ℕ) : ℝ) / 2 * e 0 ^ 2 → x ≤ Real.sqrt ((n + 1 : ℕ) / 2) * e 0 := by
      intro x hx hxe
      refine le_of_sq_le_sq ?_ (by positivity)
      rw [mul_pow, Real.sq_sqrt hq]
      exact hxe
    have k1 := key _ (hnn 1) (by linarith)
    have k2 := key _ (hnn 2) (by linarith)
    rw [div_le_iff₀ h0']
    linarith

example : ∃ (svd : Pca.SvdFn) (f : Pca.Fit 4), svd.Valid ∧ Pca.init svd Witness.tilted none none = .ok (some f) ∧
    ∃ h, figureHeight (alignedData f) = some h ∧ 3 ≤ h := by
  obtain ⟨svd, f, hs, hf, -⟩ := Witness.exists_tilted
  refine ⟨svd, f, hs, hf, _, (C266_height svd hs _ f hf ⟨0, 1, fun h => ?_⟩ (fun j => lengths (alignedData f) j)
    fun j => (aligned_extent hs hf j _).2 rfl).2.1, le_max_left _ _⟩
  have := congrFun h 1
  simp only [Witness.tilted, Witness.points, Matrix.mul_apply (M := Witness.frame * Matrix.diagonal _),
    Matrix.mul_diagonal, Fin.sum_univ_three] at this
  simp [Witness.frame, Witness.tilt] at this
  norm_num at this

/-- For points that coincide the height is not a finite number. -/
theorem C266_coincident (svd : Pca.SvdFn) (hs : svd.Valid) {n : ℕ} (a : Fin (n + 1) → Vec 3) (f : Pca.Fit (n + 1))
    (hf : Pca.init svd a none none = .ok (some f)) : figureHeight (alignedData f) = none ↔ ∀ i k, a i = a k := by
  rw [← lengths_zero_iff hs hf]
  unfold figureHeight
  split_ifs with h <;> simp [h]

example : ∃ (svd : Pca.SvdFn) (f : Pca.Fit 3), svd.Valid ∧
    Pca.init svd (fun _ => ![1, 2, 3]) none none = .ok (some f) ∧ figureHeight (alignedData f) = none := by
  obtain ⟨svd, hs⟩ := Pca.exists_valid_svd
  obtain ⟨f, hf⟩ := Pca.init_default_exists svd (le_refl 3) fun _ => ![1, 2, 3]
  exact ⟨svd, f, hs, hf, (C266_coincident svd hs _ f hf).2 fun _ _ => rfl⟩

/-- Data in other units, at another place or turned about the vertical give a figure of the same size. -/
theorem C266_units (svd svd' : Pca.SvdFn) (hs : svd.Valid) (hs' : svd'.Valid) {n : ℕ} (a : Fin (n + 1) → Vec 3)
    (f g : Pca.Fit (n + 1)) (l α : ℝ) (hl : 0 < l) (t : Vec 3) (hf : Pca.init svd a none none = .ok (some f))
    (hg : Pca.init svd' (Spec.moved l α t a) none none = .ok (some g)) (h12 : f.s 2 < f.s 1) (h01 : f.s 1 < f.s 0) :
    figureHeight (alignedData g) = figureHeight (alignedData f) := by
  obtain ⟨-, hV⟩ := moved_rows hs hs' hl hf hg h12 h01
  have hlen : ∀ j, lengths (alignedData g) j = l * lengths (alignedData f) j := by
    intro j
    symm
    rw [← aligned_extent hs' hg]
    obtain ⟨⟨i, k, hik⟩, hle⟩ := (aligned_extent hs hf j _).2 rfl
    have hd : ∀ i k, vdot (Spec.moved l α t a i) (Spec.turn α (f.V j)) - vdot (Spec.moved l α t a k) (Spec.turn α (f.V j))
        = l * (vdot (a i) (f.V j) - vdot (a k) (f.V j)) := by
      intro i k
      have hi := turn_dot α (a i) (f.V j)
      have hk := turn_dot α (a k) (f.V j)
      simp only [vdot3] at hi hk ⊢
      simp only [Spec.moved]
      linear_combination l * hi - l * hk
    rcases hV j with h | h
    · exact ⟨⟨i, k, by rw [h, hd, hik]⟩, fun i k => by rw [h, hd]; exact mul_le_mul_of_nonneg_left (hle i k) hl.le⟩
    · have hneg : ∀ v w : Vec 3, vdot v (-w) = -vdot v w := fun v w => by simp [vdot3]; ring
      refine ⟨⟨k, i, by beta_reduce at hik ⊢; rw [h, hneg, hneg, ← hik]; linarith [hd i k]⟩, fun i k => ?_⟩
      beta_reduce at hle ⊢
      rw [h, hneg, hneg]
      have := mul_le_mul_of_nonneg_left (hle k i) hl.le
      linarith [hd k i]
  unfold figureHeight
  simp only [hlen, mul_eq_zero, hl.ne', false_or]
  by_cases h0 : lengths (alignedData f) 0 = 0
  · rw [if_pos h0, if_pos h0]
  · rw [if_neg h0, if_neg h0, show (l * lengths (alignedData f) 2 * 2 + l * lengths (alignedData f) 1) / (l * lengths (alignedData f) 0)
      = (lengths (alignedData f) 2 * 2 + lengths (alignedData f) 1) / lengths (alignedData f) 0 by
      field_simp]

example : ∃ (svd : Pca.SvdFn) (f g : Pca.Fit 4), svd.Valid ∧ Pca.init svd Witness.tilted none none = .ok (some f) ∧
    Pca.init svd (Spec.moved 1000 30 ![1, 2, 3] Witness.tilted) none none = .ok (some g) ∧
    figureHeight (alignedData g) = figureHeight (alignedData f) := by
  obtain ⟨svd, f, hs, hf, -, es⟩ := Witness.exists_tilted
  obtain ⟨g, hg⟩ := Pca.init_default_exists svd (by norm_num : 3 ≤ 4) (Spec.moved 1000 30 ![1, 2, 3] Witness.tilted)
  exact ⟨svd, f, g, hs, hf, hg, C266_units svd svd hs hs _ f g 1000 30 (by norm_num) _ hf hg
    (by rw [es]; simp) (by rw [es]; norm_num)⟩

lemma exists_nonneg_of_sum_zero {n : ℕ} {x : Fin (n + 1) → ℝ} (h : ∑ i, x i = 0) : ∃ i, 0 ≤ x i := by
  by_contra hc
  push Not at hc
  exact absurd h (Finset.sum_neg (fun i _ => hc i) Finset.univ_nonempty).ne

lemma exists_nonpos_of_sum_zero {n : ℕ} {x : Fin (n + 1) → ℝ} (h : ∑ i, x i = 0) : ∃ i, x i ≤ 0 := by
  by_contra hc
  push Not at hc
  exact absurd h (Finset.sum_pos (fun i _ => hc i) Finset.univ_nonempty).ne'

lemma residual_eq {svd : Pca.SvdFn} (hs : svd.Valid) {n : ℕ} {a : Fin n → Vec 3} {f : Pca.Fit n}
    (hf : Pca.init svd a none none = .ok (some f)) (i : Fin n) (j : Fin 3) :
    Pca.residuals f i j = alignedData f i 2 * f.V 2 j := by
  obtain ⟨U, h⟩ := Pca.init_default hs hf
  have e := expand_rows h.svd.orthV (f.arr i) j
  rw [aligned_eq hs hf]
  simp only [Pca.residuals, Pca.rotated, Matrix.sub_apply, Matrix.mul_apply, Matrix.of_apply, Matrix.transpose_apply,
    Fin.sum_univ_three, dotProduct] at e ⊢
  simp only [Fin.reduceEq, if_true, if_false]
  linear_combination e

/-- Residuals are as long as the data of the figure is high. -/
lemma residual_height {svd : Pca.SvdFn} (hs : svd.Valid) {n : ℕ} {a : Fin n → Vec 3} {f : Pca.Fit n}
    (hf : Pca.init svd a none none = .ok (some f)) (i : Fin n) : norm (Pca.residuals f i) = |alignedData f i 2| := by
  obtain ⟨U, h⟩ := Pca.init_default hs hf
  have hr := h.svd.row_dot 2 2
  simp only [if_true, vdot3] at hr
  rw [norm3, ← Real.sqrt_sq_eq_abs]
  congr 1
  simp only [residual_eq hs hf]
  linear_combination alignedData f i 2 ^ 2 * hr

/-- The number called the maximum residual in the caption is at least the largest residual and at most
twice that ... -/
theorem C266_caption_partial (svd : Pca.SvdFn) (hs : svd.Valid) {n : ℕ} (a : Fin (n + 1) → Vec 3)
    (f : Pca.Fit (n + 1)) (hf : Pca.init svd a none none = .ok (some f)) (m : ℝ)
    (hm : Spec.IsLargest (fun i => norm (Pca.residuals f i)) m) :
    m ≤ captionResidual (alignedData f) ∧ captionResidual (alignedData f) ≤ 2 * m := by
  simp only [residual_height hs hf, Spec.IsLargest] at hm
  obtain ⟨⟨k, hk⟩, hle⟩ := hm
  obtain ⟨hz, -, -⟩ := aligned_sums hs hf
  obtain ⟨⟨p, q, hpq⟩, hext⟩ := lengths_extent (alignedData f) 2
  beta_reduce at hpq hext
  rw [captionResidual]
  constructor
  · obtain ⟨u, hu⟩ := exists_nonneg_of_sum_zero (hz 2)
    obtain ⟨v, hv⟩ := exists_nonpos_of_sum_zero (hz 2)
    rw [← hk]
    have := hext k v
    have := hext u k
    exact abs_le.2 ⟨by linarith, by linarith⟩
  · have := abs_le.1 (hle p)
    have := abs_le.1 (hle q)
    linarith

lemma exists_largest {n : ℕ} (x : Fin (n + 1) → ℝ) : ∃ m, Spec.IsLargest x m := by
  obtain ⟨i, -, hi⟩ := Finset.exists_max_image Finset.univ x Finset.univ_nonempty
  exact ⟨x i, ⟨i, rfl⟩, fun k => hi k (Finset.mem_univ k)⟩

example : ∃ (svd : Pca.SvdFn) (f : Pca.Fit 4) (m : ℝ), svd.Valid ∧
    Pca.init svd Witness.tilted none none = .ok (some f) ∧ Spec.IsLargest (fun i => norm (Pca.residuals f i)) m ∧
    m ≤ captionResidual (alignedData f) := by
  obtain ⟨svd, f, hs, hf, -⟩ := Witness.exists_tilted
  obtain ⟨m, hm⟩ := exists_largest fun i => norm (Pca.residuals f i)
  exact ⟨svd, f, m, hs, hf, hm, (C266_caption_partial svd hs _ f hf m hm).1⟩

/-- ... and larger than the largest residual unless all points lie in one plane. -/
theorem C266_caption_false (svd : Pca.SvdFn) (hs : svd.Valid) {n : ℕ} (a : Fin (n + 1) → Vec 3)
    (f : Pca.Fit (n + 1)) (hf : Pca.init svd a none none = .ok (some f)) (m : ℝ)
    (hm : Spec.IsLargest (fun i => norm (Pca.residuals f i)) m) (e : ℝ) (he : captionResidual (alignedData f) = e) :
    e = m ↔ ∃ u d, norm u = 1 ∧ ∀ i, Spec.OnPlane u d (a i) := by
  rw [← C07_residuals_zero_iff_coplanar svd hs a f hf]
  subst he
  simp only [residual_height hs hf, Spec.IsLargest] at hm
  obtain ⟨⟨k, hk⟩, -⟩ := hm
  obtain ⟨hz, -, -⟩ := aligned_sums hs hf
  obtain ⟨⟨p, q, hpq⟩, hext⟩ := lengths_extent (alignedData f) 2
  beta_reduce at hpq hext
  rw [captionResidual]
  constructor
  · intro he i j
    rw [residual_eq hs hf]
    have all : ∀ i, alignedData f i 2 = 0 := by
      rcases abs_cases (alignedData f k 2) with ⟨h1, h2⟩ | ⟨h1, h2⟩
      · have h0 : ∀ v, 0 ≤ alignedData f v 2 := fun v => by linarith [hext k v]
        exact fun v => (Finset.sum_eq_zero_iff_of_nonneg fun v _ => h0 v).1 (hz 2) v (Finset.mem_univ v)
      · have h0 : ∀ v, alignedData f v 2 ≤ 0 := fun v => by linarith [hext v k]
        exact fun v => (Finset.sum_eq_zero_iff_of_nonpos fun v _ => h0 v).1 (hz 2) v (Finset.mem_univ v)
    rw [all, zero_mul]
  · intro hr
    have all : ∀ i, alignedData f i 2 = 0 := fun i => by
      have e := residual_height hs hf i
      rw [norm3] at e
      simp only [hr] at e
      simpa using e.symm
    rw [← hpq, ← hk, all, all, all]
    simp

example : ∃ (svd : Pca.SvdFn) (f : Pca.Fit 4) (m : ℝ), svd.Valid ∧
    Pca.init svd Witness.tilted none none = .ok (some f) ∧ Spec.IsLargest (fun i => norm (Pca.residuals f i)) m ∧
    m < captionResidual (alignedData f) := by
  obtain ⟨svd, f, hs, hf, -, es⟩ := Witness.exists_tilted
  obtain ⟨m, hm⟩ := exists_largest fun i => norm (Pca.residuals f i)
  refine ⟨svd, f, m, hs, hf, hm, lt_of_le_of_ne (C266_caption_partial svd hs _ f hf m hm).1 fun h => ?_⟩
  have h0 := (C07_residuals_zero_iff_coplanar svd hs _ f hf).2 ((C266_caption_false svd hs _ f hf m hm _ rfl).1 h.symm)
  obtain ⟨U, hd⟩ := Pca.init_default hs hf
  have h1 := (C07_residuals_are_misfits svd hs _ f hf _ hd.mean).2.2.2
  simp [h0, es] at h1

end Attitude.Props
