import Verif.Model.Dem
import Mathlib.Tactic.Linarith
import Mathlib.Tactic.Positivity
import Mathlib.Tactic.LinearCombination

/-!
# Lemmas about masks, windows and interpolation
-/

namespace Attitude.Dem

open Attitude

/-! ## `axisData` -/

lemma trimFront_decomp (x : List ℕ) :
    ∃ k, k ≤ x.length ∧ trimFront x = x.drop k ∧ (∀ i (h : i < x.length), i < k → x[i] = 0) ∧
      (∀ h : k < x.length, x[k] ≠ 0) := by
  induction x with
  | nil => exact ⟨0, by simp, by simp [trimFront], by simp, by simp⟩
  | cons a l ih =>
    by_cases ha : a = 0
    · obtain ⟨k, hk, hd, hz, hn⟩ := ih
      refine ⟨k + 1, by simpa using hk, ?_, ?_, ?_⟩
      · simp only [trimFront] at hd ⊢
        simp [ha, hd]
      · intro i h hi
        cases i with
        | zero => simpa using ha
        | succ i => simpa using hz i (by simpa using h) (by omega)
      · intro h
        simpa using hn (by simpa using h)
    · refine ⟨0, by simp, ?_, by simp, ?_⟩
      · simp [trimFront, ha]
      · intro _; simpa using ha

lemma trimBack_decomp (x : List ℕ) :
    ∃ k, k ≤ x.length ∧ (trimBack x).length = k ∧ (∀ i (h : i < x.length), k ≤ i → x[i] = 0) ∧
      (∀ h : k - 1 < x.length, 0 < k → x[k - 1] ≠ 0) := by
  obtain ⟨j, hj, hd, hz, hn⟩ := trimFront_decomp x.reverse
  rw [List.length_reverse] at hj
  refine ⟨x.length - j, by omega, ?_, ?_, ?_⟩
  · have : trimBack x = (trimFront x.reverse).reverse := rfl
    rw [this, hd]
    simp
  · intro i h hi
    have := hz (x.length - 1 - i) (by simp; omega) (by omega)
    rw [List.getElem_reverse] at this
    have e : x.length - 1 - (x.length - 1 - i) = i := by omega
    simpa [e] using this
  · intro h hk
    have := hn (by simp; omega)
    rw [List.getElem_reverse] at this
    have e : x.length - 1 - j = x.length - j - 1 := by omega
    simpa [e] using this

/-- What `axisData` computes. -/
lemma axisData_spec (x : List ℕ) :
    let o := (axisData x).1
    let s := (axisData x).2
    o + s ≤ x.length ∧ (∀ i (h : i < x.length), x[i] ≠ 0 → o ≤ i ∧ i < o + s) ∧
      (0 < s → (∃ h : o < x.length, x[o] ≠ 0) ∧ ∃ h : o + s - 1 < x.length, x[o + s - 1] ≠ 0) := by
  obtain ⟨k, hk, hd, hz, hn⟩ := trimFront_decomp x
  obtain ⟨j, hj, hl, hz', hn'⟩ := trimBack_decomp (trimFront x)
  have ho : (axisData x).1 = k := by
    simp only [axisData, hd, List.length_drop]
    omega
  have hs : (axisData x).2 = j := by simp only [axisData, hl]
  rw [hd, List.length_drop] at hj
  simp only [ho, hs]
  refine ⟨by omega, ?_, ?_⟩
  · intro i h hi
    have h1 : k ≤ i := by
      by_contra hc
      exact hi (hz i h (by omega))
    refine ⟨h1, ?_⟩
    by_contra hc
    have := hz' (i - k) (by rw [hd, List.length_drop]; omega) (by omega)
    simp only [hd, List.getElem_drop] at this
    have e : k + (i - k) = i := by omega
    simp only [e] at this
    exact hi this
  · intro hp
    refine ⟨⟨by omega, hn (by omega)⟩, by omega, ?_⟩
    have := hn' (by rw [hd, List.length_drop]; omega) hp
    simp only [hd, List.getElem_drop] at this
    have e : k + (j - 1) = k + j - 1 := by omega
    simpa only [e] using this

/-! ## Sums of masks -/

lemma sum0_length (m : Mask) : (sum0 m).length = m.cols := by simp [sum0]
lemma sum1_length (m : Mask) : (sum1 m).length = m.rows := by simp [sum1]

lemma sum0_ne (m : Mask) (c : ℕ) (h : c < (sum0 m).length) :
    (sum0 m)[c] ≠ 0 ↔ ∃ r < m.rows, m.get r c = true := by
  simp [sum0]

lemma sum1_ne (m : Mask) (r : ℕ) (h : r < (sum1 m).length) :
    (sum1 m)[r] ≠ 0 ↔ ∃ c < m.cols, m.get r c = true := by
  simp [sum1]

/-- Everything about `offsetMask`. -/
lemma offsetMask_spec (m : Mask) : ∃ yo ys xo xs, (offsetMask m).1 = (yo, xo) ∧
    (offsetMask m).2.rows = ys ∧ (offsetMask m).2.cols = xs ∧
    (∀ r c, (offsetMask m).2.get r c = m.get (yo + r) (xo + c)) ∧
    yo + ys ≤ m.rows ∧ xo + xs ≤ m.cols ∧
    (∀ r < m.rows, ∀ c < m.cols, m.get r c = true →
      yo ≤ r ∧ r < yo + ys ∧ xo ≤ c ∧ c < xo + xs) ∧
    (0 < ys → (∃ c < m.cols, m.get yo c = true) ∧ ∃ c < m.cols, m.get (yo + ys - 1) c = true) ∧
    (0 < xs → (∃ r < m.rows, m.get r xo = true) ∧ ∃ r < m.rows, m.get r (xo + xs - 1) = true) := by
  obtain ⟨hx, hx1, hx2⟩ := axisData_spec (sum0 m)
  obtain ⟨hy, hy1, hy2⟩ := axisData_spec (sum1 m)
  rw [sum0_length] at hx
  rw [sum1_length] at hy
  refine ⟨(axisData (sum1 m)).1, (axisData (sum1 m)).2, (axisData (sum0 m)).1,
    (axisData (sum0 m)).2, rfl, ?_, ?_, ?_, hy, hx, ?_, ?_, ?_⟩
  · simp only [offsetMask, slice]
    omega
  · simp only [offsetMask, slice]
    omega
  · intro r c
    simp only [offsetMask, slice]
    rw [min_eq_left (by omega), min_eq_left (by omega)]
  · intro r hr c hc h
    obtain ⟨a1, a2⟩ := hy1 r (by rwa [sum1_length]) ((sum1_ne m r _).2 ⟨c, hc, h⟩)
    obtain ⟨b1, b2⟩ := hx1 c (by rwa [sum0_length]) ((sum0_ne m c _).2 ⟨r, hr, h⟩)
    exact ⟨a1, a2, b1, b2⟩
  · intro h
    obtain ⟨⟨_, h1⟩, ⟨_, h2⟩⟩ := hy2 h
    exact ⟨(sum1_ne m _ _).1 h1, (sum1_ne m _ _).1 h2⟩
  · intro h
    obtain ⟨⟨_, h1⟩, ⟨_, h2⟩⟩ := hx2 h
    exact ⟨(sum0_ne m _ _).1 h1, (sum0_ne m _ _).1 h2⟩

/-! ## Minimum and maximum -/

lemma minimum_le {x : ℝ} {l : List ℝ} : ∀ y ∈ x :: l, minimum x l ≤ y := by
  induction l generalizing x with
  | nil => simp [minimum]
  | cons a l ih =>
    intro y hy
    rcases List.mem_cons.1 hy with rfl | hy
    · exact min_le_left _ _
    · exact (min_le_right _ _).trans (ih y hy)

lemma minimum_mem {x : ℝ} {l : List ℝ} : minimum x l ∈ x :: l := by
  induction l generalizing x with
  | nil => simp [minimum]
  | cons a l ih =>
    simp only [minimum]
    rcases min_choice x (minimum a l) with h | h <;> rw [h]
    · simp
    · exact List.mem_cons_of_mem _ ih

lemma le_maximum {x : ℝ} {l : List ℝ} : ∀ y ∈ x :: l, y ≤ maximum x l := by
  induction l generalizing x with
  | nil => simp [maximum]
  | cons a l ih =>
    intro y hy
    rcases List.mem_cons.1 hy with rfl | hy
    · exact le_max_left _ _
    · exact (ih y hy).trans (le_max_right _ _)

lemma maximum_mem {x : ℝ} {l : List ℝ} : maximum x l ∈ x :: l := by
  induction l generalizing x with
  | nil => simp [maximum]
  | cons a l ih =>
    simp only [maximum]
    rcases max_choice x (maximum a l) with h | h <;> rw [h]
    · simp
    · exact List.mem_cons_of_mem _ ih

/-! ## Affine transformations -/

lemma Affine.app_comp (S T : Affine) (p : ℝ × ℝ) : (S.comp T).app p = S.app (T.app p) := by
  simp only [Affine.app, Affine.comp, Prod.mk.injEq]
  constructor <;> ring

lemma Affine.dot_eq (T : Affine) (p : ℝ × ℝ) : T.dot p = T.app p := by
  simp only [Affine.app, Affine.dot, Prod.mk.injEq]
  constructor <;> ring

lemma Affine.inv_spec {T I : Affine} (h : T.inv = .ok I) (p : ℝ × ℝ) :
    T.app (I.app p) = p ∧ I.app (T.app p) = p := by
  simp only [Affine.inv] at h
  split_ifs at h with hd
  injection h with h
  subst h
  have hi : 1 / T.det * (T.a * T.e - T.b * T.d) = 1 := one_div_mul_cancel hd
  generalize 1 / T.det = i at hi
  constructor <;> ext <;> simp only [Affine.app]
  · linear_combination (p.1 - T.c) * hi
  · linear_combination (p.2 - T.f) * hi
  · linear_combination p.1 * hi
  · linear_combination p.2 * hi

/-! ## Interpolation -/

lemma clamp_range {n : ℕ} (hn : 0 < n) (x : ℝ) : 0 ≤ clamp n x ∧ clamp n x ≤ n - 1 := by
  have : (1 : ℝ) ≤ n := by exact_mod_cast hn
  exact ⟨le_max_left _ _, max_le (by linarith) (min_le_right _ _)⟩

lemma clamp_of_mem {n : ℕ} {x : ℝ} (h0 : 0 ≤ x) (h1 : x ≤ n - 1) : clamp n x = x := by
  rw [clamp, min_eq_left h1, max_eq_right h0]

lemma floor_clamp {n : ℕ} (hn : 0 < n) (x : ℝ) : 0 ≤ ⌊clamp n x⌋ ∧ ⌊clamp n x⌋ ≤ (n : ℤ) - 1 := by
  obtain ⟨h0, h1⟩ := clamp_range hn x
  refine ⟨Int.floor_nonneg.2 h0, ?_⟩
  have : (⌊clamp n x⌋ : ℝ) ≤ ((n : ℤ) - 1 : ℤ) := by
    push_cast
    exact (Int.floor_le _).trans h1
  exact_mod_cast this

lemma clampIdx_range {n : ℕ} (hn : 0 < n) (i : ℤ) : 0 ≤ clampIdx n i ∧ clampIdx n i ≤ (n : ℤ) - 1 :=
  ⟨le_max_left _ _, max_le (by omega) (min_le_right _ _)⟩

lemma clampIdx_of_mem {n : ℕ} {i : ℤ} (h0 : 0 ≤ i) (h1 : i ≤ (n : ℤ) - 1) : clampIdx n i = i := by
  rw [clampIdx, min_eq_left h1, max_eq_right h0]

/-- With four valid neighbours the value is a weighted mean of them. -/
lemma mapCoordinates1_spec (a : Raster) (hr : 0 < a.rows) (hc : 0 < a.cols) (r c : ℝ) :
    ∃ i i' j j' : ℤ, ∃ u v : ℝ, i = ⌊clamp a.rows r⌋ ∧ j = ⌊clamp a.cols c⌋ ∧
      i' = clampIdx a.rows (i + 1) ∧ j' = clampIdx a.cols (j + 1) ∧
      u = clamp a.rows r - i ∧ v = clamp a.cols c - j ∧
      0 ≤ u ∧ u < 1 ∧ 0 ≤ v ∧ v < 1 ∧
      (0 ≤ i ∧ i < a.rows) ∧ (0 ≤ i' ∧ i' < a.rows) ∧ (0 ≤ j ∧ j < a.cols) ∧
      (0 ≤ j' ∧ j' < a.cols) ∧
      mapCoordinates1 a r c = (do
        let z00 ← (a.px i j).filled
        let z01 ← (a.px i j').filled
        let z10 ← (a.px i' j).filled
        let z11 ← (a.px i' j').filled
        some (z00 * (1 - u) * (1 - v) + z01 * (1 - u) * v + z10 * u * (1 - v) + z11 * u * v)) := by
  refine ⟨_, _, _, _, _, _, rfl, rfl, rfl, rfl, rfl, rfl, ?_, ?_, ?_, ?_, ?_, ?_, ?_, ?_, ?_⟩
  · linarith [Int.floor_le (clamp a.rows r)]
  · linarith [Int.lt_floor_add_one (clamp a.rows r)]
  · linarith [Int.floor_le (clamp a.cols c)]
  · linarith [Int.lt_floor_add_one (clamp a.cols c)]
  · have := floor_clamp hr r; omega
  · have := clampIdx_range hr (⌊clamp a.rows r⌋ + 1); omega
  · have := floor_clamp hc c; omega
  · have := clampIdx_range hc (⌊clamp a.cols c⌋ + 1); omega
  · rw [mapCoordinates1, if_neg (by omega)]

/-! ## Lists -/

lemma flatMap_window {β : Type*} (f : ℕ → List β) {n o s : ℕ} (h : o + s ≤ n)
    (hout : ∀ i < n, ¬ (o ≤ i ∧ i < o + s) → f i = []) :
    (List.range n).flatMap f = (List.range s).flatMap fun i => f (o + i) := by
  obtain ⟨t, rfl⟩ : ∃ t, n = o + s + t := ⟨n - (o + s), by omega⟩
  have h1 : (List.range o).flatMap f = [] := by
    rw [List.flatMap_eq_nil_iff]
    intro i hi
    have := List.mem_range.1 hi
    exact hout i (by omega) (by omega)
  have h2 : ((List.range t).map fun x => o + s + x).flatMap f = [] := by
    rw [List.flatMap_eq_nil_iff]
    intro i hi
    obtain ⟨x, hx, rfl⟩ := List.mem_map.1 hi
    have := List.mem_range.1 hx
    exact hout _ (by omega) (by omega)
  rw [List.range_add, List.range_add, List.flatMap_append, List.flatMap_append, h1, h2,
    List.nil_append, List.append_nil, List.flatMap_map]

end Attitude.Dem
