import Verif.Model.Statistics
import Verif.Props.Linear
import Mathlib.Data.List.GetD
import Mathlib.Analysis.SpecialFunctions.Gaussian.GaussianIntegral

/-!
# Properties of the statistical helpers
-/

namespace Attitude.Props

open Attitude Statistics

/-! ## C135 -/

lemma sorted_getD {s : List ℝ} (h : s.Pairwise (· ≤ ·)) {i j : ℕ} (hij : i ≤ j) (hj : j < s.length) :
    s.getD i 0 ≤ s.getD j 0 := by
  have hi : i < s.length := lt_of_le_of_lt hij hj
  rw [List.getD_eq_getElem _ _ hi, List.getD_eq_getElem _ _ hj]
  rcases hij.eq_or_lt with rfl | hlt
  · exact le_rfl
  · exact (List.pairwise_iff_getElem.1 h) i j hi hj hlt

/-- Interpolated values are between the neighbours. -/
lemma interpolate_bounds {s : List ℝ} (h : s.Pairwise (· ≤ ·)) {t : ℝ} (h0 : 0 ≤ t)
    (h1 : t ≤ s.length - 1) :
    s.getD ⌊t⌋₊ 0 ≤ interpolate s t ∧
    (∀ j : ℕ, j < s.length → t ≤ j → interpolate s t ≤ s.getD j 0) := by
  have hf := Nat.floor_le h0
  have hf' := Nat.lt_floor_add_one t
  unfold interpolate
  simp only
  split_ifs with he
  · refine ⟨le_rfl, fun j hj htj => sorted_getD h ?_ hj⟩
    rw [← he] at htj
    exact_mod_cast htj
  · have hlt : (⌊t⌋₊ : ℝ) < t := lt_of_le_of_ne hf he
    have hl : ⌊t⌋₊ + 1 < s.length := by
      have : (⌊t⌋₊ : ℝ) + 1 < s.length := by linarith
      exact_mod_cast this
    have hs := sorted_getD h (Nat.le_succ ⌊t⌋₊) hl
    refine ⟨?_, fun j hj htj => ?_⟩
    · nlinarith
    · have hij : ⌊t⌋₊ + 1 ≤ j := by
        have : (⌊t⌋₊ : ℝ) < j := lt_of_lt_of_le hlt htj
        exact_mod_cast this
      have := sorted_getD h hij hj
      nlinarith

lemma interpolate_mono {s : List ℝ} (h : s.Pairwise (· ≤ ·)) {t u : ℝ} (h0 : 0 ≤ t) (htu : t ≤ u)
    (h1 : u ≤ s.length - 1) : interpolate s t ≤ interpolate s u := by
  have hu0 : 0 ≤ u := h0.trans htu
  by_cases hsame : ⌊t⌋₊ = ⌊u⌋₊
  · have hf := Nat.floor_le h0
    have hfu := Nat.floor_le hu0
    by_cases het : (⌊t⌋₊ : ℝ) = t
    · have e : interpolate s t = s.getD ⌊t⌋₊ 0 := by simp [interpolate, het]
      rw [e, hsame]
      exact (interpolate_bounds h hu0 h1).1
    · by_cases heu : (⌊u⌋₊ : ℝ) = u
      · exfalso
        apply het
        apply le_antisymm hf
        rw [hsame, heu]
        exact htu
      · have hlt : (⌊u⌋₊ : ℝ) < u := lt_of_le_of_ne hfu heu
        have hl : ⌊u⌋₊ + 1 < s.length := by
          have : (⌊u⌋₊ : ℝ) + 1 < s.length := by linarith
          exact_mod_cast this
        have hs := sorted_getD h (Nat.le_succ ⌊u⌋₊) hl
        unfold interpolate
        simp only [if_neg het, if_neg heu]
        rw [hsame]
        nlinarith
  · have hle : ⌊t⌋₊ ≤ ⌊u⌋₊ := Nat.floor_mono htu
    have hlt : ⌊t⌋₊ + 1 ≤ ⌊u⌋₊ := by omega
    have hfu := Nat.floor_le hu0
    have hlen : ⌊u⌋₊ < s.length := by
      have : (⌊u⌋₊ : ℝ) < s.length := by linarith
      exact_mod_cast this
    have htl : t ≤ (⌊u⌋₊ : ℝ) := by
      have := (Nat.lt_floor_add_one t).le
      have h2 : ((⌊t⌋₊ + 1 : ℕ) : ℝ) ≤ ⌊u⌋₊ := by exact_mod_cast hlt
      push_cast at h2
      linarith
    exact ((interpolate_bounds h h0 (htu.trans h1)).2 _ hlen htl).trans
      (interpolate_bounds h hu0 h1).1

/-- The sorted data. -/
noncomputable def Spec.sorted (a : List ℝ) : List ℝ := a.insertionSort (· ≤ ·)

lemma sorted_pairwise (a : List ℝ) : (Spec.sorted a).Pairwise (· ≤ ·) := List.pairwise_insertionSort _ a

lemma sorted_length (a : List ℝ) : (Spec.sorted a).length = a.length := List.length_insertionSort _ a

lemma sorted_perm (a : List ℝ) : (Spec.sorted a).Perm a := List.perm_insertionSort _ a

lemma length_pos_real {a : List ℝ} (ha : a ≠ []) : (0 : ℝ) ≤ a.length - 1 := by
  have : 1 ≤ a.length := List.length_pos_iff.2 ha
  have : (1 : ℝ) ≤ a.length := by exact_mod_cast this
  linarith

lemma ci_eq {a : List ℝ} (ha : a ≠ []) {w : ℝ} (h0 : 0 ≤ w) (h1 : w ≤ 100) :
    ci a w = .ok [some (interpolate (Spec.sorted a) ((50 - w / 2) / 100 * (a.length - 1))),
      some (interpolate (Spec.sorted a) ((50 + w / 2) / 100 * (a.length - 1)))] := by
  have e1 : ¬ (50 - w / 2 < 0 ∨ 100 < 50 - w / 2) := by push Not; constructor <;> linarith
  have e2 : ¬ (50 + w / 2 < 0 ∨ 100 < 50 + w / 2) := by push Not; constructor <;> linarith
  simp only [ci, percentiles, List.mapM_cons, List.mapM_nil, scoreAtPercentile, if_neg ha, if_neg e1,
    if_neg e2, Spec.sorted]
  rfl

lemma index_range {a : List ℝ} (ha : a ≠ []) {p : ℝ} (h0 : 0 ≤ p) (h1 : p ≤ 100) :
    0 ≤ p / 100 * ((a.length : ℝ) - 1) ∧
    p / 100 * ((a.length : ℝ) - 1) ≤ ((Spec.sorted a).length : ℝ) - 1 := by
  have := length_pos_real ha
  rw [sorted_length]
  constructor
  · positivity
  · have : p / 100 ≤ 1 := by linarith
    nlinarith

/-- The confidence interval: an interval within the range of the data; it holds at least
the stated share of the data (up to rounding), and depends only on the values, not on
their order. -/
theorem C135_interval (a : List ℝ) (ha : a ≠ []) (w : ℝ) (h0 : 0 ≤ w) (h1 : w ≤ 100) :
    ∃ lo hi, ci a w = .ok [some lo, some hi] ∧ lo ≤ hi ∧
      (∃ x ∈ a, x ≤ lo) ∧ (∃ x ∈ a, hi ≤ x) ∧
      ⌊w / 100 * ((a.length : ℝ) - 1)⌋₊ ≤ (a.filter fun x => decide (lo ≤ x ∧ x ≤ hi)).length := by
  have hs := sorted_pairwise a
  have hn := length_pos_real ha
  obtain ⟨l0, l1⟩ := index_range ha (p := 50 - w / 2) (by linarith) (by linarith)
  obtain ⟨u0, u1⟩ := index_range ha (p := 50 + w / 2) (by linarith) (by linarith)
  set L := (50 - w / 2) / 100 * ((a.length : ℝ) - 1) with hL
  set U := (50 + w / 2) / 100 * ((a.length : ℝ) - 1) with hU
  have hLU : L ≤ U := by rw [hL, hU]; apply mul_le_mul_of_nonneg_right _ hn; linarith
  have mem : ∀ j, j < (Spec.sorted a).length → (Spec.sorted a).getD j 0 ∈ a := by
    intro j hj
    rw [List.getD_eq_getElem _ _ hj]
    exact (sorted_perm a).mem_iff.1 (List.getElem_mem hj)
  have hlen := sorted_length a
  have hpos : 0 < a.length := List.length_pos_iff.2 ha
  refine ⟨_, _, ci_eq ha h0 h1, interpolate_mono hs l0 hLU u1, ⟨_, mem ⌊L⌋₊ ?_,
    (interpolate_bounds hs l0 l1).1⟩, ⟨_, mem (a.length - 1) (by omega),
    (interpolate_bounds hs u0 u1).2 _ (by omega) ?_⟩, ?_⟩
  · have := Nat.floor_le l0
    have : (⌊L⌋₊ : ℝ) < (Spec.sorted a).length := by linarith
    exact_mod_cast this
  · rw [Nat.cast_sub hpos, Nat.cast_one, ← hlen]; exact u1
  · -- the data from index ⌈L⌉ on
    set m := ⌊w / 100 * ((a.length : ℝ) - 1)⌋₊ with hm
    have hUL : U = L + w / 100 * ((a.length : ℝ) - 1) := by rw [hU, hL]; ring
    have hm' : (m : ℝ) ≤ U - L := by
      rw [hUL]
      have := Nat.floor_le (show 0 ≤ w / 100 * ((a.length : ℝ) - 1) by positivity)
      linarith
    set c := ⌈L⌉₊ with hc
    have hc1 : L ≤ c := Nat.le_ceil L
    have hc2 : (c : ℝ) < L + 1 := Nat.ceil_lt_add_one l0
    have hin : ∀ k, k < m → c + k < (Spec.sorted a).length ∧ ((c + k : ℕ) : ℝ) ≤ U := by
      intro k hk
      have hk' : (k : ℝ) + 1 ≤ m := by exact_mod_cast hk
      have : ((c + k : ℕ) : ℝ) < U := by push_cast; linarith
      refine ⟨?_, this.le⟩
      have h3 : ((c + k : ℕ) : ℝ) < (Spec.sorted a).length := by linarith
      exact_mod_cast h3
    set p : ℝ → Bool := fun x => decide (interpolate (Spec.sorted a) L ≤ x ∧
      x ≤ interpolate (Spec.sorted a) U) with hp
    have hperm : (a.filter p).length = ((Spec.sorted a).filter p).length :=
      ((sorted_perm a).filter p).length_eq.symm
    rw [hperm]
    set T := ((Spec.sorted a).drop c).take m with hT
    have hTs : T.Sublist (Spec.sorted a) := (List.take_sublist _ _).trans (List.drop_sublist _ _)
    have hTl : T.length = m := by
      rw [hT, List.length_take, List.length_drop]
      rcases Nat.eq_zero_or_pos m with h | h
      · omega
      · have := (hin (m - 1) (by omega)).1
        omega
    have hTf : T.filter p = T := by
      rw [List.filter_eq_self]
      intro x hx
      obtain ⟨k, hk, rfl⟩ := List.mem_iff_getElem.1 hx
      rw [hTl] at hk
      obtain ⟨g1, g2⟩ := hin k hk
      have e : T[k]'(by omega) = (Spec.sorted a).getD (c + k) 0 := by
        rw [List.getD_eq_getElem _ _ g1]
        simp [hT]
      rw [e]
      simp only [hp, decide_eq_true_eq]
      refine ⟨(interpolate_bounds hs l0 l1).2 _ g1 ?_, ?_⟩
      · push_cast
        have : (0 : ℝ) ≤ k := Nat.cast_nonneg k
        linarith
      · calc (Spec.sorted a).getD (c + k) 0 ≤ (Spec.sorted a).getD ⌊U⌋₊ 0 := by
              apply sorted_getD hs (Nat.le_floor g2)
              have := Nat.floor_le u0
              have : (⌊U⌋₊ : ℝ) < (Spec.sorted a).length := by linarith
              exact_mod_cast this
          _ ≤ _ := (interpolate_bounds hs u0 u1).1
    calc m = (T.filter p).length := by rw [hTf, hTl]
      _ ≤ _ := (hTs.filter p).length_le

example : ∃ lo hi, ci [3, 1, 2, 7] 95 = .ok [some lo, some hi] ∧ lo ≤ hi := by
  obtain ⟨lo, hi, h, h', _⟩ := C135_interval [3, 1, 2, 7] (by simp) 95 (by norm_num) (by norm_num)
  exact ⟨lo, hi, h, h'⟩

/-- With `axis=0` the columns are treated separately: each gets such an interval of its own. -/
theorem C135_columns {k : ℕ} (a : List (Vec k)) (ha : a ≠ []) (w : ℝ) (h0 : 0 ≤ w) (h1 : w ≤ 100)
    (j : Fin k) :
    ∃ lo hi, ciColumn a w j = .ok [some lo, some hi] ∧ lo ≤ hi ∧
      (∃ r ∈ a, r j ≤ lo) ∧ (∃ r ∈ a, hi ≤ r j) ∧
      ⌊w / 100 * ((a.length : ℝ) - 1)⌋₊
        ≤ (a.filter fun r => decide (lo ≤ r j ∧ r j ≤ hi)).length := by
  obtain ⟨lo, hi, e, hle, ⟨x, hx, hxl⟩, ⟨y, hy, hyl⟩, hc⟩ :=
    C135_interval (a.map fun r => r j) (by simpa using ha) w h0 h1
  obtain ⟨r, hr, rfl⟩ := List.mem_map.1 hx
  obtain ⟨r', hr', rfl⟩ := List.mem_map.1 hy
  refine ⟨lo, hi, e, hle, ⟨r, hr, hxl⟩, ⟨r', hr', hyl⟩, ?_⟩
  rw [List.length_map, List.filter_map, List.length_map] at hc
  exact hc

example : ∃ lo hi, ciColumn [![1, 5], ![2, 3], (![4, 4] : Vec 2)] 50 1 = .ok [some lo, some hi] := by
  obtain ⟨lo, hi, e, _⟩ := C135_columns [![1, 5], ![2, 3], (![4, 4] : Vec 2)] (by simp) 50
    (by norm_num) (by norm_num) 1
  exact ⟨lo, hi, e⟩

/-- Intervals of higher confidence contain those of lower confidence. -/
theorem C135_nested (a : List ℝ) (ha : a ≠ []) (w w' : ℝ) (h0 : 0 ≤ w) (hw : w ≤ w') (h1 : w' ≤ 100) :
    ∃ lo hi lo' hi', ci a w = .ok [some lo, some hi] ∧ ci a w' = .ok [some lo', some hi'] ∧
      lo' ≤ lo ∧ hi ≤ hi' := by
  have hs := sorted_pairwise a
  have hn := length_pos_real ha
  refine ⟨_, _, _, _, ci_eq ha h0 (hw.trans h1), ci_eq ha (h0.trans hw) h1, ?_, ?_⟩
  · apply interpolate_mono hs (index_range ha (by linarith) (by linarith)).1 _
      (index_range ha (by linarith) (by linarith)).2
    apply mul_le_mul_of_nonneg_right _ hn; linarith
  · apply interpolate_mono hs (index_range ha (by linarith) (by linarith)).1 _
      (index_range ha (by linarith) (by linarith)).2
    apply mul_le_mul_of_nonneg_right _ hn; linarith

example : ∃ lo hi lo' hi', ci [3, 1, 2] 50 = .ok [some lo, some hi] ∧
    ci [3, 1, 2] 95 = .ok [some lo', some hi'] ∧ lo' ≤ lo ∧ hi ≤ hi' :=
  C135_nested [3, 1, 2] (by simp) 50 95 (by norm_num) (by norm_num) (by norm_num)

/-- The order of the data does not matter. -/
theorem C135_order (a b : List ℝ) (h : a.Perm b) (w : ℝ) : ci a w = ci b w := by
  have e : a.insertionSort (· ≤ ·) = b.insertionSort (· ≤ ·) := by
    apply List.Perm.eq_of_pairwise (le := (· ≤ ·)) (fun _ _ _ _ => le_antisymm)
    · exact List.pairwise_insertionSort _ a
    · exact List.pairwise_insertionSort _ b
    · exact ((List.perm_insertionSort _ a).trans h).trans (List.perm_insertionSort _ b).symm
  have hnil : a = [] ↔ b = [] := by
    constructor
    · rintro rfl; exact h.symm.eq_nil
    · rintro rfl; exact h.eq_nil
  have hs : scoreAtPercentile a = scoreAtPercentile b := by
    funext p
    simp only [scoreAtPercentile, e, h.length_eq, hnil]
  simp only [ci, percentiles, hs]

example : ci [3, 1, 2] 95 = ci [1, 3, 2] 95 := C135_order _ _ (List.Perm.swap 1 3 [2]) 95

/-- The 100% interval is the range of the data, the 0% interval is the median. -/
theorem C135_extremes (a : List ℝ) (ha : a ≠ []) :
    (∃ lo hi, ci a 100 = .ok [some lo, some hi] ∧ lo ∈ a ∧ hi ∈ a ∧ ∀ x ∈ a, lo ≤ x ∧ x ≤ hi) ∧
    (∃ m, ci a 0 = .ok [some m, some m] ∧
      a.length ≤ 2 * (a.filter fun x => decide (x ≤ m)).length ∧
      a.length ≤ 2 * (a.filter fun x => decide (m ≤ x)).length) := by
  have hs := sorted_pairwise a
  have hpos : 0 < a.length := List.length_pos_iff.2 ha
  have hlen := sorted_length a
  constructor
  · have hlo : (50 - (100 : ℝ) / 2) / 100 * ((a.length : ℝ) - 1) = 0 := by norm_num
    have hhi : (50 + (100 : ℝ) / 2) / 100 * ((a.length : ℝ) - 1) = ((a.length - 1 : ℕ) : ℝ) := by
      rw [Nat.cast_sub hpos]; norm_num
    have e1 : interpolate (Spec.sorted a) 0 = (Spec.sorted a).getD 0 0 := by simp [interpolate]
    have e2 : interpolate (Spec.sorted a) ((a.length - 1 : ℕ) : ℝ)
        = (Spec.sorted a).getD (a.length - 1) 0 := by
      simp only [interpolate, Nat.floor_natCast, if_true]
    refine ⟨_, _, ci_eq ha (by norm_num) le_rfl, ?_, ?_, ?_⟩
    · rw [hlo, e1, List.getD_eq_getElem _ _ (by omega)]
      exact (sorted_perm a).mem_iff.1 (List.getElem_mem _)
    · rw [hhi, e2, List.getD_eq_getElem _ _ (by omega)]
      exact (sorted_perm a).mem_iff.1 (List.getElem_mem _)
    · intro x hx
      obtain ⟨k, hk, rfl⟩ := List.mem_iff_getElem.1 ((sorted_perm a).mem_iff.2 hx)
      rw [hlo, hhi, e1, e2, ← List.getD_eq_getElem _ 0 hk]
      exact ⟨sorted_getD hs (Nat.zero_le _) hk, sorted_getD hs (by omega) (by omega)⟩
  · set t : ℝ := 50 / 100 * ((a.length : ℝ) - 1) with ht
    have e : ci a 0 = .ok [some (interpolate (Spec.sorted a) t), some (interpolate (Spec.sorted a) t)] := by
      rw [ci_eq ha le_rfl (by norm_num), ht]
      norm_num
    obtain ⟨t0, t1⟩ := index_range ha (p := 50) (by norm_num) (by norm_num)
    rw [← ht] at t0 t1
    have fl : t < ⌊t⌋₊ + 1 := Nat.lt_floor_add_one t
    have fl' := Nat.floor_le t0
    have ce : (⌈t⌉₊ : ℝ) < t + 1 := Nat.ceil_lt_add_one t0
    have ce' := Nat.le_ceil t
    have n1 : a.length ≤ 2 * (⌊t⌋₊ + 1) := by
      have : (a.length : ℝ) < 2 * (⌊t⌋₊ + 1) + 1 := by linarith
      have : a.length < 2 * (⌊t⌋₊ + 1) + 1 := by exact_mod_cast this
      omega
    have n2 : 2 * ⌈t⌉₊ ≤ a.length := by
      have : (2 * ⌈t⌉₊ : ℝ) < a.length + 1 := by linarith
      have : 2 * ⌈t⌉₊ < a.length + 1 := by exact_mod_cast this
      omega
    have flen : ⌊t⌋₊ < (Spec.sorted a).length := by
      have : (⌊t⌋₊ : ℝ) < (Spec.sorted a).length := by linarith
      exact_mod_cast this
    have count : ∀ (p : ℝ → Bool) (T : List ℝ), T.Sublist (Spec.sorted a) → (∀ x ∈ T, p x = true) →
        T.length ≤ (a.filter p).length := by
      intro p T hT hp
      rw [← ((sorted_perm a).filter p).length_eq, ← List.filter_eq_self.2 hp]
      exact (hT.filter p).length_le
    refine ⟨_, e, ?_, ?_⟩
    · have := count (fun x => decide (x ≤ interpolate (Spec.sorted a) t))
        ((Spec.sorted a).take (⌊t⌋₊ + 1)) (List.take_sublist _ _) (by
          intro x hx
          obtain ⟨k, hk, rfl⟩ := List.mem_iff_getElem.1 hx
          rw [List.length_take] at hk
          simp only [decide_eq_true_eq, List.getElem_take]
          rw [← List.getD_eq_getElem _ 0 (by omega)]
          exact (sorted_getD hs (by omega) flen).trans (interpolate_bounds hs t0 t1).1)
      rw [List.length_take] at this
      omega
    · have := count (fun x => decide (interpolate (Spec.sorted a) t ≤ x))
        ((Spec.sorted a).drop ⌈t⌉₊) (List.drop_sublist _ _) (by
          intro x hx
          obtain ⟨k, hk, rfl⟩ := List.mem_iff_getElem.1 hx
          rw [List.length_drop] at hk
          simp only [decide_eq_true_eq, List.getElem_drop]
          rw [← List.getD_eq_getElem _ 0 (by omega)]
          refine (interpolate_bounds hs t0 t1).2 _ (by omega) ?_
          push_cast
          have : (0 : ℝ) ≤ k := Nat.cast_nonneg k
          linarith)
      rw [List.length_drop] at this
      omega

example : ∃ m, ci [3, 1, 2, 7] 0 = .ok [some m, some m] := by
  obtain ⟨m, h, _⟩ := (C135_extremes [3, 1, 2, 7] (by simp)).2
  exact ⟨m, h⟩

/-- Without data the interval is `nan`; a confidence above 100% is refused. -/
theorem C135_errors (a : List ℝ) (ha : a ≠ []) (w : ℝ) (h : 100 < w) :
    ci [] w = .ok [none, none] ∧ ci a w = .error .valueError := by
  constructor
  · rfl
  · have e1 : 50 - w / 2 < 0 ∨ 100 < 50 - w / 2 := Or.inl (by linarith)
    simp only [ci, percentiles, List.mapM_cons, scoreAtPercentile, if_neg ha, if_pos e1]
    rfl

example : ∃ lo hi, ci [3, 1, 2] 50 = .ok [some lo, some hi] ∧ lo ≤ hi := by
  obtain ⟨lo, hi, h, h', -⟩ := C135_interval [3, 1, 2] (by simp) 50 (by norm_num) (by norm_num)
  exact ⟨lo, hi, h, h'⟩

/-! ## C136 -/

/-- Resampling: the requested number of repetitions; each is evaluated on as many rows as
there are data, all of which are data. -/
theorem C136_resampled {α β : Type} {l : ℕ} (hl : l ≠ 0) (data : Fin l → α)
    (func : (Fin l → α) → β) (draw : ℕ → Fin l → Fin l) (n : ℕ) :
    ∃ r, bootstrapResampled data func draw n = .ok r ∧ r.length = n ∧
      ∀ y ∈ r, ∃ sample : Fin l → α, (∀ k, ∃ i, sample k = data i) ∧ y = func sample := by
  refine ⟨(List.range n).map fun i => func fun k => data (draw i k),
    by simp only [bootstrapResampled, hl, false_and, if_false], by simp, ?_⟩
  intro y hy
  simp only [List.mem_map, List.mem_range] at hy
  obtain ⟨i, -, rfl⟩ := hy
  exact ⟨_, fun k => ⟨_, rfl⟩, rfl⟩

example : ∃ r, bootstrapResampled (![3, 1, 2] : Fin 3 → ℕ) (fun s => s 0 + s 1) (fun i _ => Fin.ofNat 3 i) 10
    = .ok r ∧ r.length = 10 := by
  obtain ⟨r, h, h', _⟩ := C136_resampled (by norm_num) (![3, 1, 2] : Fin 3 → ℕ)
    (fun s => s 0 + s 1) (fun i _ => Fin.ofNat 3 i) 10
  exact ⟨r, h, h'⟩

/-- The rows of each repetition are those that were drawn for it, in that order. -/
theorem C136_draws {α β : Type} {l : ℕ} (hl : l ≠ 0) (data : Fin l → α)
    (func : (Fin l → α) → β) (draw : ℕ → Fin l → Fin l) (n : ℕ) :
    ∃ r, bootstrapResampled data func draw n = .ok r ∧
      ∀ i < n, r[i]? = some (func fun k => data (draw i k)) := by
  refine ⟨(List.range n).map fun i => func fun k => data (draw i k),
    by simp only [bootstrapResampled, hl, false_and, if_false], ?_⟩
  intro i hi
  simp [hi]

example : ∃ r, bootstrapResampled (![3, 1, 2] : Fin 3 → ℕ) (fun s => s 0 + 10 * s 1)
    (fun i k => k + Fin.ofNat 3 i) 10 = .ok r ∧ r[1]? = some 21 := by
  obtain ⟨r, h, h'⟩ := C136_draws (by norm_num) (![3, 1, 2] : Fin 3 → ℕ)
    (fun s => s 0 + 10 * s 1) (fun i k => k + Fin.ofNat 3 i) 10
  exact ⟨r, h, by rw [h' 1 (by norm_num)]; rfl⟩

/-- The distribution of a statistic is degenerate for data without scatter. -/
theorem C136_constant {α β : Type} {l : ℕ} (hl : l ≠ 0) (x : α) (func : (Fin l → α) → β)
    (draw : ℕ → Fin l → Fin l) (n : ℕ) :
    bootstrapResampled (fun _ => x) func draw n = .ok (List.replicate n (func fun _ => x)) := by
  simp only [bootstrapResampled, hl, false_and, if_false, Except.ok.injEq]
  rw [List.map_const', List.length_range]

example : bootstrapResampled (fun _ : Fin 3 => 4) (fun s => s 0 + s 1) (fun i _ => Fin.ofNat 3 i) 10
    = .ok (List.replicate 10 8) :=
  C136_constant (by norm_num) 4 (fun s => s 0 + s 1) (fun i _ => Fin.ofNat 3 i) 10

/-- Noise: with `symmetric=False` only the third coordinate changes; without scatter all
repetitions use the data. -/
theorem C136_noise {β : Type} {m : ℕ} (data : Fin m → Vec 3) (func : (Fin m → Vec 3) → β)
    (noise : ℕ → Fin m → Vec 3) (n : ℕ) (std : ℝ) :
    (∀ b, (bootstrapNoise data func noise n std b).length = n) ∧
    (∀ y ∈ bootstrapNoise data func noise n std false, ∃ sample : Fin m → Vec 3,
      (∀ k, sample k 0 = data k 0 ∧ sample k 1 = data k 1) ∧ y = func sample) ∧
    (∀ b, bootstrapNoise data func noise n 0 b = List.replicate n (func data)) := by
  refine ⟨fun b => by simp [bootstrapNoise], ?_, fun b => ?_⟩
  · intro y hy
    simp only [bootstrapNoise, List.mem_map, List.mem_range] at hy
    obtain ⟨i, -, rfl⟩ := hy
    exact ⟨_, fun k => by simp, rfl⟩
  · have : ∀ i, (fun r => if b then data r + (0 : ℝ) • noise i r
        else data r + ![0, 0, noise i r 2 * 0]) = data := by
      intro i; funext r j
      cases b <;> fin_cases j <;> simp
    simp only [bootstrapNoise, this, List.map_const', List.length_range]

/-- It is the noise times `std` that is added. -/
theorem C136_noise_values {m : ℕ} (data : Fin m → Vec 3) (noise : ℕ → Fin m → Vec 3) (n : ℕ)
    (std : ℝ) (i : ℕ) (hi : i < n) :
    (∃ s, (bootstrapNoise data id noise n std true)[i]? = some s ∧
      ∀ r j, s r j - data r j = std * noise i r j) ∧
    (∃ s, (bootstrapNoise data id noise n std false)[i]? = some s ∧
      ∀ r, s r 2 - data r 2 = std * noise i r 2) := by
  refine ⟨⟨_, by simp [bootstrapNoise, hi]; rfl, fun r j => by simp⟩,
    ⟨_, by simp [bootstrapNoise, hi]; rfl, fun r => ?_⟩⟩
  simp [mul_comm, Matrix.vecHead, Matrix.vecTail]

example (noise : ℕ → Fin 4 → Vec 3) :
    ∃ s, (bootstrapNoise (fun i : Fin 4 => ![i, 0, 1]) id noise 10 2 true)[3]? = some s := by
  obtain ⟨s, h, _⟩ := (C136_noise_values (fun i : Fin 4 => ![i, 0, 1]) noise 10 2 3 (by norm_num)).1
  exact ⟨s, h⟩

/-! ## C137 -/

lemma sph2cart_antipode (lon lat : ℝ) : Rotations.sph2cart (lon + Real.pi) (-lat)
    = (-(Rotations.sph2cart lon lat).1, -(Rotations.sph2cart lon lat).2.1,
        -(Rotations.sph2cart lon lat).2.2) := by
  simp [Rotations.sph2cart]

/-- The Bingham density is the same for opposite directions. -/
theorem C137_antipodal (hyp1f1 : ℝ → ℝ → ℝ → ℝ) (h : Vec 3) (axes : Mat 3 3) (lon lat : ℝ) :
    binghamPdf hyp1f1 h axes (lon + Real.pi) (-lat) = binghamPdf hyp1f1 h axes lon lat := by
  have e : ∀ Z M, ∀ x y z : ℝ, binghamExponent Z M ![-x, -y, -z] = binghamExponent Z M ![x, y, z] := by
    intro Z M x y z
    simp only [binghamExponent, Fin.sum_univ_three]
    simp
    ring
  simp only [binghamPdf, sph2cart_antipode, e]

/-- It is highest at the pole of the plane if the matrix of axes is symmetric ... -/
theorem C137_mode_partial (hyp1f1 : ℝ → ℝ → ℝ → ℝ) (hpos : ∀ a b c, 0 < hyp1f1 a b c) (h : Vec 3)
    (h2 : 0 < h 2) (h12 : h 2 ≤ h 1) (h02 : h 2 ≤ h 0) (axes : Mat 3 3)
    (ho : axes * axes.transpose = 1) (hs : axes.transpose = axes) (lon₀ lat₀ : ℝ)
    (hn : ![(Rotations.sph2cart lon₀ lat₀).1, (Rotations.sph2cart lon₀ lat₀).2.1,
      (Rotations.sph2cart lon₀ lat₀).2.2] = axes 2) (lon lat : ℝ) :
    ∃ p p₀, binghamPdf hyp1f1 h axes lon lat = some p ∧
      binghamPdf hyp1f1 h axes lon₀ lat₀ = some p₀ ∧ p ≤ p₀ := by
  have h0' : 0 < h 0 := h2.trans_le h02
  have h1' : 0 < h 1 := h2.trans_le h12
  have hne : ¬ (h 0 = 0 ∨ h 1 = 0 ∨ h 2 = 0) := by
    push Not; exact ⟨h0'.ne', h1'.ne', h2.ne'⟩
  have unit : ∀ lon lat : ℝ, (Rotations.sph2cart lon lat).1 ^ 2 + (Rotations.sph2cart lon lat).2.1 ^ 2
      + (Rotations.sph2cart lon lat).2.2 ^ 2 = 1 := by
    intro lon lat
    simp only [Rotations.sph2cart]
    have e1 := Real.sin_sq_add_cos_sq lon
    have e2 := Real.sin_sq_add_cos_sq lat
    linear_combination (Real.cos lat) ^ 2 * e1 + e2
  have hZ : ∀ i, 0 < h i → (1 : ℝ) / (h 2 ^ 2 / h i) = h i / h 2 ^ 2 := fun i hi => by
    field_simp
  -- the exponent at the pole
  have hrow : ∀ i j, ∑ k, axes i k * axes j k = if i = j then 1 else 0 := by
    intro i j
    have := congrFun (congrFun ho i) j
    simpa [Matrix.mul_apply, Matrix.one_apply] using this
  have hcol : ∀ x : Vec 3, ∑ j, (∑ i, x i * axes i j) ^ 2 = ∑ i, x i ^ 2 := by
    intro x
    have r := hrow
    simp only [Fin.sum_univ_three] at r ⊢
    have r00 := r 0 0; have r01 := r 0 1; have r02 := r 0 2
    have r11 := r 1 1; have r12 := r 1 2; have r22 := r 2 2
    simp at r00 r01 r02 r11 r12 r22
    linear_combination x 0 ^ 2 * r00 + x 1 ^ 2 * r11 + x 2 ^ 2 * r22 + 2 * x 0 * x 1 * r01
      + 2 * x 0 * x 2 * r02 + 2 * x 1 * x 2 * r12
  have hmin : ∀ lon lat : ℝ, h 2 / h 2 ^ 2 ≤ binghamExponent (fun i => 1 / (h 2 ^ 2 / h i)) axes
      ![(Rotations.sph2cart lon lat).1, (Rotations.sph2cart lon lat).2.1,
        (Rotations.sph2cart lon lat).2.2] := by
    intro lon lat
    have hc := hcol ![(Rotations.sph2cart lon lat).1, (Rotations.sph2cart lon lat).2.1,
        (Rotations.sph2cart lon lat).2.2]
    have hu := unit lon lat
    set x : Vec 3 := ![(Rotations.sph2cart lon lat).1, (Rotations.sph2cart lon lat).2.1,
        (Rotations.sph2cart lon lat).2.2] with hx
    have hu' : ∑ i, x i ^ 2 = 1 := by simp [hx, Fin.sum_univ_three, hu]
    rw [hu'] at hc
    unfold binghamExponent
    have hb : ∀ j, h 2 / h 2 ^ 2 ≤ 1 / (h 2 ^ 2 / h j) := by
      intro j
      have hj : 0 < h j ∧ h 2 ≤ h j := by
        fin_cases j
        · exact ⟨h0', h02⟩
        · exact ⟨h1', h12⟩
        · exact ⟨h2, le_rfl⟩
      rw [hZ j hj.1]
      gcongr
      exact hj.2
    calc h 2 / h 2 ^ 2 = h 2 / h 2 ^ 2 * ∑ j, (∑ i, x i * axes i j) ^ 2 := by rw [hc, mul_one]
      _ = ∑ j, h 2 / h 2 ^ 2 * (∑ i, x i * axes i j) ^ 2 := by rw [Finset.mul_sum]
      _ ≤ _ := Finset.sum_le_sum fun j _ => mul_le_mul_of_nonneg_right (hb j) (sq_nonneg _)
  have hat : binghamExponent (fun i => 1 / (h 2 ^ 2 / h i)) axes (axes 2) = h 2 / h 2 ^ 2 := by
    have e : ∀ j, ∑ i, axes 2 i * axes i j = if (2 : Fin 3) = j then 1 else 0 := by
      intro j
      rw [← hrow 2 j]
      refine Finset.sum_congr rfl fun k _ => ?_
      rw [show axes k j = axes.transpose j k from rfl, hs]
    simp only [binghamExponent, e]
    rw [Fin.sum_univ_three]
    simp [hZ 2 h2]
  have hw : hyp1f1 (1 / (1 / (h 2 ^ 2 / h 0))) (1 / (1 / (h 2 ^ 2 / h 1))) (1 / (1 / (h 2 ^ 2 / h 2))) ≠ 0 :=
    (hpos _ _ _).ne'
  refine ⟨_, _, by simp only [binghamPdf, if_neg hne, if_neg hw]; rfl,
    by simp only [binghamPdf, if_neg hne, if_neg hw]; rfl, ?_⟩
  have hF : 0 < 1 / hyp1f1 (1 / (1 / (h 2 ^ 2 / h 0))) (1 / (1 / (h 2 ^ 2 / h 1)))
      (1 / (1 / (h 2 ^ 2 / h 2))) := one_div_pos.2 (hpos _ _ _)
  apply one_div_le_one_div_of_le
  · exact mul_pos hF (Real.exp_pos _)
  · apply mul_le_mul_of_nonneg_left _ hF.le
    apply Real.exp_le_exp.2
    rw [hn, hat]
    exact hmin lon lat

example : ∃ p p₀, binghamPdf (fun _ _ _ => 1) ![3, 2, 1] 1 0.3 0.4 = some p ∧
    binghamPdf (fun _ _ _ => 1) ![3, 2, 1] 1 0 (Real.pi / 2) = some p₀ ∧ p ≤ p₀ := by
  refine C137_mode_partial (fun _ _ _ => 1) (fun _ _ _ => one_pos) ![3, 2, 1] (by simp) (by simp)
    (by simp) 1 (by simp) (by simp) 0 (Real.pi / 2) ?_ 0.3 0.4
  funext j
  fin_cases j <;> simp [Rotations.sph2cart, Matrix.one_apply]

/-- ... and in general it is not: the axes are used as columns. -/
theorem C137_mode_false (hyp1f1 : ℝ → ℝ → ℝ → ℝ) (hpos : ∀ a b c, 0 < hyp1f1 a b c) :
    ∃ (h : Vec 3) (axes : Mat 3 3) (lon₀ lat₀ lon lat p p₀ : ℝ), axes * axes.transpose = 1 ∧
      0 < h 2 ∧ h 2 < h 1 ∧ h 1 < h 0 ∧
      ![(Rotations.sph2cart lon₀ lat₀).1, (Rotations.sph2cart lon₀ lat₀).2.1,
        (Rotations.sph2cart lon₀ lat₀).2.2] = axes 2 ∧
      binghamPdf hyp1f1 h axes lon lat = some p ∧
      binghamPdf hyp1f1 h axes lon₀ lat₀ = some p₀ ∧ p₀ < p := by
  have hw : ∀ a b c, hyp1f1 a b c ≠ 0 := fun a b c => (hpos a b c).ne'
  have e : ∀ lon lat : ℝ, binghamPdf hyp1f1 ![4, 2, 1] !![0, 1, 0; 0, 0, 1; 1, 0, 0] lon lat
      = some (1 / (1 / hyp1f1 (1 / (1 / (1 ^ 2 / 4))) (1 / (1 / (1 ^ 2 / 2))) (1 / (1 / (1 ^ 2 / 1)))
        * Real.exp (4 * (Rotations.sph2cart lon lat).2.2 ^ 2 + 2 * (Rotations.sph2cart lon lat).1 ^ 2
          + (Rotations.sph2cart lon lat).2.1 ^ 2))) := by
    intro lon lat
    have hne : ¬ ((![4, 2, 1] : Vec 3) 0 = 0 ∨ (![4, 2, 1] : Vec 3) 1 = 0 ∨ (![4, 2, 1] : Vec 3) 2 = 0) := by
      simp
    simp only [binghamPdf, if_neg hne, hw, if_false]
    simp [binghamExponent, Fin.sum_univ_three]
  refine ⟨![4, 2, 1], !![0, 1, 0; 0, 0, 1; 1, 0, 0], 0, 0, Real.pi / 2, 0, _, _, ?_, by simp, by simp,
    by simp; norm_num, ?_, e _ _, e _ _, ?_⟩
  · ext i j
    fin_cases i <;> fin_cases j <;> simp [Matrix.mul_apply, Fin.sum_univ_three]
  · funext j; fin_cases j <;> simp [Rotations.sph2cart]
  · have hF : 0 < 1 / hyp1f1 (1 / (1 / (1 ^ 2 / 4))) (1 / (1 / (1 ^ 2 / 2))) (1 / (1 / (1 ^ 2 / 1))) :=
      one_div_pos.2 (hpos _ _ _)
    apply one_div_lt_one_div_of_lt (mul_pos hF (Real.exp_pos _))
    apply mul_lt_mul_of_pos_left _ hF
    apply Real.exp_lt_exp.2
    simp [Rotations.sph2cart]

/-- The series for the normalisation is symmetric in its arguments, positive and
increasing with the number of terms for arguments that are not negative, and exact at
zero. -/
theorem C137_series (k1 k2 : ℝ) (n : ℕ) : hypergeometric k1 k2 n = hypergeometric k2 k1 n ∧
    (0 ≤ k1 → 0 ≤ k2 → hypergeometric k1 k2 n ≤ hypergeometric k1 k2 (n + 1)) ∧
    hypergeometric 0 0 (n + 1) = 2 * Real.sqrt Real.pi := by
  have gpos : ∀ i : ℕ, 0 < Real.Gamma (i + 0.5) := fun i => Real.Gamma_pos_of_pos (by positivity)
  have gpos' : ∀ i j : ℕ, 0 < Real.Gamma (i + j + 3 / 2) := fun i j => Real.Gamma_pos_of_pos (by positivity)
  refine ⟨?_, fun h1 h2 => ?_, ?_⟩
  · unfold hypergeometric
    rw [Finset.sum_comm]
    refine Finset.sum_congr rfl fun i _ => Finset.sum_congr rfl fun j _ => ?_
    rw [show (j : ℝ) + i + 3 / 2 = i + j + 3 / 2 by ring]
    ring
  · unfold hypergeometric
    have term : ∀ i j : ℕ, 0 ≤ Real.Gamma (i + 0.5) * Real.Gamma (j + 0.5) * k1 ^ i * k2 ^ j
        / (Real.Gamma (i + j + 3 / 2) * i.factorial * j.factorial) := by
      intro i j
      have := (gpos i).le
      have := (gpos j).le
      have := (gpos' i j).le
      positivity
    rw [Finset.sum_range_succ]
    have hin : ∀ i : ℕ, (∑ j ∈ Finset.range n, Real.Gamma (i + 0.5) * Real.Gamma (j + 0.5) * k1 ^ i * k2 ^ j
        / (Real.Gamma (i + j + 3 / 2) * i.factorial * j.factorial))
        ≤ ∑ j ∈ Finset.range (n + 1), Real.Gamma (i + 0.5) * Real.Gamma (j + 0.5) * k1 ^ i * k2 ^ j
        / (Real.Gamma (i + j + 3 / 2) * i.factorial * j.factorial) := by
      intro i
      rw [Finset.sum_range_succ]
      linarith [term i n]
    have h3 := Finset.sum_le_sum (s := Finset.range n) fun i _ => hin i
    have h4 : 0 ≤ ∑ j ∈ Finset.range (n + 1), Real.Gamma (n + 0.5) * Real.Gamma (j + 0.5) * k1 ^ n * k2 ^ j
        / (Real.Gamma (n + j + 3 / 2) * n.factorial * j.factorial) :=
      Finset.sum_nonneg fun j _ => term n j
    linarith
  · unfold hypergeometric
    rw [Finset.sum_eq_single_of_mem 0 (by simp), Finset.sum_eq_single_of_mem 0 (by simp)]
    · have g32 : Real.Gamma (3 / 2) = 1 / 2 * Real.sqrt Real.pi := by
        rw [show (3 / 2 : ℝ) = 1 / 2 + 1 by norm_num, Real.Gamma_add_one (by norm_num), Real.Gamma_one_half_eq]
      have hp : 0 < Real.sqrt Real.pi := Real.sqrt_pos.2 Real.pi_pos
      simp only [Nat.cast_zero, zero_add, pow_zero, mul_one, Nat.factorial_zero, Nat.cast_one, g32]
      rw [show (0.5 : ℝ) = 1 / 2 by norm_num, Real.Gamma_one_half_eq]
      field_simp
    · intro j _ hj
      simp [hj]
    · intro i _ hi
      apply Finset.sum_eq_zero
      intro j _
      simp [hi]

/-! ## C138 -/

/-- The grid: values in equal steps from -90 to 90 degrees in both directions. -/
theorem C138_grid (rows cols : ℕ) (hr : 2 ≤ rows) (hc : 2 ≤ cols) (n : ℕ) :
    (regularGrid n (some (rows, cols))).1 = (cols, rows) ∧
    (∀ i j, i < cols → j < rows →
      |((regularGrid n (some (rows, cols))).2 i j).1| ≤ Real.pi / 2 ∧
      |((regularGrid n (some (rows, cols))).2 i j).2| ≤ Real.pi / 2) ∧
    (regularGrid n (some (rows, cols))).2 0 0 = (-(Real.pi / 2), -(Real.pi / 2)) ∧
    (regularGrid n (some (rows, cols))).2 (cols - 1) (rows - 1) = (Real.pi / 2, Real.pi / 2) ∧
    (∀ i j, ((regularGrid n (some (rows, cols))).2 (i + 1) j).1
      - ((regularGrid n (some (rows, cols))).2 i j).1 = Real.pi / (cols - 1)) ∧
    (∀ i j, ((regularGrid n (some (rows, cols))).2 i (j + 1)).2
      - ((regularGrid n (some (rows, cols))).2 i j).2 = Real.pi / (rows - 1)) ∧
    (∀ i j, ((regularGrid n (some (rows, cols))).2 i j).1 = ((regularGrid n (some (rows, cols))).2 i 0).1
      ∧ ((regularGrid n (some (rows, cols))).2 i j).2 = ((regularGrid n (some (rows, cols))).2 0 j).2) ∧
    regularGrid n = regularGrid n (some (n, n)) := by
  have hpi := Real.pi_pos
  have bound : ∀ m k : ℕ, 2 ≤ m → k < m → |mgrid (-(Real.pi / 2)) (Real.pi / 2) m k| ≤ Real.pi / 2 := by
    intro m k hm hk
    have hm1 : (0 : ℝ) < m - 1 := by
      have : (2 : ℝ) ≤ m := by exact_mod_cast hm
      linarith
    have hk1 : (k : ℝ) ≤ m - 1 := by
      have : (k : ℝ) + 1 ≤ m := by exact_mod_cast hk
      linarith
    have hk0 : (0 : ℝ) ≤ k := Nat.cast_nonneg k
    have hq : (k : ℝ) / (m - 1) ≤ 1 := (div_le_one hm1).2 hk1
    have hq0 : 0 ≤ (k : ℝ) / (m - 1) := by positivity
    have e : mgrid (-(Real.pi / 2)) (Real.pi / 2) m k = -(Real.pi / 2) + k / (m - 1) * Real.pi := by
      simp only [mgrid, if_neg (show m ≠ 1 by omega)]
      field_simp
      ring
    rw [e, abs_le]
    constructor <;> nlinarith
  have last : ∀ m : ℕ, 2 ≤ m → mgrid (-(Real.pi / 2)) (Real.pi / 2) m (m - 1) = Real.pi / 2 := by
    intro m hm
    have hm1 : (m : ℝ) - 1 ≠ 0 := by
      have : (2 : ℝ) ≤ m := by exact_mod_cast hm
      intro h; linarith
    simp only [mgrid, if_neg (show m ≠ 1 by omega), Nat.cast_sub (show 1 ≤ m by omega), Nat.cast_one]
    field_simp
    ring
  refine ⟨rfl, fun i j hi hj => ⟨bound _ _ hc hi, bound _ _ hr hj⟩, ?_, ?_, fun i j => ?_,
    fun i j => ?_, fun i j => ⟨rfl, rfl⟩, rfl⟩
  · simp [regularGrid, mgrid]
  · simp only [regularGrid, Option.getD_some]
    rw [last _ hc, last _ hr]
  · simp only [regularGrid, Option.getD_some, mgrid, if_neg (show cols ≠ 1 by omega)]
    push_cast
    ring
  · simp only [regularGrid, Option.getD_some, mgrid, if_neg (show rows ≠ 1 by omega)]
    push_cast
    ring

example : (regularGrid 100 (some (3, 4))).1 = (4, 3) :=
  (C138_grid 3 4 (by norm_num) (by norm_num) 100).1

/-! ## C139 -/

/-- The distance is symmetric ... -/
theorem C139_symmetric_partial (u1 u2 : Vec 3) (s1 s2 : Mat 3 3) :
    bhattacharyya u1 u2 s1 s2 = bhattacharyya u2 u1 s2 s1 := by
  have e1 : (1 / 2 : ℝ) • (s2 + s1) = (1 / 2 : ℝ) • (s1 + s2) := by rw [add_comm]
  have e2 : u2 - u1 = -(u1 - u2) := by simp
  have e3 : ∀ M : Mat 3 3, (-(u1 - u2)) ⬝ᵥ M.mulVec (-(u1 - u2)) = (u1 - u2) ⬝ᵥ M.mulVec (u1 - u2) := by
    intro M
    rw [Matrix.mulVec_neg, neg_dotProduct_neg]
  have e4 : s2.det * s1.det = s1.det * s2.det := mul_comm _ _
  have e5 : ((∀ i, 0 < u2 i) ∧ (∀ i, 0 < u1 i) ∧ (∀ i, 0 < ∑ j, s2 i j) ∧ (∀ i, 0 < ∑ j, s1 i j))
      ↔ ((∀ i, 0 < u1 i) ∧ (∀ i, 0 < u2 i) ∧ (∀ i, 0 < ∑ j, s1 i j) ∧ (∀ i, 0 < ∑ j, s2 i j)) := by
    tauto
  unfold bhattacharyya
  simp only [e1, e2, e3, e4, e5]

/-- ... but not zero between a fit and itself, unless the determinant happens to be one. -/
theorem C139_self_false (u : Vec 3) (s : Mat 3 3) (hu : ∀ i, 0 < u i) (hs : ∀ i, 0 < ∑ j, s i j)
    (hd : 0 < s.det) : ∃ d, bhattacharyya u u s s = .ok (some d) ∧ (d = 0 ↔ s.det = 1) := by
  have hsig : (1 / 2 : ℝ) • (s + s) = s := by
    rw [← two_smul ℝ s, smul_smul]; norm_num
  have h1 : ¬ ¬ ((∀ i, 0 < u i) ∧ (∀ i, 0 < u i) ∧ (∀ i, 0 < ∑ j, s i j) ∧ (∀ i, 0 < ∑ j, s i j)) := by
    push Not; exact ⟨hu, hu, hs, hs⟩
  have h2 : ¬ (s.det * s.det = 0 ∨ s.det / (s.det * s.det) ≤ 0) := by
    push Not
    exact ⟨by positivity, by positivity⟩
  refine ⟨_, by
    unfold bhattacharyya
    simp only [hsig, if_neg h1, if_neg hd.ne', if_neg h2]
    rfl, ?_⟩
  have e : s.det / (s.det * s.det) = (s.det)⁻¹ := by field_simp
  simp only [sub_self, zero_dotProduct, mul_zero, zero_add, e, Real.log_inv]
  constructor
  · intro h
    have hl : Real.log s.det = 0 := by linarith
    exact Real.eq_one_of_pos_of_log_eq_zero hd hl
  · intro h; rw [h]; simp

/-- Fits to which this applies; the distance of this one to itself is negative. -/
example : ∃ s : Mat 3 3, (∀ i, 0 < ∑ j, s i j) ∧ 0 < s.det ∧ s.det ≠ 1 :=
  ⟨(2 : ℝ) • 1, by intro i; fin_cases i <;> simp [Matrix.one_apply], by simp, by
    simp only [Matrix.det_smul, Matrix.det_one]; norm_num⟩

/-! ## C140 -/

lemma recovered_of_fit {n : ℕ} (x y : Vec n) (g : Vec 3) (limit : ℝ) (r : Linear.Regression n)
    (P : Fin 3 → Vec n) (c : Vec 3) (hP : randomPlane x y g limit = .ok (P, c))
    (hr : Linear.initRows (fun i j => P j i) = .ok r) (k : Vec 3)
    (hk : (Linear.coefficients r).1 = .ok k) :
    k 0 = c 0 ∧ k 1 = c 1 ∧ c 0 = g 0 ∧ c 1 = g 1 ∧ c 2 = limit / 2 * g 2 := by
  simp only [randomPlane, makePlane] at hP
  have hP' := Except.ok.inj hP
  obtain ⟨rfl, rfl⟩ := Prod.mk.inj hP'
  obtain ⟨h1, h2, h3⟩ := C31_least_squares _ r hr k hk
  have zero : Spec.verticalSquares (fun i j => (![x, y, fun i => (![g 0 * 1, g 1 * 1, g 2 * (limit / 2)] : Vec 3) 0 * x i
      + (![g 0 * 1, g 1 * 1, g 2 * (limit / 2)] : Vec 3) 1 * y (Fin.cast rfl i)
      + (![g 0 * 1, g 1 * 1, g 2 * (limit / 2)] : Vec 3) 2] : Fin 3 → Vec n) j i) (g 0) (g 1) (g 2 * (limit / 2)) = 0 := by
    simp [Spec.verticalSquares]
  have hle := h2 (g 0) (g 1) (g 2 * (limit / 2))
  have heq := h3 (g 0) (g 1) (g 2 * (limit / 2)) (le_antisymm (by
    rw [zero]
    unfold Spec.verticalSquares
    exact Finset.sum_nonneg fun i _ => sq_nonneg _) hle)
  refine ⟨?_, ?_, by simp, by simp, by simp [mul_comm]⟩
  · rw [← heq.1]; simp
  · rw [← heq.2.1]; simp

/-- Regression of a synthetic plane gives the coefficients it was made with, whenever the
points are not on a line in map view. -/
theorem C140_recovered {n : ℕ} (x y : Vec n) (g : Vec 3) (limit : ℝ)
    (h : ¬ ∃ p q t : ℝ, (p ≠ 0 ∨ q ≠ 0) ∧ ∀ i, p * x i + q * y i = t) :
    ∃ P c r k, randomPlane x y g limit = .ok (P, c) ∧
      Linear.initRows (fun i j => P j i) = .ok r ∧ (Linear.coefficients r).1 = .ok k ∧
      k 0 = c 0 ∧ k 1 = c 1 ∧ c 0 = g 0 ∧ c 1 = g 1 ∧ c 2 = limit / 2 * g 2 ∧
      ∀ i, P 2 i = k 0 * P 0 i + k 1 * P 1 i + c 2 := by
  have h0 : n ≠ 0 := by
    rintro rfl
    exact h ⟨1, 0, 0, Or.inl one_ne_zero, fun i => i.elim0⟩
  obtain ⟨P, c, hP, hx, hy, hz⟩ : ∃ P c, randomPlane x y g limit = .ok (P, c) ∧ P 0 = x ∧ P 1 = y ∧
      ∀ i, P 2 i = c 0 * P 0 i + c 1 * P 1 i + c 2 :=
    ⟨_, _, by simp only [randomPlane, makePlane]; rfl, rfl, rfl, fun i => rfl⟩
  have hr : Linear.initRows (fun i j => P j i)
      = .ok (Linear.ofCentered (Coordinates.centered fun i j => P j i)) := by
    simp [Linear.initRows, h0]
  obtain ⟨k, hk⟩ := (C31_singular_iff _ _ hr).2.2 (by
    rintro ⟨p, q, t, hpq, e⟩
    exact h ⟨p, q, t, hpq, fun i => by rw [← hx, ← hy]; exact e i⟩)
  obtain ⟨k0, k1, c0, c1, c2⟩ := recovered_of_fit x y g limit _ P c hP hr k hk
  exact ⟨P, c, _, k, hP, hr, hk, k0, k1, c0, c1, c2, fun i => by rw [hz, k0, k1]⟩

example : ∃ P c, randomPlane ![0, 1, 0, 2] ![0, 0, 1, 5] ![0.5, -0.25, 3] 10 = .ok (P, c) := by
  obtain ⟨P, c, _, _, h, _⟩ := C140_recovered ![0, 1, 0, 2] ![0, 0, 1, 5] ![0.5, -0.25, 3] 10 (by
    rintro ⟨p, q, t, hpq, h⟩
    have h0 := h 0
    have h1 := h 1
    have h2 := h 2
    simp at h0 h1 h2
    subst h0
    rcases hpq with h' | h'
    · exact h' h1
    · exact h' h2)
  exact ⟨P, c, h⟩

/-- Without scatter the scattered plane is the exact one; coordinates are scattered in
proportion to their value, so that a coordinate of zero never changes. -/
theorem C140_scatter {n : ℕ} (x y : Vec n) (g : Vec 3) (noise : Fin 3 → Vec n) (limit s : ℝ) :
    scatteredPlane x y g noise limit 0 = randomPlane x y g limit ∧
    (∀ P j i, P j i = 0 → randomize P noise s j i = 0) ∧
    -- the default values
    (∃ P Q c, randomPlane x y g = .ok (P, c) ∧ scatteredPlane x y g noise = .ok (Q, c) ∧
      c = ![g 0, g 1, 50 * g 2] ∧ ∀ j i, Q j i - P j i = P j i * noise j i / 2 ∧
        (randomize P noise) j i - P j i = P j i * noise j i / 20) := by
  refine ⟨?_, ?_, ?_⟩
  · have hz : ∀ P : Fin 3 → Vec n, randomize P noise 0 = P := by
      intro P; funext j i; simp [randomize]
    unfold scatteredPlane
    simp only [hz]
    cases randomPlane x y g limit <;> rfl
  · intro P j i h; simp [randomize, h]
  · refine ⟨_, _, _, by simp only [randomPlane, makePlane]; rfl,
      by simp only [scatteredPlane, randomPlane, makePlane]; rfl, ?_, fun j i => ?_⟩
    · funext j
      fin_cases j <;> simp
      ring
    · constructor <;> simp only [randomize] <;> ring

/-- Different lengths are refused. -/
theorem C140_lengths {n m : ℕ} (h : n ≠ m) (x : Vec n) (y : Vec m) (c : Vec 3) :
    makePlane x y c = .error .valueError := by simp [makePlane, h]

/-- Points to which this applies. -/
example : ¬ ∃ p q t : ℝ, (p ≠ 0 ∨ q ≠ 0) ∧
    ∀ i, p * (![0, 1, 0] : Vec 3) i + q * (![0, 0, 1] : Vec 3) i = t := by
  rintro ⟨p, q, t, hpq, h⟩
  have h0 := h 0
  have h1 := h 1
  have h2 := h 2
  simp at h0 h1 h2
  rcases hpq with k | k <;> apply k <;> linarith

/-! ## C141 -/

/-- The value is a unit vector only for half turns and where the components happen to
cancel. -/
theorem C141_quaternion_false (v : Vec 3) (hv : Attitude.norm v = 1) (a : ℝ) :
    Attitude.norm (quaternion v a) = 1 ↔
      Real.cos (a / 2) = 0 ∨ Real.cos (a / 2) = -(Real.sin (a / 2) * (v 0 + v 1 + v 2)) := by
  have hv2 : v 0 ^ 2 + v 1 ^ 2 + v 2 ^ 2 = 1 := by
    have h := norm_sq' v
    rw [Fin.sum_univ_three] at h
    rw [hv] at h
    linarith
  have hs := Real.sin_sq_add_cos_sq (a / 2)
  set c := Real.cos (a / 2)
  set s := Real.sin (a / 2)
  have hsq : (c + v 0 * s) ^ 2 + (c + v 1 * s) ^ 2 + (c + v 2 * s) ^ 2
      = 1 + 2 * (c * (c + s * (v 0 + v 1 + v 2))) := by
    linear_combination s ^ 2 * hv2 + hs
  have hn : Attitude.norm (quaternion v a) = 1 ↔
      (c + v 0 * s) ^ 2 + (c + v 1 * s) ^ 2 + (c + v 2 * s) ^ 2 = 1 := by
    rw [norm3, Real.sqrt_eq_one]
    rfl
  rw [hn, hsq]
  constructor
  · intro h
    have : c * (c + s * (v 0 + v 1 + v 2)) = 0 := by linarith
    rcases mul_eq_zero.1 this with h | h
    · exact Or.inl h
    · exact Or.inr (by linarith)
  · rintro (h | h)
    · rw [h]; ring
    · rw [show c + s * (v 0 + v 1 + v 2) = 0 by linarith]; ring

example : Attitude.norm (quaternion ![1, 0, 0] (Real.pi / 2)) ≠ 1 := by
  have h1 : Attitude.norm (![1, 0, 0] : Vec 3) = 1 := by
    simp [Attitude.norm, Fin.sum_univ_three]
  rw [Ne, C141_quaternion_false _ h1, show Real.pi / 2 / 2 = Real.pi / 4 by ring,
    Real.cos_pi_div_four, Real.sin_pi_div_four]
  have h2 : 0 < Real.sqrt 2 := by positivity
  simp
  linarith

/-- No rotation is not represented by a unit quaternion. -/
theorem C141_identity_false (v : Vec 3) : Attitude.norm (quaternion v 0) = Real.sqrt 3 := by
  rw [norm3]
  norm_num [quaternion]

/-! ## C142 -/

/-- The design matrix of one variable: multiplied by slope and intercept it gives the
line. -/
theorem C142_line_partial {n : ℕ} (x : Vec n) (m b : ℝ) (i : Fin n) :
    (augmentColumn x).mulVec ![m, b] i = m * x i + b := by
  simp [augmentColumn, Matrix.mulVec, dotProduct, Fin.sum_univ_two]
  ring

/-- For two or more variables there is none. -/
theorem C142_table_false {n k : ℕ} (x : Mat n k) (h : 1 < n ∨ 1 < k) :
    augmentTable x = .error .valueError := by
  unfold augmentTable
  rw [dif_neg]
  omega

example : augmentTable (!![1, 2; 3, 4] : Mat 2 2) = .error .valueError :=
  C142_table_false _ (by norm_num)

/-- Error axes scaled to a confidence level: the ellipsoid with these axes is the one at
the quantile. -/
theorem C142_scale {k : ℕ} (ppf : ℝ → ℕ → ℝ) (cov : Vec k) (level : ℝ) (hq : 0 < ppf level k)
    (hc : ∀ i, 0 < cov i) (p : Vec k) :
    (∑ i, p i ^ 2 / (scaleErrors ppf cov level i) ^ 2 = 1) ↔
      ∑ i, p i ^ 2 / cov i = ppf level k := by
  have e : ∀ i, p i ^ 2 / (scaleErrors ppf cov level i) ^ 2 = (p i ^ 2 / cov i) / ppf level k := by
    intro i
    have := (hc i).ne'
    rw [scaleErrors, Real.sq_sqrt (mul_nonneg hq.le (hc i).le)]
    field_simp
  simp only [e, ← Finset.sum_div]
  rw [div_eq_one_iff_eq hq.ne']

example : (∑ i, (![3, 4] : Vec 2) i ^ 2 / (scaleErrors (fun _ _ => 2) ![9, 16] 0.95 i) ^ 2 = 1) ↔
    ∑ i, (![3, 4] : Vec 2) i ^ 2 / (![9, 16] : Vec 2) i = 2 :=
  C142_scale (fun _ _ => 2) ![9, 16] 0.95 (by norm_num) (fun i => by fin_cases i <;> simp) ![3, 4]

end Attitude.Props
