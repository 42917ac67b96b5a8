import Verif.Model.RoundedFit
import Verif.Props.Rounding
import Verif.Props.Stability

/-!
# Centering and fitting in floating-point arithmetic
-/

namespace Attitude.Props

open Attitude Rounding RoundedFit Pca Matrix

namespace Spec

/-- Each point enters each sum once. -/
def EachOnce {n : ℕ} (t : Fin 3 → SumTree n) : Prop := ∀ j, (t j).leaves.Perm (List.finRange n)

/-- The size of a matrix: the square root of the sum of the squares of its entries. -/
noncomputable def size {m : ℕ} (A : Mat m 3) : ℝ := Real.sqrt (∑ i, ∑ j, A i j ^ 2)

/-- What is known of the decomposition that the library computes for `m` points: its numbers can be represented and
are, up to a relative error of `η`, the exact decomposition of a matrix that differs from the given
one by a relative error of `η`. -/
def BackwardStable (rnd : ℝ → ℝ) (svd : FlSvd) (m : ℕ) (η : ℝ) : Prop :=
  ∀ A : Mat m 3, (∀ i j, rnd ((svd m A).2 i j) = (svd m A).2 i j) ∧
    ∃ (B U : Mat m 3) (s : Vec 3) (V : Mat 3 3), IsSVD B U s V ∧ size (B - A) ≤ η * size A ∧
      (∀ i, norm (fun j => (svd m A).2 i j - V i j) ≤ η) ∧ ∀ i, |(svd m A).1 i - s i| ≤ η * s 0

/-- The error of `n` centered points with coordinates of up to `R`, for sums of `h` additions one
after the other, and of their decomposition. -/
noncomputable def roundingError (n h : ℕ) (R η : ℝ) : ℝ :=
  Real.sqrt (3 * n) * R * (4 * (h + 2) * unit + 3 * η)

end Spec

/-! ## Sums -/

lemma tree_error {rnd : ℝ → ℝ} (F : Contract rnd) {n : ℕ} (x : Fin n → ℝ) (t : SumTree n) :
    |t.eval rnd x - (t.leaves.map x).sum|
      ≤ ((1 + unit) ^ t.depth - 1) * (t.leaves.map fun i => |x i|).sum := by
  have hu := unit_pos
  have habs : ∀ t : SumTree n, 0 ≤ (t.leaves.map fun i => |x i|).sum ∧
      |(t.leaves.map x).sum| ≤ (t.leaves.map fun i => |x i|).sum := by
    intro t
    induction t with
    | leaf i => simp [SumTree.leaves]
    | node l r hl hr =>
      simp only [SumTree.leaves, List.map_append, List.sum_append]
      exact ⟨add_nonneg hl.1 hr.1, (abs_add_le _ _).trans (add_le_add hl.2 hr.2)⟩
  induction t with
  | leaf i => simp [SumTree.eval, SumTree.leaves, SumTree.depth]
  | node l r hl hr =>
    simp only [SumTree.eval, SumTree.leaves, SumTree.depth, List.map_append, List.sum_append]
    obtain ⟨l0, l1⟩ := habs l
    obtain ⟨r0, r1⟩ := habs r
    set d := max l.depth r.depth
    set al := (l.leaves.map fun i => |x i|).sum
    set ar := (r.leaves.map fun i => |x i|).sum
    set sl := (l.leaves.map x).sum
    set sr := (r.leaves.map x).sum
    set L := l.eval rnd x
    set R := r.eval rnd x
    have hone : (1 : ℝ) ≤ 1 + unit := by linarith
    have pl : (1 + unit) ^ l.depth ≤ (1 + unit) ^ d := pow_le_pow_right₀ hone (le_max_left _ _)
    have pr : (1 + unit) ^ r.depth ≤ (1 + unit) ^ d := pow_le_pow_right₀ hone (le_max_right _ _)
    have hl' : |L - sl| ≤ ((1 + unit) ^ d - 1) * al :=
      hl.trans (mul_le_mul_of_nonneg_right (by linarith) l0)
    have hr' : |R - sr| ≤ ((1 + unit) ^ d - 1) * ar :=
      hr.trans (mul_le_mul_of_nonneg_right (by linarith) r0)
    have hrnd := F.rel (L + R)
    have hLR : |L + R| ≤ (1 + unit) ^ d * (al + ar) := by
      have e : L + R = (L - sl) + (R - sr) + (sl + sr) := by ring
      rw [e]
      refine (abs_add_le _ _).trans ((add_le_add (abs_add_le _ _) (abs_add_le _ _)).trans ?_)
      linarith
    have e : rnd (L + R) - (sl + sr) = (rnd (L + R) - (L + R)) + ((L - sl) + (R - sr)) := by ring
    rw [e]
    refine (abs_add_le _ _).trans ((add_le_add hrnd (abs_add_le _ _)).trans ?_)
    have := mul_le_mul_of_nonneg_left hLR hu.le
    rw [pow_succ]
    linarith

lemma leaves_sum {n : ℕ} {t : SumTree n} (h : t.leaves.Perm (List.finRange n)) (x : Fin n → ℝ) :
    (t.leaves.map x).sum = ∑ i, x i := by
  rw [Fin.sum_univ_def]
  exact (h.map x).sum_eq

lemma pow_unit_le (k : ℕ) (h : (k : ℝ) * unit ≤ 1 / 2) : (1 + unit) ^ k - 1 ≤ 2 * k * unit := by
  have hu := unit_pos
  induction k with
  | zero => simp
  | succ k ih =>
    have hk : (k : ℝ) * unit ≤ 1 / 2 := by
      refine le_trans ?_ h
      push_cast
      nlinarith
    have := ih hk
    rw [pow_succ]
    push_cast
    nlinarith

/-! ## C201 -/

lemma centered_error {rnd : ℝ → ℝ} (F : Contract rnd) {n : ℕ} (t : Fin 3 → SumTree n)
    (ht : Spec.EachOnce t) (a : Fin n → Vec 3) (j : Fin 3) (R : ℝ) (hR : ∀ k, |a k j| ≤ R) (h : ℕ)
    (hd : (t j).depth ≤ h) (i : Fin n) :
    |flCentered rnd t a i j - Coordinates.centered a i j| ≤ 2 * R * ((1 + unit) ^ (h + 2) - 1) := by
  have hu := unit_pos
  have hn : (0 : ℝ) < n := by exact_mod_cast Fin.pos i
  have hR0 : 0 ≤ R := (abs_nonneg _).trans (hR i)
  have h1 := tree_error F (fun k => a k j) (t j)
  rw [leaves_sum (ht j), leaves_sum (ht j)] at h1
  have hone : (1 : ℝ) ≤ 1 + unit := by linarith
  have hp : (1 + unit) ^ (t j).depth ≤ (1 + unit) ^ h := pow_le_pow_right₀ hone hd
  have hp1 : (1 : ℝ) ≤ (1 + unit) ^ h := one_le_pow₀ hone
  have hsum : ∑ k, |a k j| ≤ n * R := by
    calc ∑ k, |a k j| ≤ ∑ _k : Fin n, R := Finset.sum_le_sum fun k _ => hR k
      _ = n * R := by simp
  have hsum0 : 0 ≤ ∑ k, |a k j| := Finset.sum_nonneg fun k _ => abs_nonneg _
  set S := (t j).eval rnd (fun k => a k j)
  set T := ∑ k, a k j
  have hT : |T| ≤ n * R := (Finset.abs_sum_le_sum_abs _ _).trans hsum
  set p := (1 + unit) ^ h
  have h2 : |S - T| ≤ (p - 1) * (n * R) := by
    refine h1.trans ?_
    calc ((1 + unit) ^ (t j).depth - 1) * ∑ k, |a k j| ≤ (p - 1) * ∑ k, |a k j| :=
          mul_le_mul_of_nonneg_right (by linarith) hsum0
      _ ≤ (p - 1) * (n * R) := mul_le_mul_of_nonneg_left hsum (by linarith)
  have h3 : |S / n - T / n| ≤ (p - 1) * R := by
    rw [← sub_div, abs_div, abs_of_pos hn, div_le_iff₀ hn]
    linarith
  have hT' : |T / n| ≤ R := by
    rw [abs_div, abs_of_pos hn, div_le_iff₀ hn]
    linarith
  have hS : |S / n| ≤ p * R := by
    have e : S / n = (S / n - T / n) + T / n := by ring
    rw [e]
    refine (abs_add_le _ _).trans ?_
    linarith
  have h4 := F.rel (S / n)
  have hm : |rnd (S / n) - T / n| ≤ ((1 + unit) * p - 1) * R := by
    have e : rnd (S / n) - T / n = (rnd (S / n) - S / n) + (S / n - T / n) := by ring
    rw [e]
    refine (abs_add_le _ _).trans ?_
    have := mul_le_mul_of_nonneg_left hS hu.le
    linarith
  set M := rnd (S / n)
  have hM : |a i j - M| ≤ R + (1 + unit) * p * R := by
    have e : a i j - M = a i j - ((M - T / n) + T / n) := by ring
    rw [e]
    refine (abs_sub _ _).trans ?_
    have := (abs_add_le (M - T / n) (T / n)).trans (add_le_add hm hT')
    linarith [hR i]
  have h5 := F.rel (a i j - M)
  have e : flCentered rnd t a i j - Coordinates.centered a i j =
      (rnd (a i j - M) - (a i j - M)) - (M - T / n) := by
    simp only [flCentered, flMean, Coordinates.centered, meanRows, M, S, T]
    ring
  rw [e]
  refine (abs_sub _ _).trans ?_
  have h6 := mul_le_mul_of_nonneg_left hM hu.le
  have h7 : (1 + unit) ^ (h + 2) = (1 + unit) * ((1 + unit) * p) := by
    rw [pow_add]; ring
  rw [h7]
  have hq : 1 ≤ (1 + unit) * p := by nlinarith
  set q := (1 + unit) * p
  nlinarith [mul_nonneg hR0 (sub_nonneg.2 hq), mul_nonneg (mul_nonneg hR0 hu.le) (sub_nonneg.2 hq),
    mul_nonneg hR0 hu.le]

/-- In whatever order the coordinates are added, the centered coordinates are those of exact
arithmetic (the points moved so that their mean is the origin) up to a few roundings of the largest
coordinate. -/
theorem C201_centered_partial (rnd : ℝ → ℝ) (F : Contract rnd) {n : ℕ} (t : Fin 3 → SumTree n)
    (ht : Spec.EachOnce t) (a b : Fin n → Vec 3) (hb : Spec.ZeroMean b) (hs : Spec.SameShape a b)
    (j : Fin 3) (R : ℝ) (hR : ∀ k, |a k j| ≤ R) (h : ℕ) (hd : (t j).depth ≤ h) (hh : h + 2 ≤ 2 ^ 52)
    (i : Fin n) :
    |flCentered rnd t a i j - b i j| ≤ 4 * (h + 2) * unit * R := by
  rw [← C01_centered_unique a b hb hs]
  refine (centered_error F t ht a j R hR h hd i).trans ?_
  have hR0 : 0 ≤ R := (abs_nonneg _).trans (hR i)
  have hu := unit_pos
  have hk : ((h + 2 : ℕ) : ℝ) * unit ≤ 1 / 2 := by
    have h1 : ((h + 2 : ℕ) : ℝ) ≤ 2 ^ 52 := by exact_mod_cast hh
    calc ((h + 2 : ℕ) : ℝ) * unit ≤ 2 ^ 52 * unit := mul_le_mul_of_nonneg_right h1 hu.le
      _ = 1 / 2 := by unfold unit; norm_num
  have := pow_unit_le (h + 2) hk
  push_cast at this
  nlinarith

/-- Four points in UTM coordinates, added one after the other. -/
example : Spec.EachOnce (n := 4) (fun _ => .node (.node (.node (.leaf 0) (.leaf 1)) (.leaf 2)) (.leaf 3)) ∧
    (SumTree.node (.node (.node (.leaf 0) (.leaf 1)) (.leaf 2)) (.leaf (3 : Fin 4))).depth ≤ 3 ∧
    (∀ k, |(![![466123.25, 5412345.5, 1200], ![466130, 5412340, 1203.25], ![466127, 5412351, 1198.5],
      ![466119.75, 5412343, 1201]] : Fin 4 → Vec 3) k 1| ≤ 6000000) := by
  refine ⟨fun _ => by simp only [SumTree.leaves]; decide, by decide, fun k => ?_⟩
  fin_cases k <;> simp only [Matrix.cons_val, Fin.reduceFinMk, Matrix.cons_val_zero, Matrix.cons_val_one,
    Fin.zero_eta, Fin.mk_one] <;> norm_num

lemma tree_exact {rnd : ℝ → ℝ} (F : Contract rnd) {n : ℕ} (x : Fin n → ℤ) (t : SumTree n)
    (h : (t.leaves.map fun i => |x i|).sum ≤ 2 ^ 53) :
    t.eval rnd (fun i => (x i : ℝ)) = ((t.leaves.map x).sum : ℤ) ∧
      |(t.leaves.map x).sum| ≤ (t.leaves.map fun i => |x i|).sum := by
  have hpos : ∀ t : SumTree n, 0 ≤ (t.leaves.map fun i => |x i|).sum := fun t =>
    List.sum_nonneg (by simp only [List.mem_map]; rintro _ ⟨i, -, rfl⟩; exact abs_nonneg _)
  induction t with
  | leaf i => simp [SumTree.eval, SumTree.leaves]
  | node l r hl hr =>
    simp only [SumTree.leaves, List.map_append, List.sum_append, SumTree.eval] at h ⊢
    have h1 := hpos l
    have h2 := hpos r
    obtain ⟨l1, l2⟩ := hl (by linarith)
    obtain ⟨r1, r2⟩ := hr (by linarith)
    have h3 := (abs_add_le _ _).trans (add_le_add l2 r2)
    refine ⟨?_, h3⟩
    rw [l1, r1, ← Int.cast_add, F.int _ (h3.trans h)]

/-- Integer coordinates whose mean is an integer are centered exactly. -/
theorem C201_integers (rnd : ℝ → ℝ) (F : Contract rnd) {n : ℕ} (t : Fin 3 → SumTree n)
    (ht : Spec.EachOnce t) (a b : Fin n → Vec 3) (hb : Spec.ZeroMean b) (hs : Spec.SameShape a b)
    (j : Fin 3) (x : Fin n → ℤ) (m : ℤ) (hx : ∀ k, a k j = x k) (hm : ∑ k, x k = n * m)
    (hsmall : ∑ k, |x k| ≤ 2 ^ 52) (i : Fin n) :
    flCentered rnd t a i j = b i j := by
  rw [← C01_centered_unique a b hb hs]
  have hn : (n : ℝ) ≠ 0 := by
    have : 0 < n := Fin.pos i
    positivity
  have hz : ∀ f : Fin n → ℤ, ((t j).leaves.map f).sum = ∑ k, f k := fun f => by
    rw [Fin.sum_univ_def]
    exact ((ht j).map f).sum_eq
  have h1 := (tree_exact F x (t j) (by rw [hz]; linarith)).1
  rw [hz, hm] at h1
  have ha : (fun k => a k j) = fun k => (x k : ℝ) := funext hx
  have e1 : (t j).eval rnd (fun k => a k j) / n = (m : ℤ) := by
    rw [ha, h1]
    push_cast
    field_simp
  have hxi : |x i| ≤ 2 ^ 52 :=
    (Finset.single_le_sum (f := fun k => |x k|) (fun k _ => abs_nonneg (x k)) (Finset.mem_univ i)).trans hsmall
  have hmm : |m| ≤ 2 ^ 52 := by
    have h2 : |∑ k, x k| ≤ 2 ^ 52 := (Finset.abs_sum_le_sum_abs _ _).trans hsmall
    rw [hm, abs_mul] at h2
    have h3 : (1 : ℤ) ≤ |(n : ℤ)| := by
      have : 0 < n := Fin.pos i
      rw [abs_of_pos (by exact_mod_cast this)]
      exact_mod_cast this
    nlinarith [abs_nonneg m]
  have e2 : meanRows a j = m := by
    simp only [meanRows]
    have : ∑ k, a k j = ((n * m : ℤ) : ℝ) := by
      rw [← hm, Int.cast_sum]
      exact Finset.sum_congr rfl fun k _ => hx k
    rw [this]
    push_cast
    field_simp
  simp only [flCentered, flMean, Coordinates.centered, e1, e2, hx i]
  rw [F.int m (by linarith), ← Int.cast_sub, F.int]
  have := abs_sub (x i) m
  linarith

example : ∃ m : ℤ, ∑ k, (![466123, 466130, 466127, 466120] : Fin 4 → ℤ) k = (4 : ℕ) * m ∧
    ∑ k, |(![466123, 466130, 466127, 466120] : Fin 4 → ℤ) k| ≤ 2 ^ 52 :=
  ⟨466125, by decide, by decide⟩

/-- Rounding, from the binade of a number. -/
lemma roundPos_binade {x : ℝ} {e : ℤ} (h1 : (2 : ℝ) ^ e ≤ x) (h2 : x < 2 ^ (e + 1)) (k : ℤ)
    (h3 : (k : ℝ) ≤ x / 2 ^ (e - 52) + 1 / 2) (h4 : x / 2 ^ (e - 52) + 1 / 2 < k + 1) :
    round53 x = k * 2 ^ (e - 52) := by
  have hx : 0 < x := lt_of_lt_of_le (by positivity) h1
  have hl : Int.log 2 x = e := by
    apply le_antisymm
    · rw [← Int.lt_add_one_iff]
      exact (Int.lt_zpow_iff_log_lt (b := 2) (by norm_num) hx).1 (by exact_mod_cast h2)
    · exact (Int.zpow_le_iff_le_log (b := 2) (by norm_num) hx).1 (by exact_mod_cast h1)
  rw [round53, if_pos hx, roundPos, hl,
    Int.floor_eq_iff.2 ⟨h3, h4⟩]

lemma leaves_ne_nil {n : ℕ} (t : SumTree n) : 1 ≤ t.leaves.length := by
  induction t with
  | leaf i => simp [SumTree.leaves]
  | node l r hl hr => simp only [SumTree.leaves, List.length_append]; omega

lemma eval_one {n : ℕ} (t : SumTree n) (h : t.leaves.length = 1) (rnd : ℝ → ℝ) (x : ℝ) :
    t.eval rnd (fun _ => x) = x := by
  cases t with
  | leaf i => rfl
  | node l r =>
    simp only [SumTree.leaves, List.length_append] at h
    have := leaves_ne_nil l
    have := leaves_ne_nil r
    omega

lemma eval_two {n : ℕ} (t : SumTree n) (h : t.leaves.length = 2) (rnd : ℝ → ℝ) (x : ℝ) :
    t.eval rnd (fun _ => x) = rnd (x + x) := by
  cases t with
  | leaf i => simp [SumTree.leaves] at h
  | node l r =>
    simp only [SumTree.leaves, List.length_append] at h
    have := leaves_ne_nil l
    have := leaves_ne_nil r
    simp only [SumTree.eval]
    rw [eval_one l (by omega), eval_one r (by omega)]

lemma eval_three {n : ℕ} (t : SumTree n) (h : t.leaves.length = 3) (rnd : ℝ → ℝ) (x : ℝ) :
    t.eval rnd (fun _ => x) = rnd (rnd (x + x) + x) := by
  cases t with
  | leaf i => simp [SumTree.leaves] at h
  | node l r =>
    simp only [SumTree.leaves, List.length_append] at h
    have := leaves_ne_nil l
    have := leaves_ne_nil r
    simp only [SumTree.eval]
    rcases (show l.leaves.length = 1 ∨ l.leaves.length = 2 by omega) with h' | h'
    · rw [eval_one l h', eval_two r (by omega), add_comm]
    · rw [eval_two l h', eval_one r (by omega)]

/-- Three points of the same elevation, 0.1 (the closest number that can be represented): whatever
the order of the sum, their centered elevation is not zero but -2⁻⁵⁶. -/
theorem C201_constant_false (t : Fin 3 → SumTree 3) (ht : Spec.EachOnce t) (a b : Fin 3 → Vec 3)
    (hz : ∀ i, a i 2 = 3602879701896397 / 2 ^ 55) (hb : Spec.ZeroMean b) (hs : Spec.SameShape a b)
    (i : Fin 3) :
    round53 (a i 2) = a i 2 ∧ b i 2 = 0 ∧ flCentered round53 t a i 2 = -(1 / 2 ^ 56) := by
  refine ⟨?_, ?_, ?_⟩
  · rw [hz, roundPos_binade (e := -4) (by norm_num) (by norm_num) 7205759403792794 (by norm_num)
      (by norm_num)]
    norm_num
  · have h0 := hb 2
    have h1 := hs i 0 2
    have h2 := hs i 1 2
    have h3 := hs i 2 2
    rw [hz, hz] at h1 h2 h3
    rw [Fin.sum_univ_three] at h0
    linarith
  · have hlen : (t 2).leaves.length = 3 := by rw [(ht 2).length_eq]; rfl
    have e : (fun k => a k 2) = fun _ => (3602879701896397 / 2 ^ 55 : ℝ) := funext hz
    have h2 : round53 (3602879701896397 / 2 ^ 55 + 3602879701896397 / 2 ^ 55) =
        3602879701896397 / 2 ^ 54 := by
      rw [roundPos_binade (e := -3) (by norm_num) (by norm_num) 7205759403792794 (by norm_num)
        (by norm_num)]
      norm_num
    have h3 : round53 (3602879701896397 / 2 ^ 54 + 3602879701896397 / 2 ^ 55) =
        5404319552844596 / 2 ^ 54 := by
      rw [roundPos_binade (e := -2) (by norm_num) (by norm_num) 5404319552844596 (by norm_num)
        (by norm_num)]
      norm_num
    have h4 : round53 (5404319552844596 / 2 ^ 54 / (3 : ℕ)) = 7205759403792795 / 2 ^ 56 := by
      rw [roundPos_binade (e := -4) (by norm_num) (by norm_num) 7205759403792795 (by norm_num)
        (by norm_num)]
      norm_num
    simp only [flCentered, flMean]
    rw [e, eval_three (t 2) hlen, h2, h3, h4, hz,
      show (3602879701896397 / 2 ^ 55 - 7205759403792795 / 2 ^ 56 : ℝ) = -(1 / 2 ^ 56) by norm_num,
      round53_neg, roundPos_binade (e := -56) (by norm_num) (by norm_num) (2 ^ 52) (by norm_num)
        (by norm_num)]
    norm_num

/-- Such points. -/
example : ∃ a b : Fin 3 → Vec 3, (∀ i, a i 2 = 3602879701896397 / 2 ^ 55) ∧ Spec.ZeroMean b ∧
    Spec.SameShape a b :=
  ⟨![![0, 0, 3602879701896397 / 2 ^ 55], ![3, 0, 3602879701896397 / 2 ^ 55],
      ![0, 3, 3602879701896397 / 2 ^ 55]], ![![-1, -1, 0], ![2, -1, 0], ![-1, 2, 0]],
    fun i => by fin_cases i <;> simp, fun j => by fin_cases j <;> simp [Fin.sum_univ_three] <;> norm_num,
    fun i i' j => by fin_cases i <;> fin_cases i' <;> fin_cases j <;> simp <;> norm_num⟩

/-! ## C202 -/

/-- How much the projections on a direction differ for two matrices. -/
lemma projections_size {m : ℕ} (A B : Mat m 3) (w : Vec 3) (hw : ∑ j, w j ^ 2 = 1) :
    norm (A *ᵥ w) ≤ norm (B *ᵥ w) + Spec.size (A - B) := by
  have e : A *ᵥ w = fun i => (B *ᵥ w) i + ∑ j, (A i j - B i j) * w j := by
    funext i
    simp only [Matrix.mulVec, dotProduct, ← Finset.sum_add_distrib]
    exact Finset.sum_congr rfl fun j _ => by ring
  rw [e]
  refine (norm_add_le' _ _).trans (add_le_add le_rfl ?_)
  unfold norm Spec.size
  apply Real.sqrt_le_sqrt
  apply Finset.sum_le_sum
  intro i _
  have := Finset.sum_mul_sq_le_sq_mul_sq Finset.univ (fun j => A i j - B i j) w
  rwa [hw, mul_one] at this

lemma size_comm {m : ℕ} (A B : Mat m 3) : Spec.size (A - B) = Spec.size (B - A) := by
  unfold Spec.size
  congr 1
  refine Finset.sum_congr rfl fun i _ => Finset.sum_congr rfl fun j _ => ?_
  simp only [Matrix.sub_apply]
  ring

lemma size_add_le {m : ℕ} (A B : Mat m 3) : Spec.size (A + B) ≤ Spec.size A + Spec.size B := by
  have key : ∀ C : Mat m 3, Spec.size C = ‖WithLp.toLp 2 (fun p : Fin m × Fin 3 => C p.1 p.2)‖ := by
    intro C
    rw [EuclideanSpace.norm_eq, Spec.size, Fintype.sum_prod_type]
    simp
  rw [key, key, key]
  exact norm_add_le (WithLp.toLp 2 (fun p : Fin m × Fin 3 => A p.1 p.2))
    (WithLp.toLp 2 (fun p : Fin m × Fin 3 => B p.1 p.2))

lemma size_le {m : ℕ} (A : Mat m 3) (c : ℝ) (hc : 0 ≤ c) (h : ∀ i j, |A i j| ≤ c) :
    Spec.size A ≤ Real.sqrt (3 * m) * c := by
  have e : Real.sqrt (3 * m) * c = Real.sqrt (3 * m * c ^ 2) := by
    rw [Real.sqrt_mul (by positivity : (0 : ℝ) ≤ 3 * m) (c ^ 2), Real.sqrt_sq hc]
  rw [e, Spec.size]
  apply Real.sqrt_le_sqrt
  calc ∑ i, ∑ j, A i j ^ 2 ≤ ∑ _i : Fin m, ∑ _j : Fin 3, c ^ 2 :=
        Finset.sum_le_sum fun i _ => Finset.sum_le_sum fun j _ => by
          rw [← sq_abs]
          exact pow_le_pow_left₀ (abs_nonneg _) (h i j) 2
    _ = 3 * m * c ^ 2 := by simp; ring

/-- The last axes of two matrices. -/
lemma tilt_matrix {m : ℕ} {A B U U' : Mat m 3} {s s' : Vec 3} {V V' : Mat 3 3} (h : IsSVD A U s V)
    (h' : IsSVD B U' s' V') (D : ℝ) (hD : Spec.size (A - B) ≤ D) :
    (s 1 ^ 2 - s 2 ^ 2) * (1 - ((V *ᵥ V' 2) 2) ^ 2) ≤ 4 * D * (s 2 + D) := by
  have h1 := sum_sq_ge h (V' 2) (row_sq h' 2)
  have h2 := projections_size A B (V' 2) (row_sq h' 2)
  rw [norm_row h' 2] at h2
  have h3 : s' 2 ≤ s 2 + D := by
    have h3 := h'.optimal (V 2)
    rw [row_sq h 2, mul_one] at h3
    have h4 := projections_size B A (V 2) (row_sq h 2)
    rw [norm_row h 2, size_comm] at h4
    have h5 : s' 2 ≤ norm (B *ᵥ V 2) := Real.le_sqrt_of_sq_le h3
    linarith
  have h5 : norm (A *ᵥ V' 2) ≤ s 2 + 2 * D := by linarith
  have h6 := pow_le_pow_left₀ (norm_nonneg' _) h5 2
  rw [norm_sq'] at h6
  nlinarith

/-- The singular values of two matrices. -/
lemma singular_matrix_le {m : ℕ} {A B U U' : Mat m 3} {s s' : Vec 3} {V V' : Mat 3 3} (h : IsSVD A U s V)
    (h' : IsSVD B U' s' V') (i : Fin 3) : s i ≤ s' i + Spec.size (A - B) := by
  have key : ∀ w : Vec 3, ∑ j, w j ^ 2 = 1 → s i ^ 2 ≤ ∑ k, (A *ᵥ w) k ^ 2 →
      ∑ k, (B *ᵥ w) k ^ 2 ≤ s' i ^ 2 → s i ≤ s' i + Spec.size (A - B) := by
    intro w hw h1 h2
    have h3 := projections_size A B w hw
    have h4 : s i ≤ norm (A *ᵥ w) := Real.le_sqrt_of_sq_le h1
    have h5 : norm (B *ᵥ w) ≤ s' i := by
      rw [norm, ← Real.sqrt_sq (h'.nonneg' i)]
      exact Real.sqrt_le_sqrt h2
    linarith
  fin_cases i
  · refine key (V 0) (row_sq h 0) (h.sum_sq_row 0).ge ?_
    have := h'.upper (V 0)
    rwa [row_sq h 0, mul_one] at this
  · obtain ⟨w, hw, h1, h2⟩ := middle_le h h'
    exact key w hw h1 h2
  · refine key (V' 2) (row_sq h' 2) ?_ (h'.sum_sq_row 2).le
    have := h.optimal (V' 2)
    rwa [row_sq h' 2, mul_one] at this

lemma singular_matrix {m : ℕ} {A B U U' : Mat m 3} {s s' : Vec 3} {V V' : Mat 3 3} (h : IsSVD A U s V)
    (h' : IsSVD B U' s' V') (i : Fin 3) : |s i - s' i| ≤ Spec.size (A - B) := by
  have h1 := singular_matrix_le h h' i
  have h2 := singular_matrix_le h' h i
  rw [size_comm] at h2
  rw [abs_sub_le_iff]
  constructor <;> linarith

lemma sine_sq {u v : Vec 3} (hu : norm u = 1) (hv : norm v = 1) :
    Spec.sineBetween u v = norm (fun i => u i - vdot u v * v i) := by
  have hu' : u 0 ^ 2 + u 1 ^ 2 + u 2 ^ 2 = 1 := by
    have := norm_sq' u; rw [hu, Fin.sum_univ_three] at this; linarith
  have hv' : v 0 ^ 2 + v 1 ^ 2 + v 2 ^ 2 = 1 := by
    have := norm_sq' v; rw [hv, Fin.sum_univ_three] at this; linarith
  unfold Spec.sineBetween norm
  congr 1
  rw [Fin.sum_univ_three]
  simp only [vdot, Fin.sum_univ_three]
  linear_combination (-1) * hu' - (u 0 * v 0 + u 1 * v 1 + u 2 * v 2) ^ 2 * hv'

lemma reject_le (z v : Vec 3) (hv : norm v = 1) : norm (fun i => z i - vdot z v * v i) ≤ norm z := by
  have hv' : v 0 ^ 2 + v 1 ^ 2 + v 2 ^ 2 = 1 := by
    have := norm_sq' v; rw [hv, Fin.sum_univ_three] at this; linarith
  unfold norm
  apply Real.sqrt_le_sqrt
  rw [Fin.sum_univ_three, Fin.sum_univ_three]
  simp only [vdot, Fin.sum_univ_three]
  have e : (z 0 - (z 0 * v 0 + z 1 * v 1 + z 2 * v 2) * v 0) ^ 2 +
      (z 1 - (z 0 * v 0 + z 1 * v 1 + z 2 * v 2) * v 1) ^ 2 +
      (z 2 - (z 0 * v 0 + z 1 * v 1 + z 2 * v 2) * v 2) ^ 2 =
      z 0 ^ 2 + z 1 ^ 2 + z 2 ^ 2 - (z 0 * v 0 + z 1 * v 1 + z 2 * v 2) ^ 2 := by
    linear_combination (z 0 * v 0 + z 1 * v 1 + z 2 * v 2) ^ 2 * hv'
  rw [e]
  nlinarith [sq_nonneg (z 0 * v 0 + z 1 * v 1 + z 2 * v 2)]

/-- The sine of the angle between planes changes by at most the change of the normal. -/
lemma sine_le {u u' v : Vec 3} (hu : norm u = 1) (hu' : norm u' = 1) (hv : norm v = 1) :
    Spec.sineBetween u v ≤ Spec.sineBetween u' v + norm (fun i => u i - u' i) := by
  rw [sine_sq hu hv, sine_sq hu' hv]
  have e : (fun i => u i - vdot u v * v i) = fun i => (u' i - vdot u' v * v i) +
      ((u i - u' i) - vdot (fun i => u i - u' i) v * v i) := by
    funext i
    simp only [vdot, Fin.sum_univ_three]
    ring
  rw [e]
  exact (norm_add_le' _ _).trans (add_le_add le_rfl (reject_le _ v hv))

lemma sine_neg_right (u v : Vec 3) : Spec.sineBetween u (-v) = Spec.sineBetween u v := by
  unfold Spec.sineBetween
  simp only [Pi.neg_apply]
  congr 1
  ring

lemma sine_sign (σ : ℝ) (hσ : σ = 1 ∨ σ = -1) (u v : Vec 3) :
    Spec.sineBetween (fun i => σ * u i) v = Spec.sineBetween u v := by
  unfold Spec.sineBetween
  congr 1
  rcases hσ with h | h <;> subst h <;> ring

lemma norm_sub_triangle (u v w : Vec 3) :
    norm (fun i => u i - w i) ≤ norm (fun i => u i - v i) + norm (fun i => v i - w i) := by
  have := norm_add_le' (fun i => u i - v i) (fun i => v i - w i)
  simpa using this

lemma norm_smul' (c : ℝ) (v : Vec 3) : norm (fun i => c * v i) = |c| * norm v := by
  unfold norm
  simp only [mul_pow, ← Finset.mul_sum]
  rw [Real.sqrt_mul (sq_nonneg c), Real.sqrt_sq_eq_abs]

/-- A vector close to a unit vector, made a unit vector. -/
lemma unit_close {v w : Vec 3} (hw : norm w = 1) {η : ℝ} (h : norm (fun i => v i - w i) ≤ η) (hη : η < 1) :
    0 < norm v ∧ norm (fun i => v i / norm v - w i) ≤ 2 * η := by
  have h1 : norm w ≤ norm v + norm (fun i => v i - w i) := by
    have := norm_add_le' v (fun i => -(v i - w i))
    have e : (fun i => v i + -(v i - w i)) = w := by funext i; ring
    have e' : norm (fun i => -(v i - w i)) = norm (fun i => v i - w i) := by
      unfold norm; simp only [neg_sq]
    rwa [e, e'] at this
  have h2 : norm v ≤ norm w + norm (fun i => v i - w i) := by
    have := norm_add_le' w (fun i => v i - w i)
    simpa using this
  rw [hw] at h1 h2
  have hpos : 0 < norm v := by linarith
  refine ⟨hpos, ?_⟩
  have h3 : norm (fun i => v i / norm v - v i) ≤ η := by
    have e : (fun i => v i / norm v - v i) = fun i => (1 / norm v - 1) * v i := by
      funext i; ring
    rw [e, norm_smul']
    have e2 : |1 / norm v - 1| * norm v = |1 - norm v| := by
      rw [← abs_of_pos hpos, ← abs_mul, abs_of_pos hpos]
      congr 1
      field_simp
    rw [e2, abs_le]
    constructor <;> linarith
  have := norm_sub_triangle (fun i => v i / norm v) v w
  linarith

/-- The decomposition of the rounded points is the exact one of points moved by little. -/
lemma rounded_fit {rnd : ℝ → ℝ} (F : Contract rnd) {svd' : FlSvd} {η : ℝ} (hη : 0 ≤ η)
    {n : ℕ} (hstable : Spec.BackwardStable rnd svd' n η) (h3 : 3 ≤ n) (t : Fin 3 → SumTree n)
    (ht : Spec.EachOnce t) (a : Fin n → Vec 3) (R : ℝ) (hR : ∀ k j, |a k j| ≤ R) (h : ℕ)
    (hd : ∀ j, (t j).depth ≤ h) (hh : h + 2 ≤ 2 ^ 51) :
    ∃ (B U : Mat n 3) (s : Vec 3) (V : Mat 3 3), IsSVD B U s V ∧
      Spec.size (Matrix.of (Coordinates.centered a) - B) ≤ Spec.roundingError n h R η ∧
      (∀ i, norm (fun j => (svd' n (Matrix.of (flCentered rnd t a))).2 i j - V i j) ≤ η) ∧
      ∀ i, |(svd' n (Matrix.of (flCentered rnd t a))).1 i - s i| ≤ η * s 0 := by
  obtain ⟨-, B, U, s, V, hB, hsize, hV, hs⟩ := hstable (Matrix.of (flCentered rnd t a))
  refine ⟨B, U, s, V, hB, ?_, hV, hs⟩
  have hu := unit_pos
  have i0 : Fin n := ⟨0, by omega⟩
  have hR0 : 0 ≤ R := (abs_nonneg _).trans (hR i0 0)
  have hk : ((h : ℝ) + 2) * unit ≤ 1 / 4 := by
    have h1 : ((h + 2 : ℕ) : ℝ) ≤ 2 ^ 51 := by exact_mod_cast hh
    push_cast at h1
    calc ((h : ℝ) + 2) * unit ≤ 2 ^ 51 * unit := mul_le_mul_of_nonneg_right h1 hu.le
      _ = 1 / 4 := by unfold unit; norm_num
  set κ := 4 * ((h : ℝ) + 2) * unit with hκ
  have hκ0 : 0 ≤ κ := by positivity
  have hκ1 : κ ≤ 1 := by rw [hκ]; linarith
  obtain ⟨z1, z2⟩ := C01_centered_zero_mean_same_shape a
  have hclose : ∀ i j, |flCentered rnd t a i j - Coordinates.centered a i j| ≤ κ * R := fun i j =>
    C201_centered_partial rnd F t ht a _ z1 z2 j R (fun k => hR k j) h (hd j)
      (hh.trans (by norm_num)) i
  have hcent : ∀ i j, |Coordinates.centered a i j| ≤ 2 * R := by
    intro i j
    have hn : (0 : ℝ) < n := by exact_mod_cast (by omega : 0 < n)
    have hm : |meanRows a j| ≤ R := by
      rw [meanRows, abs_div, abs_of_pos hn, div_le_iff₀ hn]
      refine (Finset.abs_sum_le_sum_abs _ _).trans ?_
      calc ∑ k, |a k j| ≤ ∑ _k : Fin n, R := Finset.sum_le_sum fun k _ => hR k j
        _ = R * n := by simp [mul_comm]
    have := abs_sub (a i j) (meanRows a j)
    simp only [Coordinates.centered]
    linarith [hR i j]
  have hA : Spec.size (Matrix.of (flCentered rnd t a)) ≤ Real.sqrt (3 * n) * (3 * R) := by
    apply size_le _ _ (by positivity)
    intro i j
    simp only [Matrix.of_apply]
    have e : flCentered rnd t a i j =
      (flCentered rnd t a i j - Coordinates.centered a i j) + Coordinates.centered a i j := by ring
    rw [e]
    refine (abs_add_le _ _).trans ?_
    have := mul_le_mul_of_nonneg_right hκ1 hR0
    linarith [hclose i j, hcent i j]
  have hC : Spec.size (Matrix.of (Coordinates.centered a) - Matrix.of (flCentered rnd t a)) ≤
      Real.sqrt (3 * n) * (κ * R) := by
    apply size_le _ _ (by positivity)
    intro i j
    simp only [Matrix.sub_apply, Matrix.of_apply]
    rw [abs_sub_comm]
    exact hclose i j
  have e : Matrix.of (Coordinates.centered a) - B =
      (Matrix.of (Coordinates.centered a) - Matrix.of (flCentered rnd t a)) +
        (Matrix.of (flCentered rnd t a) - B) := by abel
  rw [e]
  refine (size_add_le _ _).trans ?_
  rw [size_comm _ B]
  have h5 := mul_le_mul_of_nonneg_left hA hη
  unfold Spec.roundingError
  rw [← hκ]
  nlinarith

/-- Strike and dip computed in floating-point arithmetic describe a plane that is tilted against the
one of exact arithmetic by little, for all coordinates, orders of summation and libraries, if the
first two principal components stand out from the third. -/
theorem C202_strike_dip (rnd : ℝ → ℝ) (F : Contract rnd) (lib : Libm) (ε : ℝ) (L : Spec.Accurate lib ε)
    (svd' : FlSvd) (η : ℝ) (hη : 0 ≤ η) (hη1 : η < 1)
    {n : ℕ} (hstable : Spec.BackwardStable rnd svd' n η) (h3 : 3 ≤ n) (t : Fin 3 → SumTree n)
    (ht : Spec.EachOnce t) (a : Fin n → Vec 3)
    (R : ℝ) (hR : ∀ k j, |a k j| ≤ R) (h : ℕ) (hd : ∀ j, (t j).depth ≤ h) (hh : h + 2 ≤ 2 ^ 51)
    (svd : SvdFn) (hs : svd.Valid) (f : Fit n) (hf : init svd a none none = .ok (some f))
    (τ : ℝ) (hτ0 : 0 ≤ τ) (hgap : f.s 2 < f.s 1)
    (hτ : 4 * Spec.roundingError n h R η * (f.s 2 + Spec.roundingError n h R η)
      ≤ (f.s 1 ^ 2 - f.s 2 ^ 2) * τ ^ 2) :
    ∃ s d, flPlane rnd lib svd' t a = .ok (s, some d) ∧
      ∃ m : Vec 3, norm m = 1 ∧ 0 ≤ m 2 ∧ Spec.RightHandRule m s d ∧
        Spec.sineBetween m f.normal ≤ τ + 2 * η + 2 * radians ε + 1 / 10 ^ 7 := by
  obtain ⟨U, hF⟩ := init_default hs hf
  obtain ⟨B, U', s', V', hB, hsize, hV, -⟩ := rounded_fit F hη hstable h3 t ht a R hR h hd hh
  have hrep := (hstable (Matrix.of (flCentered rnd t a))).1 2
  set v := (svd' n (Matrix.of (flCentered rnd t a))).2 2 with hv
  obtain ⟨hpos, hunit⟩ := unit_close (hB.row_norm 2) (hV 2) hη1
  rw [← hv] at hpos hunit
  have hv0 : v ≠ 0 := by
    intro e
    rw [e, (norm_eq_zero_iff 0).2 rfl] at hpos
    exact lt_irrefl _ hpos
  obtain ⟨s, d, hsd, m, hm1, hm2, hrule, σ, hσ, hclose⟩ := C194_accuracy rnd F lib ε L v hv0 hrep
  have hσ2 : |σ| = 1 := by rcases hσ with h | h <;> rw [h] <;> simp
  refine ⟨s, d, ?_, m, hm1, hm2, hrule, ?_⟩
  · simp only [flPlane, flFit, if_neg (by omega : ¬ n < 3)]
    exact congrArg Except.ok hsd
  -- from the normal of strike and dip to the last axis of the decomposition
  have h1 : norm (fun i => m i - σ * V' 2 i) ≤ 2 * η + (2 * radians ε + 1 / 10 ^ 7) := by
    have := norm_sub_triangle m (fun i => σ * v i / norm v) (fun i => σ * V' 2 i)
    have e : (fun i => σ * v i / norm v - σ * V' 2 i) = fun i => σ * (v i / norm v - V' 2 i) := by
      funext i; ring
    rw [e, norm_smul' σ, hσ2, one_mul] at this
    linarith
  have hw : norm (fun i => σ * V' 2 i) = 1 := by rw [norm_smul', hσ2, hB.row_norm 2, one_mul]
  have hfn : norm f.normal = 1 := by
    rw [hF.normal]
    rcases upward_eq (f.V 2) with e | e <;> rw [e]
    · exact hF.svd.row_norm 2
    · rw [← hF.svd.row_norm 2]
      unfold norm
      simp
  have h2 := sine_le hm1 hw hfn
  rw [sine_sign σ hσ] at h2
  -- from there to the exact fit
  have h4 : Spec.sineBetween (V' 2) f.normal ≤ τ := by
    have h5 := tilt_matrix hF.svd hB _ hsize
    have e : Spec.sineBetween (V' 2) f.normal ^ 2 = 1 - ((f.V *ᵥ V' 2) 2) ^ 2 := by
      have e1 : Spec.sineBetween (V' 2) f.normal = Spec.sineBetween (V' 2) (f.V 2) := by
        rw [hF.normal]
        rcases upward_eq (f.V 2) with e | e <;> rw [e]
        exact sine_neg_right _ _
      rw [e1]
      unfold Spec.sineBetween
      rw [Real.sq_sqrt]
      · simp only [Matrix.mulVec, dotProduct, Fin.sum_univ_three]
        ring
      · have := hF.svd.norm_V (V' 2)
        rw [row_sq hB 2, Fin.sum_univ_three] at this
        have e2 : V' 2 0 * f.V 2 0 + V' 2 1 * f.V 2 1 + V' 2 2 * f.V 2 2 = (f.V *ᵥ V' 2) 2 := by
          simp only [Matrix.mulVec, dotProduct, Fin.sum_univ_three]
          ring
        rw [e2]
        nlinarith [sq_nonneg ((f.V *ᵥ V' 2) 0), sq_nonneg ((f.V *ᵥ V' 2) 1)]
    rw [← e] at h5
    have hg : 0 < f.s 1 ^ 2 - f.s 2 ^ 2 := by
      have := hF.svd.nonneg
      nlinarith
    have h6 := le_of_mul_le_mul_left (h5.trans hτ) hg
    exact le_of_sq_le_sq h6 hτ0
  linarith

/-- The singular values, from which the errors are computed. -/
theorem C203_singular_values (rnd : ℝ → ℝ) (F : Contract rnd) (svd' : FlSvd) (η : ℝ) (hη : 0 ≤ η)
    {n : ℕ} (hstable : Spec.BackwardStable rnd svd' n η) (h3 : 3 ≤ n) (t : Fin 3 → SumTree n)
    (ht : Spec.EachOnce t) (a : Fin n → Vec 3) (R : ℝ) (hR : ∀ k j, |a k j| ≤ R) (h : ℕ)
    (hd : ∀ j, (t j).depth ≤ h) (hh : h + 2 ≤ 2 ^ 51)
    (svd : SvdFn) (hs : svd.Valid) (f : Fit n) (hf : init svd a none none = .ok (some f)) :
    ∃ s V, flFit rnd svd' t a = .ok (s, V) ∧ ∀ i,
      |s i - f.s i| ≤ Spec.roundingError n h R η + η * (f.s 0 + Spec.roundingError n h R η) := by
  obtain ⟨U, hF⟩ := init_default hs hf
  obtain ⟨B, U', s', V', hB, hsize, -, hs'⟩ := rounded_fit F hη hstable h3 t ht a R hR h hd hh
  refine ⟨_, _, by simp only [flFit, if_neg (by omega : ¬ n < 3)]; rfl, fun i => ?_⟩
  have h1 := (singular_matrix hF.svd hB i).trans hsize
  have h2 := (abs_le.1 ((singular_matrix hF.svd hB 0).trans hsize)).1
  have h4 : s' 0 ≤ f.s 0 + Spec.roundingError n h R η := by linarith
  have h5 := mul_le_mul_of_nonneg_left h4 hη
  have e : (svd' n (Matrix.of (flCentered rnd t a))).1 i - f.s i =
      ((svd' n (Matrix.of (flCentered rnd t a))).1 i - s' i) - (f.s i - s' i) := by ring
  rw [e]
  refine (abs_sub _ _).trans ?_
  linarith [hs' i]

/-- The library that rounds the exact decomposition is stable. -/
lemma exists_stable {rnd : ℝ → ℝ} (F : Contract rnd) : ∃ svd', ∀ n, 3 ≤ n →
    Spec.BackwardStable rnd svd' n unit := by
  obtain ⟨svd, hs⟩ := exists_valid_svd
  refine ⟨fun m A => (fun i => rnd ((svd m A).2.1 i), Matrix.of fun i j => rnd ((svd m A).2.2 i j)),
    fun m hm A =>
    ⟨fun i j => F.idem _, A, _, _, _, hs m A hm, ?_, fun i => ?_, fun i => ?_⟩⟩
  · have hu := unit_pos
    have : 0 ≤ Spec.size A := Real.sqrt_nonneg _
    rw [sub_self]
    have e : Spec.size (0 : Mat m 3) = 0 := by simp [Spec.size]
    rw [e]
    exact mul_nonneg hu.le this
  · have h1 := (hs m A hm).row_norm i
    have e : unit = unit * norm ((svd m A).2.2 i) := by rw [h1, mul_one]
    rw [e]
    have hu := unit_pos
    rw [← abs_of_pos hu, ← norm_smul', norm, norm]
    apply Real.sqrt_le_sqrt
    apply Finset.sum_le_sum
    intro j _
    have h2 := F.rel ((svd m A).2.2 i j)
    have h3 : |rnd ((svd m A).2.2 i j) - (svd m A).2.2 i j| ≤ |unit * (svd m A).2.2 i j| := by
      rwa [abs_mul, abs_of_pos hu]
    exact sq_le_sq.2 h3
  · have hu := unit_pos
    have h1 := (hs m A hm).nonneg' i
    have h2 := F.rel ((svd m A).2.1 i)
    rw [abs_of_nonneg h1] at h2
    refine h2.trans (mul_le_mul_of_nonneg_left ?_ hu.le)
    have h01 := (hs m A hm).le01
    have h12 := (hs m A hm).le12
    fin_cases i
    · exact le_refl _
    · exact h01
    · exact h12.trans h01

lemma tilted_le (k : Fin 4) (j : Fin 3) : |Witness.tilted k j| ≤ 3 := by
  fin_cases k <;> fin_cases j <;>
    simp [Witness.tilted, Witness.points, Witness.frame, Witness.tilt, Matrix.mul_apply,
      Fin.sum_univ_three, Matrix.vecMul_diagonal] <;> rw [abs_le] <;> constructor <;> norm_num

/-- The hypotheses of C202 and C203 are met by four points around a plane, with the rounding of IEEE,
a correctly rounded library and sums from the first to the last point: strike and dip are then those
of a plane tilted by less than a thousandth. -/
lemma rounded_example : ∃ (svd' : FlSvd) (svd : SvdFn) (f : Fit 4) (t : Fin 3 → SumTree 4),
    Spec.BackwardStable round53 svd' 4 unit ∧ unit < 1 ∧ Spec.EachOnce t ∧ (∀ j, (t j).depth ≤ 3) ∧
    Spec.Accurate (Spec.correctlyRounded round53) (180 * unit) ∧ svd.Valid ∧
    init svd Witness.tilted none none = .ok (some f) ∧ (∀ k j, |Witness.tilted k j| ≤ 3) ∧
    f.s 2 < f.s 1 ∧
    4 * Spec.roundingError 4 3 3 unit * (f.s 2 + Spec.roundingError 4 3 3 unit)
      ≤ (f.s 1 ^ 2 - f.s 2 ^ 2) * (1 / 1000) ^ 2 := by
  obtain ⟨svd', hs'⟩ := exists_stable round53_contract
  obtain ⟨svd, f, hs, hf, -, e⟩ := Witness.exists_tilted
  have hu : unit < 1 := by unfold unit; norm_num
  refine ⟨svd', svd, f, fun _ => .node (.node (.node (.leaf 0) (.leaf 1)) (.leaf 2)) (.leaf 3),
    hs' 4 (by norm_num), hu, fun _ => by simp only [SumTree.leaves]; decide, fun _ => by simp [SumTree.depth],
    correctlyRounded_accurate round53_contract, hs, hf, tilted_le, by rw [e]; simp, ?_⟩
  have h12 : Real.sqrt (3 * (4 : ℕ)) ≤ 4 := by
    rw [Real.sqrt_le_left (by norm_num)]
    norm_num
  have h0 : 0 ≤ Real.sqrt (3 * (4 : ℕ)) := Real.sqrt_nonneg _
  have hE : Spec.roundingError 4 3 3 unit ≤ 1 / 10 ^ 7 := by
    unfold Spec.roundingError unit
    norm_num at h12 ⊢
    linarith
  have hE0 : 0 ≤ Spec.roundingError 4 3 3 unit := by
    unfold Spec.roundingError unit
    positivity
  rw [e]
  simp only [Matrix.cons_val]
  nlinarith

/-- Strike, dip and singular values of these points. -/
example : ∃ (svd' : FlSvd) (t : Fin 3 → SumTree 4) (s d : ℝ) (sv : Vec 3) (V : Mat 3 3),
    flPlane round53 (Spec.correctlyRounded round53) svd' t Witness.tilted = .ok (s, some d) ∧
    flFit round53 svd' t Witness.tilted = .ok (sv, V) := by
  obtain ⟨svd', svd, f, t, h1, h2, h3, h4, h5, h6, h7, h8, h9, h10⟩ := rounded_example
  obtain ⟨s, d, e, -⟩ := C202_strike_dip round53 round53_contract _ _ h5 svd' unit unit_pos.le h2 h1
    (by norm_num) t h3 Witness.tilted 3 h8 3 h4 (by norm_num) svd h6 f h7 (1 / 1000) (by norm_num) h9 h10
  obtain ⟨sv, V, e', -⟩ := C203_singular_values round53 round53_contract svd' unit unit_pos.le h1
    (by norm_num) t h3 Witness.tilted 3 h8 3 h4 (by norm_num) svd h6 f h7
  exact ⟨svd', t, s, d, sv, V, e, e'⟩

end Attitude.Props
