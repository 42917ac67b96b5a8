import Verif.Lemmas.Dem

/-!
# Properties of interpolation and of the extraction of lines: C80, C81, C92
-/

namespace Attitude.Props

open Attitude Dem

namespace Spec

/-- No cell of the raster is masked or `nan`. -/
def Complete (a : Raster) : Prop :=
  ∀ i j : ℤ, 0 ≤ i → i < a.rows → 0 ≤ j → j < a.cols → ∃ z, a.px i j = .val z

/-- The line `p :: l` in pixel coordinates is inside the DEM. -/
def InsideDem (d : Raster) (l : List (ℝ × ℝ)) : Prop :=
  ∀ q ∈ l, (0 ≤ q.1 ∧ q.1 ≤ d.cols) ∧ 0 ≤ q.2 ∧ q.2 ≤ d.rows

/-- Coordinate `y` is half a cell away from both ends of the range `o..e`, unless
the range ends where the array (of length `N`) ends. -/
def AwayFromEdge (o e : ℤ) (N : ℕ) (y : ℝ) : Prop :=
  ((o : ℝ) + 1 / 2 ≤ y ∨ o = 0) ∧ ((y < e - 1 / 2 ∧ 2 ≤ e) ∨ e = N)

end Spec

/-! ## C81 -/

/-- At the centre of a cell whose right, lower and lower right neighbours (if any)
are valid, the value is that of the cell. -/
theorem C81_pixel_center_partial (a : Raster) (r c : ℕ) (hr : r < a.rows) (hc : c < a.cols) (z : ℝ)
    (hz : a.px r c = .val z)
    (hn : ∀ i j : ℤ, r ≤ i → i ≤ r + 1 → i < a.rows → c ≤ j → j ≤ c + 1 → j < a.cols →
      ∃ w, a.px i j = .val w) :
    bilinearAt a (c + 1 / 2, r + 1 / 2) = some z := by
  obtain ⟨i, i', j, j', u, v, hi, hj, hi', hj', hu, hv, -, -, -, -, bi, bi', bj, bj', he⟩ :=
    mapCoordinates1_spec a (by omega) (by omega) (((c : ℝ) + 1 / 2, (r : ℝ) + 1 / 2).2 - 0.5)
      (((c : ℝ) + 1 / 2, (r : ℝ) + 1 / 2).1 - 0.5)
  have er : clamp a.rows (((c : ℝ) + 1 / 2, (r : ℝ) + 1 / 2).2 - 0.5) = r := by
    have : ((r : ℝ) + 1) ≤ a.rows := by exact_mod_cast hr
    rw [clamp_of_mem] <;> norm_num
    linarith
  have ec : clamp a.cols (((c : ℝ) + 1 / 2, (r : ℝ) + 1 / 2).1 - 0.5) = c := by
    have : ((c : ℝ) + 1) ≤ a.cols := by exact_mod_cast hc
    rw [clamp_of_mem] <;> norm_num
    linarith
  rw [er, Int.floor_natCast] at hi
  rw [ec, Int.floor_natCast] at hj
  subst hi hj
  rw [er, Int.cast_natCast, sub_self] at hu
  rw [ec, Int.cast_natCast, sub_self] at hv
  have hi'2 : (r : ℤ) ≤ i' ∧ i' ≤ r + 1 := by
    rw [hi', clampIdx]
    omega
  have hj'2 : (c : ℤ) ≤ j' ∧ j' ≤ c + 1 := by
    rw [hj', clampIdx]
    omega
  obtain ⟨w1, h1⟩ := hn r j' le_rfl (by omega) (by omega) hj'2.1 hj'2.2 (by omega)
  obtain ⟨w2, h2⟩ := hn i' c hi'2.1 hi'2.2 (by omega) le_rfl (by omega) (by omega)
  obtain ⟨w3, h3⟩ := hn i' j' hi'2.1 hi'2.2 (by omega) hj'2.1 hj'2.2 (by omega)
  rw [bilinearAt, he, hz, h1, h2, h3, hu, hv]
  simp [Pixel.filled]

example : bilinearAt ⟨3, 3, fun i j => .val (10 * i + j)⟩ ((1 : ℕ) + 1 / 2, (2 : ℕ) + 1 / 2)
    = some (10 * (((2 : ℕ) : ℤ) : ℝ) + (((1 : ℕ) : ℤ) : ℝ)) :=
  C81_pixel_center_partial ⟨3, 3, fun i j => .val (10 * i + j)⟩ 2 1 (by simp) (by simp) _ rfl
    (fun _ _ _ _ _ _ _ _ => ⟨_, rfl⟩)

/-- Without the condition on the neighbours it fails: every cell whose right
neighbour is masked has no value at its own centre. -/
theorem C81_masked_neighbour_false (a : Raster) (r c : ℕ) (hr : r < a.rows) (hc : c + 1 < a.cols)
    (hm : a.px r (c + 1) = .masked) : bilinearAt a (c + 1 / 2, r + 1 / 2) = none := by
  obtain ⟨i, i', j, j', u, v, hi, hj, hi', hj', hu, hv, -, -, -, -, bi, bi', bj, bj', he⟩ :=
    mapCoordinates1_spec a (by omega) (by omega) (((c : ℝ) + 1 / 2, (r : ℝ) + 1 / 2).2 - 0.5)
      (((c : ℝ) + 1 / 2, (r : ℝ) + 1 / 2).1 - 0.5)
  have er : clamp a.rows (((c : ℝ) + 1 / 2, (r : ℝ) + 1 / 2).2 - 0.5) = r := by
    have : ((r : ℝ) + 1) ≤ a.rows := by exact_mod_cast hr
    rw [clamp_of_mem] <;> norm_num
    linarith
  have ec : clamp a.cols (((c : ℝ) + 1 / 2, (r : ℝ) + 1 / 2).1 - 0.5) = c := by
    have : ((c : ℝ) + 1 + 1) ≤ a.cols := by exact_mod_cast hc
    rw [clamp_of_mem] <;> norm_num
    linarith
  rw [er, Int.floor_natCast] at hi
  rw [ec, Int.floor_natCast] at hj
  subst hi hj
  have : j' = (c : ℤ) + 1 := by
    rw [hj', clampIdx]
    omega
  rw [bilinearAt, he, this, hm]
  cases (a.px r c).filled <;> simp [Pixel.filled]

/-- Such a raster: the valid cell (0, 0) has no value at its centre. -/
example : bilinearAt ⟨1, 2, fun _ c => if c = 0 then .val 7 else .masked⟩ (1 / 2, 1 / 2) = none := by
  have := C81_masked_neighbour_false ⟨1, 2, fun _ c => if c = 0 then .val 7 else .masked⟩ 0 0
    (by simp) (by simp) (by simp)
  simpa using this

lemma weighted_bounds {lo hi u v a b c d : ℝ} (u0 : 0 ≤ u) (u1 : u ≤ 1) (v0 : 0 ≤ v) (v1 : v ≤ 1)
    (ha : lo ≤ a ∧ a ≤ hi) (hb : lo ≤ b ∧ b ≤ hi) (hc : lo ≤ c ∧ c ≤ hi) (hd : lo ≤ d ∧ d ≤ hi) :
    lo ≤ a * (1 - u) * (1 - v) + b * (1 - u) * v + c * u * (1 - v) + d * u * v ∧
    a * (1 - u) * (1 - v) + b * (1 - u) * v + c * u * (1 - v) + d * u * v ≤ hi := by
  have p1 : 0 ≤ (1 - u) * (1 - v) := mul_nonneg (by linarith) (by linarith)
  have p2 : 0 ≤ (1 - u) * v := mul_nonneg (by linarith) v0
  have p3 : 0 ≤ u * (1 - v) := mul_nonneg u0 (by linarith)
  have p4 : 0 ≤ u * v := mul_nonneg u0 v0
  constructor
  · have := add_nonneg (add_nonneg (mul_nonneg p1 (sub_nonneg.2 ha.1)) (mul_nonneg p2 (sub_nonneg.2 hb.1)))
      (add_nonneg (mul_nonneg p3 (sub_nonneg.2 hc.1)) (mul_nonneg p4 (sub_nonneg.2 hd.1)))
    linarith
  · have := add_nonneg (add_nonneg (mul_nonneg p1 (sub_nonneg.2 ha.2)) (mul_nonneg p2 (sub_nonneg.2 hb.2)))
      (add_nonneg (mul_nonneg p3 (sub_nonneg.2 hc.2)) (mul_nonneg p4 (sub_nonneg.2 hd.2)))
    linarith

/-- Every interpolated value, at any position inside or outside, lies between
bounds of the valid cells; a complete raster has a value everywhere. -/
theorem C81_range (a : Raster) (hr : 0 < a.rows) (hc : 0 < a.cols) (lo hi : ℝ)
    (hb : ∀ i j : ℤ, 0 ≤ i → i < a.rows → 0 ≤ j → j < a.cols → ∀ z, a.px i j = .val z →
      lo ≤ z ∧ z ≤ hi) (p : ℝ × ℝ) :
    (∀ z, bilinearAt a p = some z → lo ≤ z ∧ z ≤ hi) ∧
    (Spec.Complete a → ∃ z, bilinearAt a p = some z) := by
  obtain ⟨i, i', j, j', u, v, -, -, -, -, -, -, u0, u1, v0, v1, bi, bi', bj, bj', he⟩ :=
    mapCoordinates1_spec a hr hc (p.2 - 0.5) (p.1 - 0.5)
  have hv : ∀ i j : ℤ, ∀ z, (a.px i j).filled = some z → a.px i j = .val z := by
    intro i j z h
    cases hp : a.px i j <;> simp [hp, Pixel.filled] at h
    rw [h]
  constructor
  · intro z hz
    rw [bilinearAt, he] at hz
    simp only [bind, Option.bind_eq_some_iff, Option.some.injEq] at hz
    obtain ⟨z00, h00, z01, h01, z10, h10, z11, h11, rfl⟩ := hz
    exact weighted_bounds u0 u1.le v0 v1.le
      (hb i j bi.1 bi.2 bj.1 bj.2 _ (hv _ _ _ h00)) (hb i j' bi.1 bi.2 bj'.1 bj'.2 _ (hv _ _ _ h01))
      (hb i' j bi'.1 bi'.2 bj.1 bj.2 _ (hv _ _ _ h10))
      (hb i' j' bi'.1 bi'.2 bj'.1 bj'.2 _ (hv _ _ _ h11))
  · intro hcomp
    obtain ⟨z00, h00⟩ := hcomp i j bi.1 bi.2 bj.1 bj.2
    obtain ⟨z01, h01⟩ := hcomp i j' bi.1 bi.2 bj'.1 bj'.2
    obtain ⟨z10, h10⟩ := hcomp i' j bi'.1 bi'.2 bj.1 bj.2
    obtain ⟨z11, h11⟩ := hcomp i' j' bi'.1 bi'.2 bj'.1 bj'.2
    rw [bilinearAt, he, h00, h01, h10, h11]
    simp [Pixel.filled]

example (p : ℝ × ℝ) : ∀ z, bilinearAt ⟨3, 3, fun i j => if i = j then .masked else .val 7⟩ p = some z →
    7 ≤ z ∧ z ≤ 7 :=
  (C81_range ⟨3, 3, fun i j => if i = j then .masked else .val 7⟩ (by simp) (by simp) 7 7
    (by
      intro i j _ _ _ _ z hz
      by_cases h : i = j
      · simp [h] at hz
      · simp only [if_neg h, Pixel.val.injEq] at hz
        subst hz
        simp) p).1

lemma axis_linear {n : ℕ} {x : ℝ} (h0 : 0 ≤ x) (h1 : x ≤ n - 1) (i i' : ℤ) (u : ℝ)
    (hi : i = ⌊clamp n x⌋) (hi' : i' = clampIdx n (i + 1)) (hu : u = clamp n x - i) :
    (i : ℝ) * (1 - u) + i' * u = x := by
  rw [clamp_of_mem h0 h1] at hi hu
  have hin : 0 ≤ i := by rw [hi]; exact Int.floor_nonneg.2 h0
  have hfl : (i : ℝ) ≤ x := by rw [hi]; exact Int.floor_le x
  by_cases h : i + 1 ≤ (n : ℤ) - 1
  · rw [clampIdx_of_mem (by omega) h] at hi'
    rw [hi']
    push_cast
    linarith
  · have : ((n : ℤ) - 1 : ℤ) ≤ i := by omega
    have h2 : (n : ℝ) - 1 ≤ i := by exact_mod_cast this
    have : u = 0 := by rw [hu]; linarith
    rw [this]
    rw [this] at hu
    linarith

/-- A planar DEM, with elevation `α row + β col + γ` at cell centres, is reproduced
exactly at every position at least half a cell from its edges. -/
theorem C81_planar (a : Raster) (α β γ : ℝ)
    (hp : ∀ i j : ℤ, 0 ≤ i → i < a.rows → 0 ≤ j → j < a.cols →
      a.px i j = .val (α * (i + 1 / 2) + β * (j + 1 / 2) + γ)) (p : ℝ × ℝ)
    (hx : 1 / 2 ≤ p.1 ∧ p.1 ≤ a.cols - 1 / 2) (hy : 1 / 2 ≤ p.2 ∧ p.2 ≤ a.rows - 1 / 2) :
    bilinearAt a p = some (α * p.2 + β * p.1 + γ) := by
  have hr : 0 < a.rows := by
    have : (0 : ℝ) < a.rows := by linarith
    exact_mod_cast this
  have hc : 0 < a.cols := by
    have : (0 : ℝ) < a.cols := by linarith
    exact_mod_cast this
  obtain ⟨i, i', j, j', u, v, hi, hj, hi', hj', hu, hv, -, -, -, -, bi, bi', bj, bj', he⟩ :=
    mapCoordinates1_spec a hr hc (p.2 - 0.5) (p.1 - 0.5)
  have e1 := axis_linear (x := p.2 - 0.5) (by norm_num; linarith) (by norm_num; linarith) i i' u hi hi' hu
  have e2 := axis_linear (x := p.1 - 0.5) (by norm_num; linarith) (by norm_num; linarith) j j' v hj hj' hv
  rw [bilinearAt, he, hp i j bi.1 bi.2 bj.1 bj.2, hp i j' bi.1 bi.2 bj'.1 bj'.2,
    hp i' j bi'.1 bi'.2 bj.1 bj.2, hp i' j' bi'.1 bi'.2 bj'.1 bj'.2]
  simp only [Pixel.filled, bind, Option.bind_some, Option.some.injEq]
  norm_num at e1 e2
  linear_combination α * e1 + β * e2

example : bilinearAt ⟨3, 3, fun i j => .val (10 * ((i : ℝ) + 1 / 2) + 2 * (j + 1 / 2) + 5)⟩ (1.3, 0.7)
    = some (10 * 0.7 + 2 * 1.3 + 5) :=
  C81_planar _ 10 2 5 (fun _ _ _ _ _ _ => rfl) (1.3, 0.7) (by norm_num) (by norm_num)

/-- Between the centres of four valid cells the elevation is interpolated along the rows and then along the
column. -/
theorem C81_between_centres (a : Raster) (r c : ℕ) (hr : r + 1 < a.rows) (hc : c + 1 < a.cols)
    (z00 z01 z10 z11 : ℝ) (h00 : a.px r c = .val z00) (h01 : a.px r (c + 1) = .val z01)
    (h10 : a.px (r + 1) c = .val z10) (h11 : a.px (r + 1) (c + 1) = .val z11) (t u : ℝ)
    (t0 : 0 ≤ t) (t1 : t < 1) (u0 : 0 ≤ u) (u1 : u < 1) :
    bilinearAt a (c + 1 / 2 + t, r + 1 / 2 + u) =
      some ((1 - u) * ((1 - t) * z00 + t * z01) + u * ((1 - t) * z10 + t * z11)) := by
  obtain ⟨i, i', j, j', x, y, hi, hj, hi', hj', hx, hy, -, -, -, -, bi, bi', bj, bj', he⟩ :=
    mapCoordinates1_spec a (by omega) (by omega) (((c : ℝ) + 1 / 2 + t, (r : ℝ) + 1 / 2 + u).2 - 0.5)
      (((c : ℝ) + 1 / 2 + t, (r : ℝ) + 1 / 2 + u).1 - 0.5)
  have er : clamp a.rows (((c : ℝ) + 1 / 2 + t, (r : ℝ) + 1 / 2 + u).2 - 0.5) = r + u := by
    have : ((r : ℝ) + 1 + 1) ≤ a.rows := by exact_mod_cast hr
    have hr0 : (0 : ℝ) ≤ r := Nat.cast_nonneg r
    rw [clamp_of_mem] <;> norm_num <;> linarith
  have ec : clamp a.cols (((c : ℝ) + 1 / 2 + t, (r : ℝ) + 1 / 2 + u).1 - 0.5) = c + t := by
    have : ((c : ℝ) + 1 + 1) ≤ a.cols := by exact_mod_cast hc
    have hc0 : (0 : ℝ) ≤ c := Nat.cast_nonneg c
    rw [clamp_of_mem] <;> norm_num <;> linarith
  have hi2 : i = r := by
    rw [hi, er, Int.floor_eq_iff]
    push_cast
    constructor <;> linarith
  have hj2 : j = c := by
    rw [hj, ec, Int.floor_eq_iff]
    push_cast
    constructor <;> linarith
  have hi3 : i' = (r : ℤ) + 1 := by
    rw [hi', hi2, clampIdx]
    omega
  have hj3 : j' = (c : ℤ) + 1 := by
    rw [hj', hj2, clampIdx]
    omega
  have hxu : x = u := by rw [hx, er, hi2]; push_cast; ring
  have hyt : y = t := by rw [hy, ec, hj2]; push_cast; ring
  rw [bilinearAt, he, hi2, hj2, hi3, hj3, h00, h01, h10, h11, hxu, hyt]
  simp only [Pixel.filled, bind, Option.bind_some, Option.some.injEq]
  ring

example : bilinearAt ⟨3, 3, fun i j => .val ((i : ℝ) * j)⟩ ((1 : ℕ) + 1 / 2 + 1 / 4, (1 : ℕ) + 1 / 2 + 1 / 2)
    = some (15 / 8) := by
  rw [C81_between_centres ⟨3, 3, fun i j => .val ((i : ℝ) * j)⟩ 1 1 (by simp) (by simp) 1 2 2 4
    (by norm_num) (by norm_num) (by norm_num) (by norm_num) (1 / 4) (1 / 2)
    (by norm_num) (by norm_num) (by norm_num) (by norm_num)]
  norm_num

/-- Beyond the centres of the outermost cells the elevation is that of the closest position between them. -/
theorem C81_beyond_edges (a : Raster) (p : ℝ × ℝ) : bilinearAt a p =
    bilinearAt a (max (1 / 2) (min p.1 (a.cols - 1 / 2)), max (1 / 2) (min p.2 (a.rows - 1 / 2))) := by
  have key : ∀ (n : ℕ) (x : ℝ), clamp n (max (1 / 2) (min x (n - 1 / 2)) - 0.5) = clamp n (x - 0.5) := by
    intro n x
    unfold clamp
    have e1 : max (1 / 2) (min x ((n : ℝ) - 1 / 2)) - 0.5 = max 0 (min (x - 0.5) ((n : ℝ) - 1)) := by
      rw [← max_sub_sub_right, ← min_sub_sub_right]
      norm_num
      congr 1
      ring_nf
    rw [e1]
    rcases le_total ((n : ℝ) - 1) 0 with h | h
    · rw [max_eq_left (a := 0) ((min_le_right _ _).trans h), max_eq_left (a := 0) ((min_le_right _ _).trans h)]
    · rw [min_eq_left (max_le h (min_le_right _ _)), max_eq_right (le_max_left _ _)]
  unfold bilinearAt mapCoordinates1
  simp only [key]

example : bilinearAt ⟨2, 2, fun i j => .val ((i : ℝ) + j)⟩ (-3, 7) =
    bilinearAt ⟨2, 2, fun i j => .val ((i : ℝ) + j)⟩ (1 / 2, 3 / 2) := by
  rw [C81_beyond_edges]
  norm_num

/-- `nearest` gives the cell that contains the position. -/
theorem C81_nearest (a : Raster) (r c : ℕ) (hr : r < a.rows) (hc : c < a.cols) (p : ℝ × ℝ)
    (hx : (c : ℝ) ≤ p.1 ∧ p.1 < c + 1) (hy : (r : ℝ) ≤ p.2 ∧ p.2 < r + 1) :
    nearestAt a p = (a.px r c).filled := by
  have key : ∀ (n k : ℕ) (x : ℝ), k < n → (k : ℝ) ≤ x → x < k + 1 → ⌊clamp n (x - 0.5) + 1 / 2⌋ = k := by
    intro n k x hk h0 h1
    have hn : ((k : ℝ) + 1) ≤ n := by exact_mod_cast hk
    have hk0 : (0 : ℝ) ≤ k := Nat.cast_nonneg k
    rw [Int.floor_eq_iff]
    unfold clamp
    push_cast
    norm_num only
    constructor
    · rcases le_total (x - 1 / 2) 0 with h | h
      · have : (k : ℝ) < 1 := by linarith
        have : k = 0 := by
          have : k < 1 := by exact_mod_cast this
          omega
        subst this
        have := le_max_left 0 (min (x - 1 / 2) ((n : ℝ) - 1))
        push_cast
        linarith
      · have h2 : min (x - 1 / 2) ((n : ℝ) - 1) ≥ k - 1 / 2 := le_min (by linarith) (by linarith)
        have := le_max_right 0 (min (x - 1 / 2) ((n : ℝ) - 1))
        linarith
    · have : max 0 (min (x - 1 / 2) ((n : ℝ) - 1)) < k + 1 / 2 :=
        max_lt (by linarith) (lt_of_le_of_lt (min_le_left _ _) (by linarith))
      linarith
  rw [nearestAt, mapCoordinates0, if_neg (by omega), key a.rows r p.2 hr hy.1 hy.2,
    key a.cols c p.1 hc hx.1 hx.2]

example : nearestAt ⟨3, 3, fun i j => .val (10 * i + j)⟩ (1.3, 2.7)
    = (Pixel.val (10 * (((2 : ℕ) : ℤ) : ℝ) + (((1 : ℕ) : ℤ) : ℝ))).filled :=
  C81_nearest ⟨3, 3, fun i j => .val (10 * i + j)⟩ 2 1 (by simp) (by simp) _ (by norm_num)
    (by norm_num)

/-! ## C92 -/

/-- Lines are interpolated point by point: one value for each point, in order. -/
theorem C92_lines_partial (a : Raster) (l : List (ℝ × ℝ)) (ls : List (List (ℝ × ℝ))) :
    interpolate a (.lineString l) = .ok [l.map fun p => (p.1, p.2, bilinearAt a p)] ∧
    ∃ out, interpolate a (.multiLineString ls) = .ok out ∧
      out.map (List.map fun q => (q.1, q.2.1)) = ls ∧ ∀ line ∈ out, ∀ q ∈ line, q.2.2 = bilinearAt a (q.1, q.2.1) := by
  refine ⟨rfl, _, rfl, ?_, fun line hl q hq => ?_⟩
  swap
  · obtain ⟨l, -, rfl⟩ := List.mem_map.1 hl
    obtain ⟨p, -, rfl⟩ := List.mem_map.1 hq
    rfl
  have : ∀ l : List (ℝ × ℝ), (lineHandler a l).map (fun q => (q.1, q.2.1)) = l := by
    intro l
    rw [lineHandler, List.map_map]
    exact List.map_id l
  rw [List.map_map]
  conv_rhs => rw [← List.map_id ls]
  exact List.map_congr_left fun l _ => this l

/-- A point always raises `ValueError`, because its coordinates are put into a list twice; the handler raises
nothing for the coordinates of any number of points, with or without heights, that are put into a list once. -/
theorem C92_points_false (a : Raster) (p : ℝ × ℝ) :
    interpolate a (.point p) = .error .valueError ∧
    ∀ n, handlerError [n, 2] = .ok () ∧ handlerError [n, 3] = .ok () := by
  refine ⟨rfl, fun n => ?_⟩
  simp [handlerError]

/-! ## C80 -/

lemma window_bounds (p : ℝ × ℝ) (l : List (ℝ × ℝ)) (q : ℝ × ℝ) (hq : q ∈ p :: l) :
    (((lineWindow p l).1.1 : ℝ) ≤ q.2 ∧ q.2 ≤ ((lineWindow p l).1.2 : ℝ)) ∧
    ((lineWindow p l).2.1 : ℝ) ≤ q.1 ∧ q.1 ≤ ((lineWindow p l).2.2 : ℝ) := by
  have h2 : q.2 ∈ p.2 :: l.map Prod.snd := by
    rw [← List.map_cons]; exact List.mem_map_of_mem hq
  have h1 : q.1 ∈ p.1 :: l.map Prod.fst := by
    rw [← List.map_cons]; exact List.mem_map_of_mem hq
  exact ⟨⟨(Int.floor_le _).trans (minimum_le _ h2), (le_maximum _ h2).trans (Int.le_ceil _)⟩,
    (Int.floor_le _).trans (minimum_le _ h1), (le_maximum _ h1).trans (Int.le_ceil _)⟩

/-- The window contains every point of the line, is the smallest one with integer
borders that does, and is inside the DEM if the line is. -/
theorem C80_window (d : Raster) (p : ℝ × ℝ) (l : List (ℝ × ℝ)) :
    (∀ q ∈ p :: l, (((lineWindow p l).1.1 : ℝ) ≤ q.2 ∧ q.2 ≤ ((lineWindow p l).1.2 : ℝ)) ∧
      ((lineWindow p l).2.1 : ℝ) ≤ q.1 ∧ q.1 ≤ ((lineWindow p l).2.2 : ℝ)) ∧
    (∀ r0 r1 c0 c1 : ℤ, (∀ q ∈ p :: l, ((r0 : ℝ) ≤ q.2 ∧ q.2 ≤ r1) ∧ (c0 : ℝ) ≤ q.1 ∧ q.1 ≤ c1) →
      r0 ≤ (lineWindow p l).1.1 ∧ (lineWindow p l).1.2 ≤ r1 ∧
      c0 ≤ (lineWindow p l).2.1 ∧ (lineWindow p l).2.2 ≤ c1) ∧
    (Spec.InsideDem d (p :: l) → 0 ≤ (lineWindow p l).1.1 ∧ (lineWindow p l).1.2 ≤ d.rows ∧
      0 ≤ (lineWindow p l).2.1 ∧ (lineWindow p l).2.2 ≤ d.cols) := by
  have hmin : ∀ r0 r1 c0 c1 : ℤ,
      (∀ q ∈ p :: l, ((r0 : ℝ) ≤ q.2 ∧ q.2 ≤ r1) ∧ (c0 : ℝ) ≤ q.1 ∧ q.1 ≤ c1) →
      r0 ≤ (lineWindow p l).1.1 ∧ (lineWindow p l).1.2 ≤ r1 ∧
      c0 ≤ (lineWindow p l).2.1 ∧ (lineWindow p l).2.2 ≤ c1 := by
    intro r0 r1 c0 c1 h
    have g2 : ∀ y ∈ p.2 :: l.map Prod.snd, (r0 : ℝ) ≤ y ∧ y ≤ r1 := by
      intro y hy
      rw [← List.map_cons, List.mem_map] at hy
      obtain ⟨q, hq, rfl⟩ := hy
      exact (h q hq).1
    have g1 : ∀ y ∈ p.1 :: l.map Prod.fst, (c0 : ℝ) ≤ y ∧ y ≤ c1 := by
      intro y hy
      rw [← List.map_cons, List.mem_map] at hy
      obtain ⟨q, hq, rfl⟩ := hy
      exact (h q hq).2
    exact ⟨Int.le_floor.2 (g2 _ minimum_mem).1, Int.ceil_le.2 (g2 _ maximum_mem).2,
      Int.le_floor.2 (g1 _ minimum_mem).1, Int.ceil_le.2 (g1 _ maximum_mem).2⟩
  refine ⟨fun q hq => window_bounds p l q hq, hmin, ?_⟩
  intro h
  have := hmin 0 d.rows 0 d.cols (by
    intro q hq
    obtain ⟨⟨a1, a2⟩, b1, b2⟩ := h q hq
    exact ⟨⟨by simpa using b1, by simpa using b2⟩, by simpa using a1, by simpa using a2⟩)
  exact this

/-- When the window is empty: exactly when the line runs along a row border or
along a column border (all its points have the same integer coordinate). -/
theorem C80_window_empty (p : ℝ × ℝ) (l : List (ℝ × ℝ)) :
    (¬ (lineWindow p l).1.1 < (lineWindow p l).1.2 ↔ ∃ k : ℤ, ∀ q ∈ p :: l, q.2 = k) ∧
    (¬ (lineWindow p l).2.1 < (lineWindow p l).2.2 ↔ ∃ k : ℤ, ∀ q ∈ p :: l, q.1 = k) := by
  have hw := window_bounds p l
  constructor
  · constructor
    · intro h
      refine ⟨(lineWindow p l).1.1, fun q hq => ?_⟩
      have hb := (hw q hq).1
      have : ((lineWindow p l).1.2 : ℝ) ≤ (lineWindow p l).1.1 := by exact_mod_cast not_lt.1 h
      linarith
    · rintro ⟨k, hk⟩
      have g : ∀ y ∈ p.2 :: l.map Prod.snd, y = k := by
        intro y hy
        rw [← List.map_cons, List.mem_map] at hy
        obtain ⟨q, hq, rfl⟩ := hy
        exact hk q hq
      simp only [lineWindow, g _ minimum_mem, g _ maximum_mem, Int.floor_intCast, Int.ceil_intCast,
        lt_irrefl, not_false_eq_true]
  · constructor
    · intro h
      refine ⟨(lineWindow p l).2.1, fun q hq => ?_⟩
      have hb := (hw q hq).2
      have : ((lineWindow p l).2.2 : ℝ) ≤ (lineWindow p l).2.1 := by exact_mod_cast not_lt.1 h
      linarith
    · rintro ⟨k, hk⟩
      have g : ∀ y ∈ p.1 :: l.map Prod.fst, y = k := by
        intro y hy
        rw [← List.map_cons, List.mem_map] at hy
        obtain ⟨q, hq, rfl⟩ := hy
        exact hk q hq
      simp only [lineWindow, g _ minimum_mem, g _ maximum_mem, Int.floor_intCast, Int.ceil_intCast,
        lt_irrefl, not_false_eq_true]

lemma axis_shift {o e : ℤ} {N : ℕ} (ho : 0 ≤ o) (he : o < e) (hN : e ≤ N) {y : ℝ}
    (h : Spec.AwayFromEdge o e N y) :
    clamp (e - o).toNat (y - o - 0.5) + o = clamp N (y - 0.5) ∧
    ∀ i, i = ⌊clamp (e - o).toNat (y - o - 0.5)⌋ →
      clampIdx (e - o).toNat (i + 1) + o = clampIdx N (i + o + 1) := by
  have hcast : (((e - o).toNat : ℕ) : ℤ) = e - o := Int.toNat_of_nonneg (by omega)
  have hcastR : (((e - o).toNat : ℕ) : ℝ) = (e : ℝ) - o := by exact_mod_cast hcast
  have heR : (o : ℝ) + 1 ≤ e := by exact_mod_cast he
  have hoR : (0 : ℝ) ≤ o := by exact_mod_cast ho
  have hNR : (e : ℝ) ≤ N := by exact_mod_cast hN
  obtain ⟨h1, h2⟩ := h
  have hcl : clamp (e - o).toNat (y - o - 0.5) + o = clamp N (y - 0.5) := by
    unfold clamp
    rw [hcastR]
    norm_num only
    rcases h1 with h1 | h1
    · rcases h2 with ⟨h2, -⟩ | h2
      · rw [min_eq_left (by linarith), min_eq_left (by linarith), max_eq_right (by linarith),
          max_eq_right (by linarith)]
        ring
      · have h2R : (e : ℝ) = N := by exact_mod_cast h2
        rw [max_eq_right (le_min (by linarith) (by linarith)),
          max_eq_right (le_min (by linarith) (by linarith)), h2R]
        rcases le_total (y - 1 / 2) ((N : ℝ) - 1) with h3 | h3
        · rw [min_eq_left h3, min_eq_left (by linarith)]; ring
        · rw [min_eq_right h3, min_eq_right (by linarith)]; ring
    · subst h1
      simp only [Int.cast_zero, sub_zero, add_zero]
      rcases h2 with ⟨h2, -⟩ | h2
      · rw [min_eq_left (by linarith), min_eq_left (by linarith)]
      · have h2R : (e : ℝ) = N := by exact_mod_cast h2
        rw [h2R]
  refine ⟨hcl, ?_⟩
  intro i hi
  have hpos : 0 < (e - o).toNat := by omega
  have hfl := floor_clamp hpos (y - o - 0.5)
  rw [← hi, hcast] at hfl
  have hfi : (i : ℝ) ≤ clamp (e - o).toNat (y - o - 0.5) := by rw [hi]; exact Int.floor_le _
  simp only [clampIdx, hcast]
  rcases h2 with ⟨h2, h2'⟩ | h2
  · by_cases hlast : i + 1 ≤ e - o - 1
    · omega
    · exfalso
      have hie : i = e - o - 1 := by omega
      have hiR : (i : ℝ) = e - o - 1 := by rw [hie]; push_cast; ring
      have hlt : clamp (e - o).toNat (y - o - 0.5) < e - o - 1 := by
        rcases h1 with h1 | h1
        · unfold clamp
          rw [hcastR]
          norm_num only
          rw [min_eq_left (by linarith), max_eq_right (by linarith)]
          linarith
        · unfold clamp
          rw [hcastR]
          norm_num only
          have h2R : (2 : ℝ) ≤ e := by exact_mod_cast h2'
          subst h1
          simp only [Int.cast_zero, sub_zero]
          exact max_lt (by linarith) (lt_of_le_of_lt (min_le_left _ _) (by linarith))
      linarith
  · omega

/-- Reading a window does not change the value at positions away from its edges. -/
lemma read_bilinear (d : Raster) (w : (ℤ × ℤ) × (ℤ × ℤ)) (hr0 : 0 ≤ w.1.1) (hr : w.1.1 < w.1.2)
    (hr1 : w.1.2 ≤ d.rows) (hc0 : 0 ≤ w.2.1) (hc : w.2.1 < w.2.2) (hc1 : w.2.2 ≤ d.cols) (q : ℝ × ℝ)
    (hy : Spec.AwayFromEdge w.1.1 w.1.2 d.rows q.2) (hx : Spec.AwayFromEdge w.2.1 w.2.2 d.cols q.1) :
    bilinearAt (d.read w) (q.1 - w.2.1, q.2 - w.1.1) = bilinearAt d q := by
  obtain ⟨ya, yb⟩ := axis_shift hr0 hr hr1 hy
  obtain ⟨xa, xb⟩ := axis_shift hc0 hc hc1 hx
  have yb' := yb _ rfl
  have xb' := xb _ rfl
  have fy : ⌊clamp d.rows (q.2 - 0.5)⌋ = ⌊clamp (w.1.2 - w.1.1).toNat (q.2 - w.1.1 - 0.5)⌋ + w.1.1 := by
    rw [← ya, Int.floor_add_intCast]
  have fx : ⌊clamp d.cols (q.1 - 0.5)⌋ = ⌊clamp (w.2.2 - w.2.1).toNat (q.1 - w.2.1 - 0.5)⌋ + w.2.1 := by
    rw [← xa, Int.floor_add_intCast]
  have uy : clamp (w.1.2 - w.1.1).toNat (q.2 - w.1.1 - 0.5)
      - ⌊clamp (w.1.2 - w.1.1).toNat (q.2 - w.1.1 - 0.5)⌋
      = clamp d.rows (q.2 - 0.5) - ⌊clamp d.rows (q.2 - 0.5)⌋ := by
    rw [fy, ← ya]; push_cast; ring
  have ux : clamp (w.2.2 - w.2.1).toNat (q.1 - w.2.1 - 0.5)
      - ⌊clamp (w.2.2 - w.2.1).toNat (q.1 - w.2.1 - 0.5)⌋
      = clamp d.cols (q.1 - 0.5) - ⌊clamp d.cols (q.1 - 0.5)⌋ := by
    rw [fx, ← xa]; push_cast; ring
  rw [bilinearAt, bilinearAt, mapCoordinates1, mapCoordinates1,
    if_neg (by simp only [Raster.read]; omega), if_neg (by omega)]
  simp only [Raster.read]
  rw [uy, ux, fy, fx, ← yb', ← xb']
  simp only [add_comm w.1.1, add_comm w.2.1]

lemma extractLine_eq (sub : List (ℝ × ℝ) → List (ℝ × ℝ)) (d : Raster) (T I : Affine)
    (hI : T.inv = .ok I) (geom : List (ℝ × ℝ)) (p : ℝ × ℝ) (l : List (ℝ × ℝ))
    (hsub : sub (geom.map I.app) = p :: l) :
    extractLine sub d T (geom.map fun g => (g.1, g.2, none))
      = .ok ((p :: l).map fun q => ((T.app q).1, (T.app q).2,
          bilinearAt (d.read (lineWindow p l))
            (q.1 - (lineWindow p l).2.1, q.2 - (lineWindow p l).1.1))) := by
  have ha : (geom.map fun g : ℝ × ℝ => (g.1, g.2, (none : Option ℝ))).any
      (fun p => p.2.2.isSome) = false := by simp
  have hm : ((geom.map fun g : ℝ × ℝ => (g.1, g.2, (none : Option ℝ))).map
      fun p => I.app (p.1, p.2.1)) = geom.map I.app := by
    rw [List.map_map]
    rfl
  simp only [extractLine, hI, bind, Except.bind, ha, hm, hsub, Bool.false_eq_true, if_false]
  congr 1
  apply List.map_congr_left
  intro q _
  simp only [Affine.app, Affine.translation]
  congr 4 <;> ring

/-- What `extract_line` returns for a two-dimensional line inside the DEM, with an
invertible transformation and a window that is not empty: one row per point (of the
subdivided line), at the georeferenced position of the point, in order.  The
elevation is that of the full DEM for every point half a cell away from the edges of
the window. -/
theorem C80_values_partial (sub : List (ℝ × ℝ) → List (ℝ × ℝ)) (d : Raster) (T I : Affine)
    (hI : T.inv = .ok I) (geom : List (ℝ × ℝ)) (p : ℝ × ℝ) (l : List (ℝ × ℝ))
    (hsub : sub (geom.map I.app) = p :: l) (hin : Spec.InsideDem d (p :: l))
    (hr : ¬ ∃ k : ℤ, ∀ q ∈ p :: l, q.2 = k) (hc : ¬ ∃ k : ℤ, ∀ q ∈ p :: l, q.1 = k) :
    ∃ z : ℝ × ℝ → Option ℝ,
      extractLine sub d T (geom.map fun g => (g.1, g.2, none))
        = .ok ((p :: l).map fun q => ((T.app q).1, (T.app q).2, z q)) ∧
      ∀ q ∈ p :: l,
        Spec.AwayFromEdge (lineWindow p l).1.1 (lineWindow p l).1.2 d.rows q.2 →
        Spec.AwayFromEdge (lineWindow p l).2.1 (lineWindow p l).2.2 d.cols q.1 →
        z q = bilinearAt d q := by
  obtain ⟨-, -, hW⟩ := C80_window d p l
  obtain ⟨w1, w2, w3, w4⟩ := hW hin
  obtain ⟨e1, e2⟩ := C80_window_empty p l
  refine ⟨fun q => bilinearAt (d.read (lineWindow p l))
    (q.1 - (lineWindow p l).2.1, q.2 - (lineWindow p l).1.1), ?_, ?_⟩
  · exact extractLine_eq sub d T I hI geom p l hsub
  · intro q _ hy hx
    exact read_bilinear d _ w1 (by by_contra h; exact hr (e1.1 h)) w2 w3
      (by by_contra h; exact hc (e2.1 h)) w4 q hy hx

/-- Without subdivision the horizontal coordinates returned are those given. -/
theorem C80_coordinates (d : Raster) (T I : Affine) (hI : T.inv = .ok I) (geom : List (ℝ × ℝ))
    (hne : geom ≠ []) :
    ∃ out, extractLine id d T (geom.map fun g => (g.1, g.2, none)) = .ok out ∧
      out.map (fun o => (o.1, o.2.1)) = geom := by
  obtain ⟨g, gs, rfl⟩ := List.exists_cons_of_ne_nil hne
  refine ⟨_, extractLine_eq id d T I hI (g :: gs) (I.app g) (gs.map I.app) rfl, ?_⟩
  rw [← List.map_cons, List.map_map, List.map_map]
  conv_rhs => rw [← List.map_id (g :: gs)]
  apply List.map_congr_left
  intro q _
  simp only [Function.comp, id]
  rw [(Affine.inv_spec hI _).1]

example : ∃ I out, (⟨2, 0, 10, 0, -2, 20⟩ : Affine).inv = .ok I ∧
    extractLine id ⟨3, 3, fun i _ => .val (10 * i)⟩ ⟨2, 0, 10, 0, -2, 20⟩
      ([(11, 19), (14, 15)].map fun g => (g.1, g.2, none)) = .ok out ∧
    out.map (fun o => (o.1, o.2.1)) = [(11, 19), (14, 15)] := by
  obtain ⟨I, hI⟩ : ∃ I, (⟨2, 0, 10, 0, -2, 20⟩ : Affine).inv = .ok I := by
    unfold Affine.inv
    rw [if_neg (by simp [Affine.det])]
    exact ⟨_, rfl⟩
  obtain ⟨out, h, h'⟩ := C80_coordinates ⟨3, 3, fun i _ => .val (10 * i)⟩ _ I hI
    [(11, 19), (14, 15)] (by simp)
  exact ⟨I, out, hI, h, h'⟩

/-- The other branches: a singular transformation, a line with elevations, and an
empty line raise. -/
theorem C80_errors (sub : List (ℝ × ℝ) → List (ℝ × ℝ)) (d : Raster) (T : Affine)
    (geom : List (ℝ × ℝ × Option ℝ)) :
    (T.det = 0 → extractLine sub d T geom = .error .transformNotInvertibleError) ∧
    (T.det ≠ 0 → (∃ g ∈ geom, g.2.2 ≠ none) → extractLine sub d T geom = .error .typeError) ∧
    (T.det ≠ 0 → extractLine (fun l => l) d T [] = .error .valueError) := by
  refine ⟨?_, ?_, ?_⟩
  · intro h
    simp [extractLine, Affine.inv, h, bind, Except.bind]
  · rintro h ⟨g, hg, hz⟩
    have ha : geom.any (fun p => p.2.2.isSome) = true := by
      rw [List.any_eq_true]
      exact ⟨g, hg, Option.isSome_iff_ne_none.2 hz⟩
    simp [extractLine, Affine.inv, h, bind, Except.bind, ha]
  · intro h
    simp [extractLine, Affine.inv, h, bind, Except.bind]

/-- Refutation, lines along a cell border: for every line whose points all have the
same integer row coordinate, no elevation is extracted, whatever the DEM. -/
theorem C80_integer_line_false (d : Raster) (T I : Affine) (hI : T.inv = .ok I)
    (geom : List (ℝ × ℝ)) (hne : geom ≠ []) (k : ℤ) (hk : ∀ g ∈ geom, (I.app g).2 = k) :
    ∃ out, extractLine id d T (geom.map fun g => (g.1, g.2, none)) = .ok out ∧ out ≠ [] ∧
      ∀ o ∈ out, o.2.2 = none := by
  obtain ⟨g, gs, rfl⟩ := List.exists_cons_of_ne_nil hne
  have hempty := (C80_window_empty (I.app g) (gs.map I.app)).1.2 ⟨k, by
    rw [← List.map_cons]
    intro q hq
    obtain ⟨g', hg', rfl⟩ := List.mem_map.1 hq
    exact hk g' hg'⟩
  have hrows : ((d.read (lineWindow (I.app g) (gs.map I.app))).rows) = 0 := by
    simp only [Raster.read]
    omega
  have hb : ∀ q, bilinearAt (d.read (lineWindow (I.app g) (gs.map I.app))) q = none := by
    intro q
    rw [bilinearAt, mapCoordinates1, if_pos (Or.inl hrows)]
  refine ⟨_, extractLine_eq id d T I hI (g :: gs) (I.app g) (gs.map I.app) rfl, by simp, ?_⟩
  intro o ho
  obtain ⟨q, -, rfl⟩ := List.mem_map.1 ho
  exact hb _

/-- Refutation, short lines: for every line inside one cell the elevation is that of
the cell at all its points, not interpolated at all. -/
theorem C80_one_cell_false (d : Raster) (T I : Affine) (hI : T.inv = .ok I) (g : ℝ × ℝ)
    (gs : List (ℝ × ℝ)) (r c : ℤ) (h : ∀ q ∈ g :: gs, ((r : ℝ) < (I.app q).2 ∧ (I.app q).2 < r + 1) ∧
      (c : ℝ) < (I.app q).1 ∧ (I.app q).1 < c + 1) :
    ∃ out, extractLine id d T ((g :: gs).map fun g => (g.1, g.2, none)) = .ok out ∧
      out.length = (g :: gs).length ∧ ∀ o ∈ out, o.2.2 = (d.px r c).filled := by
  have hw : lineWindow (I.app g) (gs.map I.app) = ((r, r + 1), (c, c + 1)) := by
    have g2 : ∀ y ∈ (I.app g).2 :: (gs.map I.app).map Prod.snd, (r : ℝ) < y ∧ y < r + 1 := by
      intro y hy
      rw [← List.map_cons, ← List.map_cons, List.map_map, List.mem_map] at hy
      obtain ⟨q, hq, rfl⟩ := hy
      exact (h q hq).1
    have g1 : ∀ y ∈ (I.app g).1 :: (gs.map I.app).map Prod.fst, (c : ℝ) < y ∧ y < c + 1 := by
      intro y hy
      rw [← List.map_cons, ← List.map_cons, List.map_map, List.mem_map] at hy
      obtain ⟨q, hq, rfl⟩ := hy
      exact (h q hq).2
    have f : ∀ (k : ℤ) (y : ℝ), (k : ℝ) < y ∧ y < k + 1 → ⌊y⌋ = k ∧ ⌈y⌉ = k + 1 := by
      intro k y hy
      refine ⟨Int.floor_eq_iff.2 ⟨hy.1.le, hy.2⟩, Int.ceil_eq_iff.2 ?_⟩
      push_cast
      exact ⟨by linarith [hy.1], hy.2.le⟩
    simp only [lineWindow, (f r _ (g2 _ minimum_mem)).1, (f r _ (g2 _ maximum_mem)).2,
      (f c _ (g1 _ minimum_mem)).1, (f c _ (g1 _ maximum_mem)).2]
  have hb : ∀ q, bilinearAt (d.read (lineWindow (I.app g) (gs.map I.app))) q = (d.px r c).filled := by
    intro q
    have hone : ∀ x : ℝ, clamp 1 x = 0 := by
      intro x
      simp [clamp]
    rw [hw, bilinearAt, mapCoordinates1, if_neg (by simp [Raster.read])]
    have e : (d.read ((r, r + 1), (c, c + 1))).rows = 1 ∧
        (d.read ((r, r + 1), (c, c + 1))).cols = 1 := by simp [Raster.read]
    rw [e.1, e.2, hone, hone]
    simp only [Raster.read, Int.floor_zero, clampIdx]
    cases hp : d.px r c <;> simp [Pixel.filled, hp]
  refine ⟨_, extractLine_eq id d T I hI (g :: gs) (I.app g) (gs.map I.app) rfl, by simp, ?_⟩
  intro o ho
  obtain ⟨q, -, rfl⟩ := List.mem_map.1 ho
  exact hb _

/-- A DEM sloping ten units per row: the full DEM has different elevations at the two
ends of a line inside cell (1, 1); `extract_line` gives the same one. -/
example :
    let d : Raster := ⟨3, 3, fun i _ => .val (10 * i)⟩
    let T : Affine := ⟨1, 0, 0, 0, 1, 0⟩
    bilinearAt d (1.25, 1.25) ≠ bilinearAt d (1.75, 1.75) ∧
    ∃ a b, extractLine id d T [(1.25, 1.25, none), (1.75, 1.75, none)] = .ok [a, b] ∧
      a.2.2 = b.2.2 := by
  intro d T
  have hd : ∀ p : ℝ × ℝ, 1 / 2 ≤ p.1 ∧ p.1 ≤ 3 - 1 / 2 → 1 / 2 ≤ p.2 ∧ p.2 ≤ 3 - 1 / 2 →
      bilinearAt d p = some (10 * p.2 + 0 * p.1 + (-5)) := by
    intro p hx hy
    refine C81_planar d 10 0 (-5) ?_ p (by simpa [d] using hx) (by simpa [d] using hy)
    intro i j _ _ _ _
    simp only [d]
    congr 1
    ring
  refine ⟨?_, ?_⟩
  · rw [hd _ (by norm_num) (by norm_num), hd _ (by norm_num) (by norm_num)]
    norm_num
  · have hI : T.inv = .ok ⟨1, 0, 0, 0, 1, 0⟩ := by
      simp [T, Affine.inv, Affine.det]
    obtain ⟨out, ho, hl, hz⟩ := C80_one_cell_false d T _ hI (1.25, 1.25) [(1.75, 1.75)] 1 1 (by
      intro q hq
      simp only [List.mem_cons, List.not_mem_nil, or_false] at hq
      rcases hq with rfl | rfl <;> simp [Affine.app] <;> norm_num)
    match out, hl, hz, ho with
    | [a, b], _, hz, ho =>
      exact ⟨a, b, ho, (hz a (by simp)).trans (hz b (by simp)).symm⟩

/-- The hypotheses of `C80_values_partial` hold for a line through several cells,
with a point away from the edges. -/
example :
    let d : Raster := ⟨4, 4, fun i j => .val (i + j)⟩
    let T : Affine := ⟨1, 0, 0, 0, 1, 0⟩
    ∃ I, T.inv = .ok I ∧
    Spec.InsideDem d [((0.5 : ℝ), (0.5 : ℝ)), (2, 1.5), (3.5, 3.25)] ∧
    Spec.AwayFromEdge 0 4 d.rows 1.5 ∧ Spec.AwayFromEdge 0 4 d.cols 2 := by
  intro d T
  refine ⟨_, by simp [T, Affine.inv, Affine.det]; rfl, ?_, ?_, ?_⟩
  · intro q hq
    simp only [List.mem_cons, List.not_mem_nil, or_false] at hq
    rcases hq with rfl | rfl | rfl <;> simp [d] <;> norm_num
  · exact ⟨Or.inr rfl, Or.inr rfl⟩
  · exact ⟨Or.inr rfl, Or.inr rfl⟩

end Attitude.Props
