import Verif.Props.DemLines

/-!
# C292: elevations of the nearest cell
-/

namespace Attitude.Props

open Attitude Dem

/-! ## Specification -/

/-- Squared distance, in cells, from a position to the centre of the cell in row `r` and column `c`. -/
noncomputable def Spec.toCentre (p : ℝ × ℝ) (r c : ℕ) : ℝ :=
  (p.1 - (c + 1 / 2)) ^ 2 + (p.2 - (r + 1 / 2)) ^ 2

/-- The distance of two places on the map. -/
noncomputable def Spec.onMap (q q' : ℝ × ℝ) : ℝ := Real.sqrt ((q.1 - q'.1) ^ 2 + (q.2 - q'.2) ^ 2)

/-- The longer diagonal, on the map, of the cells of a DEM with the georeferencing `T`. -/
noncomputable def Spec.longDiagonal (T : Affine) : ℝ :=
  max (Spec.onMap (T.app (0, 0)) (T.app (1, 1))) (Spec.onMap (T.app (1, 0)) (T.app (0, 1)))

/-- The slope of the surface is nowhere larger than `G`. -/
def Spec.SlopeAtMost (f : ℝ × ℝ → ℝ) (G : ℝ) : Prop := ∀ q q', |f q - f q'| ≤ G * Spec.onMap q q'

/-- The DEM has in each cell the elevation of the surface at its centre, up to `ε`. -/
def Spec.SamplesWithin (a : Raster) (T : Affine) (f : ℝ × ℝ → ℝ) (ε : ℝ) : Prop :=
  ∀ r c : ℕ, r < a.rows → c < a.cols →
    ∃ z, a.px r c = .val z ∧ |z - f (T.app (c + 1 / 2, r + 1 / 2))| ≤ ε

/-! ## Helper lemmas -/

lemma nearest_axis (n : ℕ) (hn : 0 < n) (x : ℝ) :
    ∃ k : ℕ, k < n ∧ ⌊clamp n (x - 0.5) + 1 / 2⌋ = k ∧
      (∀ k' : ℕ, k' < n → (x - (k + 1 / 2)) ^ 2 ≤ (x - (k' + 1 / 2)) ^ 2) ∧
      (0 ≤ x → x ≤ n → |x - (k + 1 / 2)| ≤ 1 / 2) := by
  have hn1 : (1 : ℝ) ≤ n := by exact_mod_cast hn
  by_cases h0 : x < 1 / 2
  · refine ⟨0, hn, ?_, fun k' _ => ?_, fun h _ => ?_⟩
    · have : clamp n (x - 0.5) = 0 := by
        unfold clamp
        exact max_eq_left ((min_le_left _ _).trans (by norm_num; linarith))
      rw [this]
      norm_num
    · have : (0 : ℝ) ≤ k' := Nat.cast_nonneg k'
      push_cast
      nlinarith
    · push_cast
      rw [abs_le]
      constructor <;> linarith
  · push Not at h0
    by_cases h1 : (n : ℝ) - 1 / 2 ≤ x
    · obtain ⟨m, rfl⟩ : ∃ m, n = m + 1 := ⟨n - 1, by omega⟩
      push_cast at *
      refine ⟨m, by omega, ?_, fun k' hk => ?_, fun _ h => ?_⟩
      · have : clamp (m + 1) (x - 0.5) = m := by
          unfold clamp
          push_cast
          rw [min_eq_right (by norm_num; linarith), max_eq_right] <;> linarith
        rw [this, Int.floor_eq_iff]
        push_cast
        constructor <;> linarith
      · have : (k' : ℝ) ≤ m := by exact_mod_cast Nat.lt_succ_iff.1 hk
        nlinarith
      · rw [abs_le]
        constructor <;> linarith
    · push Not at h1
      have hx0 : 0 ≤ x := by linarith
      have hfl := Nat.floor_le hx0
      have hlt := Nat.lt_floor_add_one x
      have hcl : clamp n (x - 0.5) + 1 / 2 = x := by
        unfold clamp
        rw [min_eq_left (by norm_num; linarith), max_eq_right (by norm_num; linarith)]
        norm_num
      refine ⟨⌊x⌋₊, (Nat.floor_lt hx0).2 (by linarith), ?_, fun k' _ => ?_, fun _ _ => ?_⟩
      · rw [hcl]
        exact (Int.natCast_floor_eq_floor hx0).symm
      · rcases lt_trichotomy k' ⌊x⌋₊ with h | h | h
        · have : (k' : ℝ) + 1 ≤ ⌊x⌋₊ := by exact_mod_cast h
          nlinarith
        · rw [h]
        · have : (⌊x⌋₊ : ℝ) + 1 ≤ k' := by exact_mod_cast h
          nlinarith
      · rw [abs_le]
        constructor <;> linarith

lemma nearestAt_cell (a : Raster) (hr : 0 < a.rows) (hc : 0 < a.cols) (p : ℝ × ℝ) :
    ∃ r c : ℕ, r < a.rows ∧ c < a.cols ∧ nearestAt a p = (a.px r c).filled ∧
      (∀ r' c' : ℕ, r' < a.rows → c' < a.cols → Spec.toCentre p r c ≤ Spec.toCentre p r' c') ∧
      (0 ≤ p.1 → p.1 ≤ a.cols → |p.1 - (c + 1 / 2)| ≤ 1 / 2) ∧
      (0 ≤ p.2 → p.2 ≤ a.rows → |p.2 - (r + 1 / 2)| ≤ 1 / 2) := by
  obtain ⟨r, r1, r2, r3, r4⟩ := nearest_axis a.rows hr p.2
  obtain ⟨c, c1, c2, c3, c4⟩ := nearest_axis a.cols hc p.1
  refine ⟨r, c, r1, c1, ?_, fun r' c' h h' => add_le_add (c3 c' h') (r3 r' h), c4, r4⟩
  rw [nearestAt, mapCoordinates0, if_neg (by omega), r2, c2]

lemma longDiagonal_eq (T : Affine) : Spec.longDiagonal T =
    max (Real.sqrt ((T.a + T.b) ^ 2 + (T.d + T.e) ^ 2)) (Real.sqrt ((T.a - T.b) ^ 2 + (T.d - T.e) ^ 2)) := by
  unfold Spec.longDiagonal Spec.onMap Affine.app
  congr 2 <;> ring

lemma half_diagonal (T : Affine) (p q : ℝ × ℝ) (h1 : |p.1 - q.1| ≤ 1 / 2) (h2 : |p.2 - q.2| ≤ 1 / 2) :
    Spec.onMap (T.app p) (T.app q) ≤ Spec.longDiagonal T / 2 := by
  rw [longDiagonal_eq]
  have e : Spec.onMap (T.app p) (T.app q) = Real.sqrt (((p.1 - q.1) * T.a + (p.2 - q.2) * T.b) ^ 2 +
      ((p.1 - q.1) * T.d + (p.2 - q.2) * T.e) ^ 2) := by
    unfold Spec.onMap Affine.app
    congr 1
    ring
  rw [e]
  generalize p.1 - q.1 = s at *
  generalize p.2 - q.2 = t at *
  have hs : s ^ 2 ≤ 1 / 4 := by
    have := sq_le_sq' (abs_le.1 h1).1 (abs_le.1 h1).2
    norm_num at this ⊢
    exact this
  have ht : t ^ 2 ≤ 1 / 4 := by
    have := sq_le_sq' (abs_le.1 h2).1 (abs_le.1 h2).2
    norm_num at this ⊢
    exact this
  have hst : |s * t| ≤ 1 / 4 := by
    rw [abs_mul]
    nlinarith [abs_nonneg s, abs_nonneg t]
  obtain ⟨l1, l2⟩ := abs_le.1 hst
  have hU : s ^ 2 * (T.a ^ 2 + T.d ^ 2) ≤ 1 / 4 * (T.a ^ 2 + T.d ^ 2) :=
    mul_le_mul_of_nonneg_right hs (by positivity)
  have hV : t ^ 2 * (T.b ^ 2 + T.e ^ 2) ≤ 1 / 4 * (T.b ^ 2 + T.e ^ 2) :=
    mul_le_mul_of_nonneg_right ht (by positivity)
  rcases le_total 0 (T.a * T.b + T.d * T.e) with h | h
  · have hW := mul_le_mul_of_nonneg_right l2 h
    refine le_trans ?_ (div_le_div_of_nonneg_right (le_max_left _ _) (by norm_num))
    rw [Real.sqrt_le_left (by positivity), div_pow, Real.sq_sqrt (by positivity)]
    nlinarith
  · have hW := mul_le_mul_of_nonpos_right l1 h
    refine le_trans ?_ (div_le_div_of_nonneg_right (le_max_right _ _) (by norm_num))
    rw [Real.sqrt_le_left (by positivity), div_pow, Real.sq_sqrt (by positivity)]
    nlinarith

/-! ## C292 -/

/-- At every position, inside of the DEM or not, `nearest` gives the elevation of a cell of which no other cell
has its centre closer; if that cell is masked or `nan` there is no elevation. -/
theorem C292_closest (a : Raster) (hr : 0 < a.rows) (hc : 0 < a.cols) (p : ℝ × ℝ) :
    ∃ r c : ℕ, r < a.rows ∧ c < a.cols ∧
      (∀ r' c' : ℕ, r' < a.rows → c' < a.cols → Spec.toCentre p r c ≤ Spec.toCentre p r' c') ∧
      (∀ z, nearestAt a p = some z ↔ a.px r c = .val z) := by
  obtain ⟨r, c, h1, h2, h3, h4, -, -⟩ := nearestAt_cell a hr hc p
  refine ⟨r, c, h1, h2, h4, fun z => ?_⟩
  rw [h3]
  cases a.px r c <;> simp [Pixel.filled]

/-- A position outside of a DEM with a masked cell. -/
example : ∃ r c : ℕ, r < 2 ∧ c < 3 ∧
    (∀ r' c' : ℕ, r' < 2 → c' < 3 → Spec.toCentre (-4, 1.7) r c ≤ Spec.toCentre (-4, 1.7) r' c') ∧
    (∀ z, nearestAt ⟨2, 3, fun i j => if i = 1 then .masked else .val (i + j)⟩ (-4, 1.7) = some z ↔
      (fun i j : ℤ => if i = 1 then Pixel.masked else .val (i + j)) r c = .val z) :=
  C292_closest ⟨2, 3, fun i j => if i = 1 then .masked else .val (i + j)⟩ (by norm_num) (by norm_num) (-4, 1.7)

/-- On the DEM of a surface that is nowhere steeper than `G`, the elevation of the nearest cell is that of the
surface up to the error of the DEM and `G` times half of the longer diagonal of a cell. -/
theorem C292_accuracy (a : Raster) (T : Affine) (f : ℝ × ℝ → ℝ) (G ε : ℝ) (hG : 0 ≤ G)
    (hr : 0 < a.rows) (hc : 0 < a.cols) (hf : Spec.SlopeAtMost f G) (hs : Spec.SamplesWithin a T f ε)
    (p : ℝ × ℝ) (hx : 0 ≤ p.1 ∧ p.1 ≤ a.cols) (hy : 0 ≤ p.2 ∧ p.2 ≤ a.rows) :
    ∃ z, nearestAt a p = some z ∧ |z - f (T.app p)| ≤ ε + G * (Spec.longDiagonal T / 2) := by
  obtain ⟨r, c, h1, h2, h3, -, h5, h6⟩ := nearestAt_cell a hr hc p
  obtain ⟨z, hz, he⟩ := hs r c h1 h2
  refine ⟨z, by rw [h3, hz]; rfl, ?_⟩
  have hd := half_diagonal T (c + 1 / 2, r + 1 / 2) p
    (by rw [abs_sub_comm]; exact h5 hx.1 hx.2) (by rw [abs_sub_comm]; exact h6 hy.1 hy.2)
  have hb := (hf (T.app (c + 1 / 2, r + 1 / 2)) (T.app p)).trans (mul_le_mul_of_nonneg_left hd hG)
  exact (abs_sub_le z (f (T.app (c + 1 / 2, r + 1 / 2))) _).trans (add_le_add he hb)

/-- No smaller bound holds: for every georeferencing and every size of the DEM there are a surface not steeper than
`G`, a DEM of it with errors up to `ε` and a place where the bound is reached. -/
theorem C292_sharp (T : Affine) (R C : ℕ) (hR : 0 < R) (hC : 0 < C) (G ε : ℝ) (hG : 0 ≤ G) (hε : 0 ≤ ε) :
    ∃ (a : Raster) (f : ℝ × ℝ → ℝ) (p : ℝ × ℝ) (z : ℝ), a.rows = R ∧ a.cols = C ∧
      Spec.SlopeAtMost f G ∧ Spec.SamplesWithin a T f ε ∧ (0 ≤ p.1 ∧ p.1 ≤ C) ∧ (0 ≤ p.2 ∧ p.2 ≤ R) ∧
      nearestAt a p = some z ∧ |z - f (T.app p)| = ε + G * (Spec.longDiagonal T / 2) := by
  -- a plane that rises along `w`
  have plane : ∀ w : ℝ × ℝ, Spec.SlopeAtMost
      (fun q => G * ((w.1 * q.1 + w.2 * q.2) / Real.sqrt (w.1 ^ 2 + w.2 ^ 2))) G := by
    intro w q q'
    rw [← mul_sub, abs_mul, abs_of_nonneg hG, ← sub_div]
    refine mul_le_mul_of_nonneg_left ?_ hG
    rw [abs_div, abs_of_nonneg (Real.sqrt_nonneg _)]
    refine div_le_of_le_mul₀ (Real.sqrt_nonneg _) (Real.sqrt_nonneg _) ?_
    rw [Spec.onMap, ← Real.sqrt_mul (by positivity)]
    refine Real.abs_le_sqrt ?_
    nlinarith [sq_nonneg (w.1 * (q.2 - q'.2) - w.2 * (q.1 - q'.1))]
  have along : ∀ w : ℝ × ℝ, (w.1 * w.1 + w.2 * w.2) / Real.sqrt (w.1 ^ 2 + w.2 ^ 2) =
      Real.sqrt (w.1 ^ 2 + w.2 ^ 2) := by
    intro w
    rw [← sq, ← sq, Real.div_sqrt]
  -- with a corner `p` of the DEM whose cell is reached from it by `-w / 2`
  have build : ∀ (w p : ℝ × ℝ) (r c : ℕ), r < R → c < C → (0 ≤ p.1 ∧ p.1 ≤ C) → (0 ≤ p.2 ∧ p.2 ≤ R) →
      (∀ a : Raster, a.rows = R → a.cols = C → nearestAt a p = (a.px r c).filled) →
      T.app p = ((T.app (c + 1 / 2, r + 1 / 2)).1 + w.1 / 2, (T.app (c + 1 / 2, r + 1 / 2)).2 + w.2 / 2) →
      Spec.longDiagonal T = Real.sqrt (w.1 ^ 2 + w.2 ^ 2) → ∃ (a : Raster) (f : ℝ × ℝ → ℝ) (p : ℝ × ℝ) (z : ℝ),
      a.rows = R ∧ a.cols = C ∧ Spec.SlopeAtMost f G ∧ Spec.SamplesWithin a T f ε ∧ (0 ≤ p.1 ∧ p.1 ≤ C) ∧
      (0 ≤ p.2 ∧ p.2 ≤ R) ∧ nearestAt a p = some z ∧
      |z - f (T.app p)| = ε + G * (Spec.longDiagonal T / 2) := by
    intro w p r c hr hc hx hy hnear hp hd
    set f : ℝ × ℝ → ℝ := fun q => G * ((w.1 * q.1 + w.2 * q.2) / Real.sqrt (w.1 ^ 2 + w.2 ^ 2)) with hf
    refine ⟨⟨R, C, fun i j => .val (f (T.app (j + 1 / 2, i + 1 / 2)) - ε)⟩, f, p,
      f (T.app (c + 1 / 2, r + 1 / 2)) - ε, rfl, rfl, plane w, ?_, hx, hy, ?_, ?_⟩
    · intro r c _ _
      exact ⟨_, rfl, by simp [abs_of_nonneg hε]⟩
    · rw [hnear _ rfl rfl]
      simp [Pixel.filled]
    · have : f (T.app p) = f (T.app (c + 1 / 2, r + 1 / 2)) + G * (Spec.longDiagonal T / 2) := by
        rw [hp, hd]
        simp only [hf]
        linear_combination G / 2 * along w
      rw [this, show ∀ x y : ℝ, x - ε - (x + y) = -(ε + y) from fun x y => by ring, abs_neg, abs_of_nonneg]
      have : 0 ≤ Spec.longDiagonal T := by rw [hd]; exact Real.sqrt_nonneg _
      positivity
  obtain ⟨m, rfl⟩ : ∃ m, C = m + 1 := ⟨C - 1, by omega⟩
  obtain ⟨k, rfl⟩ : ∃ k, R = k + 1 := ⟨R - 1, by omega⟩
  have last : ∀ n : ℕ, ⌊clamp (n + 1) (((n : ℝ) + 1) - 0.5) + 1 / 2⌋ = n := by
    intro n
    have hn : (0 : ℝ) ≤ n := Nat.cast_nonneg n
    have : clamp (n + 1) (((n : ℝ) + 1) - 0.5) = n := by
      unfold clamp
      push_cast
      rw [min_eq_right (by norm_num; linarith), max_eq_right] <;> linarith
    rw [this, Int.floor_eq_iff]
    push_cast
    constructor <;> linarith
  have first : ∀ n : ℕ, ⌊clamp (n + 1) ((0 : ℝ) - 0.5) + 1 / 2⌋ = 0 := by
    intro n
    have : clamp (n + 1) ((0 : ℝ) - 0.5) = 0 := by
      unfold clamp
      exact max_eq_left ((min_le_left _ _).trans (by norm_num))
    rw [this]
    norm_num
  rcases le_total (Real.sqrt ((T.a - T.b) ^ 2 + (T.d - T.e) ^ 2))
    (Real.sqrt ((T.a + T.b) ^ 2 + (T.d + T.e) ^ 2)) with h | h
  · refine build (T.a + T.b, T.d + T.e) (m + 1, k + 1) k m (by omega) (by omega) ⟨by positivity, by simp⟩
      ⟨by positivity, by simp⟩ ?_ ?_ ?_
    · intro a h1 h2
      rw [nearestAt, mapCoordinates0, if_neg (by omega), h1, h2, last, last]
    · unfold Affine.app
      ext <;> simp <;> ring
    · rw [longDiagonal_eq, max_eq_left h]
  · refine build (T.a - T.b, T.d - T.e) (m + 1, 0) 0 m (by omega) (by omega) ⟨by positivity, by simp⟩
      ⟨le_rfl, by positivity⟩ ?_ ?_ ?_
    · intro a h1 h2
      rw [nearestAt, mapCoordinates0, if_neg (by omega), h1, h2, last, first]
      simp
    · unfold Affine.app
      ext <;> simp <;> ring
    · rw [longDiagonal_eq, max_eq_right h]

/-- Rotated cells, a slope of one and errors of a tenth. -/
example : ∃ (a : Raster) (f : ℝ × ℝ → ℝ) (p : ℝ × ℝ) (z : ℝ), a.rows = 5 ∧ a.cols = 7 ∧
    Spec.SlopeAtMost f 1 ∧ Spec.SamplesWithin a ⟨3, 4, 10, 4, -3, 20⟩ f 0.1 ∧ (0 ≤ p.1 ∧ p.1 ≤ (7 : ℕ)) ∧
    (0 ≤ p.2 ∧ p.2 ≤ (5 : ℕ)) ∧ nearestAt a p = some z ∧
    |z - f (Affine.app ⟨3, 4, 10, 4, -3, 20⟩ p)| = 0.1 + 1 * (Spec.longDiagonal ⟨3, 4, 10, 4, -3, 20⟩ / 2) :=
  C292_sharp _ 5 7 (by norm_num) (by norm_num) 1 0.1 (by norm_num) (by norm_num)

/-- A surface of slope two on cells of three by four metres, at a place in the second cell. -/
example : ∃ z, nearestAt ⟨1, 2, fun i j => .val (6 * (j + 1 / 2) + i * 0)⟩ (1.2, 0.9) = some z ∧
    |z - (fun q : ℝ × ℝ => 2 * q.1) (Affine.app ⟨3, 0, 0, 0, -4, 0⟩ (1.2, 0.9))| ≤
      0 + 2 * (Spec.longDiagonal ⟨3, 0, 0, 0, -4, 0⟩ / 2) := by
  refine C292_accuracy ⟨1, 2, fun i j => .val (6 * (j + 1 / 2) + i * 0)⟩ ⟨3, 0, 0, 0, -4, 0⟩
    (fun q => 2 * q.1) 2 0 (by norm_num) (by norm_num) (by norm_num) ?_ ?_ _ (by norm_num) (by norm_num)
  · intro q q'
    rw [← mul_sub, abs_mul, abs_of_pos (by norm_num : (0 : ℝ) < 2)]
    refine mul_le_mul_of_nonneg_left (Real.abs_le_sqrt ?_) (by norm_num)
    nlinarith [sq_nonneg (q.2 - q'.2)]
  · intro r c _ _
    refine ⟨_, rfl, ?_⟩
    simp only [Affine.app]
    rw [abs_le]
    push_cast
    constructor <;> linarith

end Attitude.Props
