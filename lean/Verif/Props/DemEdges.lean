import Verif.Props.DemLines

/-! # Elevations along lines near the edges of the window: C80 -/

namespace Attitude.Props

open Attitude Dem

namespace Spec

/-- The number nearest to `y` among those half a cell or more away from both ends of the range `o..e`. -/
noncomputable def nearestWithin (o e : ℤ) (y : ℝ) : ℝ := max ((o : ℝ) + 1 / 2) (min y ((e : ℝ) - 1 / 2))

/-- The two rows (or columns) of the window `o..e` between the centers of which the position is, or the nearest one. -/
noncomputable def cellsAt (o e : ℤ) (y : ℝ) : ℤ × ℤ :=
  (⌊nearestWithin o e y - 1 / 2⌋, min (⌊nearestWithin o e y - 1 / 2⌋ + 1) (e - 1))

/-- All cells in the given two rows and two columns have a value. -/
def HaveValues (d : Raster) (r c : ℤ × ℤ) : Prop :=
  ∀ i j, (i = r.1 ∨ i = r.2) → (j = c.1 ∨ j = c.2) → ∃ z, d.px i j = .val z

/-- `d'` is `d` with the masked cells filled in some way. -/
def FilledIn (d d' : Raster) : Prop :=
  d'.rows = d.rows ∧ d'.cols = d.cols ∧ Complete d' ∧ ∀ i j z, d.px i j = .val z → d'.px i j = .val z

end Spec

lemma nearestWithin_shift {o e : ℤ} (he : o < e) (y : ℝ) :
    Spec.nearestWithin o e y - 1 / 2 = clamp (e - o).toNat (y - o - 0.5) + o := by
  have hcast : (((e - o).toNat : ℕ) : ℤ) = e - o := Int.toNat_of_nonneg (by omega)
  have hcastR : (((e - o).toNat : ℕ) : ℝ) = (e : ℝ) - o := by exact_mod_cast hcast
  have heR : (o : ℝ) + 1 ≤ e := by exact_mod_cast he
  unfold clamp Spec.nearestWithin
  rw [hcastR]
  norm_num only
  rcases le_total y ((e : ℝ) - 1 / 2) with h | h
  · rw [min_eq_left h, min_eq_left (by linarith)]
    rcases le_total ((o : ℝ) + 1 / 2) y with h' | h'
    · rw [max_eq_right h', max_eq_right (by linarith)]; ring
    · rw [max_eq_left h', max_eq_left (by linarith)]; ring
  · rw [min_eq_right h, min_eq_right (by linarith), max_eq_right (by linarith), max_eq_right (by linarith)]
    ring

lemma cellsAt_eq {o e : ℤ} (he : o < e) (y : ℝ) :
    Spec.cellsAt o e y = (o + ⌊clamp (e - o).toNat (y - o - 0.5)⌋,
      o + clampIdx (e - o).toNat (⌊clamp (e - o).toNat (y - o - 0.5)⌋ + 1)) := by
  have hcast : (((e - o).toNat : ℕ) : ℤ) = e - o := Int.toNat_of_nonneg (by omega)
  have hfl := floor_clamp (show 0 < (e - o).toNat by omega) (y - o - 0.5)
  rw [hcast] at hfl
  rw [Spec.cellsAt, nearestWithin_shift he, Int.floor_add_intCast]
  refine Prod.ext (by simp only; omega) ?_
  simp only [clampIdx, hcast]
  omega

lemma axis_edge {o e : ℤ} {N : ℕ} (ho : 0 ≤ o) (he : o < e) (hN : e ≤ N) (y : ℝ) :
    clamp N (Spec.nearestWithin o e y - 0.5) = clamp (e - o).toNat (y - o - 0.5) + o ∧
    0 ≤ ⌊clamp (e - o).toNat (y - o - 0.5)⌋ ∧ ⌊clamp (e - o).toNat (y - o - 0.5)⌋ < e - o ∧
    (clampIdx (e - o).toNat (⌊clamp (e - o).toNat (y - o - 0.5)⌋ + 1) + o
        = clampIdx N (⌊clamp (e - o).toNat (y - o - 0.5)⌋ + o + 1) ∨
      clamp (e - o).toNat (y - o - 0.5) = ⌊clamp (e - o).toNat (y - o - 0.5)⌋) := by
  have hcast : (((e - o).toNat : ℕ) : ℤ) = e - o := Int.toNat_of_nonneg (by omega)
  have hcastR : (((e - o).toNat : ℕ) : ℝ) = (e : ℝ) - o := by exact_mod_cast hcast
  have heR : (o : ℝ) + 1 ≤ e := by exact_mod_cast he
  have hoR : (0 : ℝ) ≤ o := by exact_mod_cast ho
  have hNR : (e : ℝ) ≤ N := by exact_mod_cast hN
  have hfl := floor_clamp (show 0 < (e - o).toNat by omega) (y - o - 0.5)
  rw [hcast] at hfl
  have ht0 : 0 ≤ clamp (e - o).toNat (y - o - 0.5) := le_max_left _ _
  have ht1 : clamp (e - o).toNat (y - o - 0.5) ≤ e - o - 1 := by
    unfold clamp
    rw [hcastR]
    exact max_le (by linarith) (min_le_right _ _)
  have hshift : Spec.nearestWithin o e y - 0.5 = clamp (e - o).toNat (y - o - 0.5) + o := by
    rw [← nearestWithin_shift he]; norm_num
  refine ⟨?_, hfl.1, by omega, ?_⟩
  · rw [hshift]
    generalize clamp (e - o).toNat (y - o - 0.5) = t at *
    unfold clamp
    rw [min_eq_left (by linarith), max_eq_right (by linarith)]
  · by_cases hlast : ⌊clamp (e - o).toNat (y - o - 0.5)⌋ + 1 ≤ e - o - 1
    · left
      simp only [clampIdx, hcast]
      omega
    · right
      refine le_antisymm (ht1.trans ?_) (Int.floor_le _)
      have : e - o - 1 ≤ ⌊clamp (e - o).toNat (y - o - 0.5)⌋ := by omega
      exact_mod_cast this

/-- In a DEM without masked cells, the value read from a window at any position is the value of the DEM at the
nearest position half a cell away from the edges of the window. -/
lemma read_nearest (d : Raster) (hd : Spec.Complete d) (w : (ℤ × ℤ) × (ℤ × ℤ)) (hr0 : 0 ≤ w.1.1)
    (hr : w.1.1 < w.1.2) (hr1 : w.1.2 ≤ d.rows) (hc0 : 0 ≤ w.2.1) (hc : w.2.1 < w.2.2) (hc1 : w.2.2 ≤ d.cols)
    (q : ℝ × ℝ) : ∃ z, bilinearAt (d.read w) (q.1 - w.2.1, q.2 - w.1.1) = some z ∧
      bilinearAt d (Spec.nearestWithin w.2.1 w.2.2 q.1, Spec.nearestWithin w.1.1 w.1.2 q.2) = some z := by
  obtain ⟨ya, yb, yc, yd⟩ := axis_edge hr0 hr hr1 q.2
  obtain ⟨xa, xb, xc, xd⟩ := axis_edge hc0 hc hc1 q.1
  have hv : ∀ i j : ℤ, ∃ z, (0 ≤ i ∧ i < d.rows) → (0 ≤ j ∧ j < d.cols) → (d.px i j).filled = some z := by
    intro i j
    by_cases h : (0 ≤ i ∧ i < d.rows) ∧ (0 ≤ j ∧ j < d.cols)
    · obtain ⟨z, hz⟩ := hd i j h.1.1 h.1.2 h.2.1 h.2.2
      exact ⟨z, fun _ _ => by rw [hz]; rfl⟩
    · exact ⟨0, fun h1 h2 => absurd ⟨h1, h2⟩ h⟩
  choose g hg using hv
  rw [bilinearAt, bilinearAt, mapCoordinates1, mapCoordinates1,
    if_neg (by simp only [Raster.read]; omega), if_neg (by omega)]
  simp only [Raster.read, ya, xa, Int.floor_add_intCast]
  have ry : (((w.1.2 - w.1.1).toNat : ℕ) : ℤ) = w.1.2 - w.1.1 := Int.toNat_of_nonneg (by omega)
  have rx : (((w.2.2 - w.2.1).toNat : ℕ) : ℤ) = w.2.2 - w.2.1 := Int.toNat_of_nonneg (by omega)
  generalize clamp (w.1.2 - w.1.1).toNat (q.2 - w.1.1 - 0.5) = s at *
  generalize clamp (w.2.2 - w.2.1).toNat (q.1 - w.2.1 - 0.5) = t at *
  generalize hi : ⌊s⌋ = i at *
  generalize hj : ⌊t⌋ = j at *
  have a1 : 0 ≤ w.1.1 + clampIdx (w.1.2 - w.1.1).toNat (i + 1) ∧
      w.1.1 + clampIdx (w.1.2 - w.1.1).toNat (i + 1) < d.rows := by simp only [clampIdx, ry]; omega
  have a2 : 0 ≤ w.2.1 + clampIdx (w.2.2 - w.2.1).toNat (j + 1) ∧
      w.2.1 + clampIdx (w.2.2 - w.2.1).toNat (j + 1) < d.cols := by simp only [clampIdx, rx]; omega
  have a3 : 0 ≤ clampIdx d.rows (i + w.1.1 + 1) ∧ clampIdx d.rows (i + w.1.1 + 1) < d.rows := by
    simp only [clampIdx]; omega
  have a4 : 0 ≤ clampIdx d.cols (j + w.2.1 + 1) ∧ clampIdx d.cols (j + w.2.1 + 1) < d.cols := by
    simp only [clampIdx]; omega
  have a5 : 0 ≤ w.1.1 + i ∧ w.1.1 + i < d.rows := by omega
  have a6 : 0 ≤ w.2.1 + j ∧ w.2.1 + j < d.cols := by omega
  rw [add_comm i w.1.1, add_comm j w.2.1] at *
  rw [hg _ _ a5 a6, hg _ _ a5 a2, hg _ _ a1 a6, hg _ _ a1 a2, hg _ _ a5 a4, hg _ _ a3 a6, hg _ _ a3 a4]
  refine ⟨_, rfl, ?_⟩
  simp only [Option.bind_eq_bind, Option.bind_some, Option.some.injEq]
  have e1 : s + w.1.1 - ((w.1.1 + i : ℤ) : ℝ) = s - i := by push_cast; ring
  have e2 : t + w.2.1 - ((w.2.1 + j : ℤ) : ℝ) = t - j := by push_cast; ring
  rw [e1, e2]
  rw [add_comm _ w.1.1] at yd
  rw [add_comm _ w.2.1] at xd
  rcases yd with yd | yd <;> rcases xd with xd | xd
  · rw [yd, xd]
  · rw [yd, xd]; simp
  · rw [yd, xd]; simp
  · rw [yd, xd]; simp

/-- All values that `extract_line` returns for a line inside a DEM without masked cells: at each point it is the
elevation of the DEM not at the point but at the nearest position half a cell away from the edges of the window
(which is the point itself, unless it is less than half a cell from an edge). -/
theorem C80_everywhere_partial (sub : List (ℝ × ℝ) → List (ℝ × ℝ)) (d : Raster) (hd : Spec.Complete d) (T I : Affine)
    (hI : T.inv = .ok I) (geom : List (ℝ × ℝ)) (p : ℝ × ℝ) (l : List (ℝ × ℝ))
    (hsub : sub (geom.map I.app) = p :: l) (hin : Spec.InsideDem d (p :: l))
    (hr : ¬ ∃ k : ℤ, ∀ q ∈ p :: l, q.2 = k) (hc : ¬ ∃ k : ℤ, ∀ q ∈ p :: l, q.1 = k) :
    ∃ z : ℝ × ℝ → ℝ,
      extractLine sub d T (geom.map fun g => (g.1, g.2, none))
        = .ok ((p :: l).map fun q => ((T.app q).1, (T.app q).2, some (z q))) ∧
      ∀ q, bilinearAt d (Spec.nearestWithin (lineWindow p l).2.1 (lineWindow p l).2.2 q.1,
        Spec.nearestWithin (lineWindow p l).1.1 (lineWindow p l).1.2 q.2) = some (z q) := by
  obtain ⟨-, -, hW⟩ := C80_window d p l
  obtain ⟨w1, w2, w3, w4⟩ := hW hin
  obtain ⟨e1, e2⟩ := C80_window_empty p l
  have key := read_nearest d hd (lineWindow p l) w1 (by by_contra h; exact hr (e1.1 h)) w2 w3
    (by by_contra h; exact hc (e2.1 h)) w4
  choose z h1 h2 using key
  refine ⟨z, ?_, h2⟩
  rw [extractLine_eq sub d T I hI geom p l hsub]
  congr 1
  exact List.map_congr_left fun q _ => by rw [h1 q]

lemma filled_eq_some {p : Pixel} {z : ℝ} : p.filled = some z ↔ p = .val z := by
  cases p <;> simp [Pixel.filled]

/-- A window of a DEM with masked cells: where all four cells have values the masked cells do not matter, elsewhere
there is no value. -/
lemma read_masked (d d' : Raster) (hd : Spec.FilledIn d d') (w : (ℤ × ℤ) × (ℤ × ℤ))
    (hr : w.1.1 < w.1.2) (hc : w.2.1 < w.2.2) (q : ℝ × ℝ) :
    (Spec.HaveValues d (Spec.cellsAt w.1.1 w.1.2 q.2) (Spec.cellsAt w.2.1 w.2.2 q.1) →
      bilinearAt (d.read w) (q.1 - w.2.1, q.2 - w.1.1) = bilinearAt (d'.read w) (q.1 - w.2.1, q.2 - w.1.1)) ∧
    (¬ Spec.HaveValues d (Spec.cellsAt w.1.1 w.1.2 q.2) (Spec.cellsAt w.2.1 w.2.2 q.1) →
      bilinearAt (d.read w) (q.1 - w.2.1, q.2 - w.1.1) = none) := by
  rw [cellsAt_eq hr, cellsAt_eq hc, bilinearAt, bilinearAt, mapCoordinates1, mapCoordinates1,
    if_neg (by simp only [Raster.read]; omega), if_neg (by simp only [Raster.read]; omega)]
  simp only [Raster.read]
  generalize clamp (w.1.2 - w.1.1).toNat (q.2 - w.1.1 - 0.5) = s
  generalize clamp (w.2.2 - w.2.1).toNat (q.1 - w.2.1 - 0.5) = t
  generalize clampIdx (w.1.2 - w.1.1).toNat (⌊s⌋ + 1) = i'
  generalize clampIdx (w.2.2 - w.2.1).toNat (⌊t⌋ + 1) = j'
  constructor
  · intro h
    have key : ∀ i j, (i = w.1.1 + ⌊s⌋ ∨ i = w.1.1 + i') → (j = w.2.1 + ⌊t⌋ ∨ j = w.2.1 + j') →
        d.px i j = d'.px i j := by
      intro i j hi hj
      obtain ⟨z, hz⟩ := h i j hi hj
      rw [hz, hd.2.2.2 i j z hz]
    rw [key _ _ (Or.inl rfl) (Or.inl rfl), key _ _ (Or.inl rfl) (Or.inr rfl), key _ _ (Or.inr rfl) (Or.inl rfl),
      key _ _ (Or.inr rfl) (Or.inr rfl)]
  · intro h
    by_contra hn
    obtain ⟨z, hz⟩ := Option.ne_none_iff_exists'.1 hn
    simp only [Option.bind_eq_bind, Option.bind_eq_some_iff] at hz
    obtain ⟨z1, h1, z2, h2, z3, h3, z4, h4, -⟩ := hz
    refine h fun i j hi hj => ?_
    simp only at hi hj
    rcases hi with rfl | rfl <;> rcases hj with rfl | rfl
    · exact ⟨z1, filled_eq_some.1 h1⟩
    · exact ⟨z2, filled_eq_some.1 h2⟩
    · exact ⟨z3, filled_eq_some.1 h3⟩
    · exact ⟨z4, filled_eq_some.1 h4⟩

/-- The same for any DEM: a point has a value exactly if the cells around the position read (up to four, inside the
window) have values, and then it is the elevation there, however the masked cells are filled in. -/
theorem C80_masked_partial (sub : List (ℝ × ℝ) → List (ℝ × ℝ)) (d d' : Raster) (hd : Spec.FilledIn d d')
    (T I : Affine) (hI : T.inv = .ok I) (geom : List (ℝ × ℝ)) (p : ℝ × ℝ) (l : List (ℝ × ℝ))
    (hsub : sub (geom.map I.app) = p :: l) (hin : Spec.InsideDem d (p :: l))
    (hr : ¬ ∃ k : ℤ, ∀ q ∈ p :: l, q.2 = k) (hc : ¬ ∃ k : ℤ, ∀ q ∈ p :: l, q.1 = k) :
    ∃ v : ℝ × ℝ → Option ℝ,
      extractLine sub d T (geom.map fun g => (g.1, g.2, none))
        = .ok ((p :: l).map fun q => ((T.app q).1, (T.app q).2, v q)) ∧
      ∀ q, ((v q).isSome ↔ Spec.HaveValues d (Spec.cellsAt (lineWindow p l).1.1 (lineWindow p l).1.2 q.2)
          (Spec.cellsAt (lineWindow p l).2.1 (lineWindow p l).2.2 q.1)) ∧
        ((v q).isSome → v q = bilinearAt d' (Spec.nearestWithin (lineWindow p l).2.1 (lineWindow p l).2.2 q.1,
          Spec.nearestWithin (lineWindow p l).1.1 (lineWindow p l).1.2 q.2)) := by
  obtain ⟨-, -, hW⟩ := C80_window d p l
  obtain ⟨w1, w2, w3, w4⟩ := hW hin
  obtain ⟨e1, e2⟩ := C80_window_empty p l
  have r1 : (lineWindow p l).1.1 < (lineWindow p l).1.2 := by by_contra h; exact hr (e1.1 h)
  have c1 : (lineWindow p l).2.1 < (lineWindow p l).2.2 := by by_contra h; exact hc (e2.1 h)
  refine ⟨fun q => bilinearAt (d.read (lineWindow p l)) (q.1 - (lineWindow p l).2.1, q.2 - (lineWindow p l).1.1),
    ?_, fun q => ?_⟩
  · rw [extractLine_eq sub d T I hI geom p l hsub]
  · obtain ⟨m1, m2⟩ := read_masked d d' hd (lineWindow p l) r1 c1 q
    obtain ⟨z, h1, h2⟩ := read_nearest d' hd.2.2.1 (lineWindow p l) w1 r1 (by rw [hd.1]; exact w2) w3 c1
      (by rw [hd.2.1]; exact w4) q
    by_cases h : Spec.HaveValues d (Spec.cellsAt (lineWindow p l).1.1 (lineWindow p l).1.2 q.2)
        (Spec.cellsAt (lineWindow p l).2.1 (lineWindow p l).2.2 q.1)
    · simp only [m1 h, h1, h2, Option.isSome_some, h, implies_true, and_self]
    · simp only [m2 h, h, Option.isSome_none, Bool.false_eq_true, true_and,
        IsEmpty.forall_iff]

/-- A DEM of two by two cells with one of them masked. -/
example : Spec.FilledIn ⟨2, 2, fun i j => if i = 0 ∧ j = 0 then .masked else .val (10 * i + j)⟩
    ⟨2, 2, fun i j => .val (10 * i + j)⟩ ∧
    ¬ Spec.HaveValues ⟨2, 2, fun i j => if i = 0 ∧ j = 0 then .masked else .val (10 * i + j)⟩ (0, 1) (0, 1) ∧
    Spec.HaveValues ⟨2, 2, fun i j => if i = 0 ∧ j = 0 then .masked else .val (10 * i + j)⟩ (1, 1) (0, 1) := by
  refine ⟨⟨rfl, rfl, fun i j _ _ _ _ => ⟨_, rfl⟩, fun i j z h => ?_⟩, fun h => ?_, fun i j hi hj => ?_⟩
  · simp only at h
    split_ifs at h
    exact h
  · obtain ⟨z, hz⟩ := h 0 0 (Or.inl rfl) (Or.inl rfl)
    simp at hz
  · simp only [or_self] at hi
    subst hi
    exact ⟨10 * ((1 : ℤ) : ℝ) + j, by simp⟩

/-- A line across a DEM of three by three cells. -/
example : ∃ I, (⟨2, 0, 10, 0, -2, 20⟩ : Affine).inv = .ok I ∧
    Spec.Complete ⟨3, 3, fun i _ => .val (10 * i)⟩ ∧
    Spec.InsideDem ⟨3, 3, fun i _ => .val (10 * i)⟩ [(1 / 2, 1 / 2), (2, 5 / 2)] ∧
    (¬ ∃ k : ℤ, ∀ q ∈ [((1 : ℝ) / 2, (1 : ℝ) / 2), (2, 5 / 2)], q.2 = k) ∧
    ¬ ∃ k : ℤ, ∀ q ∈ [((1 : ℝ) / 2, (1 : ℝ) / 2), (2, 5 / 2)], q.1 = k := by
  have hk : ∀ k : ℤ, (1 : ℝ) / 2 ≠ k := by
    intro k h
    have h2 : (2 * k : ℝ) = 1 := by linarith
    have h3 : (2 * k : ℤ) = 1 := by exact_mod_cast h2
    omega
  refine ⟨_, by unfold Affine.inv; rw [if_neg (by simp [Affine.det])], fun i j _ _ _ _ => ⟨_, rfl⟩, ?_, ?_, ?_⟩
  · intro q hq
    simp only [List.mem_cons, List.not_mem_nil, or_false] at hq
    rcases hq with rfl | rfl <;> norm_num
  · rintro ⟨k, h⟩
    exact hk k (h _ (List.mem_cons_self ..))
  · rintro ⟨k, h⟩
    exact hk k (h _ (List.mem_cons_self ..))

end Attitude.Props
