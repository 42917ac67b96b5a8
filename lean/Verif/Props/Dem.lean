import Verif.Lemmas.Dem

/-!
# Properties of the extraction of areas: C77, C78, C79
-/

namespace Attitude.Props

open Attitude Dem

namespace Spec

/-- A row without `nan`. -/
def Finite {k : ℕ} (row : Fin k → Option ℝ) : Prop := ∀ i, row i ≠ none

/-- A true cell of a mask. -/
def TrueCell (m : Mask) (r c : ℕ) : Prop := r < m.rows ∧ c < m.cols ∧ m.get r c = true

/-- What one cell contributes to the extracted area: nothing if it is outside the
geometry or masked in the DEM, otherwise its centre in the reference of the DEM and
its value. -/
noncomputable def cell (m : Mask) (d : Raster) (T : Affine) (r c : ℕ) : List (ℝ × ℝ × Option ℝ) :=
  if m.get r c then
    match d.px r c with
    | .masked => []
    | .nan => [((T.app (c + 1 / 2, r + 1 / 2)).1, (T.app (c + 1 / 2, r + 1 / 2)).2, none)]
    | .val z => [((T.app (c + 1 / 2, r + 1 / 2)).1, (T.app (c + 1 / 2, r + 1 / 2)).2, some z)]
  else []

/-- All cells of the full DEM, row by row. -/
noncomputable def area (m : Mask) (d : Raster) (T : Affine) : List (ℝ × ℝ × Option ℝ) :=
  (List.range m.rows).flatMap fun r => (List.range m.cols).flatMap fun c => cell m d T r c

end Spec

/-! ## C77 -/

lemma keep_iff {k : ℕ} (c : Fin k → Option ℝ) :
    (!decide (∃ i, (c i).isNone)) = true ↔ Spec.Finite c := by
  simp [Spec.Finite]

/-- The rows returned are the longest sublist of the rows given that has no `nan`,
and are exactly the finite rows. -/
theorem C77_exactly {k : ℕ} (l : List (Fin k → Option ℝ)) :
    (cleanCoordinates l).Sublist l ∧ (∀ row, row ∈ cleanCoordinates l ↔ row ∈ l ∧ Spec.Finite row) ∧
    ∀ l' : List (Fin k → Option ℝ), l'.Sublist l → (∀ row ∈ l', Spec.Finite row) → l'.Sublist (cleanCoordinates l) := by
  refine ⟨List.filter_sublist, ?_, ?_⟩
  · intro row
    rw [cleanCoordinates, List.mem_filter, keep_iff]
  · intro l' h hf
    have := h.filter (fun c => !decide (∃ i, (c i).isNone))
    rwa [List.filter_eq_self.2 fun c hc => (keep_iff c).2 (hf c hc)] at this

/-- Cleaning again changes nothing; neither does cleaning finite rows. -/
theorem C77_idempotent {k : ℕ} (l : List (Fin k → Option ℝ)) :
    cleanCoordinates (cleanCoordinates l) = cleanCoordinates l ∧
    ((∀ row ∈ l, Spec.Finite row) → cleanCoordinates l = l) := by
  have h2 : ∀ l : List (Fin k → Option ℝ), (∀ row ∈ l, Spec.Finite row) → cleanCoordinates l = l :=
    fun l h => List.filter_eq_self.2 fun c hc => (keep_iff c).2 (h c hc)
  exact ⟨h2 _ fun row hr => ((C77_exactly l).2.1 row).1 hr |>.2, h2 l⟩

/-- The message tells how many rows are returned and, if there are any, how many
were not. -/
theorem C77_message {k : ℕ} (l : List (Fin k → Option ℝ)) :
    (cleanMessage l).1 = (cleanCoordinates l).length ∧
    (cleanCoordinates l).length + ((cleanMessage l).2.getD 0) = l.length ∧
    ((cleanMessage l).2 = none ↔ ∀ row ∈ l, Spec.Finite row) := by
  have hle : (cleanCoordinates l).length ≤ l.length := (C77_exactly l).1.length_le
  refine ⟨rfl, ?_, ?_⟩
  · simp only [cleanMessage]
    split_ifs with h <;> simp <;> omega
  · simp only [cleanMessage]
    constructor
    · intro h
      split_ifs at h with h'
      have := (C77_exactly l).1.eq_of_length (by omega)
      intro row hr
      rw [← this] at hr
      exact (((C77_exactly l).2.1 row).1 hr).2
    · intro h
      rw [(C77_idempotent l).2 h, if_neg (lt_irrefl _)]

/-- Two of three rows are kept. -/
example : cleanCoordinates [![some 1, some 2], ![none, some 3], ![some (4 : ℝ), some 5]]
    = [![some 1, some 2], ![some 4, some 5]] := by
  simp [cleanCoordinates, Fin.exists_fin_two]

/-! ## C78 -/

/-- No true cell is lost and cells keep their value: the cell `(r, c)` of the
result is the cell `(r, c) + offset` of the mask, and every true cell of the mask
is in the result. -/
theorem C78_contains (m : Mask) :
    let o := (offsetMask m).1
    let a := (offsetMask m).2
    o.1 + a.rows ≤ m.rows ∧ o.2 + a.cols ≤ m.cols ∧
    (∀ r c, Spec.TrueCell a r c ↔ r < a.rows ∧ c < a.cols ∧ Spec.TrueCell m (o.1 + r) (o.2 + c)) ∧
    ∀ r c, Spec.TrueCell m r c → ∃ r' c', Spec.TrueCell a r' c' ∧ r = o.1 + r' ∧ c = o.2 + c' := by
  obtain ⟨yo, ys, xo, xs, ho, hr, hc, hg, hy, hx, hin, -, -⟩ := offsetMask_spec m
  simp only [ho, hr, hc, Spec.TrueCell, hg]
  refine ⟨hy, hx, ?_, ?_⟩
  · intro r c
    constructor
    · rintro ⟨h1, h2, h3⟩
      exact ⟨h1, h2, by omega, by omega, h3⟩
    · rintro ⟨h1, h2, -, -, h3⟩
      exact ⟨h1, h2, h3⟩
  · rintro r c ⟨h1, h2, h3⟩
    obtain ⟨a1, a2, a3, a4⟩ := hin r h1 c h2 h3
    refine ⟨r - yo, c - xo, ⟨by omega, by omega, ?_⟩, by omega, by omega⟩
    rwa [show yo + (r - yo) = r by omega, show xo + (c - xo) = c by omega]

/-- It is the smallest rectangle: for a mask with a true cell, every rectangle that
contains all true cells contains the one returned. -/
theorem C78_minimal (m : Mask) (hne : ∃ r c, Spec.TrueCell m r c) (r0 r1 c0 c1 : ℕ)
    (h : ∀ r c, Spec.TrueCell m r c → (r0 ≤ r ∧ r < r1) ∧ c0 ≤ c ∧ c < c1) :
    r0 ≤ (offsetMask m).1.1 ∧ (offsetMask m).1.1 + (offsetMask m).2.rows ≤ r1 ∧
    c0 ≤ (offsetMask m).1.2 ∧ (offsetMask m).1.2 + (offsetMask m).2.cols ≤ c1 ∧
    0 < (offsetMask m).2.rows ∧ 0 < (offsetMask m).2.cols := by
  obtain ⟨yo, ys, xo, xs, ho, hr, hc, hg, hy, hx, hin, hys, hxs⟩ := offsetMask_spec m
  simp only [ho, hr, hc]
  obtain ⟨r, c, h1, h2, h3⟩ := hne
  obtain ⟨a1, a2, a3, a4⟩ := hin r h1 c h2 h3
  obtain ⟨⟨ca, hca, ta⟩, cb, hcb, tb⟩ := hys (by omega)
  obtain ⟨⟨ra, hra, ua⟩, rb, hrb, ub⟩ := hxs (by omega)
  have e1 := h yo ca ⟨by omega, hca, ta⟩
  have e2 := h (yo + ys - 1) cb ⟨by omega, hcb, tb⟩
  have e3 := h ra xo ⟨hra, by omega, ua⟩
  have e4 := h rb (xo + xs - 1) ⟨hrb, by omega, ub⟩
  omega

/-- A mask without true cells gives an empty array. -/
theorem C78_empty (m : Mask) (h : ∀ r c, ¬ Spec.TrueCell m r c) :
    (offsetMask m).2.rows = 0 ∧ (offsetMask m).2.cols = 0 := by
  obtain ⟨yo, ys, xo, xs, ho, hr, hc, hg, hy, hx, hin, hys, hxs⟩ := offsetMask_spec m
  rw [hr, hc]
  constructor
  · by_contra hne
    obtain ⟨⟨c, hc, t⟩, -⟩ := hys (by omega)
    exact h yo c ⟨by omega, hc, t⟩
  · by_contra hne
    obtain ⟨⟨r, hr, t⟩, -⟩ := hxs (by omega)
    exact h r xo ⟨hr, by omega, t⟩

/-- A mask with two true cells in a 4×5 array. -/
example : ∃ m : Mask, m.rows = 4 ∧ m.cols = 5 ∧ Spec.TrueCell m 1 2 ∧ Spec.TrueCell m 2 3 ∧
    (offsetMask m).1 = (1, 2) ∧ (offsetMask m).2.rows = 2 ∧ (offsetMask m).2.cols = 2 :=
  ⟨⟨4, 5, fun r c => (r == 1 && c == 2) || (r == 2 && c == 3)⟩, rfl, rfl,
    ⟨by decide, by decide, rfl⟩, ⟨by decide, by decide, rfl⟩, by decide, by decide, by decide⟩

/-! ## C79 -/

lemma cell_eq (m : Mask) (d : Raster) (T : Affine) (r c : ℕ) :
    (([(c, r, maskOut (m.get r c) (d.px r c))] : List (ℕ × ℕ × Pixel)).filter
      fun p => !p.2.2.isMasked).map (fun p =>
        (((T.comp (Affine.translation 0.5 0.5)).dot (p.1, p.2.1)).1,
         ((T.comp (Affine.translation 0.5 0.5)).dot (p.1, p.2.1)).2, p.2.2.filled))
      = Spec.cell m d T r c := by
  have hc : (T.comp (Affine.translation 0.5 0.5)).dot ((c : ℝ), (r : ℝ))
      = T.app (c + 1 / 2, r + 1 / 2) := by
    rw [Affine.dot_eq, Affine.app_comp]
    congr 1
    simp only [Affine.app, Affine.translation, Prod.mk.injEq]
    constructor <;> norm_num
  cases hg : m.get r c with
  | false => simp [maskOut, Spec.cell, hg, Pixel.isMasked]
  | true =>
    cases hp : d.px r c <;> simp only [maskOut, Spec.cell, hg, hp, if_true] <;>
      simp [Pixel.isMasked, Pixel.filled, hc]

/-- The area extracted through the window is exactly what the whole DEM gives: in
row-major order, every cell inside the geometry that is valid in the DEM, once, at
its centre with its value. -/
theorem C79_extract_area (m : Mask) (d : Raster) (T : Affine) :
    extractArea m d T = Spec.area m d T := by
  obtain ⟨yo, ys, xo, xs, ho, hr, hc, hg, hy, hx, hin, -, -⟩ := offsetMask_spec m
  have hout : ∀ r < m.rows, ∀ c < m.cols,
      ¬ ((yo ≤ r ∧ r < yo + ys) ∧ xo ≤ c ∧ c < xo + xs) → Spec.cell m d T r c = [] := by
    intro r h1 c h2 h
    have : m.get r c = false := by
      by_contra hne
      have := hin r h1 c h2 (by simpa using hne)
      omega
    simp [Spec.cell, this]
  have hspec : Spec.area m d T = (List.range ys).flatMap fun i =>
      (List.range xs).flatMap fun j => Spec.cell m d T (yo + i) (xo + j) := by
    unfold Spec.area
    rw [flatMap_window _ hy]
    · apply List.flatMap_congr
      intro i hi
      have hi' := List.mem_range.1 hi
      refine flatMap_window _ hx fun c h2 h => hout _ (by omega) c h2 (by omega)
    · intro r h1 h
      rw [List.flatMap_eq_nil_iff]
      intro c h2
      exact hout r h1 c (List.mem_range.1 h2) (by omega)
  rw [hspec]
  simp only [extractArea, areaWindow, ho, hr, hc, hg, Raster.read, Nat.add_sub_cancel_left]
  rw [List.filter_flatMap, List.map_flatMap]
  apply List.flatMap_congr
  intro i _
  rw [List.map_eq_flatMap (f := fun j => (xo + j, yo + i,
      maskOut (m.get (yo + i) (xo + j)) (d.px ((yo : ℤ) + (i : ℤ)) ((xo : ℤ) + (j : ℤ))))),
    List.filter_flatMap, List.map_flatMap]
  apply List.flatMap_congr
  intro j _
  have := cell_eq m d T (yo + i) (xo + j)
  push_cast at this ⊢
  exact this

/-- The window that is read is inside the DEM. -/
theorem C79_window (m : Mask) :
    (areaWindow m).1.1 ≤ (areaWindow m).1.2 ∧ (areaWindow m).1.2 ≤ m.rows ∧
    (areaWindow m).2.1 ≤ (areaWindow m).2.2 ∧ (areaWindow m).2.2 ≤ m.cols := by
  obtain ⟨h1, h2, -, -⟩ := C78_contains m
  simp only [areaWindow]
  omega

/-- `extract_shape` of an area returns exactly the cells of the geometry with a
finite value. -/
theorem C79_extract_shape (sub : List (ℝ × ℝ) → List (ℝ × ℝ)) (area : ℝ) (ha : area ≠ 0) (m : Mask)
    (geom : List (ℝ × ℝ × Option ℝ)) (d : Raster) (T : Affine) :
    ∃ l, extractShape sub area m geom d T = .ok l ∧ ∀ row, row ∈ l ↔
      ∃ r c z, Spec.TrueCell m r c ∧ d.px r c = .val z ∧
        row = ![some (T.app (c + 1 / 2, r + 1 / 2)).1, some (T.app (c + 1 / 2, r + 1 / 2)).2,
          some z] := by
  refine ⟨cleanCoordinates ((extractArea m d T).map toRow), ?_, ?_⟩
  · simp [extractShape, ha, bind, Except.bind]
  · intro row
    rw [(C77_exactly _).2.1, C79_extract_area]
    simp only [List.mem_map, Spec.area, List.mem_flatMap, List.mem_range]
    constructor
    · rintro ⟨⟨p, ⟨r, hr, c, hc, hp⟩, rfl⟩, hfin⟩
      simp only [Spec.cell] at hp
      split_ifs at hp with hg
      · cases hz : d.px r c with
        | masked => simp [hz] at hp
        | nan =>
          simp only [hz, List.mem_singleton] at hp
          subst hp
          exact absurd rfl (hfin 2)
        | val z =>
          simp only [hz, List.mem_singleton] at hp
          subst hp
          exact ⟨r, c, z, ⟨hr, hc, hg⟩, hz, rfl⟩
      · simp at hp
    · rintro ⟨r, c, z, ⟨hr, hc, hg⟩, hz, rfl⟩
      refine ⟨⟨((T.app (c + 1 / 2, r + 1 / 2)).1, (T.app (c + 1 / 2, r + 1 / 2)).2, some z),
        ⟨r, hr, c, hc, by simp [Spec.cell, hg, hz]⟩, rfl⟩, ?_⟩
      intro i
      fin_cases i <;> simp

/-- One valid cell of a small DEM is extracted, its masked neighbour is not. -/
example : extractArea ⟨2, 2, fun r _ => r == 1⟩ ⟨2, 2, fun _ c => if c = 0 then .val 7 else .masked⟩
    ⟨2, 0, 10, 0, -2, 20⟩ = [(11, 17, some 7)] := by
  rw [C79_extract_area]
  simp [Spec.area, Spec.cell, List.range_succ, Affine.app]
  norm_num

end Attitude.Props
