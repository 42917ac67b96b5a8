import Verif.Model.DemParts
import Verif.Props.DemLines

/-!
# C250: elevations of several lines
-/

namespace Attitude.Props

open Attitude Dem

namespace Spec

/-- Two-dimensional coordinates. -/
def flat (g : List (ℝ × ℝ)) : List (ℝ × ℝ × Option ℝ) := g.map fun q => (q.1, q.2, none)

end Spec

lemma coordsArray_parts {ls : List (List (ℝ × ℝ))} (h : ls ≠ []) :
    coordsArray (.multiLineString ls) = .ok ls.flatten := by
  obtain ⟨a, l, rfl⟩ := List.exists_cons_of_ne_nil h
  rfl

lemma zip_rows (f : ℝ × ℝ → ℝ × ℝ × Option ℝ) (g : ℝ × ℝ → ℝ × ℝ) (px : List (List (ℝ × ℝ))) :
    List.zipWith (fun (e : ℝ × ℝ × Option ℝ) (g : ℝ × ℝ) => (g.1, g.2, e.2.2)) (px.map (List.map f)).flatten
      (px.map (List.map g)).flatten = px.flatten.map fun q => ((g q).1, (g q).2, (f q).2.2) := by
  rw [← List.map_flatten, ← List.map_flatten, List.zipWith_map, List.zipWith_self]

/-- The rows of several lines, in closed form. -/
lemma extractLines_rows (sub : List (ℝ × ℝ) → List (ℝ × ℝ)) (d : Raster) (T : Affine)
    (parts : List (List (ℝ × ℝ × Option ℝ))) (hne : parts ≠ []) :
    extractLines sub d T parts = (do
      let I ← T.inv
      if parts.flatten.any (fun p => p.2.2.isSome) then .error .typeError
      else match parts.flatMap (fun g => sub (g.map fun p => I.app (p.1, p.2.1))) with
        | [] => .error .valueError
        | p :: l => .ok ((p :: l).map fun q => ((T.app q).1, (T.app q).2,
            bilinearAt (d.read (lineWindow p l))
              ((Affine.translation (-((lineWindow p l).2.1 : ℝ)) (-((lineWindow p l).1.1 : ℝ))).app q)))) := by
  unfold extractLines
  rw [coordsArray_parts (by simpa using hne)]
  cases hI : T.inv with
  | error e => rfl
  | ok I =>
    simp only [bind, Except.bind]
    rw [List.any_flatten]
    by_cases h : parts.any (fun g => g.any fun p => p.2.2.isSome) = true
    · rw [if_pos h, if_pos h]
    · rw [if_neg h, if_neg h]
      rw [coordsArray_parts (by simpa using hne)]
      simp only [List.flatMap]
      set px := parts.map fun g => sub (g.map fun p => I.app (p.1, p.2.1)) with hpx
      have hpn : px ≠ [] := by simpa [hpx] using hne
      cases hf : px.flatten with
      | nil => rfl
      | cons p l =>
        simp only [interpolate]
        rw [coordsArray_parts (by simpa using hpn)]
        simp only
        rw [← hf, List.map_map]
        rw [← zip_rows (fun q => (_, _, bilinearAt (d.read (lineWindow p l))
          ((Affine.translation (-((lineWindow p l).2.1 : ℝ)) (-((lineWindow p l).1.1 : ℝ))).app q))) T.app px]
        congr 4
        funext g
        simp only [Function.comp, lineHandler, List.map_map]
        rfl

/-- Without subdivision, several lines give the rows of the one line through all their points. -/
theorem C250_one_line (d : Raster) (T : Affine) (parts : List (List (ℝ × ℝ × Option ℝ))) (hne : parts ≠ []) :
    extractLines id d T parts = extractLine id d T parts.flatten := by
  rw [extractLines_rows _ _ _ _ hne]
  unfold extractLine
  cases hI : T.inv with
  | error e => rfl
  | ok I =>
    simp only [bind, Except.bind, id]
    rw [List.flatMap_def, ← List.map_flatten]
    by_cases h : parts.flatten.any (fun p => p.2.2.isSome) = true
    · rw [if_pos h, if_pos h]
    · rw [if_neg h, if_neg h]
      cases parts.flatten.map fun p => I.app (p.1, p.2.1) <;> rfl

example (d : Raster) : extractLines id d ⟨1, 0, 0, 0, 1, 0⟩
      [[(1, 1, none), (2, 3, none)], [(5, 4, none), (6, 6, none)]]
    = extractLine id d ⟨1, 0, 0, 0, 1, 0⟩ [(1, 1, none), (2, 3, none), (5, 4, none), (6, 6, none)] :=
  C250_one_line d _ _ (by simp)

lemma minimum_anti {x : ℝ} {l : List ℝ} {y : ℝ} {m : List ℝ} (h : ∀ z ∈ y :: m, z ∈ x :: l) :
    minimum x l ≤ minimum y m := minimum_le _ (h _ minimum_mem)

lemma maximum_mono {x : ℝ} {l : List ℝ} {y : ℝ} {m : List ℝ} (h : ∀ z ∈ y :: m, z ∈ x :: l) :
    maximum y m ≤ maximum x l := le_maximum _ (h _ maximum_mem)

lemma lineWindow_mono {p q : ℝ × ℝ} {l m : List (ℝ × ℝ)} (h : ∀ z ∈ q :: m, z ∈ p :: l) :
    ((lineWindow p l).1.1 ≤ (lineWindow q m).1.1 ∧ (lineWindow q m).1.2 ≤ (lineWindow p l).1.2) ∧
    (lineWindow p l).2.1 ≤ (lineWindow q m).2.1 ∧ (lineWindow q m).2.2 ≤ (lineWindow p l).2.2 := by
  have h1 : ∀ f : ℝ × ℝ → ℝ, ∀ z ∈ f q :: m.map f, z ∈ f p :: l.map f := by
    intro f z hz
    rw [← List.map_cons, List.mem_map] at hz ⊢
    obtain ⟨a, ha, rfl⟩ := hz
    exact ⟨a, h a ha, rfl⟩
  exact ⟨⟨Int.floor_mono (minimum_anti (h1 Prod.snd)), Int.ceil_mono (maximum_mono (h1 Prod.snd))⟩,
    Int.floor_mono (minimum_anti (h1 Prod.fst)), Int.ceil_mono (maximum_mono (h1 Prod.fst))⟩

lemma AwayFromEdge.mono {o e o' e' : ℤ} {N : ℕ} {y : ℝ} (ho : o' ≤ o) (he : e ≤ e') (h0 : 0 ≤ o') (hN : e' ≤ N)
    (h : Spec.AwayFromEdge o e N y) : Spec.AwayFromEdge o' e' N y := by
  have hoR : (o' : ℝ) ≤ o := by exact_mod_cast ho
  have heR : (e : ℝ) ≤ e' := by exact_mod_cast he
  refine ⟨h.1.imp (fun h => by linarith) (fun h => by omega), ?_⟩
  exact h.2.imp (fun h => ⟨by linarith [h.1], by omega⟩) (fun h => by omega)

/-- Several lines inside the DEM: one row for each point (of the subdivided parts), in order, at the position of the
point.  A part that is not along a cell border has, half a cell away from the edges of its own window, the elevations
that it has alone, which are those of the DEM.  What is missing: the points near the edges of its window
(`C250_separately_false`). -/
theorem C250_parts_partial (sub : List (ℝ × ℝ) → List (ℝ × ℝ)) (d : Raster) (T I : Affine)
    (hI : T.inv = .ok I) (parts : List (List (ℝ × ℝ))) (g : List (ℝ × ℝ)) (hg : g ∈ parts)
    (p : ℝ × ℝ) (l : List (ℝ × ℝ)) (hsub : sub (g.map I.app) = p :: l)
    (hin : ∀ g ∈ parts, Spec.InsideDem d (sub (g.map I.app)))
    (hr : ¬ ∃ k : ℤ, ∀ q ∈ p :: l, q.2 = k) (hc : ¬ ∃ k : ℤ, ∀ q ∈ p :: l, q.1 = k) :
    ∃ z zg : ℝ × ℝ → Option ℝ,
      extractLines sub d T (parts.map Spec.flat)
        = .ok ((parts.flatMap fun g => sub (g.map I.app)).map fun q => ((T.app q).1, (T.app q).2, z q)) ∧
      extractLine sub d T (Spec.flat g) = .ok ((p :: l).map fun q => ((T.app q).1, (T.app q).2, zg q)) ∧
      ∀ q ∈ p :: l,
        Spec.AwayFromEdge (lineWindow p l).1.1 (lineWindow p l).1.2 d.rows q.2 →
        Spec.AwayFromEdge (lineWindow p l).2.1 (lineWindow p l).2.2 d.cols q.1 →
        z q = zg q ∧ z q = bilinearAt d q := by
  obtain ⟨zg, hzg, hg2⟩ := C80_values_partial sub d T I hI g p l hsub (hsub ▸ hin g hg) hr hc
  have hall : ∀ q ∈ p :: l, q ∈ parts.flatMap fun g => sub (g.map I.app) := fun q hq =>
    List.mem_flatMap.2 ⟨g, hg, hsub ▸ hq⟩
  have hflat : (parts.map Spec.flat).flatMap (fun g => sub (g.map fun p => I.app (p.1, p.2.1)))
      = parts.flatMap fun g => sub (g.map I.app) := by
    rw [List.flatMap_map]
    congr 1
    funext g
    simp only [Spec.flat, List.map_map]
    rfl
  have hany : (parts.map Spec.flat).flatten.any (fun p => p.2.2.isSome) = false := by
    rw [List.any_eq_false]
    intro x hx
    obtain ⟨y, hy, hxy⟩ := List.mem_flatten.1 hx
    obtain ⟨w, -, rfl⟩ := List.mem_map.1 hy
    obtain ⟨v, -, rfl⟩ := List.mem_map.1 hxy
    simp
  have hne : parts.map Spec.flat ≠ [] := by
    intro h
    rw [List.map_eq_nil_iff] at h
    rw [h] at hg
    simp at hg
  obtain ⟨p', l', hpl⟩ : ∃ p' l', (parts.flatMap fun g => sub (g.map I.app)) = p' :: l' := by
    refine List.exists_cons_of_ne_nil ?_
    intro h
    have := hall p (by simp)
    rw [h] at this
    simp at this
  have hin' : Spec.InsideDem d (p' :: l') := by
    intro q hq
    rw [← hpl] at hq
    obtain ⟨g', hg', hq'⟩ := List.mem_flatMap.1 hq
    exact hin g' hg' q hq'
  rw [hpl] at hall
  obtain ⟨⟨m1, m2⟩, m3, m4⟩ := lineWindow_mono hall
  obtain ⟨-, -, hW⟩ := C80_window d p' l'
  obtain ⟨w1, w2, w3, w4⟩ := hW hin'
  obtain ⟨e1, e2⟩ := C80_window_empty p l
  have hr' : (lineWindow p l).1.1 < (lineWindow p l).1.2 := by by_contra h; exact hr (e1.1 h)
  have hc' : (lineWindow p l).2.1 < (lineWindow p l).2.2 := by by_contra h; exact hc (e2.1 h)
  refine ⟨fun q => bilinearAt (d.read (lineWindow p' l'))
    (q.1 - (lineWindow p' l').2.1, q.2 - (lineWindow p' l').1.1), zg, ?_, hzg, ?_⟩
  · rw [extractLines_rows _ _ _ _ hne]
    simp only [hI, bind, Except.bind]
    rw [hany, hflat, hpl]
    simp only [Bool.false_eq_true, if_false]
    congr 1
    apply List.map_congr_left
    intro q _
    simp only [Affine.app, Affine.translation]
    congr 4 <;> ring
  · intro q hq hy hx
    have h := read_bilinear d _ w1 (by omega) w2 w3 (by omega) w4 q (AwayFromEdge.mono m1 m2 w1 w2 hy)
      (AwayFromEdge.mono m3 m4 w3 w4 hx)
    exact ⟨h.trans (hg2 q hq hy hx).symm, h⟩

/-- A line through several cells of a DEM of 4 by 4 cells, and another one. -/
example :
    let d : Raster := ⟨4, 4, fun i j => .val (i + j)⟩
    let T : Affine := ⟨1, 0, 0, 0, 1, 0⟩
    let g : List (ℝ × ℝ) := [(0.5, 0.5), (2, 1.5), (3.5, 3.25)]
    ∃ z zg : ℝ × ℝ → Option ℝ,
      extractLine id d T (Spec.flat g) = .ok (g.map fun q => ((T.app q).1, (T.app q).2, zg q)) ∧
      z (2, 1.5) = zg (2, 1.5) ∧ z (2, 1.5) = bilinearAt d (2, 1.5) := by
  intro d T g
  have hI : T.inv = .ok ⟨1, 0, 0, 0, 1, 0⟩ := by simp [T, Affine.inv, Affine.det]
  have ha : ∀ q, (⟨1, 0, 0, 0, 1, 0⟩ : Affine).app q = q := by intro q; simp [Affine.app]
  have hm : ∀ g : List (ℝ × ℝ), g.map (⟨1, 0, 0, 0, 1, 0⟩ : Affine).app = g := by
    intro g; rw [show (⟨1, 0, 0, 0, 1, 0⟩ : Affine).app = id from funext ha, List.map_id]
  have hin : ∀ g' ∈ [g, [((1 : ℝ), (1.5 : ℝ)), (2, 1.75)]], Spec.InsideDem d g' := by
    intro g' hg' q hq
    simp only [List.mem_cons, List.not_mem_nil, or_false] at hg'
    rcases hg' with rfl | rfl <;> simp only [g, List.mem_cons, List.not_mem_nil, or_false] at hq
    · rcases hq with rfl | rfl | rfl <;> simp [d] <;> norm_num
    · rcases hq with rfl | rfl <;> simp [d] <;> norm_num
  have hw : lineWindow (0.5, 0.5) [(2, 1.5), (3.5, 3.25)] = ((0, 4), (0, 4)) := by
    simp only [lineWindow, minimum, maximum, List.map]
    rw [show min (0.5 : ℝ) (min 1.5 3.25) = 0.5 by norm_num, show max (0.5 : ℝ) (max 1.5 3.25) = 3.25 by norm_num,
      show min (0.5 : ℝ) (min 2 3.5) = 0.5 by norm_num, show max (0.5 : ℝ) (max 2 3.5) = 3.5 by norm_num]
    norm_num
  obtain ⟨z, zg, -, h2, h3⟩ := C250_parts_partial id d T _ hI [g, [(1, 1.5), (2, 1.75)]] g (by simp) (0.5, 0.5)
    [(2, 1.5), (3.5, 3.25)] (hm _) (fun g' hg' => by rw [id, hm]; exact hin g' hg')
    (by
      rintro ⟨k, hk⟩
      have h1 := hk (0.5, 0.5) (by simp)
      have h2 := hk (2, 1.5) (by simp)
      norm_num at h1 h2
      linarith)
    (by
      rintro ⟨k, hk⟩
      have h1 := hk (0.5, 0.5) (by simp)
      have h2 := hk (2, 1.5) (by simp)
      norm_num at h1 h2
      linarith)
  refine ⟨z, zg, h2, h3 (2, 1.5) (by simp) ?_ ?_⟩
  · rw [hw]; exact ⟨Or.inr rfl, Or.inr rfl⟩
  · rw [hw]; exact ⟨Or.inr rfl, Or.inr rfl⟩

/-- Refutation: a line inside one cell has other elevations alone than together with a line that goes further: alone 10
at both its ends, together 7.5 and 12.5, as in the DEM, which rises by 10 with each row. -/
theorem C250_separately_false :
    ∃ (d : Raster) (T : Affine) (a b : List (ℝ × ℝ)) (rows : List (ℝ × ℝ × Option ℝ)),
      extractLine id d T (Spec.flat a) = .ok [(1.25, 1.25, some 10), (1.75, 1.75, some 10)] ∧
      extractLines id d T [Spec.flat a, Spec.flat b]
        = .ok ((1.25, 1.25, some 7.5) :: (1.75, 1.75, some 12.5) :: rows) := by
  refine ⟨⟨3, 3, fun i _ => .val (10 * i)⟩, ⟨1, 0, 0, 0, 1, 0⟩, [(1.25, 1.25), (1.75, 1.75)],
    [(0.5, 0.5), (2.5, 2.5)], [(0.5, 0.5, some 0), (2.5, 2.5, some 20)], ?_, ?_⟩
  · have hI : (⟨1, 0, 0, 0, 1, 0⟩ : Affine).inv = .ok ⟨1, 0, 0, 0, 1, 0⟩ := by
      simp [Affine.inv, Affine.det]
    obtain ⟨out, ho, hl, hz⟩ := C80_one_cell_false ⟨3, 3, fun i _ => .val (10 * i)⟩ _ _ hI (1.25, 1.25) [(1.75, 1.75)]
      1 1 (by
        intro q hq
        simp only [List.mem_cons, List.not_mem_nil, or_false] at hq
        rcases hq with rfl | rfl <;> simp [Affine.app] <;> norm_num)
    obtain ⟨out', ho', hc⟩ := C80_coordinates ⟨3, 3, fun i _ => .val (10 * i)⟩ _ _ hI [(1.25, 1.25), (1.75, 1.75)]
      (by simp)
    have he : out = out' := by rw [ho] at ho'; simpa using ho'
    subst he
    refine ho.trans ?_
    match out, hl, hz, hc with
    | [(a1, a2, a3), (b1, b2, b3)], _, hz, hc =>
      have h1 := hz _ (List.mem_cons_self ..)
      have h2 := hz _ (List.mem_cons_of_mem _ (List.mem_cons_self ..))
      simp only [List.map_cons, List.map_nil, List.cons.injEq, Prod.mk.injEq, and_true] at hc
      simp only [Pixel.filled] at h1 h2
      rw [hc.1.1, hc.1.2, hc.2.1, hc.2.2, h1, h2]
      norm_num
  · rw [C250_one_line _ _ _ (by simp)]
    have hI : (⟨1, 0, 0, 0, 1, 0⟩ : Affine).inv = .ok ⟨1, 0, 0, 0, 1, 0⟩ := by
      simp [Affine.inv, Affine.det]
    have hm : ([(1.25, 1.25), (1.75, 1.75), (0.5, 0.5), (2.5, 2.5)] : List (ℝ × ℝ)).map
        (⟨1, 0, 0, 0, 1, 0⟩ : Affine).app = [(1.25, 1.25), (1.75, 1.75), (0.5, 0.5), (2.5, 2.5)] := by
      simp [Affine.app]
    have h := extractLine_eq id ⟨3, 3, fun i _ => .val (10 * i)⟩ _ _ hI [(1.25, 1.25), (1.75, 1.75), (0.5, 0.5), (2.5, 2.5)]
      (1.25, 1.25) [(1.75, 1.75), (0.5, 0.5), (2.5, 2.5)] hm
    have hw : lineWindow (1.25, 1.25) [(1.75, 1.75), (0.5, 0.5), (2.5, 2.5)] = ((0, 3), (0, 3)) := by
      simp only [lineWindow, minimum, maximum, List.map]
      rw [show min (1.25 : ℝ) (min 1.75 (min 0.5 2.5)) = 0.5 by norm_num,
        show max (1.25 : ℝ) (max 1.75 (max 0.5 2.5)) = 2.5 by norm_num]
      norm_num
    rw [hw] at h
    have hb : ∀ p : ℝ × ℝ, 1 / 2 ≤ p.1 ∧ p.1 ≤ 3 - 1 / 2 → 1 / 2 ≤ p.2 ∧ p.2 ≤ 3 - 1 / 2 →
        bilinearAt ((⟨3, 3, fun i _ => .val (10 * i)⟩ : Raster).read ((0, 3), (0, 3))) p
          = some (10 * p.2 + 0 * p.1 + (-5)) := by
      intro p hx hy
      refine C81_planar _ 10 0 (-5) ?_ p (by simpa [Raster.read] using hx) (by simpa [Raster.read] using hy)
      intro i j _ _ _ _
      simp only [Raster.read]
      congr 1
      push_cast
      ring
    refine Eq.trans ?_ (h.trans ?_)
    · rfl
    · simp only [List.map_cons, List.map_nil, Int.cast_zero, sub_zero]
      rw [hb _ (by norm_num) (by norm_num), hb _ (by norm_num) (by norm_num), hb _ (by norm_num) (by norm_num),
        hb _ (by norm_num) (by norm_num)]
      simp only [Affine.app]
      norm_num

/-- The other branches: no parts, a transformation that cannot be inverted and parts with elevations raise. -/
theorem C250_errors (sub : List (ℝ × ℝ) → List (ℝ × ℝ)) (d : Raster) (T : Affine)
    (parts : List (List (ℝ × ℝ × Option ℝ))) :
    extractLines sub d T [] = .error .valueError ∧
    (parts ≠ [] → T.det = 0 → extractLines sub d T parts = .error .transformNotInvertibleError) ∧
    (T.det ≠ 0 → (∃ g ∈ parts, ∃ q ∈ g, q.2.2 ≠ none) → extractLines sub d T parts = .error .typeError) := by
  refine ⟨rfl, ?_, ?_⟩
  · intro hne h
    rw [extractLines_rows _ _ _ _ hne]
    simp [Affine.inv, h, bind, Except.bind]
  · rintro h ⟨g, hg, q, hq, hz⟩
    rw [extractLines_rows _ _ _ _ (fun h => by simp [h] at hg)]
    have ha : parts.flatten.any (fun p => p.2.2.isSome) = true := by
      rw [List.any_eq_true]
      exact ⟨q, List.mem_flatten.2 ⟨g, hg, hq⟩, Option.isSome_iff_ne_none.2 hz⟩
    simp only [Affine.inv, h, if_false, bind, Except.bind, ha, if_true]

example : extractLines id ⟨3, 3, fun i _ => .val (10 * i)⟩ ⟨1, 0, 0, 0, 1, 0⟩ [[(1, 1, none)], [(2, 2, some 5)]]
    = .error .typeError :=
  (C250_errors id _ _ _).2.2 (by simp [Affine.det]) ⟨[(2, 2, some 5)], by simp, (2, 2, some 5), by simp, by simp⟩

end Attitude.Props
