import Verif.Model.HorizontalLine
import Verif.Props.FrontendStereonet

/-! # The line of horizontal directions: C283 -/

namespace Attitude.Props

open Attitude Frontend HorizontalLine

lemma geoDirection_shown (q : ℝ × ℝ) : geoDirection q
    = ![-Spec.shown true false q 1, Spec.shown true false q 0, Spec.shown true false q 2] := by
  ext i
  fin_cases i <;>
    simp [geoDirection, Spec.shown, Spec.direction, Rotations.sph2cart, mul_comm]

lemma geoDirection_cart2sph {d : Vec 3} (hd : Attitude.norm d = 1) {q : ℝ × ℝ}
    (hq : Frontend.cart2sph stereonetOpts d = some q) : geoDirection q = ![-d 1, d 0, d 2] := by
  have hne : d ≠ 0 := by
    rintro rfl
    simp [Attitude.norm] at hd
  obtain ⟨q', hq', hs⟩ := jsPosition (o := stereonetOpts) rfl hne
  rw [hq, Option.some.injEq] at hq'
  subst hq'
  have : Spec.shown true false q = (1 / Attitude.norm d) • d := hs
  rw [geoDirection_shown, this, hd, div_one, one_smul]

lemma geo_vertices : geoDirection (180, 0) = ![-1, 0, 0] ∧ geoDirection (-90, 0) = ![0, -1, 0] ∧
    geoDirection (0, 0) = ![1, 0, 0] ∧ geoDirection (90, 0) = ![0, 1, 0] := by
  simp [geoDirection, radians_180, radians_90, radians_neg, radians_zero]

lemma edges_line : edges horizontalLine = [((180, 0), (-90, 0)), ((-90, 0), (0, 0)),
    ((0, 0), (90, 0)), ((90, 0), (180, 0))] := rfl

lemma mem_arcs (x : Vec 3) :
    (x ∈ arc (180, 0) (-90, 0) ↔ Attitude.norm x = 1 ∧ x 0 ≤ 0 ∧ x 1 ≤ 0 ∧ x 2 = 0) ∧
    (x ∈ arc (-90, 0) (0, 0) ↔ Attitude.norm x = 1 ∧ 0 ≤ x 0 ∧ x 1 ≤ 0 ∧ x 2 = 0) ∧
    (x ∈ arc (0, 0) (90, 0) ↔ Attitude.norm x = 1 ∧ 0 ≤ x 0 ∧ 0 ≤ x 1 ∧ x 2 = 0) ∧
    (x ∈ arc (90, 0) (180, 0) ↔ Attitude.norm x = 1 ∧ x 0 ≤ 0 ∧ 0 ≤ x 1 ∧ x 2 = 0) := by
  obtain ⟨h1, h2, h3, h4⟩ := geo_vertices
  simp only [arc, Set.mem_ofPred_eq, h1, h2, h3, h4]
  refine ⟨and_congr_right fun _ => ?_, and_congr_right fun _ => ?_, and_congr_right fun _ => ?_,
    and_congr_right fun _ => ?_⟩
  · constructor
    · rintro ⟨s, t, hs, ht, rfl⟩
      simp [hs, ht]
    · rintro ⟨k0, k1, k2⟩
      refine ⟨-x 0, -x 1, by linarith, by linarith, ?_⟩
      ext i
      fin_cases i <;> simp [k2]
  · constructor
    · rintro ⟨s, t, hs, ht, rfl⟩
      simp [hs, ht]
    · rintro ⟨k0, k1, k2⟩
      refine ⟨-x 1, x 0, by linarith, by linarith, ?_⟩
      ext i
      fin_cases i <;> simp [k2]
  · constructor
    · rintro ⟨s, t, hs, ht, rfl⟩
      simp [hs, ht]
    · rintro ⟨k0, k1, k2⟩
      refine ⟨x 0, x 1, by linarith, by linarith, ?_⟩
      ext i
      fin_cases i <;> simp [k2]
  · constructor
    · rintro ⟨s, t, hs, ht, rfl⟩
      simp [hs, ht]
    · rintro ⟨k0, k1, k2⟩
      refine ⟨x 1, -x 0, by linarith, by linarith, ?_⟩
      ext i
      fin_cases i <;> simp [k2]

/-- The line goes through the positions of data in every horizontal direction and of no other
data. -/
theorem C283_horizontal (d : Vec 3) (hd : Attitude.norm d = 1) (q : ℝ × ℝ)
    (hq : Frontend.cart2sph stereonetOpts d = some q) :
    geoDirection q ∈ linePoints horizontalLine ↔ d 2 = 0 := by
  have hg := geoDirection_cart2sph hd hq
  have hn : Attitude.norm (geoDirection q) = 1 := by
    rw [hg]
    rw [norm3] at hd ⊢
    rw [← hd]
    congr 1
    simp
    ring
  simp only [linePoints, Set.mem_ofPred_eq, edges_line, List.mem_cons, List.not_mem_nil, or_false,
    exists_eq_or_imp, exists_eq_left, mem_arcs, hn, true_and]
  rw [hg]
  simp only [Matrix.cons_val_zero, Matrix.cons_val_one, Matrix.cons_val]
  constructor
  · rintro (h | h | h | h) <;> exact h.2.2
  · intro h
    rcases le_total (-d 1) 0 with a | a <;> rcases le_total (d 0) 0 with b | b <;> simp [a, b, h]

/-- North-east is on the line. -/
example : ∃ q, Frontend.cart2sph stereonetOpts ![3 / 5, 4 / 5, 0] = some q ∧
    geoDirection q ∈ linePoints horizontalLine := by
  have hn : Attitude.norm (![3 / 5, 4 / 5, 0] : Vec 3) = 1 := by
    rw [norm3, Real.sqrt_eq_one]
    simp
    norm_num
  obtain ⟨q, hq, -⟩ := jsPosition (o := stereonetOpts) rfl
    (show (![3 / 5, 4 / 5, 0] : Vec 3) ≠ 0 from fun h => by simpa using congrFun h 0)
  exact ⟨q, hq, (C283_horizontal _ hn q hq).2 rfl⟩

/-- The ends of its parts are the labelled directions north, west, south and east, and it ends where
it begins. -/
theorem C283_round : ∀ i : Fin 5, ∃ p, horizontalLine[i.1]? = some p ∧
    ((![("N" : String), "W", "S", "E", "N"] : Fin 5 → String) i, p) ∈ labels := by
  intro i
  fin_cases i <;> simp [horizontalLine, labels]

/-- It goes round once: two different parts have at most their ends in common. -/
theorem C283_once (i j : ℕ) (hij : i < j) (e f : (ℝ × ℝ) × (ℝ × ℝ))
    (he : (edges horizontalLine)[i]? = some e) (hf : (edges horizontalLine)[j]? = some f) (x : Vec 3)
    (hx : x ∈ arc e.1 e.2) (hy : x ∈ arc f.1 f.2) : ∃ p ∈ horizontalLine, x = geoDirection p := by
  have key : Attitude.norm x = 1 → x 2 = 0 → (x 0 = 0 ∨ x 1 = 0) →
      ∃ p ∈ horizontalLine, x = geoDirection p := by
    intro hn h2 h
    obtain ⟨h1, h2', h3, h4⟩ := geo_vertices
    rw [norm3, Real.sqrt_eq_one, h2] at hn
    rcases h with h | h
    · rw [h] at hn
      have : (x 1 - 1) * (x 1 + 1) = 0 := by linarith
      rcases mul_eq_zero.1 this with k | k
      · refine ⟨(90, 0), by simp [horizontalLine], ?_⟩
        rw [h4]; ext i; fin_cases i <;> simp [h, h2]; linarith
      · refine ⟨(-90, 0), by simp [horizontalLine], ?_⟩
        rw [h2']; ext i; fin_cases i <;> simp [h, h2]; linarith
    · rw [h] at hn
      have : (x 0 - 1) * (x 0 + 1) = 0 := by linarith
      rcases mul_eq_zero.1 this with k | k
      · refine ⟨(0, 0), by simp [horizontalLine], ?_⟩
        rw [h3]; ext i; fin_cases i <;> simp [h, h2]; linarith
      · refine ⟨(180, 0), by simp [horizontalLine], ?_⟩
        rw [h1]; ext i; fin_cases i <;> simp [h, h2]; linarith
  obtain ⟨m1, m2, m3, m4⟩ := mem_arcs x
  have hj : j < 4 := by
    by_contra h
    rw [edges_line, List.getElem?_eq_none (by simpa using h)] at hf
    cases hf
  rw [edges_line] at he hf
  interval_cases j <;> interval_cases i <;>
    simp only [List.getElem?_cons_zero, List.getElem?_cons_succ, Option.some.injEq] at he hf <;>
    subst he hf <;>
    simp only [m1, m2, m3, m4] at hx hy <;>
    exact key hx.1 hx.2.2.2 (by
      first
      | exact Or.inl (by linarith [hx.2.1, hy.2.1])
      | exact Or.inr (by linarith [hx.2.2.1, hy.2.2.1]))

/-- North is on the first and on the last part. -/
example : geoDirection (180, 0) ∈ arc (180, 0) (-90, 0) ∧
    geoDirection (180, 0) ∈ arc (90, 0) (180, 0) := by
  rw [(mem_arcs _).1, (mem_arcs _).2.2.2, geo_vertices.1, norm3]
  simp

end Attitude.Props
