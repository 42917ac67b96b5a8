import Verif.Model.Panels
import Verif.Model.NotebookUi
import Verif.Props.FrontendStereonet

/-!
# Properties of the data panel and of the labels at the edge of plots
-/

namespace Attitude.Props

open Attitude Frontend Panels

/-! ## C170 -/

/-- The number of tenths is closest to the number. -/
def Spec.RoundsTo (x : ℝ) (shown : Option ℤ) : Prop :=
  ∃ n : ℤ, shown = some n ∧ |(n : ℝ) / 10 - x| ≤ 1 / 20

lemma tenths_spec {x : ℝ} (h : 0 ≤ x) : |(tenths x : ℝ) / 10 - x| ≤ 1 / 20 := by
  have h1 := Nat.floor_le (show 0 ≤ x * 10 + 1 / 2 by positivity)
  have h2 := Nat.lt_floor_add_one (x * 10 + 1 / 2)
  rw [abs_le]
  unfold tenths
  constructor <;> linarith

lemma angularMeasurement_num (x : ℝ) : Spec.RoundsTo x (angularMeasurement (.num x)) := by
  have h := tenths_spec (abs_nonneg x)
  rw [abs_le] at h
  refine ⟨_, rfl, ?_⟩
  rw [abs_le]
  split_ifs with hx
  · rw [abs_of_neg hx] at h
    rw [abs_of_neg hx]
    push_cast
    constructor <;> linarith [h.1, h.2]
  · rw [abs_of_nonneg (not_lt.1 hx)] at h
    rw [abs_of_nonneg (not_lt.1 hx)]
    push_cast
    exact h

/-- The panel for a measurement with strike, dip and errors shows them to a tenth of a degree, with
its name and, for a group, the number of its members; it says that there are no errors exactly if
both are less than a hundredth of a degree. -/
theorem C170_shows (a : Measurement) (rest : List (Option Measurement)) (s d e₁ e₂ : ℝ)
    (hs : a.strike = .num s) (hd : a.dip = .num d) (h1 : a.minError = .num e₁)
    (h2 : a.maxError = .num e₂) :
    ∃ group s' d' errors, render (some (some a :: rest)) = .ok (.plane a.uid group s' d' errors) ∧
      Spec.RoundsTo s s' ∧ Spec.RoundsTo d d' ∧
      (∀ n, group = some n ↔ ∃ ms, a.members = some ms ∧ ms ≠ [] ∧ ms.length = n) ∧
      (errors = none ↔ e₁ < 1 / 100 ∧ e₂ < 1 / 100) ∧
      ∀ e, errors = some e → Spec.RoundsTo e₁ e.1 ∧ Spec.RoundsTo e₂ e.2 := by
  refine ⟨_, _, _, _, rfl, ?_, ?_, ?_, ?_, ?_⟩
  · rw [hs]; exact angularMeasurement_num s
  · rw [hd]; exact angularMeasurement_num d
  · intro n
    cases hm : a.members with
    | none => simp
    | some ms => cases ms <;> simp
  · simp only [angularErrors, h1, h2, JsVal.small]
    split_ifs with h
    · exact ⟨fun _ => h, fun _ => rfl⟩
    · exact ⟨fun h' => by simp at h', fun h' => (h h').elim⟩
  · intro e he
    simp only [angularErrors, h1, h2] at he
    split_ifs at he
    cases he
    exact ⟨angularMeasurement_num _, angularMeasurement_num _⟩

example : ∃ group s' d' errors, render (some [some ⟨"p", some ["a", "b"], .num 123.46, .num 12.34,
      .num 0.5, .num 2⟩]) = .ok (.plane "p" group s' d' errors) ∧ Spec.RoundsTo 123.46 s' := by
  obtain ⟨g, s', d', e, h, h', -⟩ := C170_shows ⟨"p", some ["a", "b"], .num 123.46, .num 12.34,
      .num 0.5, .num 2⟩ [] 123.46 12.34 0.5 2 rfl rfl rfl rfl
  exact ⟨g, s', d', e, h, h'⟩

/-- Without a measurement the panel asks for one. -/
theorem C170_prompt (h : Option (List (Option Measurement))) :
    render h = .ok .prompt ↔ h = none ∨ h = some [] := by
  match h with
  | none => simp [render]
  | some [] => simp [render]
  | some (none :: _) => simp [render]
  | some (some a :: _) => simp [render]

/-- The data of what is highlighted on the page, as the panel gets it. -/
def Spec.highlighted (data : ℕ → Measurement) (s : NotebookUi.Ui) : Option (List (Option Measurement)) :=
  s.hovered.map fun a => a.items.map (Option.map data)

/-- Whatever a user does on the page, the panel shows something, also for groups with members that
are missing. -/
theorem C170_page (items : List NotebookUi.Item) (data : ℕ → Measurement) (allow : Bool)
    (es : List NotebookUi.Event) :
    ∃ p, render (Spec.highlighted data (NotebookUi.run items allow es)) = .ok p := by
  have hi : ∀ d, ∃ j t, NotebookUi.hoveredItems items d = some j :: t := by
    intro d
    simp only [NotebookUi.hoveredItems]
    split
    · exact ⟨_, _, rfl⟩
    · exact ⟨_, _, rfl⟩
  have key : ∀ s : NotebookUi.Ui, (s.hovered = none ∨ ∃ i j t, s.hovered = some ⟨i, some j :: t⟩) →
      ∀ e, (NotebookUi.step items allow s e).hovered = none ∨
        ∃ i j t, (NotebookUi.step items allow s e).hovered = some ⟨i, some j :: t⟩ := by
    intro s hs e
    cases e with
    | hover d =>
      cases d with
      | none => exact .inl rfl
      | some d =>
        obtain ⟨j, t, h⟩ := hi d
        exact .inr ⟨s.fresh, j, t, by simp [NotebookUi.step, NotebookUi.rerender, NotebookUi.change, h]⟩
    | click d => exact hs
    | clear =>
      simp only [NotebookUi.step, NotebookUi.rerender, NotebookUi.change]
      split_ifs <;> exact hs
    | zoom =>
      simp only [NotebookUi.step, NotebookUi.rerender, NotebookUi.change]
      split_ifs <;> exact hs
    | groups => exact hs
    | planes => exact hs
    | poles => exact hs
    | vertical => exact hs
  have : (NotebookUi.run items allow es).hovered = none ∨
      ∃ i j t, (NotebookUi.run items allow es).hovered = some ⟨i, some j :: t⟩ := by
    unfold NotebookUi.run
    have gen : ∀ s : NotebookUi.Ui, (s.hovered = none ∨ ∃ i j t, s.hovered = some ⟨i, some j :: t⟩) →
        ((es.foldl (NotebookUi.step items allow) s).hovered = none ∨
          ∃ i j t, (es.foldl (NotebookUi.step items allow) s).hovered = some ⟨i, some j :: t⟩) := by
      induction es with
      | nil => exact fun s h => h
      | cons e es ih => exact fun s h => ih _ (key s h e)
    exact gen _ (.inl rfl)
  rcases this with h | ⟨i, j, t, h⟩
  · exact ⟨_, by simp only [Spec.highlighted, h]; rfl⟩
  · exact ⟨_, by simp only [Spec.highlighted, h]; rfl⟩

/-- A strike is shown within [0, 360) unless it is less than 0.05 degrees from 360, when it is shown
as 360.0. -/
theorem C170_strike_false (s : ℝ) (h0 : 0 ≤ s) (h1 : s < 360) :
    angularMeasurement (.num s) = some 3600 ↔ 360 - 1 / 20 ≤ s := by
  simp only [angularMeasurement, fmt, if_neg (not_lt.2 h0), abs_of_nonneg h0, Option.some.injEq]
  rw [show ((tenths s : ℕ) : ℤ) = 3600 ↔ tenths s = 3600 by norm_cast, tenths,
    Nat.floor_eq_iff (by positivity)]
  push_cast
  constructor
  · rintro ⟨h, -⟩; linarith
  · intro h; constructor <;> linarith

example : angularMeasurement (.num 359.97) = some 3600 :=
  (C170_strike_false 359.97 (by norm_num) (by norm_num)).2 (by norm_num)

/-- A measurement without strike and dip is shown like a horizontal plane, and one without errors
like one with errors of zero degrees, in the words for errors that are recorded. -/
theorem C170_missing_false (uid : String) :
    render (some [some ⟨uid, none, .undefined, .undefined, .undefined, .undefined⟩])
        = .ok (.plane uid none (some 0) (some 0) (some (some 0, some 0))) ∧
      render (some [some ⟨uid, none, .num 0, .num 0, .num 0, .num 0⟩])
        = .ok (.plane uid none (some 0) (some 0) none) := by
  have h0 : tenths 0 = 0 := by unfold tenths; norm_num
  constructor
  · simp [render, angularMeasurement, angularErrors, JsVal.small, fmt, h0]
  · simp [render, angularMeasurement, angularErrors, JsVal.small, fmt, h0]

/-- A value is shown as NaN exactly if it is not a number, and there are no errors recorded exactly
if each of them is `null` or less than a hundredth of a degree. -/
theorem C170_not_a_number (a : Measurement) (rest : List (Option Measurement)) :
    ∃ group s d errors, render (some (some a :: rest)) = .ok (.plane a.uid group s d errors) ∧
      (s = none ↔ a.strike = .nan) ∧ (d = none ↔ a.dip = .nan) ∧
      (errors = none ↔ (a.minError = .null ∨ ∃ x < 1 / 100, a.minError = .num x) ∧
        (a.maxError = .null ∨ ∃ x < 1 / 100, a.maxError = .num x)) ∧
      ∀ e, errors = some e → (e.1 = none ↔ a.minError = .nan) ∧ (e.2 = none ↔ a.maxError = .nan) := by
  have hm : ∀ v, angularMeasurement v = none ↔ v = .nan := by
    intro v
    cases v <;> simp [angularMeasurement, fmt]
  have hs : ∀ v : JsVal, v.small ↔ v = .null ∨ ∃ x < 1 / 100, v = .num x := by
    intro v
    cases v <;> simp [JsVal.small]
  refine ⟨_, _, _, _, rfl, hm _, hm _, ?_, ?_⟩
  · rw [← hs, ← hs]
    simp [angularErrors]
  · intro e he
    simp only [angularErrors] at he
    split_ifs at he
    cases he
    exact ⟨hm _, hm _⟩

example : ∃ group s d errors, render (some [some ⟨"p", none, .nan, .num 5, .null, .null⟩])
    = .ok (.plane "p" group s d errors) ∧ s = none ∧ errors = none := by
  obtain ⟨g, s, d, e, h, hs, -, he, -⟩ := C170_not_a_number ⟨"p", none, .nan, .num 5, .null, .null⟩ []
  exact ⟨g, s, d, e, h, hs.2 rfl, he.2 ⟨Or.inl rfl, Or.inl rfl⟩⟩

/-! ## C171 -/

/-- Labels are in the order of lines; what is said here is which there are. -/
lemma mem_range {x a b s : ℝ} (hs : 0 < s) :
    x ∈ Panels.range a b s ↔ ∃ i : ℕ, x = a + i * s ∧ x < b := by
  simp only [Panels.range, List.mem_map, List.mem_range, Nat.lt_ceil, lt_div_iff₀ hs]
  constructor
  · rintro ⟨i, hi, rfl⟩; exact ⟨i, rfl, by linarith⟩
  · rintro ⟨i, rfl, hi⟩; exact ⟨i, by linarith, rfl⟩

lemma nodup_range {a b s : ℝ} (hs : 0 < s) : (Panels.range a b s).Nodup := by
  unfold Panels.range
  refine (List.nodup_range).map ?_
  intro i j h
  simpa [hs.ne'] using h

/-- The multiples of a step within an interval. -/
lemma mem_multiples {x a b s : ℝ} (hs : 0 < s) :
    x ∈ multiples a b s ↔ (∃ k : ℤ, x = k * s) ∧ a ≤ x ∧ x < b := by
  rw [multiples, mem_range hs]
  constructor
  · rintro ⟨i, rfl, hi⟩
    refine ⟨⟨⌈a / s⌉ + i, by push_cast; ring⟩, ?_, hi⟩
    have := Int.le_ceil (a / s)
    rw [div_le_iff₀ hs] at this
    have : (0 : ℝ) ≤ i * s := by positivity
    linarith
  · rintro ⟨⟨k, rfl⟩, ha, hb⟩
    have hk : ⌈a / s⌉ ≤ k := by
      rw [Int.ceil_le, div_le_iff₀ hs]; exact ha
    obtain ⟨n, hn⟩ := Int.eq_ofNat_of_zero_le (sub_nonneg.2 hk)
    refine ⟨n, ?_, hb⟩
    have : (k : ℝ) = ⌈a / s⌉ + n := by
      have : k = ⌈a / s⌉ + n := by rw [← hn]; ring
      exact_mod_cast this
    rw [this]; ring

lemma nodup_multiples {a b s : ℝ} (hs : 0 < s) : (multiples a b s).Nodup := nodup_range hs

lemma range_cons {a b s : ℝ} (hs : 0 < s) (hab : a < b) :
    ∃ t, Panels.range a b s = a :: t ∧ ∀ x ∈ t, a < x := by
  have hp : 0 < ⌈(b - a) / s⌉₊ := by
    rw [Nat.ceil_pos]; exact div_pos (by linarith) hs
  obtain ⟨n, hn⟩ := Nat.exists_eq_succ_of_ne_zero hp.ne'
  refine ⟨(List.range n).map fun i : ℕ => a + ((i + 1 : ℕ) : ℝ) * s, ?_, ?_⟩
  · rw [Panels.range, hn, Nat.succ_eq_add_one, List.range_succ_eq_map]
    simp [Function.comp_def]
  · intro x hx
    obtain ⟨i, -, rfl⟩ := List.mem_map.1 hx
    have : (0 : ℝ) < ((i + 1 : ℕ) : ℝ) * s := by positivity
    linarith

lemma range_two {a b c s : ℝ} (hs : 0 < s) (hab : a < b) (hc : a < c) :
    ∃ y t, Panels.range a b s ++ [c] = a :: y :: t ∧ y ≠ a := by
  obtain ⟨t, ht, hx⟩ := range_cons hs hab
  rw [ht]
  cases t with
  | nil => exact ⟨c, [], rfl, hc.ne'⟩
  | cons y t => exact ⟨y, t ++ [c], rfl, (hx y (by simp)).ne'⟩

lemma meridian_two {y0 y1 : ℝ} (h : y0 < y1 - 1 / 1000000) (x : ℝ) :
    ∃ y t, meridian y0 y1 x = (x, y0) :: (x, y) :: t ∧ y ≠ y0 ∧
      ∀ q ∈ meridian y0 y1 x, q.1 = x := by
  obtain ⟨y, t, ht, hy⟩ := range_two (c := y1) (show (0 : ℝ) < 90 by norm_num) h (by linarith)
  refine ⟨y, t.map fun y => (x, y), ?_, hy, ?_⟩
  · rw [meridian, ht]; rfl
  · intro q hq
    obtain ⟨_, -, rfl⟩ := List.mem_map.1 hq
    rfl

lemma parallel_two {x0 x1 : ℝ} (h : x0 < x1 - 1 / 1000000) (y : ℝ) :
    ∃ x t, parallel x0 x1 y = (x0, y) :: (x, y) :: t ∧ x ≠ x0 ∧
      ∀ q ∈ parallel x0 x1 y, q.2 = y := by
  obtain ⟨x, t, ht, hx⟩ := range_two (c := x1) (show (0 : ℝ) < 5 / 2 by norm_num) h (by linarith)
  refine ⟨x, t.map fun x => (x, y), ?_, hx, ?_⟩
  · rw [parallel, ht]; rfl
  · intro q hq
    obtain ⟨_, -, rfl⟩ := List.mem_map.1 hq
    rfl

/-- The lines are meridians and parallels. -/
lemma mem_graticule {lon lat : ℝ} (l : List (ℝ × ℝ)) : l ∈ graticule lon lat ↔
    (∃ x ∈ multiples (-180) 180 90, l = meridian (-90 + 1 / 100000) (90 - 1 / 100000) x) ∨
    (∃ y ∈ multiples (-90 + 1 / 100000) (90 - 1 / 100000) lat, l = parallel (-180) 180 y) ∨
    (∃ x ∈ multiples (-180) 180 lon, |jsRem x 90| > 1 / 1000000 ∧
      l = meridian (-90 + lat - 1 / 100000) (90 - lat + 1 / 100000) x) ∨
    (∃ y ∈ multiples (-90 + lat - 1 / 100000) (90 - lat + 1 / 100000) lat,
      |jsRem y lat| > 1 / 1000000 ∧ l = parallel (-180) 180 y) := by
  simp only [graticule, List.mem_append, List.mem_map, List.mem_filter, decide_eq_true_eq]
  constructor
  · rintro (⟨x, h, rfl⟩ | ⟨x, h, rfl⟩ | ⟨x, ⟨h, h'⟩, rfl⟩ | ⟨x, ⟨h, h'⟩, rfl⟩)
    · exact .inl ⟨x, h, rfl⟩
    · exact .inr (.inl ⟨x, h, rfl⟩)
    · exact .inr (.inr (.inl ⟨x, h, h', rfl⟩))
    · exact .inr (.inr (.inr ⟨x, h, h', rfl⟩))
  · rintro (⟨x, h, rfl⟩ | ⟨x, h, rfl⟩ | ⟨x, h, h', rfl⟩ | ⟨x, h, h', rfl⟩)
    · exact .inl ⟨x, h, rfl⟩
    · exact .inr (.inl ⟨x, h, rfl⟩)
    · exact .inr (.inr (.inl ⟨x, ⟨h, h'⟩, rfl⟩))
    · exact .inr (.inr (.inr ⟨x, ⟨h, h'⟩, rfl⟩))

/-- Each line runs along a meridian or a parallel, not both. -/
lemma graticule_line {lon lat : ℝ} (hlat : lat ≤ 90) {l : List (ℝ × ℝ)} (hl : l ∈ graticule lon lat) :
    ∃ p q t, l = p :: q :: t ∧
      ((p.2 ≠ q.2 ∧ ∀ r ∈ l, r.1 = p.1) ∨ (p.1 ≠ q.1 ∧ ∀ r ∈ l, r.2 = p.2)) := by
  rcases (mem_graticule l).1 hl with ⟨x, -, rfl⟩ | ⟨x, -, rfl⟩ | ⟨x, -, -, rfl⟩ | ⟨x, -, -, rfl⟩
  · obtain ⟨y, t, h, hy, ha⟩ := meridian_two
      (show (-90 + 1 / 100000 : ℝ) < (90 - 1 / 100000) - 1 / 1000000 by norm_num) x
    exact ⟨_, _, t, h, .inl ⟨hy.symm, ha⟩⟩
  · obtain ⟨y, t, h, hy, ha⟩ := parallel_two (show (-180 : ℝ) < 180 - 1 / 1000000 by norm_num) x
    exact ⟨_, _, t, h, .inr ⟨hy.symm, ha⟩⟩
  · obtain ⟨y, t, h, hy, ha⟩ := meridian_two
      (show (-90 + lat - 1 / 100000 : ℝ) < (90 - lat + 1 / 100000) - 1 / 1000000 by linarith) x
    exact ⟨_, _, t, h, .inl ⟨hy.symm, ha⟩⟩
  · obtain ⟨y, t, h, hy, ha⟩ := parallel_two (show (-180 : ℝ) < 180 - 1 / 1000000 by norm_num) x
    exact ⟨_, _, t, h, .inr ⟨hy.symm, ha⟩⟩

lemma selected_spec (k : Kind) (lines : List (List (ℝ × ℝ)))
    (h : ∀ l ∈ lines, ∃ p q t, l = p :: q :: t) :
    ∃ vs, selected k lines = .ok vs ∧ ∀ v l, (v, l) ∈ vs ↔
      l ∈ lines ∧ ∃ p q t, l = p :: q :: t ∧ k.get p = k.get q ∧ v = k.get p := by
  induction lines with
  | nil => exact ⟨[], rfl, by simp⟩
  | cons l ls ih =>
    obtain ⟨vs, hv, hvs⟩ := ih fun l hl => h l (by simp [hl])
    obtain ⟨p, q, t, rfl⟩ := h l (by simp)
    have e : selected k ((p :: q :: t) :: ls)
        = .ok (if k.get p = k.get q then (k.get p, p :: q :: t) :: vs else vs) := by
      have : selected k ((p :: q :: t) :: ls) = (do
        let rest ← selected k ls
        .ok (if k.get p = k.get q then (k.get p, p :: q :: t) :: rest else rest)) := by
        simp only [selected, List.foldr_cons]
      rw [this, hv]; rfl
    refine ⟨_, e, ?_⟩
    intro v l'
    split_ifs with hpq
    · simp only [List.mem_cons, Prod.mk.injEq, hvs]
      constructor
      · rintro (⟨rfl, rfl⟩ | ⟨h1, h2⟩)
        · exact ⟨.inl rfl, p, q, t, rfl, hpq, rfl⟩
        · exact ⟨.inr h1, h2⟩
      · rintro ⟨rfl | h1, p', q', t', h2, h3, h4⟩
        · simp only [List.cons.injEq] at h2
          obtain ⟨rfl, rfl, rfl⟩ := h2
          exact .inl ⟨h4, rfl⟩
        · exact .inr ⟨h1, p', q', t', h2, h3, h4⟩
    · rw [hvs]
      constructor
      · rintro ⟨h1, h2⟩
        exact ⟨by simp [h1], h2⟩
      · rintro ⟨h1, p', q', t', h2, h3, h4⟩
        rcases List.mem_cons.1 h1 with h1 | h1
        · rw [h2] at h1
          simp only [List.cons.injEq] at h1
          obtain ⟨rfl, rfl, rfl⟩ := h1
          exact (hpq h3).elim
        · exact ⟨h1, p', q', t', h2, h3, h4⟩

/-- A line (not a single point) along which longitude or latitude has the value `v`. -/
def Spec.IsLine (k : Kind) (v : ℝ) (l : List (ℝ × ℝ)) : Prop :=
  2 ≤ l.length ∧ ∀ q ∈ l, k.get q = v

/-- For all steps of the graticule, projections and lines along which labels are set: there is a
label with the value `v` at a point exactly if a line of the graticule with longitude (latitude)
`v` is visible and crosses the line of the labels at this point. -/
theorem C171_labels {P : Type} (lon lat : ℝ) (hlat : lat ≤ 90) (k : Kind)
    (path : List (ℝ × ℝ) → Option P) (intersect : P → List (ℝ × ℝ))
    (OnPath : P → ℝ × ℝ → Prop) (OnEdge : ℝ × ℝ → Prop)
    (hi : ∀ p pt, pt ∈ intersect p ↔ OnPath p pt ∧ OnEdge pt) :
    ∃ labels, intersections path intersect k (graticule lon lat) = .ok labels ∧
      ∀ pt v, (pt, v) ∈ labels ↔ OnEdge pt ∧ ∃ l ∈ graticule lon lat, Spec.IsLine k v l ∧
        ∃ p, path l = some p ∧ OnPath p pt := by
  obtain ⟨vs, hv, hvs⟩ := selected_spec k (graticule lon lat) fun l hl => by
    obtain ⟨p, q, t, h, -⟩ := graticule_line hlat hl
    exact ⟨p, q, t, h⟩
  have hsel : ∀ v l, (v, l) ∈ vs ↔ l ∈ graticule lon lat ∧ Spec.IsLine k v l := by
    intro v l
    rw [hvs]
    constructor
    · rintro ⟨hl, p, q, t, rfl, he, rfl⟩
      refine ⟨hl, by simp, ?_⟩
      obtain ⟨p', q', t', h, hc⟩ := graticule_line hlat hl
      simp only [List.cons.injEq] at h
      obtain ⟨rfl, rfl, rfl⟩ := h
      cases k with
      | lon =>
        rcases hc with ⟨_, h⟩ | ⟨h, _⟩
        · exact h
        · exact (h he).elim
      | lat =>
        rcases hc with ⟨h, _⟩ | ⟨_, h⟩
        · exact (h he).elim
        · exact h
    · rintro ⟨hl, -, ha⟩
      obtain ⟨p, q, t, rfl, -⟩ := graticule_line hlat hl
      exact ⟨hl, p, q, t, rfl, by rw [ha p (by simp), ha q (by simp)], (ha p (by simp)).symm⟩
  refine ⟨_, by rw [intersections, hv]; rfl, ?_⟩
  intro pt v
  simp only [List.mem_flatMap, Prod.exists]
  constructor
  · rintro ⟨v', l, hm, hp⟩
    obtain ⟨hl, hline⟩ := (hsel v' l).1 hm
    cases hpath : path l with
    | none => rw [hpath] at hp; simp at hp
    | some p =>
      rw [hpath] at hp
      obtain ⟨pt', h1, h2⟩ := List.mem_map.1 hp
      simp only [Prod.mk.injEq] at h2
      obtain ⟨rfl, rfl⟩ := h2
      exact ⟨((hi p pt').1 h1).2, l, hl, hline, p, hpath, ((hi p pt').1 h1).1⟩
  · rintro ⟨he, l, hl, hline, p, hpath, hon⟩
    refine ⟨v, l, (hsel v l).2 ⟨hl, hline⟩, ?_⟩
    rw [hpath]
    exact List.mem_map.2 ⟨pt, (hi p pt).2 ⟨hon, he⟩, rfl⟩

/-- An example: the lines themselves, without projection, and labels at their vertices on the
horizon. -/
example : ∃ labels, intersections (P := List (ℝ × ℝ)) some
    (fun p => open Classical in p.filter fun q => q.2 = 0) .lon (graticule 10 10) = .ok labels := by
  obtain ⟨labels, h, -⟩ := C171_labels 10 10 (by norm_num) .lon (P := List (ℝ × ℝ)) some
    (fun p => open Classical in p.filter fun q => q.2 = 0) (fun p q => q ∈ p) (fun q => q.2 = 0)
    (by simp)
  exact ⟨labels, h⟩

/-- The graticule has lines at all multiples of the step in latitude between the poles, and, if 90
is a multiple of the step in longitude, at all multiples of that from -180 to before 180. -/
theorem C171_lines (lon lat : ℝ) (hlon : 1 ≤ lon) (m : ℕ) (hm : (m : ℝ) * lon = 90) (hlat0 : 0 < lat)
    (hlat : lat ≤ 90) (v : ℝ) :
    ((∃ l ∈ graticule lon lat, Spec.IsLine .lon v l) ↔ (∃ k : ℤ, v = k * lon) ∧ -180 ≤ v ∧ v < 180) ∧
    ((∃ l ∈ graticule lon lat, Spec.IsLine .lat v l) ↔
      (∃ k : ℤ, v = k * lat) ∧ -90 + 1 / 100000 ≤ v ∧ v < 90 - 1 / 100000) := by
  have hlon0 : 0 < lon := by linarith
  have hM : (-90 + 1 / 100000 : ℝ) < (90 - 1 / 100000) - 1 / 1000000 := by norm_num
  have hN : (-90 + lat - 1 / 100000 : ℝ) < (90 - lat + 1 / 100000) - 1 / 1000000 := by linarith
  have hP : (-180 : ℝ) < 180 - 1 / 1000000 := by norm_num
  have mer_lon : ∀ {y0 y1 : ℝ}, y0 < y1 - 1 / 1000000 → ∀ x, Spec.IsLine .lon v (meridian y0 y1 x) ↔
      x = v := by
    intro y0 y1 h x
    obtain ⟨y, t, he, -, ha⟩ := meridian_two h x
    constructor
    · rintro ⟨-, h2⟩
      have := h2 (x, y0) (by rw [he]; simp)
      exact this
    · rintro rfl
      exact ⟨by rw [he]; simp, ha⟩
  have mer_lat : ∀ {y0 y1 : ℝ}, y0 < y1 - 1 / 1000000 → ∀ x, ¬ Spec.IsLine .lat v (meridian y0 y1 x) := by
    intro y0 y1 h x
    obtain ⟨y, t, he, hy, -⟩ := meridian_two h x
    rintro ⟨-, h2⟩
    have h3 := h2 (x, y0) (by rw [he]; simp)
    have h4 := h2 (x, y) (by rw [he]; simp)
    exact hy (h4.trans h3.symm)
  have par_lat : ∀ y, Spec.IsLine .lat v (parallel (-180) 180 y) ↔ y = v := by
    intro y
    obtain ⟨x, t, he, -, ha⟩ := parallel_two hP y
    constructor
    · rintro ⟨-, h2⟩
      exact h2 (-180, y) (by rw [he]; simp)
    · rintro rfl
      exact ⟨by rw [he]; simp, ha⟩
  have par_lon : ∀ y, ¬ Spec.IsLine .lon v (parallel (-180) 180 y) := by
    intro y
    obtain ⟨x, t, he, hx, -⟩ := parallel_two hP y
    rintro ⟨-, h2⟩
    have h3 := h2 (-180, y) (by rw [he]; simp)
    have h4 := h2 (x, y) (by rw [he]; simp)
    exact hx (h4.trans h3.symm)
  have rem_mul : ∀ x : ℝ, ∃ j : ℤ, jsRem x 90 = x - 90 * j := by
    intro x
    unfold jsRem
    split_ifs
    · exact ⟨_, rfl⟩
    · exact ⟨_, rfl⟩
  constructor
  · constructor
    · rintro ⟨l, hl, hline⟩
      rcases (mem_graticule l).1 hl with ⟨x, hx, rfl⟩ | ⟨x, hx, rfl⟩ | ⟨x, hx, -, rfl⟩ | ⟨x, hx, -, rfl⟩
      · rw [mer_lon hM] at hline
        subst hline
        obtain ⟨⟨k, rfl⟩, h⟩ := (mem_multiples (by norm_num)).1 hx
        exact ⟨⟨k * m, by push_cast; rw [mul_assoc, hm]⟩, h⟩
      · exact (par_lon _ hline).elim
      · rw [mer_lon hN] at hline
        subst hline
        exact (mem_multiples hlon0).1 hx
      · exact (par_lon _ hline).elim
    · rintro ⟨⟨k, hk⟩, h⟩
      by_cases h90 : ∃ j : ℤ, v = j * 90
      · exact ⟨_, (mem_graticule _).2 (.inl ⟨v, (mem_multiples (by norm_num)).2 ⟨h90, h⟩, rfl⟩),
          (mer_lon hM v).2 rfl⟩
      · refine ⟨_, (mem_graticule _).2 (.inr (.inr (.inl ⟨v, (mem_multiples hlon0).2 ⟨⟨k, hk⟩, h⟩, ?_,
          rfl⟩))), (mer_lon hN v).2 rfl⟩
        obtain ⟨j, hj⟩ := rem_mul v
        have e : jsRem v 90 = ((k - m * j : ℤ) : ℝ) * lon := by
          rw [hj, hk, ← hm]; push_cast; ring
        have hne : k - m * j ≠ 0 := by
          intro h0
          apply h90
          refine ⟨j, ?_⟩
          rw [h0] at e
          rw [hj] at e
          push_cast at e
          linarith
        have h1 : (1 : ℝ) ≤ |((k - m * j : ℤ) : ℝ)| := by
          exact_mod_cast Int.one_le_abs hne
        rw [e, abs_mul, abs_of_pos hlon0]
        nlinarith
  · constructor
    · rintro ⟨l, hl, hline⟩
      rcases (mem_graticule l).1 hl with ⟨x, hx, rfl⟩ | ⟨x, hx, rfl⟩ | ⟨x, hx, -, rfl⟩ | ⟨y, hy, hr, rfl⟩
      · exact (mer_lat hM _ hline).elim
      · rw [par_lat] at hline
        subst hline
        exact (mem_multiples hlat0).1 hx
      · exact (mer_lat hN _ hline).elim
      · exfalso
        obtain ⟨⟨k, rfl⟩, -⟩ := (mem_multiples hlat0).1 hy
        have : jsRem (k * lat) lat = 0 := by
          unfold jsRem
          rw [mul_div_cancel_right₀ _ hlat0.ne', Int.floor_intCast, Int.ceil_intCast]
          split_ifs <;> ring
        rw [this] at hr
        norm_num at hr
    · rintro ⟨h, h'⟩
      exact ⟨_, (mem_graticule _).2 (.inr (.inl ⟨v, (mem_multiples hlat0).2 ⟨h, h'⟩, rfl⟩)),
        (par_lat v).2 rfl⟩

example : ∃ l ∈ graticule 10 10, Spec.IsLine .lon (-70) l :=
  (C171_lines 10 10 (by norm_num) 9 (by norm_num) (by norm_num) (by norm_num) (-70)).1.2
    ⟨⟨-7, by norm_num⟩, by norm_num, by norm_num⟩

/-! ## C172 -/

lemma project_horizontal {r : Rotation} (hg : r.gamma = 0) {scale center : ℝ} {p q : ℝ × ℝ}
    (h : project r scale center p = some q) :
    ∃ k, 0 < k ∧ q.1 = center + scale * (k * (Real.sin (radians p.1 + radians r.lambda)
        * Real.cos (radians p.2))) ∧
      q.2 = center - scale * (k * (Real.sin (radians p.2) * Real.cos (radians r.phi)
        + Real.cos (radians p.1 + radians r.lambda) * Real.cos (radians p.2) * Real.sin (radians r.phi))) := by
  have g0 : radians r.gamma = 0 := by rw [hg]; unfold radians; ring
  simp only [project, Rotation.apply, g0, Real.cos_zero, Real.sin_zero, mul_one, mul_zero, sub_zero,
    add_zero] at h
  set l := radians p.1 + radians r.lambda
  set f := radians p.2
  set φ := radians r.phi
  set k := Real.sin f * Real.cos φ + Real.cos l * Real.cos f * Real.sin φ with hk
  set y := Real.sin l * Real.cos f with hy
  set x := Real.cos l * Real.cos f * Real.cos φ - Real.sin f * Real.sin φ with hx
  have h1 : x ^ 2 + y ^ 2 + k ^ 2 = 1 := by
    have a := Real.sin_sq_add_cos_sq l
    have b := Real.sin_sq_add_cos_sq f
    have c := Real.sin_sq_add_cos_sq φ
    rw [hx, hy, hk]
    linear_combination (Real.cos l ^ 2 * Real.cos f ^ 2 + Real.sin f ^ 2) * c + Real.cos f ^ 2 * a + b
  have hs : Real.sin (Real.arcsin k) = k := Real.sin_arcsin (by nlinarith) (by nlinarith)
  have hc : Real.cos (Real.arcsin k) = Real.sqrt (x ^ 2 + y ^ 2) := by
    rw [Real.cos_arcsin]; congr 1; linarith
  have hsin := sqrt_mul_sin_arctan2 y x
  split_ifs at h with h0
  cases h
  refine ⟨Real.sqrt (2 / (1 + Real.cos (arctan2 y x) * Real.cos (Real.arcsin k))), ?_, ?_, ?_⟩
  · apply Real.sqrt_pos.2
    have b1 := abs_le.1 (Real.abs_cos_le_one (arctan2 y x))
    have b2 := Real.cos_le_one (Real.arcsin k)
    have b3 : 0 ≤ Real.cos (Real.arcsin k) := Real.cos_arcsin_nonneg k
    have : 0 ≤ 1 + Real.cos (arctan2 y x) * Real.cos (Real.arcsin k) := by nlinarith
    exact div_pos two_pos (lt_of_le_of_ne this (Ne.symm h0))
  · show center + scale * (_ * (Real.cos (Real.arcsin k) * Real.sin (arctan2 y x))) = _
    rw [hc, hsin]
  · show center - scale * (_ * Real.sin (Real.arcsin k)) = _
    rw [hs]

/-- In a view that is not rolled and turned by less than 90 degrees to the side, the texts E and W
are on the side of the center on which east and west are projected ... -/
theorem C172_sides_partial (r : Rotation) (hg : r.gamma = 0) (hl : 0 < Real.cos (radians r.lambda))
    (scale size margin : ℝ) (hs : 0 < scale) (hm : margin < size / 2) (name : String) (at' pos : ℝ × ℝ)
    (ht : (name, at') ∈ horizontalTexts size margin) (hp : (name, pos) ∈ labels) (q : ℝ × ℝ)
    (hq : project r scale (size / 2) pos = some q) :
    0 < (at'.1 - size / 2) * (q.1 - size / 2) := by
  obtain ⟨k, hk, h1, -⟩ := project_horizontal hg hq
  have hE : Real.sin (radians 90 + radians r.lambda) = Real.cos (radians r.lambda) := by
    rw [radians_90, add_comm, Real.sin_add_pi_div_two]
  have hW : Real.sin (radians (-90) + radians r.lambda) = -Real.cos (radians r.lambda) := by
    rw [radians_neg, radians_90, neg_add_eq_sub, Real.sin_sub_pi_div_two]
  have hpos : 0 < scale * (k * Real.cos (radians r.lambda)) := by positivity
  simp only [horizontalTexts, labels, List.mem_cons, Prod.mk.injEq, List.not_mem_nil, or_false] at ht hp
  rcases ht with ⟨rfl, rfl⟩ | ⟨rfl, rfl⟩ | ⟨rfl, rfl⟩ <;> simp at hp <;> subst hp
  · simp only [hE, radians_zero, Real.cos_zero, mul_one] at h1
    rw [h1]
    have : 0 < size / 2 - margin := by linarith
    nlinarith
  · simp only [hW, radians_zero, Real.cos_zero, mul_one] at h1
    rw [h1]
    have : 0 < size / 2 - margin := by linarith
    nlinarith

example (q : ℝ × ℝ) (hq : project ⟨30, -20, 0⟩ 100 150 (90, 0) = some q) :
    0 < (280 - 150) * (q.1 - 150) := by
  have h := C172_sides_partial ⟨30, -20, 0⟩ rfl (Real.cos_pos_of_mem_Ioo
    ⟨by unfold radians; linarith [Real.pi_pos], by unfold radians; linarith [Real.pi_pos]⟩) 100 300 20
    (by norm_num) (by norm_num) "E" (280, 150) (90, 0) (by norm_num [horizontalTexts]) (by simp [labels]) q
    (by norm_num; exact hq)
  norm_num at h ⊢
  exact h

/-- ... but the texts stay where they are when the view is turned: seen from behind (turned by more
than 90 degrees) each is on the side of the other direction. -/
theorem C172_behind_false (r : Rotation) (hg : r.gamma = 0) (hl : Real.cos (radians r.lambda) < 0)
    (scale size margin : ℝ) (hs : 0 < scale) (hm : margin < size / 2) (name : String) (at' pos : ℝ × ℝ)
    (ht : (name, at') ∈ horizontalTexts size margin) (hp : (name, pos) ∈ labels) (q : ℝ × ℝ)
    (hq : project r scale (size / 2) pos = some q) :
    (at'.1 - size / 2) * (q.1 - size / 2) < 0 := by
  obtain ⟨k, hk, h1, -⟩ := project_horizontal hg hq
  have hE : Real.sin (radians 90 + radians r.lambda) = Real.cos (radians r.lambda) := by
    rw [radians_90, add_comm, Real.sin_add_pi_div_two]
  have hW : Real.sin (radians (-90) + radians r.lambda) = -Real.cos (radians r.lambda) := by
    rw [radians_neg, radians_90, neg_add_eq_sub, Real.sin_sub_pi_div_two]
  have hpos : scale * (k * Real.cos (radians r.lambda)) < 0 :=
    mul_neg_of_pos_of_neg hs (mul_neg_of_pos_of_neg hk hl)
  simp only [horizontalTexts, labels, List.mem_cons, Prod.mk.injEq, List.not_mem_nil, or_false] at ht hp
  rcases ht with ⟨rfl, rfl⟩ | ⟨rfl, rfl⟩ | ⟨rfl, rfl⟩ <;> simp at hp <;> subst hp
  · simp only [hE, radians_zero, Real.cos_zero, mul_one] at h1
    rw [h1]
    have : 0 < size / 2 - margin := by linarith
    nlinarith
  · simp only [hW, radians_zero, Real.cos_zero, mul_one] at h1
    rw [h1]
    have : 0 < size / 2 - margin := by linarith
    nlinarith

/-- Seen from the opposite direction and a little from above, east is projected. -/
example : ∃ q, project ⟨180, 30, 0⟩ 100 150 (90, 0) = some q ∧ (280 - 150) * (q.1 - 150) < 0 := by
  have hsome : ∃ q, project ⟨180, 30, 0⟩ 100 150 (90, 0) = some q := by
    have h90 : radians 90 + radians 180 = Real.pi + Real.pi / 2 := by rw [radians_90, radians_180]; ring
    have g0 : radians (0 : ℝ) = 0 := radians_zero
    have hx : Real.cos (radians 90 + radians 180) = 0 := by
      rw [h90, add_comm, Real.cos_add_pi, Real.cos_pi_div_two, neg_zero]
    have hy : Real.sin (radians 90 + radians 180) = -1 := by
      rw [h90, add_comm, Real.sin_add_pi, Real.sin_pi_div_two]
    simp only [project, Rotation.apply, g0, hx, hy]
    simp [cos_arctan2_zero (show (-1 : ℝ) ≠ 0 by norm_num)]
  obtain ⟨q, hq⟩ := hsome
  refine ⟨q, hq, ?_⟩
  have h := C172_behind_false ⟨180, 30, 0⟩ rfl (by simp [radians_180]) 100 300 20
    (by norm_num) (by norm_num) "E" (280, 150) (90, 0) (by norm_num [horizontalTexts]) (by simp [labels]) q
    (by norm_num; exact hq)
  norm_num at h ⊢
  exact h

/-- The text "Vertical" is above the center, where the upward direction is projected in all views that
dragging can reach short of looking straight up or down. -/
theorem C172_vertical (r : Rotation) (hg : r.gamma = 0) (hphi : |r.phi| < 90) (scale size margin : ℝ)
    (hs : 0 < scale) (hm : margin < size / 2) (at' pos q : ℝ × ℝ)
    (ht : ("Vertical", at') ∈ horizontalTexts size margin) (hp : ("Up", pos) ∈ labels)
    (hq : project r scale (size / 2) pos = some q) :
    at'.1 = size / 2 ∧ q.1 = size / 2 ∧ at'.2 < size / 2 ∧ q.2 < size / 2 := by
  obtain ⟨k, hk, h1, h2⟩ := project_horizontal hg hq
  simp [labels] at hp
  subst hp
  simp [horizontalTexts] at ht
  subst ht
  have hc : 0 < Real.cos (radians r.phi) := by
    rw [abs_lt] at hphi
    have := Real.pi_pos
    apply Real.cos_pos_of_mem_Ioo
    unfold radians
    constructor <;> nlinarith
  simp only [radians_90, Real.cos_pi_div_two, Real.sin_pi_div_two, mul_zero, add_zero, one_mul, zero_mul] at h1 h2
  refine ⟨rfl, h1, hm, ?_⟩
  rw [h2]
  have : 0 < scale * (k * Real.cos (radians r.phi)) := by positivity
  linarith

example : ∃ q, project ⟨0, 0, 0⟩ 100 150 (0, 90) = some q ∧ q.1 = 150 ∧ q.2 < 150 := by
  have hsome : ∃ q, project ⟨0, 0, 0⟩ 100 150 (0, 90) = some q := by
    simp [project, Rotation.apply, radians_zero, radians_90]
  obtain ⟨q, hq⟩ := hsome
  have h := C172_vertical ⟨0, 0, 0⟩ rfl (by simp) 100 300 20 (by norm_num) (by norm_num) (150, 20) (0, 90) q
    (by norm_num [horizontalTexts]) (by simp [labels]) (by norm_num; exact hq)
  norm_num at h
  exact ⟨q, hq, h.1, h.2⟩

end Attitude.Props
