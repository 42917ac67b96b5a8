import Verif.Model.Rectangle
import Verif.Props.Panels

/-!
# Properties of rectangular stereonets
-/

namespace Attitude.Props

open Attitude Frontend Rectangle

namespace Spec

/-- The middle of a rectangle. -/
noncomputable def middle (r : Rect) : ℝ × ℝ := (r.x + r.width / 2, r.y + r.height / 2)

/-- The border of a rectangle. -/
def OnBorder (r : Rect) (p : ℝ × ℝ) : Prop :=
  (r.x ≤ p.1 ∧ p.1 ≤ r.x + r.width ∧ r.y ≤ p.2 ∧ p.2 ≤ r.y + r.height) ∧
    (p.1 = r.x ∨ p.1 = r.x + r.width ∨ p.2 = r.y ∨ p.2 = r.y + r.height)

/-- Points of a line between its ends. -/
def OnSegment (s : Segment) (p : ℝ × ℝ) : Prop :=
  ∃ t : ℝ, 0 ≤ t ∧ t ≤ 1 ∧
    p = (s.first.1 + t * (s.last.1 - s.first.1), s.first.2 + t * (s.last.2 - s.first.2))

/-- Calls after which a rectangle that was asked for still is centered: everything but another
margin and another rectangle. -/
def Harmless : RectCall → Prop
  | .net (.margin _) => False
  | .rectangular _ => False
  | _ => True

end Spec

lemma setScale_margin (n : Net) (k : Option ℝ) : (n.setScale k).margin = n.margin := by
  unfold Net.setScale
  dsimp only
  split_ifs <;> rfl

lemma step_margin (n : Net) (c : NetCall) (h : ∀ m, c ≠ .margin m) : (n.step c).margin = n.margin := by
  cases c with
  | margin m => exact absurd rfl (h m)
  | size k => exact setScale_margin _ _
  | clipAngle k => exact setScale_margin _ _
  | draw => exact setScale_margin _ _
  | call fn =>
    simp only [Net.step]
    split_ifs <;> rfl
  | _ => rfl

lemma harmless_step (s : RectNet) (c : RectCall) (h : Spec.Harmless c) :
    (s.step c).net.margin = s.net.margin ∧ (s.step c).pending = s.pending := by
  cases c with
  | rectangular o => exact h.elim
  | center3 l p g => exact ⟨rfl, rfl⟩
  | translate p => exact ⟨rfl, rfl⟩
  | net c =>
    have hm : ∀ m, c ≠ .margin m := by
      rintro m rfl
      exact h
    have h1 := step_margin s.net c hm
    cases c with
    | draw =>
      simp only [RectNet.step]
      cases hp : s.pending with
      | none => exact ⟨h1, by simp⟩
      | some r => exact ⟨h1, by simp⟩
    | _ => exact ⟨h1, rfl⟩

lemma harmless_run (calls : List RectCall) : ∀ s : RectNet, (∀ c ∈ calls, Spec.Harmless c) →
    (s.run calls).net.margin = s.net.margin ∧ (s.run calls).pending = s.pending := by
  induction calls with
  | nil => intro s _; exact ⟨rfl, rfl⟩
  | cons c r ih =>
    intro s h
    obtain ⟨h1, h2⟩ := ih (s.step c) fun c' hc => h c' (by simp [hc])
    obtain ⟨h3, h4⟩ := harmless_step s c (h c (by simp))
    exact ⟨h1.trans h3, h2.trans h4⟩

lemma run_append (s : RectNet) (l l' : List RectCall) : s.run (l ++ l') = (s.run l).run l' := by
  simp [RectNet.run, List.foldl_append]

/-- A rectangle that was asked for is drawn with the size asked for, clips data and graticule even
if clipping is turned off, and shows the hemisphere; and if no position was given, the projection is
centered in its middle, whatever was called before and in between (other than `margin` and
`rectangular`). -/
theorem C191_rectangle_partial (s : RectNet) (o : RectOpts) (calls : List RectCall)
    (h : ∀ c ∈ calls, Spec.Harmless c) :
    ∃ r, (s.run (.rectangular o :: calls ++ [.net .draw])).outline = some r ∧
      (∀ w, o.width = some w → r.width = w) ∧ (∀ w, o.height = some w → r.height = w) ∧
      (∀ w, o.x = some w → r.x = w) ∧ (∀ w, o.y = some w → r.y = w) ∧
      (s.run (.rectangular o :: calls ++ [.net .draw])).clipped = true ∧
      (s.run (.rectangular o :: calls ++ [.net .draw])).net.projClip = 90 ∧
      (o.x = none → o.y = none →
        (s.run (.rectangular o :: calls ++ [.net .draw])).translate = Spec.middle r) := by
  rw [run_append]
  have e : s.run (.rectangular o :: calls) = (s.step (.rectangular o)).run calls := rfl
  obtain ⟨h1, h2⟩ := harmless_run calls (s.step (.rectangular o)) h
  rw [← e] at h1 h2
  set t := s.run (.rectangular o :: calls) with ht
  have hp : t.pending = some (rectangle s.net o) := h2
  have hm : (t.net.step .draw).margin = s.net.margin :=
    (step_margin _ _ (by simp)).trans h1
  refine ⟨rectangle s.net o, ?_, ?_, ?_, ?_, ?_, ?_, ?_, ?_⟩
  · simp [RectNet.run, RectNet.step, hp]
  · intro w hw; simp [rectangle, hw]
  · intro w hw; simp [rectangle, hw]
  · intro w hw; simp [rectangle, hw]
  · intro w hw; simp [rectangle, hw]
  · simp [RectNet.run, RectNet.step, hp]
  · simp [RectNet.run, RectNet.step, hp]
  · intro hx hy
    simp only [RectNet.run, List.foldl_cons, List.foldl_nil, RectNet.step, hp, hm]
    simp [Spec.middle, rectangle, hx, hy, add_comm]

example : ∀ c ∈ [RectCall.net (.clip false), .net (.size 500), .center3 1 2 3], Spec.Harmless c := by
  simp [Spec.Harmless]

/-- A rectangle without options is the square that remains of the stereonet within its margins at the
time of the call, and the projection is in the middle of it. -/
theorem C191_default_square (s : RectNet) (calls : List RectCall) (h : ∀ c ∈ calls, Spec.Harmless c) :
    ∃ r, (s.run (.rectangular {} :: calls ++ [.net .draw])).outline = some r ∧
      r.x = s.net.margin ∧ r.y = s.net.margin ∧
      r.x + r.width = s.net.scale - s.net.margin ∧ r.y + r.height = s.net.scale - s.net.margin ∧
      (s.run (.rectangular {} :: calls ++ [.net .draw])).translate = Spec.middle r := by
  obtain ⟨r, h1, -, -, -, -, -, -, h7⟩ := C191_rectangle_partial s {} calls h
  refine ⟨r, h1, ?_⟩
  have hr : r = rectangle s.net {} := by
    rw [run_append] at h1
    obtain ⟨-, h2⟩ := harmless_run calls (s.step (.rectangular {})) h
    have hp : (s.run (.rectangular {} :: calls)).pending = some (rectangle s.net {}) := h2
    simp [RectNet.run, RectNet.step] at h1 hp
    simp [hp] at h1
    exact h1.symm
  refine ⟨?_, ?_, ?_, ?_, h7 rfl rfl⟩ <;> subst hr <;> simp [rectangle] <;> ring

example : ∀ c ∈ [RectCall.net (.size 500)], Spec.Harmless c := by
  simp [Spec.Harmless]

/-- With a position the projection is not centered in the rectangle: it stays where the default
position would have it. -/
theorem C191_position_false (s : RectNet) (o : RectOpts) (x y : ℝ) (hx : o.x = some x) (hy : o.y = some y) :
    ∃ r, (s.run [.rectangular o, .net .draw]).outline = some r ∧
      ((s.run [.rectangular o, .net .draw]).translate = Spec.middle r ↔
        x = s.net.margin ∧ y = s.net.margin) := by
  refine ⟨rectangle s.net o, by simp [RectNet.run, RectNet.step], ?_⟩
  have hm : (s.net.step .draw).margin = s.net.margin := step_margin _ _ (by simp)
  simp only [RectNet.run, List.foldl_cons, List.foldl_nil, RectNet.step, hm, Spec.middle, rectangle, hx, hy,
    Option.getD_some, Prod.mk.injEq]
  constructor
  · rintro ⟨h1, h2⟩
    constructor <;> linarith
  · rintro ⟨h1, h2⟩
    constructor <;> linarith

example : ∃ o : RectOpts, o.x = some 100 ∧ o.y = some 20 := ⟨{ x := some 100, y := some 20 }, rfl, rfl⟩

/-- Changing the size of a drawn rectangular stereonet moves the projection out of the middle of the
rectangle, which stays: the projection goes to the middle of the square of the new size. -/
theorem C191_resize_false (s : RectNet) (o : RectOpts) (n : ℝ) :
    ∃ r, (s.run [.rectangular o, .net .draw, .net (.size n)]).outline = some r ∧
      (s.run [.rectangular o, .net .draw]).outline = some r ∧
      (s.run [.rectangular o, .net .draw, .net (.size n)]).translate = (n / 2, n / 2) := by
  refine ⟨rectangle s.net o, by simp [RectNet.run, RectNet.step], by simp [RectNet.run, RectNet.step], ?_⟩
  have hs : ∀ m : Net, (m.step (.size n)).scale = n := by
    intro m
    simp only [Net.step, Net.setScale]
    split_ifs <;> rfl
  simp only [RectNet.run, List.foldl_cons, List.foldl_nil, RectNet.step, setsScale, if_true, hs]

/-- `centerPosition` does not refer to the middle of the rectangle unless that is the middle of the
square of the size of the stereonet; for the rectangular plot of the package it is not. -/
theorem C191_center_position_false (s : RectNet) (o : RectOpts) (hx : o.x = none) (hy : o.y = none) :
    ∃ r, (s.run [.rectangular o, .net .draw]).outline = some r ∧
      ((s.run [.rectangular o, .net .draw]).centerPoint = Spec.middle r ↔
        r.width = s.net.scale - 2 * s.net.margin ∧ r.height = s.net.scale - 2 * s.net.margin) := by
  refine ⟨rectangle s.net o, by simp [RectNet.run, RectNet.step], ?_⟩
  have hs : (s.net.step .draw).scale = s.net.scale := by
    simp only [Net.step, Net.setScale]
    split_ifs <;> rfl
  simp only [RectNet.run, List.foldl_cons, List.foldl_nil, RectNet.step, RectNet.centerPoint, hs,
    Spec.middle, rectangle, hx, hy, Option.getD_none, Prod.mk.injEq]
  constructor
  · rintro ⟨h1, h2⟩
    constructor <;> linarith
  · rintro ⟨h1, h2⟩
    constructor <;> linarith

example : ∃ o : RectOpts, o.x = none ∧ o.y = none ∧ o.width ≠ none := ⟨{ width := some 300 }, rfl, rfl, by simp⟩

/-! ## C192 -/

lemma plot_outline : plot.outline = some ⟨25, 25, 740, 355⟩ := by
  have e : ∀ n : Net, (Net.step n (.clipAngle 40)).margin = n.margin := fun n => step_margin _ _ (by simp)
  simp only [plot, RectNet.run, List.foldl_cons, List.foldl_nil, RectNet.step, rectangle, innerSize, e]
  norm_num [Net.step]

/-- The labels for the dip are on the lower edge of the plot: for every projection and every routine
that finds the intersections of paths with the line given to it, there is a label of value `v` at a
point exactly if the parallel of `v` crosses the line there, and such points are on the border.
Missing: the line leaves out 25 pixels at both ends of the edge. -/
theorem C192_dip_partial {P : Type} (path : List (ℝ × ℝ) → Option P) (intersect : P → List (ℝ × ℝ))
    (OnPath : P → ℝ × ℝ → Prop)
    (hi : ∀ p pt, pt ∈ intersect p ↔ OnPath p pt ∧ Spec.OnSegment dipLine pt) :
    ∃ labels r, Panels.intersections path intersect .lat (Panels.graticule 10 10) = .ok labels ∧
      plot.outline = some r ∧
      ∀ pt v, ((pt, v) ∈ labels ↔ (r.x + 25 ≤ pt.1 ∧ pt.1 ≤ r.x + r.width - 25 ∧ pt.2 = r.y + r.height) ∧
        ∃ l ∈ Panels.graticule 10 10, Spec.IsLine .lat v l ∧ ∃ p, path l = some p ∧ OnPath p pt) ∧
        ((pt, v) ∈ labels → Spec.OnBorder r pt) := by
  obtain ⟨labels, h1, h2⟩ := C171_labels 10 10 (by norm_num) .lat path intersect OnPath
    (Spec.OnSegment dipLine) hi
  have hseg : ∀ pt : ℝ × ℝ, Spec.OnSegment dipLine pt ↔ 50 ≤ pt.1 ∧ pt.1 ≤ 740 ∧ pt.2 = 380 := by
    rintro ⟨x, y⟩
    simp only [Spec.OnSegment, dipLine, innerSize, Prod.mk.injEq]
    constructor
    · rintro ⟨t, h0, h1, hx, hy⟩
      refine ⟨?_, ?_, ?_⟩ <;> linarith
    · rintro ⟨hx, hx', hy⟩
      refine ⟨(x - 50) / 690, by apply div_nonneg <;> linarith, by rw [div_le_one] <;> linarith, ?_, ?_⟩
      · ring
      · linarith
  refine ⟨labels, _, h1, plot_outline, fun pt v => ⟨?_, ?_⟩⟩
  · rw [h2, hseg]
    norm_num
  · rw [h2, hseg]
    rintro ⟨⟨hx, hx', hy⟩, -⟩
    refine ⟨⟨?_, ?_, ?_, ?_⟩, Or.inr (Or.inr (Or.inr ?_))⟩ <;> norm_num <;> linarith

/-- The labels for the azimuth are not on the right edge of the plot, but 20 pixels left of it; some
of the points at which they can be are above the plot. -/
theorem C192_azimuth_false {P : Type} (path : List (ℝ × ℝ) → Option P) (intersect : P → List (ℝ × ℝ))
    (OnPath : P → ℝ × ℝ → Prop)
    (hi : ∀ p pt, pt ∈ intersect p ↔ OnPath p pt ∧ Spec.OnSegment azimuthLine pt) :
    ∃ labels r, Panels.intersections path intersect .lon (Panels.graticule 10 10) = .ok labels ∧
      plot.outline = some r ∧
      (∀ pt v, (pt, v) ∈ labels → pt.1 = r.x + r.width - 20 ∧ r.y - 20 ≤ pt.2 ∧ pt.2 ≤ r.y + r.height) ∧
      (∀ pt v, (pt, v) ∈ labels → (Spec.OnBorder r pt ↔ pt.2 = r.y ∨ pt.2 = r.y + r.height)) := by
  obtain ⟨labels, h1, h2⟩ := C171_labels 10 10 (by norm_num) .lon path intersect OnPath
    (Spec.OnSegment azimuthLine) hi
  have hseg : ∀ pt : ℝ × ℝ, Spec.OnSegment azimuthLine pt → pt.1 = 745 ∧ 5 ≤ pt.2 ∧ pt.2 ≤ 380 := by
    rintro ⟨x, y⟩
    simp only [Spec.OnSegment, azimuthLine, innerSize, Prod.mk.injEq]
    rintro ⟨t, h0, h1, hx, hy⟩
    refine ⟨?_, ?_, ?_⟩ <;> linarith
  refine ⟨labels, _, h1, plot_outline, fun pt v h => ?_, fun pt v h => ?_⟩
  · obtain ⟨hx, hy, hy'⟩ := hseg pt ((h2 pt v).1 h).1
    refine ⟨?_, ?_, ?_⟩ <;> norm_num <;> linarith
  · obtain ⟨hx, hy, hy'⟩ := hseg pt ((h2 pt v).1 h).1
    simp only [Spec.OnBorder, hx]
    constructor
    · rintro ⟨-, h | h | h | h⟩
      · norm_num at h
      · norm_num at h
      · exact Or.inl h
      · exact Or.inr h
    · rintro (h | h)
      · rw [h]; norm_num
      · rw [h]; norm_num

/-- Projections and intersections that meet these hypotheses: a projection that sends every line
to the point `(745, 100)`, which then is the position of all labels. -/
example : ∃ (path : List (ℝ × ℝ) → Option Unit) (intersect : Unit → List (ℝ × ℝ))
    (OnPath : Unit → ℝ × ℝ → Prop),
    (∀ p pt, pt ∈ intersect p ↔ OnPath p pt ∧ Spec.OnSegment azimuthLine pt) ∧
      intersect () = [(745, 100)] := by
  refine ⟨fun _ => some (), fun _ => [(745, 100)], fun _ pt => pt = (745, 100), ?_, rfl⟩
  intro p pt
  simp only [List.mem_singleton, iff_self_and]
  rintro rfl
  refine ⟨95 / 375, by norm_num, by norm_num, ?_⟩
  norm_num [azimuthLine, innerSize]

example : ∃ (path : List (ℝ × ℝ) → Option Unit) (intersect : Unit → List (ℝ × ℝ))
    (OnPath : Unit → ℝ × ℝ → Prop),
    (∀ p pt, pt ∈ intersect p ↔ OnPath p pt ∧ Spec.OnSegment dipLine pt) ∧
      intersect () = [(50, 380)] := by
  refine ⟨fun _ => some (), fun _ => [(50, 380)], fun _ pt => pt = (50, 380), ?_, rfl⟩
  intro p pt
  simp only [List.mem_singleton, iff_self_and]
  rintro rfl
  refine ⟨0, by norm_num, by norm_num, ?_⟩
  norm_num [dipLine, innerSize]

end Attitude.Props
