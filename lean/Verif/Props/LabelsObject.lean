import Mathlib.Tactic.Linarith
import Mathlib.Tactic.NormNum
import Verif.Model.LabelsObject
import Verif.Props.Rectangle

/-!
# C273: objects that draw the labels of the graticule
-/

namespace Attitude.Props

open Attitude Frontend Webapp Panels Rectangle Labels

namespace Spec

/-- The value set last, or else the default. -/
def lastSet {A : Type} (default : A) : List (Option A) → A
  | [] => default
  | none :: l => lastSet default l
  | some a :: l => lastSet a l

/-- The offsets among the arguments. -/
def offsetsSet (calls : List LabelCall) : List (Option (ℝ × ℝ)) :=
  calls.map fun c => match c with
    | .textOffset o => o
    | _ => none

/-- The rotations among the arguments. -/
def rotationsSet (calls : List LabelCall) : List (Option ℝ) :=
  calls.map fun c => match c with
    | .textRotation r => r
    | _ => none

/-- The lines among the arguments. -/
def linesSet (calls : List LabelCall) : List (Option (Option Segment)) :=
  calls.map fun c => match c with
    | .alongLine a b => some (some ⟨a, b⟩)
    | _ => none

/-- How often labels are drawn. -/
def renderings (calls : List LabelCall) : ℕ :=
  (calls.filter fun c => match c with
    | .render => true
    | _ => false).length

/-- Where the text of a label is anchored on the page. -/
noncomputable def textAt (l : LabelGroup) : ℝ × ℝ :=
  (l.translate.1 + (l.transform.apply (0, 0)).1, l.translate.2 + (l.transform.apply (0, 0)).2)

/-- The number of degrees that a reader takes from a label. -/
def readAs : Label → Option ℝ
  | .deg x => some x
  | .name "N" => some 0
  | .name "E" => some 90
  | .name "S" => some 180
  | .name "W" => some 270
  | .name _ => none

end Spec

/-- Intersections as found by the library. -/
abbrev Crossings := Class → Option Segment → Except JsErr (List ((ℝ × ℝ) × ℝ))

lemma labels_run_append (x : Crossings) (s : Obj) (l m : List LabelCall) (h : (s.run x l).2 = none) :
    s.run x (l ++ m) = (s.run x l).1.run x m := by
  induction l generalizing s with
  | nil => rfl
  | cons c cs ih =>
    simp only [List.cons_append, Obj.run] at h ⊢
    rcases hc : s.step x c with ⟨s', _ | e⟩
    · rw [hc] at h
      simp only at h ⊢
      exact ih s' h
    · rw [hc] at h
      simp at h

lemma addAxis_ok (a : AxisLabel) (gs : List Group) (g : Group) :
    addAxis a (gs ++ [g]) = .ok (gs ++ [{ g with axis := g.axis ++ [a] }]) := by
  induction gs with
  | nil => rfl
  | cons g' gs ih =>
    rcases gs with _ | ⟨g'', gs⟩
    · simp [addAxis, Except.map]
    · simp only [List.cons_append] at ih ⊢
      rw [addAxis, ih]
      · rfl
      · simp

lemma addAxis_length (a : AxisLabel) (gs gs' : List Group) (h : addAxis a gs = .ok gs') :
    gs'.length = gs.length ∧ gs ≠ [] := by
  rcases List.eq_nil_or_concat gs with rfl | ⟨l, g, rfl⟩
  · simp [addAxis] at h
  · rw [List.concat_eq_append, addAxis_ok] at h
    simp only [Except.ok.injEq] at h
    subst h
    simp

lemma labels_run_state (x : Crossings) (calls : List LabelCall) : ∀ (s : Obj), (s.run x calls).2 = none →
    (s.run x calls).1.cls = s.cls ∧ (s.run x calls).1.showCircles = s.showCircles ∧
    (s.run x calls).1.offs = Spec.lastSet s.offs (Spec.offsetsSet calls) ∧
    (s.run x calls).1.rot = Spec.lastSet s.rot (Spec.rotationsSet calls) ∧
    (s.run x calls).1.shape = Spec.lastSet s.shape (Spec.linesSet calls) ∧
    (s.run x calls).1.groups.length = s.groups.length + Spec.renderings calls := by
  induction calls with
  | nil => intro s _; simp [Obj.run, Spec.offsetsSet, Spec.rotationsSet, Spec.linesSet, Spec.lastSet, Spec.renderings]
  | cons c cs ih =>
    intro s h
    simp only [Obj.run] at h ⊢
    rcases hc : s.step x c with ⟨s', _ | e⟩
    · rw [hc] at h
      simp only at h ⊢
      obtain ⟨h1, h2, h3, h4, h5, h6⟩ := ih s' h
      cases c with
      | alongLine a b =>
        simp only [Obj.step, Prod.mk.injEq, and_true] at hc
        subst hc
        exact ⟨h1, h2, h3, h4, h5, h6⟩
      | textOffset o =>
        simp only [Obj.step, Prod.mk.injEq, and_true] at hc
        subst hc
        refine ⟨h1, h2, ?_, h4, h5, h6⟩
        rw [h3]
        rcases o with _ | o <;> rfl
      | textRotation r =>
        simp only [Obj.step, Prod.mk.injEq, and_true] at hc
        subst hc
        refine ⟨h1, h2, h3, ?_, h5, h6⟩
        rw [h4]
        rcases r with _ | r <;> rfl
      | render =>
        simp only [Obj.step] at hc
        rcases hx : x s.cls s.shape with e | pts
        · rw [hx] at hc; simp at hc
        · rw [hx] at hc
          simp only [Prod.mk.injEq, and_true] at hc
          subst hc
          refine ⟨h1, h2, h3, h4, h5, ?_⟩
          rw [h6]
          show (s.groups ++ [s.group pts]).length + Spec.renderings cs = s.groups.length + (Spec.renderings cs + 1)
          rw [List.length_append, List.length_singleton]
          omega
      | renderLabel pos =>
        simp only [Obj.step] at hc
        rcases hx : addAxis ⟨s.cls.labelText, ⟨pos.getD (0, 0), s.rot⟩⟩ s.groups with e | gs
        · rw [hx] at hc; simp at hc
        · rw [hx] at hc
          simp only [Prod.mk.injEq, and_true] at hc
          subst hc
          refine ⟨h1, h2, h3, h4, h5, ?_⟩
          rw [h6]
          simp only [(addAxis_length _ _ _ hx).1]
          rfl
    · rw [hc] at h
      simp at h

/-- After any calls, `render` adds exactly one label for each intersection with the line set last, in
order, with the text of the class; its text is anchored at the intersection moved by the offset set last
- whichever rotation was set - and everything drawn before stays as it is. -/
theorem C273_render (x : Crossings) (cls : Class) (calls : List LabelCall)
    (hok : (({ cls := cls } : Obj).run x calls).2 = none) (pts : List ((ℝ × ℝ) × ℝ))
    (hx : x cls (Spec.lastSet none (Spec.linesSet calls)) = .ok pts) :
    ∃ g, (({ cls := cls } : Obj).run x (calls ++ [.render])) =
        ({ (({ cls := cls } : Obj).run x calls).1 with
            groups := (({ cls := cls } : Obj).run x calls).1.groups ++ [g] }, none) ∧
      g.labels.map LabelGroup.text = pts.map (fun p => cls.format p.2) ∧
      g.labels.map Spec.textAt = pts.map (fun p =>
        (p.1.1 + (Spec.lastSet (0, 0) (Spec.offsetsSet calls)).1,
          p.1.2 + (Spec.lastSet (0, 0) (Spec.offsetsSet calls)).2)) ∧
      (∀ l ∈ g.labels, l.transform.rotation = Spec.lastSet 0 (Spec.rotationsSet calls) ∧ l.circle = false) ∧
      g.axis = [] := by
  obtain ⟨h1, h2, h3, h4, h5, -⟩ := labels_run_state x calls { cls := cls } hok
  rw [labels_run_append x _ _ _ hok]
  generalize (({ cls := cls } : Obj).run x calls).1 = s at *
  simp only at h1 h2 h3 h4 h5
  refine ⟨s.group pts, ?_, ?_, ?_, ?_, rfl⟩
  · simp only [Obj.run, Obj.step, h1, h5, hx]
  · simp [Obj.group, h1, Function.comp_def]
  · simp [Obj.group, h3, Spec.textAt, Transform.apply, Function.comp_def]
  · intro l hl
    simp only [Obj.group, List.mem_map] at hl
    obtain ⟨p, -, rfl⟩ := hl
    exact ⟨h4, h2⟩

/-- Two labels, drawn after the offset has been set twice and read once. -/
noncomputable def exampleCrossings : Crossings := fun _ s => match s with
  | none => .ok []
  | some l => .ok [(l.first, 10), (l.last, 20)]

example : (({ cls := .dip } : Obj).run exampleCrossings
      [.alongLine (0, 5) (9, 5), .textOffset (some (1, 2)), .textRotation (some 30), .textOffset (some (0, 15)),
        .textOffset none]).2 = none ∧
    exampleCrossings .dip (Spec.lastSet none (Spec.linesSet
      [.alongLine (0, 5) (9, 5), .textOffset (some (1, 2)), .textRotation (some 30), .textOffset (some (0, 15)),
        .textOffset none])) = .ok [((0, 5), 10), ((9, 5), 20)] := by
  exact ⟨rfl, rfl⟩

/-- The title of the axis: it can be drawn exactly if labels were drawn before; it is then added to the
labels drawn last, at the given position - which the offset does not move - or at the origin. -/
theorem C273_title (x : Crossings) (cls : Class) (calls : List LabelCall)
    (hok : (({ cls := cls } : Obj).run x calls).2 = none) (pos : Option (ℝ × ℝ)) :
    ((({ cls := cls } : Obj).run x (calls ++ [.renderLabel pos])).2 =
      if Spec.renderings calls = 0 then some .typeError else none) ∧
    ∀ gs g, (({ cls := cls } : Obj).run x calls).1.groups = gs ++ [g] →
      (({ cls := cls } : Obj).run x (calls ++ [.renderLabel pos])).1.groups =
        gs ++ [{ g with axis := g.axis ++ [⟨cls.labelText, ⟨pos.getD (0, 0),
          Spec.lastSet 0 (Spec.rotationsSet calls)⟩⟩] }] := by
  obtain ⟨h1, -, -, h4, -, h6⟩ := labels_run_state x calls { cls := cls } hok
  rw [labels_run_append x _ _ _ hok]
  generalize (({ cls := cls } : Obj).run x calls).1 = s at *
  simp only [List.length_nil, zero_add] at h1 h4 h6
  constructor
  · rcases List.eq_nil_or_concat s.groups with hg | ⟨l, g, hg⟩
    · rw [hg] at h6
      simp only [List.length_nil] at h6
      simp [Obj.run, Obj.step, hg, addAxis, ← h6]
    · rw [List.concat_eq_append] at hg
      have : Spec.renderings calls ≠ 0 := by rw [← h6, hg]; simp
      simp [Obj.run, Obj.step, hg, addAxis_ok, this]
  · intro gs g hg
    simp [Obj.run, Obj.step, hg, addAxis_ok, h1, h4]

example : (({ cls := .dip } : Obj).run exampleCrossings [.alongLine (0, 5) (9, 5)]).2 = none ∧
    Spec.renderings [.alongLine (0, 5) (9, 5)] = 0 ∧
    (({ cls := .dip } : Obj).run exampleCrossings [.alongLine (0, 5) (9, 5), .render]).2 = none ∧
    Spec.renderings [.alongLine (0, 5) (9, 5), .render] = 1 := ⟨rfl, rfl, rfl, rfl⟩

lemma readAs_azimuth (v : ℝ) : Spec.readAs (formatAzimuthLabel v) = some (180 - v) := by
  unfold formatAzimuthLabel
  simp only
  split_ifs with h1 h2 h3 h4 <;> simp only [Spec.readAs] <;> simp_all

/-- What the labels say: where a parallel crosses the line, labels of dips show its distance from the pole,
labels of azimuths show 180 less the longitude of the meridian and plain labels the latitude itself, and the
title names the quantity. -/
theorem C273_texts (x : Crossings) (cls : Class) (calls : List LabelCall)
    (hok : (({ cls := cls } : Obj).run x calls).2 = none) (pts : List ((ℝ × ℝ) × ℝ))
    (hx : x cls (Spec.lastSet none (Spec.linesSet calls)) = .ok pts) :
    ∃ gs g a, (({ cls := cls } : Obj).run x (calls ++ [.render] ++ [.renderLabel none])).1.groups = gs ++ [g] ∧
      g.axis = [a] ∧
      (cls = .dip → (g.labels.map fun l => Spec.readAs l.text) = (pts.map fun p => some (90 - p.2)) ∧
        a.text = "Dip") ∧
      (cls = .azimuth → (g.labels.map fun l => Spec.readAs l.text) = (pts.map fun p => some (180 - p.2)) ∧
        a.text = "Dip azimuth") ∧
      (cls = .plain → (g.labels.map fun l => Spec.readAs l.text) = (pts.map fun p => some p.2) ∧
        a.text = "Latitude") := by
  obtain ⟨g, h1, h2, -, -, h5⟩ := C273_render x cls calls hok pts hx
  have h6 := (C273_title x cls (calls ++ [.render]) (by rw [h1]) none).2
    (({ cls := cls } : Obj).run x calls).1.groups g (by rw [h1])
  refine ⟨_, _, _, h6, by rw [h5]; rfl, ?_, ?_, ?_⟩
  all_goals
    rintro rfl
    refine ⟨?_, rfl⟩
    have h7 := congrArg (List.map Spec.readAs) h2
    rw [List.map_map, List.map_map] at h7
    refine h7.trans (List.map_congr_left fun p _ => ?_)
  · rfl
  · exact readAs_azimuth p.2
  · rfl

example : exampleCrossings .azimuth (Spec.lastSet none (Spec.linesSet [.alongLine (0, 5) (9, 5)]))
      = .ok [((0, 5), 10), ((9, 5), 20)] ∧
    (({ cls := .azimuth } : Obj).run exampleCrossings [.alongLine (0, 5) (9, 5)]).2 = none := ⟨rfl, rfl⟩

/-- Drawing again does not replace labels: there is a group for every call of `render`. -/
theorem C273_again_false (x : Crossings) (cls : Class) (calls : List LabelCall)
    (hok : (({ cls := cls } : Obj).run x calls).2 = none) :
    (({ cls := cls } : Obj).run x calls).1.groups.length = Spec.renderings calls := by
  have := (labels_run_state x calls { cls := cls } hok).2.2.2.2.2
  simpa using this

example : (({ cls := .azimuth } : Obj).run exampleCrossings
    [.alongLine (0, 5) (9, 5), .render, .textRotation (some 90), .render]).2 = none ∧
    Spec.renderings [.alongLine (0, 5) (9, 5), .render, .textRotation (some 90), .render] = 2 := ⟨rfl, rfl⟩

/-- In the rectangular plot the dip labels, and the title "Dip", are anchored below the lower end of the
picture, whatever the data are, provided that the library finds points of the line it is given ... -/
theorem C273_dip_outside_false (x : Crossings)
    (hx : ∀ pts, x .dip (some dipLine) = .ok pts → ∀ p ∈ pts, Spec.OnSegment dipLine p.1)
    (s : Obj) (h : ({ cls := .dip } : Obj).run x dipCalls = (s, none)) :
    (∃ g, s.groups = [g] ∧ ∀ l ∈ g.labels, (Spec.textAt l).2 = pictureSize.2 + 5) ∧
    (titles.map fun a => (a.transform.apply (0, 0)).2 - pictureSize.2) = [5, -207.5] := by
  constructor
  · simp only [dipCalls, Obj.run, Obj.step] at h
    rcases hc : x .dip (some ⟨dipLine.first, dipLine.last⟩) with e | pts
    · rw [hc] at h; simp at h
    · rw [hc] at h
      simp only [Prod.mk.injEq, and_true] at h
      subst h
      refine ⟨_, rfl, ?_⟩
      intro l hl
      simp only [Obj.group, List.mem_map] at hl
      obtain ⟨p, hp, rfl⟩ := hl
      obtain ⟨t, h0, h1, he⟩ := hx pts hc p hp
      simp only [Spec.textAt, Transform.apply, Option.getD_some, he, dipLine, innerSize, pictureSize]
      norm_num
  · simp only [titles, List.map_cons, List.map_nil, Transform.apply, innerSize, pictureSize]
    norm_num

/-- ... while the azimuth labels and their title are within it.  Their offset is not the one given to
`textOffset`: the later attribute replaces it. -/
theorem C273_azimuth_inside (x : Crossings)
    (hx : ∀ pts, x .azimuth (some azimuthLine) = .ok pts → ∀ p ∈ pts, Spec.OnSegment azimuthLine p.1)
    (s : Obj) (h : ({ cls := .azimuth } : Obj).run x azimuthCalls = (s, none)) :
    (∃ g, s.groups = [g] ∧ ∀ l ∈ g.turned.labels, (Spec.textAt l).1 = 760 ∧ (Spec.textAt l).1 < pictureSize.1 ∧
      0 < (Spec.textAt l).2 ∧ (Spec.textAt l).2 < pictureSize.2 ∧ l.transform.rotation = -90) ∧
    (titles.map fun a => (a.transform.apply (0, 0)).1 - pictureSize.1) = [-775, -25] := by
  constructor
  · simp only [azimuthCalls, Obj.run, Obj.step] at h
    rcases hc : x .azimuth (some ⟨azimuthLine.first, azimuthLine.last⟩) with e | pts
    · rw [hc] at h; simp at h
    · rw [hc] at h
      simp only [Prod.mk.injEq, and_true] at h
      subst h
      refine ⟨_, rfl, ?_⟩
      intro l hl
      simp only [Obj.group, Group.turned, List.map_map, List.mem_map, Function.comp_def] at hl
      obtain ⟨p, hp, rfl⟩ := hl
      obtain ⟨t, h0, h1, he⟩ := hx pts hc p hp
      simp only [Spec.textAt, Transform.apply, he, azimuthLine, innerSize, pictureSize]
      refine ⟨by norm_num, by norm_num, ?_, ?_, by trivial⟩
      · norm_num; nlinarith
      · norm_num; nlinarith
  · simp only [titles, List.map_cons, List.map_nil, Transform.apply, innerSize, pictureSize]
    norm_num

/-- A library that finds the ends of the line. -/
example : (∀ c s, ∀ pts, exampleCrossings c (some s) = .ok pts → ∀ p ∈ pts, Spec.OnSegment s p.1) ∧
    (∃ s, ({ cls := .dip } : Obj).run exampleCrossings dipCalls = (s, none)) ∧
    ∃ s, ({ cls := .azimuth } : Obj).run exampleCrossings azimuthCalls = (s, none) := by
  refine ⟨?_, ⟨_, rfl⟩, ⟨_, rfl⟩⟩
  intro c s pts h p hp
  simp only [exampleCrossings, Except.ok.injEq] at h
  subst h
  simp only [List.mem_cons, List.not_mem_nil, or_false] at hp
  rcases hp with rfl | rfl
  · exact ⟨0, by norm_num, by norm_num, by simp⟩
  · exact ⟨1, by norm_num, by norm_num, by simp⟩

end Attitude.Props
