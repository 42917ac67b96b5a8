import Mathlib.Data.List.Nodup
import Mathlib.Tactic.Linarith
import Mathlib.Tactic.NormNum
import Mathlib.Tactic.FieldSimp
import Mathlib.Tactic.Ring
import Mathlib.Tactic.Positivity
import Verif.Model.NotebookUi

/-!
# C160 - C166: the user interface for notebooks
-/

namespace Attitude.Props

open Attitude NotebookUi

/-! ## C160 -/

/-- Whether a measurement is selected after some events: each click changes it, clearing
ends it. -/
def Spec.selectedAfter (d : ℕ) (es : List NotebookUi.Event) : Bool :=
  es.foldl (fun b e => match e with | .click i => if i = d then !b else b | .clear => false | _ => b) false

lemma step_selection (items : List Item) (allow : Bool) (s : Ui) (e : NotebookUi.Event) :
    (NotebookUi.step items allow s e).selection = (change items allow s e).selection := rfl

lemma nodup_toggle (items : List Item) (allow : Bool) {sel : List ℕ} (h : sel.Nodup) (d : ℕ) :
    (toggle items allow sel d).Nodup := by
  simp only [toggle]
  split_ifs with h1 h2
  · exact h
  · exact h.erase d
  · rw [List.nodup_append]
    refine ⟨h, by simp, ?_⟩
    intro a ha b hb
    simp only [List.mem_singleton] at hb
    subst hb
    rintro rfl
    exact h2 ha

lemma change_selection_nodup (items : List Item) (allow : Bool) {s : Ui} (h : s.selection.items.Nodup)
    (e : NotebookUi.Event) : (change items allow s e).selection.items.Nodup := by
  cases e with
  | hover d => cases d <;> exact h
  | click d => exact nodup_toggle items allow h d
  | clear => simp only [change]; split_ifs <;> simp [h]
  | zoom => simp only [change]; split_ifs <;> exact h
  | groups => exact h
  | planes => exact h
  | poles => exact h
  | vertical => exact h

/-- Whether clicks on a measurement select it. -/
def Spec.Selectable (items : List Item) (allow : Bool) (d : ℕ) : Prop :=
  allow = true ∨ ∀ i, items[d]? = some i → i.members = none

lemma selectable_iff (items : List Item) (allow : Bool) (d : ℕ) :
    Spec.Selectable items allow d ↔ ¬ ((items[d]?.bind Item.members).isSome ∧ ¬ allow) := by
  unfold Spec.Selectable
  cases allow
  · cases h : items[d]? with
    | none => simp
    | some i => simp
  · simp

lemma run_snoc (items : List Item) (allow : Bool) (es : List NotebookUi.Event) (e : NotebookUi.Event) :
    NotebookUi.run items allow (es ++ [e]) = NotebookUi.step items allow (NotebookUi.run items allow es) e := by
  simp [NotebookUi.run, List.foldl_append]

/-- The selection after any events: no measurement twice; one that can be selected is if and
only if it was clicked an odd number of times since the selection was last cleared; groups are
not if they are not allowed. -/
theorem C160_selection_partial (items : List Item) (allow : Bool) (es : List NotebookUi.Event) :
    (NotebookUi.run items allow es).selection.items.Nodup ∧
    ∀ d, d ∈ (NotebookUi.run items allow es).selection.items ↔
      Spec.Selectable items allow d ∧ Spec.selectedAfter d es = true := by
  induction es using List.reverseRecOn with
  | nil =>
    refine ⟨by simp [NotebookUi.run, start], fun d => ?_⟩
    simp [NotebookUi.run, start, Spec.selectedAfter]
  | append_singleton es e ih =>
    obtain ⟨hn, hm⟩ := ih
    rw [run_snoc, step_selection]
    refine ⟨change_selection_nodup items allow hn e, fun d => ?_⟩
    have hsnoc : Spec.selectedAfter d (es ++ [e]) = (match e with
        | .click i => if i = d then !(Spec.selectedAfter d es) else Spec.selectedAfter d es
        | .clear => false
        | _ => Spec.selectedAfter d es) := by
      simp [Spec.selectedAfter, List.foldl_append]
    rw [hsnoc]
    cases e with
    | hover x => cases x <;> exact hm d
    | click i =>
      simp only [change, toggle]
      by_cases hs : Spec.Selectable items allow i
      · have hs' := (selectable_iff items allow i).1 hs
        rw [if_neg hs']
        by_cases hid : i = d
        · subst hid
          have := hm i
          simp only [if_true]
          by_cases hin : i ∈ (NotebookUi.run items allow es).selection.items
          · rw [if_pos hin]
            have h1 := (this.1 hin).2
            simp [h1, hn.mem_erase_iff]
          · rw [if_neg hin]
            have h1 : Spec.selectedAfter i es = false := by
              by_contra hc
              exact hin (this.2 ⟨hs, by simpa using hc⟩)
            simp [h1, hs]
        · simp only [if_neg hid]
          rw [← hm d]
          split_ifs
          · exact hn.mem_erase_iff.trans ⟨fun h => h.2, fun h => ⟨Ne.symm hid, h⟩⟩
          · simp [Ne.symm hid]
      · have hs' : (items[i]?.bind Item.members).isSome ∧ ¬ allow := by
          by_contra hc
          exact hs ((selectable_iff items allow i).2 hc)
        rw [if_pos hs', hm d]
        by_cases hid : i = d
        · subst hid
          simp [hs]
        · simp only [if_neg hid]
    | clear =>
      simp only [change]
      split_ifs with h0
      · have hemp : (NotebookUi.run items allow es).selection.items = [] := by simpa using h0
        simp [hemp]
      · simp
    | zoom => simp only [change]; split_ifs <;> exact hm d
    | groups => exact hm d
    | planes => exact hm d
    | poles => exact hm d
    | vertical => exact hm d

/-- Two measurements, one of which is a group. -/
def twoItems : List Item := [{ uid := "a", memberOf := some "g" }, { uid := "g", members := some ["a"] }]

/-- Three clicks select, and groups can be excluded. -/
example : (NotebookUi.run twoItems false [.click 0, .click 1, .click 0, .click 0]).selection.items = [0] := by
  decide

lemma runCtor_true (l : List CtorStmt) : runCtor true l = .ok () ↔ .callSuper ∉ l := by
  induction l with
  | nil => simp [runCtor]
  | cons c l ih => cases c <;> simp [runCtor, ih]

/-- The page is never shown, however: its constructor fails.  It would work exactly if `super` were called
first and only then. -/
theorem C160_constructor_false : construct = .error .referenceError ∧
    ∀ l, l.Perm attitudeUiCtor → (runCtor false l = .ok () ↔ l.head? = some .callSuper) := by
  refine ⟨rfl, fun l hl => ?_⟩
  have hc : l.count .callSuper = 1 := by rw [hl.count_eq]; decide
  cases l with
  | nil => simp at hc
  | cons c l =>
    cases c with
    | useThis => simp [runCtor]
    | callSuper =>
      have h0 : l.count .callSuper = 0 := by simpa using hc
      simp [runCtor, runCtor_true, List.count_eq_zero.1 h0]

/-! ## C161 -/

lemma hoveredItems_of_alone {items : List Item} {d : ℕ}
    (h : (items[d]?.bind Item.memberOf).bind (find items) = none) :
    hoveredItems items d = match items[d]?.bind Item.members with
      | some ms => some d :: findAttitudes items ms
      | none => [some d] := by
  simp only [hoveredItems, h]
  rfl

/-- Over a member of a group the whole group is highlighted, as it is over the group itself:
first the group, then its members in order. -/
theorem C161_group (items : List Item) (d g : ℕ) (i j : Item) (u : String) (ms : List String)
    (hi : items[d]? = some i) (hu : i.memberOf = some u) (hg : find items u = some g)
    (hj : items[g]? = some j) (htop : j.memberOf = none) (hms : j.members = some ms) :
    hoveredItems items d = some g :: ms.map (find items) ∧
    hoveredItems items g = some g :: ms.map (find items) := by
  constructor
  · simp [hoveredItems, hi, hu, hg, hj, hms, findAttitudes]
  · simp [hoveredItems, hj, htop, hms, findAttitudes]

/-- Such a page. -/
example : hoveredItems twoItems 0 = [some 1, some 0] ∧ hoveredItems twoItems 1 = [some 1, some 0] := by
  decide

/-- A single measurement, or one whose group is not on the page, is highlighted alone. -/
theorem C161_single (items : List Item) (d : ℕ) (i : Item) (hi : items[d]? = some i)
    (hm : i.members = none) (hg : ∀ u, i.memberOf = some u → find items u = none) :
    hoveredItems items d = [some d] := by
  have h : (items[d]?.bind Item.memberOf).bind (find items) = none := by
    simp only [hi, Option.bind_some]
    cases hu : i.memberOf with
    | none => rfl
    | some u => simpa using hg u hu
  rw [hoveredItems_of_alone h]
  simp [hi, hm]

example : hoveredItems [{ uid := "a" }, { uid := "b", memberOf := some "g" }] 1 = [some 1] :=
  C161_single _ 1 { uid := "b", memberOf := some "g" } rfl rfl (by decide)

/-- All members of the groups of a page are on the page. -/
def Spec.MembersPresent (items : List Item) : Prop :=
  ∀ i ∈ items, ∀ ms, i.members = some ms → ∀ u ∈ ms, ∃ j ∈ items, j.uid = u

lemma find_isSome {items : List Item} {u : String} (h : ∃ j ∈ items, j.uid = u) : (find items u).isSome := by
  simpa [find, List.findIdx?_isSome] using h

lemma hoveredItems_complete {items : List Item} (hc : Spec.MembersPresent items) (d : ℕ) :
    ∀ x ∈ hoveredItems items d, x.isSome := by
  intro x hx
  simp only [hoveredItems] at hx
  obtain ⟨d', hd'⟩ : ∃ d', d' = (match (items[d]?.bind Item.memberOf).bind (find items) with
    | some g => g | none => d) := ⟨_, rfl⟩
  change x ∈ (match items[match (items[d]?.bind Item.memberOf).bind (find items) with
    | some g => g | none => d]?.bind Item.members with
    | some ms => some (match (items[d]?.bind Item.memberOf).bind (find items) with
      | some g => g | none => d) :: findAttitudes items ms
    | none => [some (match (items[d]?.bind Item.memberOf).bind (find items) with
      | some g => g | none => d)]) at hx
  rw [← hd'] at hx
  cases hj : items[d']? with
  | none => simp [hj] at hx; simp [hx]
  | some j =>
    cases hm : j.members with
    | none => simp [hj, hm] at hx; simp [hx]
    | some ms =>
      simp only [hj, Option.bind_some, hm, findAttitudes, List.mem_cons, List.mem_map] at hx
      rcases hx with rfl | ⟨u, hu, rfl⟩
      · rfl
      · exact find_isSome (hc j (List.mem_of_getElem? hj) ms hm u hu)

lemma run_hovered (items : List Item) (allow : Bool) (es : List NotebookUi.Event) (a : Arr (Option ℕ))
    (ha : (NotebookUi.run items allow es).hovered = some a) : ∃ d, a.items = hoveredItems items d := by
  induction es using List.reverseRecOn with
  | nil => simp [NotebookUi.run, start] at ha
  | append_singleton es e ih =>
    rw [run_snoc] at ha
    change (change items allow (NotebookUi.run items allow es) e).hovered = some a at ha
    cases e with
    | hover x =>
      cases x with
      | none => simp [change] at ha
      | some d =>
        simp only [change, Option.some.injEq] at ha
        exact ⟨d, by rw [← ha]⟩
    | click i => exact ih ha
    | clear => simp only [change] at ha; split_ifs at ha <;> exact ih ha
    | zoom => simp only [change] at ha; split_ifs at ha <;> exact ih ha
    | groups => exact ih ha
    | planes => exact ih ha
    | poles => exact ih ha
    | vertical => exact ih ha

lemma isHovered_ok {items : List Item} {uid : String} {l : List (Option ℕ)} (h : ∀ x ∈ l, x.isSome) :
    isHovered items uid l = .ok (l.any fun x => (x.bind fun j => items[j]?.map Item.uid) = some uid) := by
  induction l with
  | nil => rfl
  | cons x t ih =>
    have ih' := ih fun y hy => h y (List.mem_cons_of_mem _ hy)
    cases x with
    | none => simpa using h none List.mem_cons_self
    | some j =>
      simp only [isHovered, ih', List.any_cons, Option.bind_some]
      by_cases hj : items[j]?.map Item.uid = some uid <;> simp [hj]

/-- If all members of groups are on the page, the list can always be drawn. -/
theorem C161_list_partial (items : List Item) (hc : Spec.MembersPresent items) (allow : Bool)
    (es : List NotebookUi.Event) (d : Item) : ∃ r, listItem items (NotebookUi.run items allow es) d = .ok r := by
  simp only [listItem]
  split_ifs
  · exact ⟨_, rfl⟩
  · cases ha : (NotebookUi.run items allow es).hovered with
    | none => exact ⟨_, rfl⟩
    | some a =>
      obtain ⟨k, hk⟩ := run_hovered items allow es a ha
      have := isHovered_ok (items := items) (uid := d.uid) (hoveredItems_complete hc k)
      simp only [hk, this]
      exact ⟨_, rfl⟩

/-- The page above is complete. -/
example : Spec.MembersPresent twoItems := by
  intro i hi ms hms u hu
  simp only [twoItems, List.mem_cons, List.not_mem_nil, or_false] at hi
  rcases hi with rfl | rfl
  · simp at hms
  · simp only [Option.some.injEq] at hms
    subst hms
    simp only [List.mem_singleton] at hu
    subst hu
    exact ⟨_, by simp [twoItems]; left; rfl, rfl⟩

/-- Otherwise it fails over a group with a missing member. -/
theorem C161_list_false : ∃ (items : List Item) (d : Item), d ∈ items ∧
    listItem items (NotebookUi.run items true [.hover (some 0)]) d = .error .typeError := by
  refine ⟨[{ uid := "g", members := some ["x"] }, { uid := "a" }], { uid := "a" }, by simp, ?_⟩
  decide

/-! ## C162 -/

/-- No two measurements have the same id. -/
def Spec.DistinctUids (items : List Item) : Prop := (items.map Item.uid).Nodup

lemma uid_inj {items : List Item} (h : Spec.DistinctUids items) {i j : ℕ} {a : Item} (hi : items[i]? = some a)
    (hj : items[j]?.map Item.uid = some a.uid) : j = i := by
  have h1 : (items.map Item.uid)[i]? = some a.uid := by simp [hi]
  have h2 : (items.map Item.uid)[j]? = some a.uid := by simpa using hj
  obtain ⟨hi', e1⟩ := List.getElem?_eq_some_iff.1 h1
  obtain ⟨hj', e2⟩ := List.getElem?_eq_some_iff.1 h2
  exact (h.getElem_inj_iff).1 (e2.trans e1.symm)

/-- The list shows all measurements, groups only while they are switched on, and marks those
that are selected and those that are highlighted. -/
theorem C162_list_partial (items : List Item) (hd : Spec.DistinctUids items) (hc : Spec.MembersPresent items)
    (allow : Bool) (es : List NotebookUi.Event) (i : ℕ) (d : Item) (hi : items[i]? = some d)
    (r : Option (Bool × Bool)) (hr : listItem items (NotebookUi.run items allow es) d = .ok r) :
    (r = none ↔ d.members.isSome ∧ (NotebookUi.run items allow es).showGroups = false) ∧
    ∀ sel hov, r = some (sel, hov) →
      (sel = true ↔ i ∈ (NotebookUi.run items allow es).selection.items) ∧
      (hov = true ↔ ∃ a, (NotebookUi.run items allow es).hovered = some a ∧ some i ∈ a.items) := by
  set s := NotebookUi.run items allow es with hs
  have hsel : (s.selection.items.any fun j => (items[j]?.map Item.uid) = some d.uid) = true ↔
      i ∈ s.selection.items := by
    simp only [List.any_eq_true, decide_eq_true_eq]
    constructor
    · rintro ⟨j, hj, h⟩
      rwa [← uid_inj hd hi h]
    · intro h
      exact ⟨i, h, by simp [hi]⟩
  simp only [listItem] at hr
  by_cases hg : (d.members.isSome && !s.showGroups) = true
  · rw [if_pos hg] at hr
    have hr' : r = none := by simpa using (Except.ok.inj hr).symm
    subst hr'
    have hg' : d.members.isSome ∧ s.showGroups = false := by simpa using hg
    simp [hg']
  · rw [if_neg hg] at hr
    have hg' : ¬ (d.members.isSome ∧ s.showGroups = false) := by
      intro h; apply hg; simp [h.1, h.2]
    cases ha : s.hovered with
    | none =>
      simp only [ha] at hr
      have hr' := (Except.ok.inj hr).symm
      subst hr'
      refine ⟨by simp only [reduceCtorEq, false_iff]; exact hg', ?_⟩
      rintro sel hov h
      simp only [Option.some.injEq, Prod.mk.injEq] at h
      obtain ⟨rfl, rfl⟩ := h
      refine ⟨hsel, by simp⟩
    | some a =>
      obtain ⟨k, hk⟩ := run_hovered items allow es a (by rw [← hs]; exact ha)
      have hok := isHovered_ok (items := items) (uid := d.uid) (hoveredItems_complete hc k)
      rw [← hk] at hok
      simp only [ha, hok] at hr
      have hr' := (Except.ok.inj hr).symm
      subst hr'
      refine ⟨by simp only [reduceCtorEq, false_iff]; exact hg', ?_⟩
      rintro sel hov h
      simp only [Option.some.injEq, Prod.mk.injEq] at h
      obtain ⟨rfl, rfl⟩ := h
      refine ⟨hsel, ?_⟩
      simp only [List.any_eq_true, decide_eq_true_eq, Option.some.injEq, exists_eq_left']
      constructor
      · rintro ⟨x, hx, h⟩
        cases x with
        | none => simp at h
        | some j =>
          rw [Option.bind_some] at h
          rwa [← uid_inj hd hi h]
      · intro h
        exact ⟨some i, h, by simp [hi]⟩

example : Spec.DistinctUids twoItems ∧ ∃ d r, twoItems[1]? = some d ∧
    listItem twoItems (NotebookUi.run twoItems true [.click 0, .click 1]) d = .ok r := by
  refine ⟨?_, _, _, rfl, rfl⟩
  unfold Spec.DistinctUids
  decide

/-- Without distinct ids it marks too much: a click on a measurement also marks every other one
(here not a group) with the same id. -/
theorem C162_same_uid_false (items : List Item) (allow : Bool) (i j : ℕ) (a b : Item) (hij : i ≠ j)
    (hi : items[i]? = some a) (_hj : items[j]? = some b) (hu : a.uid = b.uid)
    (ha : a.members = none) (hb : b.members = none) :
    j ∉ (NotebookUi.run items allow [.click i]).selection.items ∧
    listItem items (NotebookUi.run items allow [.click i]) b = .ok (some (true, false)) := by
  have hsel : (NotebookUi.run items allow [.click i]).selection.items = [i] := by
    simp [NotebookUi.run, NotebookUi.step, NotebookUi.rerender, NotebookUi.change,
      NotebookUi.start, NotebookUi.toggle, hi, ha]
  have hhov : (NotebookUi.run items allow [.click i]).hovered = none := rfl
  refine ⟨by rw [hsel]; simpa using Ne.symm hij, ?_⟩
  simp only [listItem, hsel, hhov, hb]
  simp [hi, hu]
  rfl

example : ∃ (i j : ℕ) (a b : Item), i ≠ j ∧ ([{ uid := "x" }, { uid := "x" }] : List Item)[i]? = some a ∧
    ([{ uid := "x" }, { uid := "x" }] : List Item)[j]? = some b ∧ a.uid = b.uid ∧
    a.members = none ∧ b.members = none :=
  ⟨0, 1, { uid := "x" }, { uid := "x" }, by decide, rfl, rfl, rfl, rfl, rfl⟩

/-! ## C163 -/

/-- The planes and poles that are drawn are those of the data, if they are switched on. -/
def Spec.ShowsData {α : Type} (p : NetProps α) (d : Drawn α) : Prop :=
  d.planes = (if p.drawPlanes then some p.data.items else none) ∧
  d.poles = (if p.drawPoles then some p.data.items else none)

lemma mount_shows {α : Type} (p : NetProps α) : Spec.ShowsData p (mount p) := ⟨rfl, rfl⟩

lemma updateHovered_planes {α : Type} (p : NetProps α) (d : Drawn α) :
    (updateHovered p d).planes = d.planes ∧ (updateHovered p d).poles = d.poles ∧
    (updateHovered p d).center = d.center := by
  simp only [updateHovered]
  split <;> exact ⟨rfl, rfl, rfl⟩

lemma didUpdate_shows {α : Type} {prev p : NetProps α} {d : Drawn α} (h : Spec.ShowsData prev d)
    (hi : p.data.id = prev.data.id → p.data.items = prev.data.items) :
    Spec.ShowsData p (didUpdate prev p d) := by
  have e : ∀ x : Drawn α, (if prev.hovered.map Arr.id ≠ (if
        some prev.drawPlanes ≠ (if p.data.id ≠ prev.data.id then none else some p.drawPlanes) ∨
        some prev.drawPoles ≠ (if p.data.id ≠ prev.data.id then none else some p.drawPoles)
        then none else p.hovered.map Arr.id) then updateHovered p x else x).planes = x.planes ∧
      (if prev.hovered.map Arr.id ≠ (if
        some prev.drawPlanes ≠ (if p.data.id ≠ prev.data.id then none else some p.drawPlanes) ∨
        some prev.drawPoles ≠ (if p.data.id ≠ prev.data.id then none else some p.drawPoles)
        then none else p.hovered.map Arr.id) then updateHovered p x else x).poles = x.poles := by
    intro x
    split_ifs <;> simp [updateHovered_planes]
  have ec : ∀ x : Drawn α, (if prev.center.id ≠ p.center.id then { x with center := some p.center.items }
        else x).planes = x.planes ∧
      (if prev.center.id ≠ p.center.id then { x with center := some p.center.items } else x).poles = x.poles := by
    intro x
    split_ifs <;> simp
  simp only [didUpdate, Spec.ShowsData, (e _).1, (e _).2, (ec _).1, (ec _).2]
  obtain ⟨h1, h2⟩ := h
  by_cases hd : p.data.id = prev.data.id
  · have hit := hi hd
    simp only [hd, ne_eq, not_true_eq_false, if_false, Option.some.injEq]
    by_cases ha : prev.drawPlanes = p.drawPlanes <;> by_cases hb : prev.drawPoles = p.drawPoles <;>
      simp [ha, hb, updatePlanes, updatePoles, h1, h2, hit]
  · simp [hd, updatePlanes, updatePoles]

/-- The stereonet shows its data after any sequence of updates, as long as arrays are not
changed in place (as in the web application, which makes a new one for each update). -/
theorem C163_component {α : Type} (p0 : NetProps α) (ps : List (NetProps α))
    (hpure : ∀ a ∈ p0 :: ps, ∀ b ∈ p0 :: ps, a.data.id = b.data.id → a.data.items = b.data.items) :
    let final := ps.foldl (fun (q : NetProps α × Drawn α) p => (p, didUpdate q.1 p q.2)) (p0, mount p0)
    Spec.ShowsData final.1 final.2 := by
  intro final
  have key : ∀ (ps : List (NetProps α)) (q : NetProps α × Drawn α), Spec.ShowsData q.1 q.2 →
      (∀ a ∈ q.1 :: ps, ∀ b ∈ q.1 :: ps, a.data.id = b.data.id → a.data.items = b.data.items) →
      Spec.ShowsData (ps.foldl (fun (q : NetProps α × Drawn α) p => (p, didUpdate q.1 p q.2)) q).1
        (ps.foldl (fun (q : NetProps α × Drawn α) p => (p, didUpdate q.1 p q.2)) q).2 := by
    intro ps
    induction ps with
    | nil => intro q h _; exact h
    | cons p ps ih =>
      intro q h hp
      rw [List.foldl_cons]
      refine ih _ (didUpdate_shows h (hp p (by simp) q.1 (by simp))) ?_
      intro a ha b hb
      exact hp a (List.mem_cons_of_mem _ ha) b (List.mem_cons_of_mem _ hb)
  exact key ps (p0, mount p0) (mount_shows p0) hpure

/-- Identities of arrays. -/
structure FreshIds (s : Ui) : Prop where
  sel0 : 0 < s.selection.id
  sel : s.selection.id < s.fresh
  hov : ∀ a, s.hovered = some a → a.id < s.fresh
  cen : s.center.id < s.fresh

lemma fresh_start (items : List Item) : FreshIds (start items) := by
  refine ⟨?_, ?_, ?_, ?_⟩ <;> simp [start]

lemma fresh_change (items : List Item) (allow : Bool) {s : Ui} (h : FreshIds s) (e : NotebookUi.Event) :
    FreshIds (change items allow s e) := by
  obtain ⟨h0, h1, h2, h3⟩ := h
  cases e with
  | hover x =>
    cases x with
    | none => exact ⟨h0, h1, by simp [change], h3⟩
    | some d =>
      refine ⟨h0, Nat.lt_succ_of_lt h1, ?_, Nat.lt_succ_of_lt h3⟩
      intro a ha
      simp only [change, Option.some.injEq] at ha
      simp [← ha, change]
  | click d => exact ⟨h0, h1, h2, h3⟩
  | clear =>
    simp only [change]
    split_ifs
    · exact ⟨h0, h1, h2, h3⟩
    · exact ⟨by simp; omega, by simp, fun a ha => Nat.lt_succ_of_lt (h2 a ha), Nat.lt_succ_of_lt h3⟩
  | zoom => simp only [change]; split_ifs <;> exact ⟨h0, h1, h2, h3⟩
  | groups => exact ⟨h0, h1, h2, h3⟩
  | planes => exact ⟨h0, h1, h2, h3⟩
  | poles => exact ⟨h0, h1, h2, h3⟩
  | vertical => exact ⟨h0, Nat.lt_succ_of_lt h1, fun a ha => Nat.lt_succ_of_lt (h2 a ha), by simp [change]⟩

lemma fresh_run (items : List Item) (allow : Bool) (es : List NotebookUi.Event) :
    FreshIds (NotebookUi.run items allow es) := by
  induction es using List.reverseRecOn with
  | nil => exact fresh_start items
  | append_singleton es e ih =>
    rw [run_snoc]
    obtain ⟨h0, h1, h2, h3⟩ := fresh_change items allow ih e
    exact ⟨h0, h1, h2, h3⟩

/-- No click in the list while only the selection is shown. -/
def Spec.Careful (items : List Item) (allow : Bool) (es : List NotebookUi.Event) : Prop :=
  ∀ l d r, es = l ++ .click d :: r → (NotebookUi.run items allow l).zoomed = false

/-- The page shows all data, or the selection, unless the selection is changed while only the
selection is shown ... -/
theorem C163_page_partial (items : List Item) (allow : Bool) (es : List NotebookUi.Event)
    (hc : Spec.Careful items allow es) :
    Spec.ShowsData (netProps items (NotebookUi.run items allow es)) (NotebookUi.run items allow es).drawn := by
  induction es using List.reverseRecOn with
  | nil => exact mount_shows _
  | append_singleton es e ih =>
    have ih' := ih (fun l d r h => hc l d (r ++ [e]) (by simp [h]))
    rw [run_snoc]
    set s := NotebookUi.run items allow es with hs
    have hf : FreshIds s := fresh_run items allow es
    refine didUpdate_shows (prev := netProps items s) (p := netProps items (change items allow s e)) ?_ ?_
    · have : (change items allow s e).drawn = s.drawn := by
        cases e with
        | hover x => cases x <;> rfl
        | clear => simp only [change]; split_ifs <;> rfl
        | zoom => simp only [change]; split_ifs <;> rfl
        | _ => rfl
      rw [this]
      exact ih'
    · intro hid
      simp only [netProps, getData] at hid ⊢
      cases e with
      | hover x => cases x <;> rfl
      | click d =>
        have hz : s.zoomed = false := hc es d [] rfl
        simp [change, hz]
      | clear =>
        have h1 := hf.sel
        simp only [change] at hid ⊢
        split_ifs at hid ⊢ <;> first | rfl | (simp at hid; omega)
      | zoom =>
        have h1 := hf.sel0
        simp only [change] at hid ⊢
        split_ifs at hid ⊢ with a b c
        all_goals first
          | rfl
          | (exfalso; simp at hid b c; omega)
          | (simp at hid; omega)
      | groups => rfl
      | planes => rfl
      | poles => rfl
      | vertical => rfl

/-- Such a history that shows a selection. -/
example : Spec.Careful twoItems true [.click 0, .zoom] ∧
    (NotebookUi.run twoItems true [.click 0, .zoom]).drawn.poles = some [some 0] := by
  refine ⟨?_, by decide⟩
  intro l d r h
  cases l with
  | nil => rfl
  | cons a l =>
    cases l with
    | nil => simp at h
    | cons b l => simp at h

/-- ... in which case the stereonet keeps showing the old selection: the array is changed in
place, and compared by identity. -/
theorem C163_page_false : let s := NotebookUi.run twoItems true [.click 0, .zoom, .click 1]
    (getData twoItems s).items = [some 0, some 1] ∧ s.drawPoles = true ∧ s.drawn.poles = some [some 0] := by
  decide

/-- The web application, which passes no handler, raises an error for every measurement that
the mouse enters. -/
theorem C163_hover_false (β : Type) (d : ℕ) :
    mouseenter (none : Option (ℕ → β)) d = .error .typeError ∧ ∀ f, mouseenter (some f) d = .ok (f d : β) :=
  ⟨rfl, fun _ => rfl⟩

/-! ## C164 -/

/-- The highlighted shapes are those of the highlighted measurements, in the forms that are
switched on. -/
def Spec.ShowsHovered {α : Type} (p : NetProps α) (d : Drawn α) : Prop :=
  d.hoveredPlanes = (if p.drawPlanes then (p.hovered.map Arr.items).getD [] else []) ∧
  d.hoveredPoles = (if p.drawPoles then (p.hovered.map Arr.items).getD [] else [])

lemma updateHovered_shows {α : Type} (p : NetProps α) (d : Drawn α) : Spec.ShowsHovered p (updateHovered p d) := by
  unfold Spec.ShowsHovered updateHovered
  cases p.hovered <;> simp

lemma didUpdate_hovered {α : Type} {prev p : NetProps α} {d : Drawn α} (h : Spec.ShowsHovered prev d)
    (hi : p.hovered.map Arr.id = prev.hovered.map Arr.id → p.hovered.map Arr.items = prev.hovered.map Arr.items)
    (hone : prev.hovered = none → p.hovered ≠ none →
      p.data.id = prev.data.id ∧ p.drawPlanes = prev.drawPlanes ∧ p.drawPoles = prev.drawPoles) :
    Spec.ShowsHovered p (didUpdate prev p d) := by
  have keep : ∀ (x : Drawn α) (c : Prop) [Decidable c] (v : Option (List ℝ)),
      (if c then { x with center := v } else x).hoveredPlanes = x.hoveredPlanes ∧
      (if c then { x with center := v } else x).hoveredPoles = x.hoveredPoles := by
    intro x c _ v; split_ifs <;> simp
  have keep1 : ∀ (x : Drawn α) (c : Prop) [Decidable c],
      (if c then updatePlanes p x else x).hoveredPlanes = x.hoveredPlanes ∧
      (if c then updatePlanes p x else x).hoveredPoles = x.hoveredPoles := by
    intro x c _; split_ifs <;> simp [updatePlanes]
  have keep2 : ∀ (x : Drawn α) (c : Prop) [Decidable c],
      (if c then updatePoles p x else x).hoveredPlanes = x.hoveredPlanes ∧
      (if c then updatePoles p x else x).hoveredPoles = x.hoveredPoles := by
    intro x c _; split_ifs <;> simp [updatePoles]
  simp only [didUpdate]
  by_cases hch : prev.hovered.map Arr.id = (if
        some prev.drawPlanes ≠ (if p.data.id ≠ prev.data.id then none else some p.drawPlanes) ∨
        some prev.drawPoles ≠ (if p.data.id ≠ prev.data.id then none else some p.drawPoles)
        then none else p.hovered.map Arr.id)
  · rw [if_neg (not_not.2 hch)]
    unfold Spec.ShowsHovered
    rw [(keep _ _ _).1, (keep _ _ _).2, (keep2 _ _).1, (keep2 _ _).2, (keep1 _ _).1, (keep1 _ _).2, h.1, h.2]
    by_cases hx : some prev.drawPlanes ≠ (if p.data.id ≠ prev.data.id then none else some p.drawPlanes) ∨
        some prev.drawPoles ≠ (if p.data.id ≠ prev.data.id then none else some p.drawPoles)
    · rw [if_pos hx] at hch
      have hp : prev.hovered = none := by simpa using hch
      by_cases hq : p.hovered = none
      · simp [hp, hq]
      · obtain ⟨a, b, c⟩ := hone hp hq
        exfalso
        simp [a, b, c] at hx
    · rw [if_neg hx] at hch
      have hit := hi hch.symm
      push Not at hx
      have hd : p.data.id = prev.data.id := by
        by_contra hd
        simp [hd] at hx
      simp only [hd, ne_eq, not_true_eq_false, if_false, Option.some.injEq] at hx
      rw [hx.1, hx.2, hit]
      exact ⟨rfl, rfl⟩
  · rw [if_pos hch]
    exact updateHovered_shows p _

/-- On the page the highlighted shapes always are those of the measurement under the mouse,
whatever happened before. -/
theorem C164_page (items : List Item) (allow : Bool) (es : List NotebookUi.Event) :
    Spec.ShowsHovered (netProps items (NotebookUi.run items allow es)) (NotebookUi.run items allow es).drawn := by
  induction es using List.reverseRecOn with
  | nil => simp [Spec.ShowsHovered, NotebookUi.run, start, mount, updatePlanes, updatePoles, netProps]
  | append_singleton es e ih =>
    rw [run_snoc]
    set s := NotebookUi.run items allow es with hs
    have hf : FreshIds s := fresh_run items allow es
    have hdr : (change items allow s e).drawn = s.drawn := by
      cases e with
      | hover x => cases x <;> rfl
      | clear => simp only [change]; split_ifs <;> rfl
      | zoom => simp only [change]; split_ifs <;> rfl
      | _ => rfl
    refine didUpdate_hovered (prev := netProps items s) (p := netProps items (change items allow s e))
      (by rw [hdr]; exact ih) ?_ ?_
    · intro hid
      cases e with
      | hover x =>
        cases x with
        | none =>
          simp only [netProps, change, Option.map_none] at hid ⊢
          cases hh : s.hovered with
          | none => rfl
          | some a => simp [hh] at hid
        | some d =>
          simp only [netProps, change, Option.map_some] at hid
          cases hh : s.hovered with
          | none => simp [hh] at hid
          | some a =>
            have := hf.hov a hh
            simp [hh] at hid
            omega
      | clear => simp only [netProps, change]; split_ifs <;> rfl
      | zoom => simp only [netProps, change]; split_ifs <;> rfl
      | _ => rfl
    · intro hp hq
      cases e with
      | hover x => cases x <;> exact ⟨rfl, rfl, rfl⟩
      | clear => exfalso; apply hq; simp only [netProps, change] at hp ⊢; split_ifs <;> exact hp
      | zoom => exfalso; apply hq; simp only [netProps, change] at hp ⊢; split_ifs <;> exact hp
      | click d => exact absurd hp hq
      | groups => exact absurd hp hq
      | planes => exact absurd hp hq
      | poles => exact absurd hp hq
      | vertical => exact absurd hp hq

/-- The component alone does not have this property: if a measurement is highlighted in the
same update in which poles are switched on, nothing is highlighted. -/
theorem C164_component_false (prev p : NetProps ℕ) (d : Drawn ℕ) (h : Spec.ShowsHovered prev d)
    (hp : prev.hovered = none) (hsw : prev.drawPoles ≠ p.drawPoles) :
    (didUpdate prev p d).hoveredPlanes = [] ∧ (didUpdate prev p d).hoveredPoles = [] := by
  obtain ⟨h1, h2⟩ := h
  simp only [hp, Option.map_none, Option.getD_none, ite_self] at h1 h2
  have hx : some prev.drawPoles ≠ (if p.data.id ≠ prev.data.id then none else some p.drawPoles) := by
    split_ifs <;> simp [hsw]
  simp only [didUpdate, hp, Option.map_none]
  rw [if_neg (by rw [if_pos (Or.inr hx)]; simp)]
  split_ifs <;> simp [updatePlanes, updatePoles, h1, h2]

example : (didUpdate ⟨⟨0, [1, 2]⟩, true, false, none, ⟨1, []⟩⟩
    ⟨⟨0, [1, 2]⟩, true, true, some ⟨2, [1]⟩, ⟨1, []⟩⟩ {}).hoveredPlanes = [] :=
  (C164_component_false _ _ _ ⟨rfl, rfl⟩ rfl (by simp)).1

/-! ## C165 -/

lemma didUpdate_center {α : Type} (prev p : NetProps α) (d : Drawn α) :
    (didUpdate prev p d).center = if prev.center.id ≠ p.center.id then some p.center.items else d.center := by
  simp only [didUpdate]
  split_ifs <;> simp [updateHovered_planes, updatePlanes, updatePoles]

/-- "Vertical" centers the net on the vertical each time it is pressed, and no other control
of the page changes the center. -/
theorem C165_center (items : List Item) (allow : Bool) (es : List NotebookUi.Event) (e : NotebookUi.Event) :
    (NotebookUi.run items allow (es ++ [.vertical])).drawn.center = some [0, -90] ∧
    (e ≠ .vertical → (NotebookUi.run items allow (es ++ [e])).drawn.center
      = (NotebookUi.run items allow es).drawn.center) := by
  have hf := fresh_run items allow es
  refine ⟨?_, fun he => ?_⟩
  · rw [run_snoc]
    simp only [NotebookUi.step, rerender, didUpdate_center, netProps, change]
    rw [if_pos]
    exact (ne_of_lt hf.cen)
  · rw [run_snoc]
    have hdr : (change items allow (NotebookUi.run items allow es) e).drawn.center
        = (NotebookUi.run items allow es).drawn.center ∧
        (change items allow (NotebookUi.run items allow es) e).center
        = (NotebookUi.run items allow es).center := by
      cases e with
      | hover x => cases x <;> exact ⟨rfl, rfl⟩
      | clear => simp only [change]; split_ifs <;> exact ⟨rfl, rfl⟩
      | zoom => simp only [change]; split_ifs <;> exact ⟨rfl, rfl⟩
      | vertical => exact absurd rfl he
      | _ => exact ⟨rfl, rfl⟩
    simp only [NotebookUi.step, rerender, didUpdate_center, netProps, hdr.1, hdr.2]
    simp

/-- One press returns from the selection to all data, as long as something is selected ... -/
theorem C165_show_all_partial (items : List Item) (allow : Bool) (es : List NotebookUi.Event)
    (hs : (NotebookUi.run items allow es).selection.items ≠ [])
    (hz : (NotebookUi.run items allow es).zoomed = true) :
    (getData items (NotebookUi.run items allow (es ++ [.zoom]))).items = (List.range items.length).map some := by
  rw [run_snoc]
  have hen : zoomEnabled items (NotebookUi.run items allow es) = true := by
    simp [zoomEnabled, hs]
  simp [NotebookUi.step, rerender, change, hen, hz, getData]

example : (NotebookUi.run twoItems true [.click 0, .zoom]).selection.items ≠ [] ∧
    (NotebookUi.run twoItems true [.click 0, .zoom]).zoomed = true := by decide

/-- ... but after the selection has been cleared nothing is shown, and the button does not
work. -/
theorem C165_show_all_false : let s := NotebookUi.run twoItems true [.click 0, .zoom, .clear]
    (getData twoItems s).items = [] ∧ zoomEnabled twoItems s = false ∧
    (getData twoItems (NotebookUi.step twoItems true s .zoom)).items = [] := by
  decide

/-! ## C166 -/

lemma foldl_max_nonneg (l : List ℝ) (a : ℝ) (ha : 0 ≤ a) : a ≤ l.foldl max a ∧ ∀ x ∈ l, x ≤ l.foldl max a := by
  induction l generalizing a with
  | nil => simp
  | cons y t ih =>
    rw [List.foldl_cons]
    obtain ⟨h1, h2⟩ := ih (max a y) (le_max_of_le_left ha)
    refine ⟨(le_max_left a y).trans h1, ?_⟩
    intro x hx
    rcases List.mem_cons.1 hx with rfl | hx
    · exact (le_max_right a x).trans h1
    · exact h2 x hx

/-- The side view has no exaggeration (a unit is as long vertically as horizontally), the
center is in the middle, and all planes are in the drawing vertically, with a margin of an eleventh of its
half height ... -/
theorem C166_scale_partial (offsets : List (ℝ × ℝ)) (hx : ∃ o ∈ offsets, 0 < o.1)
    (hy : ∃ o ∈ offsets, 0 < o.2) :
    ∃ k, 0 < k ∧ (∀ v, (sideScales offsets).1.eval v = some (325 + k * v)) ∧
      (∀ v, (sideScales offsets).2.eval v = some (130 - k * v)) ∧
      ∀ o ∈ offsets, ∀ z, |z| ≤ o.2 → ∃ q, (sideScales offsets).2.eval z = some q ∧
        130 / 11 ≤ q ∧ q ≤ 260 - 130 / 11 := by
  set m := (offsets.map Prod.snd).foldl max 0 with hm
  have hmax := foldl_max_nonneg (offsets.map Prod.snd) 0 le_rfl
  have hpos : 0 < m := by
    obtain ⟨o, ho, h⟩ := hy
    exact lt_of_lt_of_le h (hmax.2 o.2 (List.mem_map.2 ⟨o, ho, rfl⟩))
  have ev1 : ∀ v, (sideScales offsets).1.eval v = some (325 + 130 / (m * 1.1) * v) := by
    intro v
    simp only [sideScales, if_pos hx, ← hm, Scale.eval, Option.bind_some]
    rw [if_neg (by positivity)]
    congr 1
    norm_num
    field_simp
    ring
  have ev2 : ∀ v, (sideScales offsets).2.eval v = some (130 - 130 / (m * 1.1) * v) := by
    intro v
    simp only [sideScales, if_pos hx, ← hm, Scale.eval, Option.bind_some]
    rw [if_neg (by positivity)]
    congr 1
    norm_num
    field_simp
    ring
  refine ⟨130 / (m * 1.1), by positivity, ev1, ev2, ?_⟩
  intro o ho z hz
  refine ⟨_, ev2 z, ?_, ?_⟩
  all_goals
    have h1 : |z| ≤ m := hz.trans (hmax.2 o.2 (List.mem_map.2 ⟨o, ho, rfl⟩))
    rw [abs_le] at h1
    have h2 : 130 / (m * 1.1) * z ≤ 130 - 130 / 11 := by
      rw [div_mul_eq_mul_div, div_le_iff₀ (by positivity)]; nlinarith
    have h3 : -130 + 130 / 11 ≤ 130 / (m * 1.1) * z := by
      rw [div_mul_eq_mul_div, le_div_iff₀ (by positivity)]; nlinarith
    linarith

example : ∃ k : ℝ, 0 < k ∧ ∀ v, (sideScales [(3, 1), (2, 2)]).1.eval v = some (325 + k * v) := by
  obtain ⟨k, h, h', _⟩ := C166_scale_partial [(3, 1), (2, 2)] ⟨(3, 1), by simp, by norm_num⟩
    ⟨(2, 2), by simp, by norm_num⟩
  exact ⟨k, h, h'⟩

/-- ... but not horizontally, and planes above each other are not drawn at all. -/
theorem C166_in_view_false :
    (∃ q, (sideScales [((3 : ℝ), (1 : ℝ))]).1.eval 3 = some q ∧ 650 < q) ∧
    (sideScales [((0 : ℝ), (1 : ℝ))]).2.eval 1 = none := by
  constructor
  · refine ⟨325 + 130 / (1 * 1.1) * 3, ?_, by norm_num⟩
    simp only [sideScales, Scale.eval]
    rw [if_pos ⟨_, List.mem_singleton.2 rfl, by norm_num⟩]
    simp only [Option.bind_some, List.map_cons, List.map_nil, List.foldl_cons, List.foldl_nil]
    norm_num
  · simp [sideScales, Scale.eval]

end Attitude.Props
