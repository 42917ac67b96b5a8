import Verif.Props.Grouping

/-!
# C223: which groups can be made
-/

namespace Attitude.Props

open Attitude Grouping

namespace Spec

/-- All arguments have points. -/
def HavePoints (h : Heap) (os : List ℕ) : Prop := ∀ o ∈ os, ∃ p, (h.obj o).array = some p

/-- Some argument is a group itself. -/
def SomeGroup (h : Heap) (os : List ℕ) : Prop := ∃ o ∈ os, ∃ ms, (h.obj o).members = some ms

/-- The number of points of all arguments. -/
def countPoints (h : Heap) (os : List ℕ) : ℕ :=
  (os.map fun o => (((h.obj o).array).getD []).length).sum

end Spec

/-! ## Helper lemmas -/

lemma centered_count (ps : List Points) :
    ((ps.map centeredPts).flatten).length = (ps.map List.length).sum := by
  induction ps with
  | nil => rfl
  | cons p ps ih => simp only [List.map_cons, List.flatten_cons, List.length_append, ih,
      List.sum_cons, centeredPts_length]

lemma arrays_of_havePoints {h : Heap} {os : List ℕ} (hp : Spec.HavePoints h os) :
    ∃ ps : List Points, os.map (fun o => (h.obj o).array) = ps.map some ∧
      (ps.map List.length).sum = Spec.countPoints h os ∧ (ps = [] ↔ os = []) := by
  refine ⟨os.map fun o => ((h.obj o).array).getD [], ?_, by simp [Spec.countPoints, Function.comp_def],
    by simp⟩
  rw [List.map_map]
  refine List.map_congr_left fun o ho => ?_
  obtain ⟨p, e⟩ := hp o ho
  simp [e]

lemma mark_error {g : ℕ} {os : List ℕ} {h : Heap} (hp : ∃ o ∈ os, ∃ ms, (h.obj o).members = some ms) :
    (markMembers g os h).1 = .error .groupedPlaneError := by
  induction os generalizing h with
  | nil => simp at hp
  | cons o os ih =>
    simp only [markMembers]
    split_ifs with hc
    · rfl
    · apply ih
      obtain ⟨o', ho, ms, e⟩ := hp
      rcases List.mem_cons.1 ho with rfl | ho
      · simp [e] at hc
      · exact ⟨o', ho, ms, by simpa using e⟩

/-- The result, case by case in the order of the checks. -/
lemma newGroup_result (H : HashFn) {h : Heap} {os : List ℕ} (hl : Spec.Exists h os) (sp ex : Bool) :
    (¬ Spec.HavePoints h os → (newGroup H h os sp ex).1 = .error .attributeError) ∧
    (os = [] → (newGroup H h os sp ex).1 = .error .valueError) ∧
    (Spec.HavePoints h os → Spec.SomeGroup h os →
      (newGroup H h os sp ex).1 = .error .groupedPlaneError) ∧
    (Spec.HavePoints h os → os ≠ [] → ¬ Spec.SomeGroup h os → ex = true →
      (newGroup H h os sp ex).1 = .error .typeError) ∧
    (Spec.HavePoints h os → os ≠ [] → ¬ Spec.SomeGroup h os → ex = false →
      (newGroup H h os sp ex).1 =
        if Spec.countPoints h os < 3 then .error .valueError else .ok h.next) := by
  have hold : ∀ o ∈ os, (h.alloc {}).obj o = h.obj o := fun o ho => alloc_obj_lt h _ (hl o ho)
  have harr : os.map (fun o => ((h.alloc {}).obj o).array) = os.map fun o => (h.obj o).array :=
    List.map_congr_left fun o ho => by rw [hold o ho]
  refine ⟨fun hn => ?_, fun hn => ?_, fun hp hg => ?_, fun hp hne hg hex => ?_, fun hp hne hg hex => ?_⟩
  · simp only [Spec.HavePoints, not_forall] at hn
    obtain ⟨o, ho, hno⟩ := hn
    have h1 := (C39_early_failure_partial H hl sp ex (.inr ⟨o, ho, by
      cases e : (h.obj o).array with
      | none => rfl
      | some p => exact absurd ⟨p, e⟩ hno⟩)).1
    rwa [if_neg (List.ne_nil_of_mem ho)] at h1
  · have h1 := (C39_early_failure_partial H hl sp ex (.inl hn)).1
    rwa [if_pos hn] at h1
  · obtain ⟨ps, e, -, hnil⟩ := arrays_of_havePoints hp
    have ha := arraysOf_total (harr.trans e)
    have hps : ps ≠ [] := by
      obtain ⟨o, ho, -⟩ := hg
      rw [Ne, hnil]
      exact List.ne_nil_of_mem ho
    have hm := mark_error (g := h.next) (os := os) (h := h.alloc {}) (by
      obtain ⟨o, ho, ms, e⟩ := hg
      exact ⟨o, ho, ms, by rw [hold o ho, e]⟩)
    unfold newGroup
    simp only [ha, vstack, if_neg hps]
    generalize markMembers h.next os (h.alloc {}) = r at hm ⊢
    obtain ⟨r1, r2⟩ := r
    simp only at hm
    subst hm
    rfl
  · obtain ⟨ps, e, -, hnil⟩ := arrays_of_havePoints hp
    have ha := arraysOf_total (harr.trans e)
    have hps : ps ≠ [] := by rwa [Ne, hnil]
    have hm := mark_ok_of (g := h.next) (os := os) (h := h.alloc {}) (by
      intro o ho
      rw [hold o ho]
      cases e : (h.obj o).members with
      | none => rfl
      | some ms => exact absurd ⟨o, ho, ms, e⟩ hg)
    unfold newGroup
    simp only [ha, vstack, if_neg hps]
    generalize markMembers h.next os (h.alloc {}) = r at hm ⊢
    obtain ⟨r1, r2⟩ := r
    simp only at hm
    subst hm
    simp [hex]
  · obtain ⟨ps, e, hc, hnil⟩ := arrays_of_havePoints hp
    have ha := arraysOf_total (harr.trans e)
    have hps : ps ≠ [] := by rwa [Ne, hnil]
    have hm := mark_ok_of (g := h.next) (os := os) (h := h.alloc {}) (by
      intro o ho
      rw [hold o ho]
      cases e : (h.obj o).members with
      | none => rfl
      | some ms => exact absurd ⟨o, ho, ms, e⟩ hg)
    unfold newGroup
    simp only [ha, vstack, if_neg hps]
    generalize markMembers h.next os (h.alloc {}) = r at hm ⊢
    obtain ⟨r1, r2⟩ := r
    simp only at hm
    subst hm
    have hlen : (if sp = true then ps.flatten else (ps.map centeredPts).flatten).length
        = Spec.countPoints h os := by
      split_ifs
      · rw [List.length_flatten, hc]
      · rw [centered_count, hc]
    simp only [hex, Bool.false_eq_true, if_false, hlen]
    split_ifs <;> rfl

/-! ## C223 -/

/-- A group is made exactly if there is at least one argument, all have points, none is a group, the
points are at least three together, and no unknown keyword is given. -/
theorem C223_succeeds (H : HashFn) {h : Heap} {os : List ℕ} (hl : Spec.Exists h os) (sp ex : Bool) :
    (∃ g, (newGroup H h os sp ex).1 = .ok g) ↔
      os ≠ [] ∧ Spec.HavePoints h os ∧ ¬ Spec.SomeGroup h os ∧ 3 ≤ Spec.countPoints h os ∧ ex = false := by
  obtain ⟨r1, r2, r3, r4, r5⟩ := newGroup_result H hl sp ex
  constructor
  · rintro ⟨g, hg⟩
    have hp : Spec.HavePoints h os := by
      by_contra hn
      rw [r1 hn] at hg
      cases hg
    have hne : os ≠ [] := by
      intro hn
      rw [r2 hn] at hg
      cases hg
    have hng : ¬ Spec.SomeGroup h os := by
      intro hn
      rw [r3 hp hn] at hg
      cases hg
    cases hex : ex with
    | true =>
      rw [r4 hp hne hng hex] at hg
      cases hg
    | false =>
      refine ⟨hne, hp, hng, ?_, rfl⟩
      rw [r5 hp hne hng hex] at hg
      split_ifs at hg with hc
      omega
  · rintro ⟨hne, hp, hng, h3, hex⟩
    exact ⟨h.next, by rw [r5 hp hne hng hex, if_neg (by omega)]⟩

/-- The exception says which condition is not met, in a fixed order. -/
theorem C223_exceptions (H : HashFn) {h : Heap} {os : List ℕ} (hl : Spec.Exists h os) (sp ex : Bool) :
    ((newGroup H h os sp ex).1 = .error .attributeError ↔ ¬ Spec.HavePoints h os) ∧
    ((newGroup H h os sp ex).1 = .error .groupedPlaneError ↔
      Spec.HavePoints h os ∧ Spec.SomeGroup h os) ∧
    ((newGroup H h os sp ex).1 = .error .typeError ↔
      Spec.HavePoints h os ∧ os ≠ [] ∧ ¬ Spec.SomeGroup h os ∧ ex = true) ∧
    ((newGroup H h os sp ex).1 = .error .valueError ↔ os = [] ∨
      Spec.HavePoints h os ∧ ¬ Spec.SomeGroup h os ∧ ex = false ∧ Spec.countPoints h os < 3) := by
  obtain ⟨r1, r2, r3, r4, r5⟩ := newGroup_result H hl sp ex
  by_cases hp : Spec.HavePoints h os
  swap
  · have hne : os ≠ [] := by
      rintro rfl
      exact hp (by intro o ho; simp at ho)
    simp [r1 hp, hp, hne]
  by_cases hne : os = []
  · have hng : ¬ Spec.SomeGroup h os := by
      rintro ⟨o, ho, -⟩
      simp [hne] at ho
    rw [r2 hne]
    simp only [hne] at hp hng
    simp [hp, hng, hne]
  by_cases hng : Spec.SomeGroup h os
  · simp [r3 hp hng, hp, hng, hne]
  cases hex : ex with
  | true =>
    rw [← hex, r4 hp hne hng hex]
    simp [hp, hng, hne, hex]
  | false =>
    rw [← hex]
    rw [r5 hp hne hng hex]
    by_cases hc : Spec.countPoints h os < 3
    · simp [hc, hp, hng, hne, hex]
    · simp [hc, hp, hng, hne, hex]

/-- Two measurements of two points each make a group though neither can be fitted alone; the second
alone does not. -/
example : (newGroup (fun _ => "g") ⟨2, fun a => { array := some [![0, 0, 0], ![a, 1, 0]] }⟩ [0, 1] false
      false).1 = .ok 2 ∧
    (newGroup (fun _ => "g") ⟨2, fun a => { array := some [![0, 0, 0], ![a, 1, 0]] }⟩ [1] false false).1 =
      .error .valueError := by
  have hl : Spec.Exists ⟨2, fun a => { array := some [![0, 0, 0], ![(a : ℝ), 1, 0]] }⟩ [0, 1] := by
    intro o ho
    simp at ho
    show o < 2
    omega
  have h1 := (C223_succeeds (fun _ => "g") hl false false).2
    ⟨by simp, fun o _ => ⟨_, rfl⟩, by rintro ⟨o, -, ms, e⟩; simp at e, by simp [Spec.countPoints], rfl⟩
  obtain ⟨g, hg⟩ := h1
  have : g = 2 := (newGroup_spec (fun _ => "g") _ hl false false).1.ok_self g hg
  subst this
  refine ⟨hg, ?_⟩
  exact ((C223_exceptions (fun _ => "g") (os := [1]) (by intro o ho; simp at ho; simp [ho]) false
    false).2.2.2).2 (.inr ⟨fun o _ => ⟨_, rfl⟩, by rintro ⟨o, -, ms, e⟩; simp at e, rfl,
      by simp [Spec.countPoints]⟩)

end Attitude.Props
