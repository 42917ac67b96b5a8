import Verif.Model.Grouping

/-! Helper facts about the grouping model. -/

namespace Attitude.Grouping

open Attitude

/-- An object without its `member_of` attribute. -/
def core (o : Obj) : Obj := { o with memberOf := none }

lemma core_members {o p : Obj} (h : core o = core p) : o.members = p.members := by
  have := congrArg Obj.members h; simpa [core] using this
lemma core_uid {o p : Obj} (h : core o = core p) : o.uid = p.uid := by
  have := congrArg Obj.uid h; simpa [core] using this
lemma core_array {o p : Obj} (h : core o = core p) : o.array = p.array := by
  have := congrArg Obj.array h; simpa [core] using this

lemma core_eq {o p : Obj} (h : core o = core p) (hm : o.memberOf = p.memberOf) : o = p := by
  cases o; cases p; simp_all [core]

@[simp] lemma setMemberOf_next (h : Heap) (a : ℕ) (g : Option ℕ) :
    (h.setMemberOf a g).next = h.next := rfl

@[simp] lemma setMemberOf_core (h : Heap) (a : ℕ) (g : Option ℕ) (b : ℕ) :
    core ((h.setMemberOf a g).obj b) = core (h.obj b) := by
  simp only [Heap.setMemberOf, Heap.set]
  split_ifs with e
  · subst e; rfl
  · rfl

lemma setMemberOf_memberOf (h : Heap) (a : ℕ) (g : Option ℕ) (b : ℕ) :
    ((h.setMemberOf a g).obj b).memberOf = if b = a then g else (h.obj b).memberOf := by
  simp only [Heap.setMemberOf, Heap.set]
  split_ifs <;> rfl

lemma setMemberOf_ne (h : Heap) (a : ℕ) (g : Option ℕ) {b : ℕ} (hb : b ≠ a) :
    (h.setMemberOf a g).obj b = h.obj b := by
  simp [Heap.setMemberOf, Heap.set, hb]

@[simp] lemma setMemberOf_members (h : Heap) (a : ℕ) (g : Option ℕ) (b : ℕ) :
    ((h.setMemberOf a g).obj b).members = (h.obj b).members :=
  core_members (setMemberOf_core h a g b)

@[simp] lemma setMemberOf_uid (h : Heap) (a : ℕ) (g : Option ℕ) (b : ℕ) :
    ((h.setMemberOf a g).obj b).uid = (h.obj b).uid :=
  core_uid (setMemberOf_core h a g b)

/-! ### `markMembers` -/

lemma mark_next (g : ℕ) (os : List ℕ) (h : Heap) : (markMembers g os h).2.next = h.next := by
  induction os generalizing h with
  | nil => rfl
  | cons o os ih =>
    simp only [markMembers]
    split_ifs
    · rfl
    · rw [ih]; rfl

lemma mark_core (g : ℕ) (os : List ℕ) (h : Heap) (b : ℕ) :
    core ((markMembers g os h).2.obj b) = core (h.obj b) := by
  induction os generalizing h with
  | nil => rfl
  | cons o os ih =>
    simp only [markMembers]
    split_ifs
    · rfl
    · rw [ih, setMemberOf_core]

lemma mark_memberOf (g : ℕ) (os : List ℕ) (h : Heap) (b : ℕ) :
    ((markMembers g os h).2.obj b).memberOf = (h.obj b).memberOf ∨
      (b ∈ os ∧ ((markMembers g os h).2.obj b).memberOf = some g) := by
  induction os generalizing h with
  | nil => exact Or.inl rfl
  | cons o os ih =>
    simp only [markMembers]
    split_ifs
    · exact Or.inl rfl
    · rcases ih (h.setMemberOf o (some g)) with h1 | ⟨h1, h2⟩
      · rw [setMemberOf_memberOf] at h1
        by_cases e : b = o
        · rw [if_pos e] at h1
          exact Or.inr ⟨by simp [e], h1⟩
        · rw [if_neg e] at h1
          exact Or.inl h1
      · exact Or.inr ⟨List.mem_cons_of_mem _ h1, h2⟩

lemma mark_other (g : ℕ) (os : List ℕ) (h : Heap) {b : ℕ} (hb : b ∉ os) :
    (markMembers g os h).2.obj b = h.obj b :=
  core_eq (mark_core g os h b) ((mark_memberOf g os h b).resolve_right fun h => hb h.1)

lemma mark_ok_members {g : ℕ} {os : List ℕ} {h : Heap}
    (hk : (markMembers g os h).1 = .ok ()) : ∀ o ∈ os, (h.obj o).members = none := by
  induction os generalizing h with
  | nil => simp
  | cons o os ih =>
    simp only [markMembers] at hk
    split_ifs at hk with hc
    intro x hx
    rcases List.mem_cons.1 hx with rfl | hx
    · simpa using hc
    · have := ih hk x hx
      simpa using this

lemma mark_keeps {g : ℕ} {os : List ℕ} {h : Heap} {b : ℕ}
    (hb : (h.obj b).memberOf = some g) : ((markMembers g os h).2.obj b).memberOf = some g := by
  rcases mark_memberOf g os h b with h1 | h1
  · rw [h1, hb]
  · exact h1.2

lemma mark_ok_memberOf {g : ℕ} {os : List ℕ} {h : Heap}
    (hk : (markMembers g os h).1 = .ok ()) :
    ∀ o ∈ os, ((markMembers g os h).2.obj o).memberOf = some g := by
  induction os generalizing h with
  | nil => simp
  | cons o os ih =>
    simp only [markMembers] at hk ⊢
    split_ifs at hk ⊢ with hc
    intro x hx
    rcases List.mem_cons.1 hx with rfl | hx
    · apply mark_keeps
      rw [setMemberOf_memberOf, if_pos rfl]
    · exact ih hk x hx

lemma mark_ok_of {g : ℕ} {os : List ℕ} {h : Heap} (hp : ∀ o ∈ os, (h.obj o).members = none) :
    (markMembers g os h).1 = .ok () := by
  induction os generalizing h with
  | nil => rfl
  | cons o os ih =>
    simp only [markMembers]
    rw [if_neg (by rw [hp o (by simp)]; simp)]
    apply ih
    intro x hx
    rw [setMemberOf_members]
    exact hp x (List.mem_cons_of_mem _ hx)

/-! ### `arraysOf` -/

lemma arraysOf_congr {h h' : Heap} {os : List ℕ}
    (hc : ∀ o ∈ os, (h.obj o).array = (h'.obj o).array) : arraysOf h os = arraysOf h' os := by
  induction os with
  | nil => rfl
  | cons o os ih =>
    simp only [arraysOf]
    rw [hc o (by simp), ih fun x hx => hc x (List.mem_cons_of_mem _ hx)]

lemma arraysOf_ok {h : Heap} {os : List ℕ} {ps : List Points} (hk : arraysOf h os = .ok ps) :
    os.map (fun o => (h.obj o).array) = ps.map some := by
  induction os generalizing ps with
  | nil =>
    simp only [arraysOf, Except.ok.injEq] at hk
    subst hk; rfl
  | cons o os ih =>
    simp only [arraysOf] at hk
    cases ho : (h.obj o).array with
    | none => rw [ho] at hk; simp at hk
    | some p =>
      rw [ho] at hk
      cases hr : arraysOf h os with
      | error e => rw [hr] at hk; simp at hk
      | ok qs =>
        rw [hr] at hk
        simp only [Except.ok.injEq] at hk
        subst hk
        simp [ho, ih hr]

lemma arraysOf_total {h : Heap} {os : List ℕ} {ps : List Points}
    (hk : os.map (fun o => (h.obj o).array) = ps.map some) : arraysOf h os = .ok ps := by
  induction os generalizing ps with
  | nil =>
    cases ps with
    | nil => rfl
    | cons _ _ => simp at hk
  | cons o os ih =>
    cases ps with
    | nil => simp at hk
    | cons p ps =>
      simp only [List.map_cons, List.cons.injEq] at hk
      simp only [arraysOf, hk.1, ih hk.2]

/-! ### `newGroup` -/

/-- What a call of the constructor does to the heap, whatever the outcome. -/
structure GroupEffect (h : Heap) (os : List ℕ) (r : Except PyErr ℕ × Heap) : Prop where
  next : r.2.next = h.next + 1
  core : ∀ a < h.next, Grouping.core (r.2.obj a) = Grouping.core (h.obj a)
  memberOf : ∀ a < h.next, (r.2.obj a).memberOf = (h.obj a).memberOf ∨
    (a ∈ os ∧ (r.2.obj a).memberOf = some h.next)
  self_memberOf : (r.2.obj h.next).memberOf = none
  self_members : (r.2.obj h.next).members = none ∨
    ((r.2.obj h.next).members = some os ∧ ∀ o ∈ os, (h.obj o).members = none)
  error_uid : ∀ e, r.1 = .error e → (r.2.obj h.next).uid = none
  ok_self : ∀ g, r.1 = .ok g → g = h.next
  ok_members : ∀ g, r.1 = .ok g → (r.2.obj h.next).members = some os
  ok_uid : ∀ g, r.1 = .ok g → (r.2.obj h.next).uid.isSome
  ok_memberOf : ∀ g, r.1 = .ok g → ∀ o ∈ os, (r.2.obj o).memberOf = some h.next

/-- The content of a completed group. -/
structure GroupData (H : HashFn) (h : Heap) (os : List ℕ) (samePlane : Bool) (o : Obj) : Prop where
  ex : ∃ ps : List Points, os.map (fun a => (h.obj a).array) = ps.map some ∧ ps ≠ [] ∧
    ∃ arr, arr = (if samePlane then ps.flatten else (ps.map centeredPts).flatten) ∧
      3 ≤ arr.length ∧ o.array = some arr ∧ o.uid = some (H arr) ∧ o.mean = meanPts ps.flatten ∧
      o.disabled = false

lemma alloc_obj_lt (h : Heap) (o : Obj) {a : ℕ} (ha : a < h.next) :
    (h.alloc o).obj a = h.obj a := by
  simp [Heap.alloc, Nat.ne_of_lt ha]

@[simp] lemma alloc_obj_self (h : Heap) (o : Obj) : (h.alloc o).obj h.next = o := by
  simp [Heap.alloc]

@[simp] lemma alloc_next (h : Heap) (o : Obj) : (h.alloc o).next = h.next + 1 := rfl

lemma set_ne (h : Heap) (a : ℕ) (o : Obj) {b : ℕ} (hb : b ≠ a) : (h.set a o).obj b = h.obj b := by
  simp [Heap.set, hb]

@[simp] lemma set_self (h : Heap) (a : ℕ) (o : Obj) : (h.set a o).obj a = o := by
  simp [Heap.set]

@[simp] lemma set_next (h : Heap) (a : ℕ) (o : Obj) : (h.set a o).next = h.next := rfl

lemma newGroup_spec (H : HashFn) (h : Heap) {os : List ℕ} (hv : ∀ o ∈ os, o < h.next)
    (sp ex : Bool) : GroupEffect h os (newGroup H h os sp ex) ∧
      ∀ g, (newGroup H h os sp ex).1 = .ok g →
        GroupData H h os sp ((newGroup H h os sp ex).2.obj g) := by
  have hself : h.next ∉ os := fun hc => lt_irrefl _ (hv _ hc)
  -- the heap after allocation
  have triv : ∀ e, GroupEffect h os (.error e, h.alloc {}) := by
    intro e
    refine ⟨rfl, ?_, ?_, ?_, ?_, ?_, ?_, ?_, ?_, ?_⟩
    · intro a ha; simp only [alloc_obj_lt h _ ha]
    · intro a ha; left; simp only [alloc_obj_lt h _ ha]
    · simp
    · left; simp
    · intro _ _; simp
    all_goals intro g hg; exact absurd hg (by simp)
  unfold newGroup
  simp only
  cases ha : arraysOf (h.alloc {}) os with
  | error e => exact ⟨triv e, fun g hg => absurd hg (by simp)⟩
  | ok ps =>
    simp only
    cases hvs : vstack ps with
    | error e => exact ⟨triv e, fun g hg => absurd hg (by simp)⟩
    | ok allv =>
      simp only
      have hps : ps ≠ [] ∧ allv = ps.flatten := by
        unfold vstack at hvs
        split_ifs at hvs with hc
        simp only [Except.ok.injEq] at hvs
        exact ⟨hc, hvs.symm⟩
      have hmem0 : ∀ o ∈ os, ((h.alloc {}).obj o) = h.obj o := fun o ho =>
        alloc_obj_lt h _ (hv o ho)
      have harr : os.map (fun a => (h.obj a).array) = ps.map some := by
        rw [← arraysOf_ok ha]
        apply List.map_congr_left
        intro o ho
        rw [hmem0 o ho]
      have hc := mark_core h.next os (h.alloc {})
      have hm := mark_memberOf h.next os (h.alloc {})
      have hn := mark_next h.next os (h.alloc {})
      have hs := mark_other h.next os (h.alloc {}) hself
      have hokm := @mark_ok_members h.next os (h.alloc {})
      have hokp := @mark_ok_memberOf h.next os (h.alloc {})
      generalize markMembers h.next os (h.alloc {}) = r at *
      obtain ⟨r1, h2⟩ := r
      simp only at hc hm hn hs hokm hokp
      rw [alloc_obj_self] at hs
      have hcore : ∀ a < h.next, core (h2.obj a) = core (h.obj a) := by
        intro a ha'
        rw [hc a, alloc_obj_lt h _ ha']
      have hmo : ∀ a < h.next, (h2.obj a).memberOf = (h.obj a).memberOf ∨
          (a ∈ os ∧ (h2.obj a).memberOf = some h.next) := by
        intro a ha'
        have := hm a
        rwa [alloc_obj_lt h _ ha'] at this
      cases r1 with
      | error e =>
        refine ⟨⟨by simpa using hn, hcore, hmo, by simp [hs], Or.inl (by simp [hs]),
          fun _ _ => by simp [hs], ?_, ?_, ?_, ?_⟩, fun g hg => absurd hg (by simp)⟩
        all_goals intro g hg; exact absurd hg (by simp)
      | ok u =>
        cases u
        simp only
        have hplain : ∀ o ∈ os, (h.obj o).members = none := by
          intro o ho
          have := hokm rfl o ho
          rwa [hmem0 o ho] at this
        have hpt := hokp rfl
        have hne : ∀ a < h.next, a ≠ h.next := fun a ha' => Nat.ne_of_lt ha'
        have hneo : ∀ o ∈ os, o ≠ h.next := fun o ho => hne o (hv o ho)
        set arr := (if sp then allv else (ps.map centeredPts).flatten) with harrdef
        split_ifs with hex hlen
        · refine ⟨⟨by simpa using hn, ?_, ?_, by simp [hs], Or.inr ⟨by simp, hplain⟩,
            fun _ _ => by simp [hs], ?_, ?_, ?_, ?_⟩, fun g hg => absurd hg (by simp)⟩
          · intro a ha'; rw [set_ne _ _ _ (hne a ha')]; exact hcore a ha'
          · intro a ha'; rw [set_ne _ _ _ (hne a ha')]; exact hmo a ha'
          all_goals intro g hg; exact absurd hg (by simp)
        · refine ⟨⟨by simpa using hn, ?_, ?_, by simp, Or.inr ⟨by simp, hplain⟩,
            fun _ _ => by simp [hs], ?_, ?_, ?_, ?_⟩, fun g hg => absurd hg (by simp)⟩
          · intro a ha'
            simp only [set_ne _ _ _ (hne a ha')]
            exact hcore a ha'
          · intro a ha'
            simp only [set_ne _ _ _ (hne a ha')]
            exact hmo a ha'
          all_goals intro g hg; exact absurd hg (by simp)
        · refine ⟨⟨by simpa using hn, ?_, ?_, by simp, Or.inr ⟨by simp, hplain⟩,
            ?_, ?_, ?_, ?_, ?_⟩, ?_⟩
          · intro a ha'
            simp only [set_ne _ _ _ (hne a ha')]
            exact hcore a ha'
          · intro a ha'
            simp only [set_ne _ _ _ (hne a ha')]
            exact hmo a ha'
          · intro e he; exact absurd he (by simp)
          · intro g hg; simpa using hg.symm
          · intro g hg; simp
          · intro g hg; simp
          · intro g hg o ho
            simp only [set_ne _ _ _ (hneo o ho)]
            exact hpt o ho
          · intro g hg
            have hg' : g = h.next := by simpa using hg.symm
            subst hg'
            refine ⟨⟨ps, harr, hps.1, arr, ?_, by omega, by simp, by simp, ?_, by simp⟩⟩
            · rw [harrdef, hps.2]
            · simp [hps.2]

/-! ### `copyAll` -/

lemma copyAll_next (l : List ℕ) (h : Heap) : (copyAll l h).2.next = h.next + l.length := by
  induction l generalizing h with
  | nil => rfl
  | cons o os ih =>
    simp only [copyAll, ih, alloc_next, List.length_cons]
    omega

lemma copyAll_old (l : List ℕ) (h : Heap) {a : ℕ} (ha : a < h.next) :
    (copyAll l h).2.obj a = h.obj a := by
  induction l generalizing h with
  | nil => rfl
  | cons o os ih =>
    simp only [copyAll]
    rw [ih _ (by simp; omega), alloc_obj_lt h _ ha]

lemma copyAll_list (l : List ℕ) (h : Heap) : (copyAll l h).1 = List.range' h.next l.length := by
  induction l generalizing h with
  | nil => rfl
  | cons o os ih =>
    simp only [copyAll, ih, alloc_next, List.length_cons, List.range'_succ]

lemma copyAll_obj (l : List ℕ) (h : Heap) (hv : ∀ o ∈ l, o < h.next) :
    (copyAll l h).1.map (copyAll l h).2.obj = l.map h.obj := by
  induction l generalizing h with
  | nil => rfl
  | cons o os ih =>
    have hih := ih (h.alloc (h.obj o)) fun x hx => by
      have := hv x (List.mem_cons_of_mem _ hx)
      simp; omega
    simp only [copyAll, List.map_cons]
    rw [hih, copyAll_old _ _ (by simp), alloc_obj_self]
    congr 1
    apply List.map_congr_left
    intro x hx
    exact alloc_obj_lt h _ (hv x (List.mem_cons_of_mem _ hx))

lemma copyAll_mem {l : List ℕ} {h : Heap} {a : ℕ} :
    a ∈ (copyAll l h).1 ↔ h.next ≤ a ∧ a < (copyAll l h).2.next := by
  rw [copyAll_list, copyAll_next, List.mem_range'_1]

/-- Every copy is the copy of something. -/
lemma copyAll_source {l : List ℕ} {h : Heap} (hv : ∀ o ∈ l, o < h.next) {a : ℕ}
    (ha : a ∈ (copyAll l h).1) : ∃ o ∈ l, (copyAll l h).2.obj a = h.obj o := by
  have := copyAll_obj l h hv
  have h1 : (copyAll l h).2.obj a ∈ (copyAll l h).1.map (copyAll l h).2.obj :=
    List.mem_map_of_mem ha
  rw [this, List.mem_map] at h1
  obtain ⟨o, ho, he⟩ := h1
  exact ⟨o, ho, he.symm⟩

/-- Everything in the list has a copy. -/
lemma copyAll_target {l : List ℕ} {h : Heap} (hv : ∀ o ∈ l, o < h.next) {o : ℕ}
    (ho : o ∈ l) : ∃ a ∈ (copyAll l h).1, (copyAll l h).2.obj a = h.obj o := by
  have := copyAll_obj l h hv
  have h1 : h.obj o ∈ l.map h.obj := List.mem_map_of_mem ho
  rw [← this, List.mem_map] at h1
  exact h1

/-! ### `pointTo` and `resetMembership` -/

@[simp] lemma pointTo_next (g : ℕ) (as : List ℕ) (h : Heap) : (pointTo g as h).next = h.next := by
  induction as generalizing h with
  | nil => rfl
  | cons a as ih => simp only [pointTo, ih, setMemberOf_next]

@[simp] lemma pointTo_core (g : ℕ) (as : List ℕ) (h : Heap) (b : ℕ) :
    core ((pointTo g as h).obj b) = core (h.obj b) := by
  induction as generalizing h with
  | nil => rfl
  | cons a as ih => simp only [pointTo, ih, setMemberOf_core]

lemma pointTo_memberOf (g : ℕ) (as : List ℕ) (h : Heap) (b : ℕ) :
    ((pointTo g as h).obj b).memberOf = if b ∈ as then some g else (h.obj b).memberOf := by
  induction as generalizing h with
  | nil => simp [pointTo]
  | cons a as ih =>
    simp only [pointTo, ih, setMemberOf_memberOf, List.mem_cons]
    by_cases h1 : b ∈ as
    · simp [h1]
    · by_cases h2 : b = a <;> simp [h1, h2]

lemma reset_next (l : List ℕ) (h : Heap) : (resetMembership l h).2.next = h.next := by
  induction l generalizing h with
  | nil => rfl
  | cons o os ih =>
    simp only [resetMembership]
    split
    · rw [ih]; rfl
    · simp only [ih, pointTo_next, setMemberOf_next]

lemma reset_core (l : List ℕ) (h : Heap) (b : ℕ) :
    core ((resetMembership l h).2.obj b) = core (h.obj b) := by
  induction l generalizing h with
  | nil => rfl
  | cons o os ih =>
    simp only [resetMembership]
    split
    · rw [ih, setMemberOf_core]
    · simp only [ih, pointTo_core, setMemberOf_core]

lemma reset_grouped (l : List ℕ) (h : Heap) (b : ℕ) :
    b ∈ (resetMembership l h).1 ↔ ∃ o ∈ l, ∃ ms, (h.obj o).members = some ms ∧ b ∈ ms := by
  induction l generalizing h with
  | nil => simp [resetMembership]
  | cons o os ih =>
    simp only [resetMembership, setMemberOf_members]
    split
    · rename_i hn
      rw [ih]
      simp only [setMemberOf_members, List.mem_cons, exists_eq_or_imp, hn, reduceCtorEq, false_and,
        exists_false, false_or]
    · rename_i ms hs
      have hc : ∀ x, ((pointTo o ms (h.setMemberOf o none)).obj x).members = (h.obj x).members :=
        fun x => core_members (by rw [pointTo_core, setMemberOf_core])
      simp only [List.mem_append, ih, hc, List.mem_cons, exists_eq_or_imp, hs, Option.some.injEq,
        exists_eq_left']

/-- Where `member_of` can come from after the loop. -/
lemma reset_memberOf (l : List ℕ) (h : Heap) (b : ℕ) :
    (b ∉ l ∧ ((resetMembership l h).2.obj b).memberOf = (h.obj b).memberOf) ∨
    (b ∈ l ∧ ((resetMembership l h).2.obj b).memberOf = none) ∨
    ∃ o ∈ l, ∃ ms, (h.obj o).members = some ms ∧ b ∈ ms ∧
      ((resetMembership l h).2.obj b).memberOf = some o := by
  induction l generalizing h with
  | nil => simp [resetMembership]
  | cons o os ih =>
    simp only [resetMembership, setMemberOf_members]
    split
    · rename_i hn
      rcases ih (h.setMemberOf o none) with ⟨h1, h2⟩ | ⟨h1, h2⟩ | ⟨x, hx, ms, h1, h2, h3⟩
      · rw [setMemberOf_memberOf] at h2
        by_cases e : b = o
        · rw [if_pos e] at h2
          exact Or.inr (Or.inl ⟨by simp [e], h2⟩)
        · rw [if_neg e] at h2
          exact Or.inl ⟨by simp [e, h1], h2⟩
      · exact Or.inr (Or.inl ⟨List.mem_cons_of_mem _ h1, h2⟩)
      · rw [setMemberOf_members] at h1
        exact Or.inr (Or.inr ⟨x, List.mem_cons_of_mem _ hx, ms, h1, h2, h3⟩)
    · rename_i ms hs
      have hc : ∀ x, ((pointTo o ms (h.setMemberOf o none)).obj x).members = (h.obj x).members :=
        fun x => core_members (by rw [pointTo_core, setMemberOf_core])
      rcases ih (pointTo o ms (h.setMemberOf o none)) with
        ⟨h1, h2⟩ | ⟨h1, h2⟩ | ⟨x, hx, ms', h1, h2, h3⟩
      · simp only
        rw [pointTo_memberOf, setMemberOf_memberOf] at h2
        by_cases e : b ∈ ms
        · rw [if_pos e] at h2
          exact Or.inr (Or.inr ⟨o, by simp, ms, hs, e, h2⟩)
        · rw [if_neg e] at h2
          by_cases e' : b = o
          · rw [if_pos e'] at h2
            exact Or.inr (Or.inl ⟨by simp [e'], h2⟩)
          · rw [if_neg e'] at h2
            exact Or.inl ⟨by simp [e', h1], h2⟩
      · exact Or.inr (Or.inl ⟨List.mem_cons_of_mem _ h1, h2⟩)
      · rw [hc] at h1
        exact Or.inr (Or.inr ⟨x, List.mem_cons_of_mem _ hx, ms', h1, h2, h3⟩)

/-! ### `find` -/

lemma firstWith_ok {h : Heap} {u : String} {l : List ℕ} {x : ℕ} (hk : firstWith h u l = .ok x) :
    ∃ pre post, l = pre ++ x :: post ∧ (h.obj x).uid = some u ∧
      ∀ y ∈ pre, (h.obj y).uid ≠ some u := by
  induction l with
  | nil => simp [firstWith] at hk
  | cons o os ih =>
    simp only [firstWith] at hk
    cases ho : (h.obj o).uid with
    | none => rw [ho] at hk; simp at hk
    | some v =>
      rw [ho] at hk
      simp only at hk
      split_ifs at hk with e
      · simp only [Except.ok.injEq] at hk
        subst hk
        exact ⟨[], os, rfl, by rw [ho, e], by simp⟩
      · obtain ⟨pre, post, h1, h2, h3⟩ := ih hk
        refine ⟨o :: pre, post, by rw [h1]; rfl, h2, ?_⟩
        intro y hy
        rcases List.mem_cons.1 hy with rfl | hy
        · rw [ho]; simpa using e
        · exact h3 y hy

lemma firstWith_mem {h : Heap} {u : String} {l : List ℕ} {x : ℕ} (hk : firstWith h u l = .ok x) :
    x ∈ l := by
  obtain ⟨pre, post, h1, _⟩ := firstWith_ok hk
  rw [h1]; simp

lemma firstWith_missing {h : Heap} {u : String} {l : List ℕ} (hu : ∀ y ∈ l, (h.obj y).uid.isSome)
    (hm : ∀ y ∈ l, (h.obj y).uid ≠ some u) : firstWith h u l = .error .keyError := by
  induction l with
  | nil => rfl
  | cons o os ih =>
    simp only [firstWith]
    obtain ⟨v, hv⟩ := Option.isSome_iff_exists.1 (hu o (by simp))
    have hne : v ≠ u := by
      have := hm o (by simp)
      rw [hv] at this
      simpa using this
    rw [hv]
    simp only [if_neg hne]
    exact ih (fun y hy => hu y (List.mem_cons_of_mem _ hy))
      (fun y hy => hm y (List.mem_cons_of_mem _ hy))

lemma firstWith_eq {h : Heap} {u : String} {pre post : List ℕ} {x : ℕ}
    (hu : ∀ y ∈ pre, (h.obj y).uid.isSome) (hm : ∀ y ∈ pre, (h.obj y).uid ≠ some u)
    (hx : (h.obj x).uid = some u) : firstWith h u (pre ++ x :: post) = .ok x := by
  induction pre with
  | nil => simp [firstWith, hx]
  | cons o os ih =>
    simp only [List.cons_append, firstWith]
    obtain ⟨v, hv⟩ := Option.isSome_iff_exists.1 (hu o (by simp))
    have hne : v ≠ u := by
      have := hm o (by simp)
      rw [hv] at this
      simpa using this
    rw [hv]
    simp only [if_neg hne]
    exact ih (fun y hy => hu y (List.mem_cons_of_mem _ hy))
      (fun y hy => hm y (List.mem_cons_of_mem _ hy))

lemma firstWith_congr {h h' : Heap} {u : String} {l : List ℕ}
    (hc : ∀ y ∈ l, (h.obj y).uid = (h'.obj y).uid) : firstWith h u l = firstWith h' u l := by
  induction l with
  | nil => rfl
  | cons o os ih =>
    simp only [firstWith]
    rw [hc o (by simp), ih fun y hy => hc y (List.mem_cons_of_mem _ hy)]

lemma find_ok {h : Heap} {l gr : List ℕ} {u : String} {x : ℕ} (hk : find h l gr u = .ok x) :
    firstWith h u l = .ok x ∧ x ∉ gr := by
  unfold find at hk
  cases hf : firstWith h u l with
  | error e => rw [hf] at hk; simp at hk
  | ok y =>
    rw [hf] at hk
    simp only at hk
    split_ifs at hk with hc
    simp only [Except.ok.injEq] at hk
    subst hk
    exact ⟨rfl, hc⟩

lemma findAll_ok {h : Heap} {l gr : List ℕ} {us : List String} {xs : List ℕ}
    (hk : findAll h l gr us = .ok xs) :
    List.Forall₂ (fun u x => firstWith h u l = .ok x ∧ x ∉ gr) us xs := by
  induction us generalizing xs with
  | nil =>
    simp only [findAll, Except.ok.injEq] at hk
    subst hk; exact .nil
  | cons u us ih =>
    simp only [findAll] at hk
    cases hf : find h l gr u with
    | error e => rw [hf] at hk; simp at hk
    | ok x =>
      rw [hf] at hk
      cases hr : findAll h l gr us with
      | error e => rw [hr] at hk; simp at hk
      | ok ys =>
        rw [hr] at hk
        simp only [Except.ok.injEq] at hk
        subst hk
        exact .cons (find_ok hf) (ih hr)

lemma findAll_mem {h : Heap} {l gr : List ℕ} {us : List String} {xs : List ℕ}
    (hk : findAll h l gr us = .ok xs) : ∀ x ∈ xs, x ∈ l ∧ x ∉ gr ∧ ∃ u ∈ us, (h.obj x).uid = some u := by
  have := findAll_ok hk
  clear hk
  induction this with
  | nil => simp
  | cons hd _ ih =>
    intro x hx
    rcases List.mem_cons.1 hx with rfl | hx
    · obtain ⟨_, _, _, h2, _⟩ := firstWith_ok hd.1
      exact ⟨firstWith_mem hd.1, hd.2, _, by simp, h2⟩
    · obtain ⟨h1, h2, u, hu, h3⟩ := ih x hx
      exact ⟨h1, h2, u, List.mem_cons_of_mem _ hu, h3⟩

/-! ### The invariant -/

/-- Invariant of the heap.  `P` says for which objects `member_of` has to agree
with `members`. -/
structure Inv (P : ℕ → Prop) (h : Heap) : Prop where
  wfMem : ∀ a < h.next, ∀ ms, (h.obj a).members = some ms → ∀ m ∈ ms, m < h.next
  wfOf : ∀ a < h.next, ∀ g, (h.obj a).memberOf = some g → g < h.next
  nest : ∀ a < h.next, ∀ ms, (h.obj a).members = some ms → ∀ m ∈ ms, (h.obj m).members = none
  agree : ∀ a < h.next, P a → ∀ g, (h.obj a).memberOf = some g → (h.obj g).uid.isSome →
    ∃ ms, (h.obj g).members = some ms ∧ a ∈ ms

lemma Inv.newGroup {P : ℕ → Prop} {h : Heap} (hi : Inv P h) (H : HashFn)
    {os : List ℕ} (hv : ∀ o ∈ os, o < h.next) (sp ex : Bool) :
    Inv P (newGroup H h os sp ex).2 := by
  obtain ⟨he, -⟩ := newGroup_spec H h hv sp ex
  generalize Grouping.newGroup H h os sp ex = r at *
  have hmem : ∀ a < h.next, (r.2.obj a).members = (h.obj a).members := fun a ha =>
    core_members (he.core a ha)
  refine ⟨?_, ?_, ?_, ?_⟩
  · intro a ha ms hms m hm
    rw [he.next] at ha ⊢
    rcases Nat.lt_succ_iff_lt_or_eq.1 ha with h1 | rfl
    · rw [hmem a h1] at hms
      exact Nat.lt_succ_of_lt (hi.wfMem a h1 ms hms m hm)
    · rcases he.self_members with h2 | ⟨h2, -⟩
      · rw [h2] at hms; simp at hms
      · rw [h2, Option.some.injEq] at hms
        subst hms
        exact Nat.lt_succ_of_lt (hv m hm)
  · intro a ha g hg
    rw [he.next] at ha ⊢
    rcases Nat.lt_succ_iff_lt_or_eq.1 ha with h1 | rfl
    · rcases he.memberOf a h1 with h2 | ⟨-, h2⟩
      · rw [h2] at hg
        exact Nat.lt_succ_of_lt (hi.wfOf a h1 g hg)
      · rw [h2, Option.some.injEq] at hg
        omega
    · rw [he.self_memberOf] at hg; simp at hg
  · intro a ha ms hms m hm
    rw [he.next] at ha
    rcases Nat.lt_succ_iff_lt_or_eq.1 ha with h1 | rfl
    · rw [hmem a h1] at hms
      rw [hmem m (hi.wfMem a h1 ms hms m hm)]
      exact hi.nest a h1 ms hms m hm
    · rcases he.self_members with h2 | ⟨h2, h3⟩
      · rw [h2] at hms; simp at hms
      · rw [h2, Option.some.injEq] at hms
        subst hms
        rw [hmem m (hv m hm)]
        exact h3 m hm
  · intro a ha hPa g hg hu
    rw [he.next] at ha
    rcases Nat.lt_succ_iff_lt_or_eq.1 ha with h1 | rfl
    · rcases he.memberOf a h1 with h2 | ⟨h2, h3⟩
      · rw [h2] at hg
        have hglt := hi.wfOf a h1 g hg
        rw [hmem g hglt]
        apply hi.agree a h1 hPa g hg
        rw [← core_uid (he.core g hglt)]
        exact hu
      · rw [h3, Option.some.injEq] at hg
        subst hg
        cases hr : r.1 with
        | error e => rw [he.error_uid e hr] at hu; simp at hu
        | ok g => exact ⟨os, he.ok_members g hr, h2⟩
    · rw [he.self_memberOf] at hg; simp at hg

lemma Inv.copyAll {h : Heap} (hi : Inv (fun _ => True) h) {l : List ℕ}
    (hv : ∀ o ∈ l, o < h.next) : Inv (fun a => a ∉ (copyAll l h).1) (copyAll l h).2 := by
  have hsplit : ∀ a < (Grouping.copyAll l h).2.next, ∃ b < h.next,
      (Grouping.copyAll l h).2.obj a = h.obj b ∧ (a ∉ (Grouping.copyAll l h).1 → a = b) := by
    intro a ha
    by_cases h1 : a < h.next
    · exact ⟨a, h1, copyAll_old l h h1, fun _ => rfl⟩
    · have hm : a ∈ (Grouping.copyAll l h).1 := copyAll_mem.2 ⟨by omega, ha⟩
      obtain ⟨o, ho, he⟩ := copyAll_source hv hm
      exact ⟨o, hv o ho, he, fun hc => absurd hm hc⟩
  have hnext := copyAll_next l h
  refine ⟨?_, ?_, ?_, ?_⟩
  · intro a ha ms hms m hm
    obtain ⟨b, hb, he, -⟩ := hsplit a ha
    rw [he] at hms
    have := hi.wfMem b hb ms hms m hm
    omega
  · intro a ha g hg
    obtain ⟨b, hb, he, -⟩ := hsplit a ha
    rw [he] at hg
    have := hi.wfOf b hb g hg
    omega
  · intro a ha ms hms m hm
    obtain ⟨b, hb, he, -⟩ := hsplit a ha
    rw [he] at hms
    rw [copyAll_old l h (hi.wfMem b hb ms hms m hm)]
    exact hi.nest b hb ms hms m hm
  · intro a ha hn g hg hu
    obtain ⟨b, hb, he, hab⟩ := hsplit a ha
    obtain rfl := hab hn
    rw [he] at hg
    have hglt := hi.wfOf a hb g hg
    rw [copyAll_old l h hglt] at hu ⊢
    exact hi.agree a hb trivial g hg hu

lemma Inv.reset {P : ℕ → Prop} {h : Heap} (hi : Inv P h) {l : List ℕ}
    (hv : ∀ o ∈ l, o < h.next) (hP : ∀ a < h.next, a ∉ l → P a) :
    Inv (fun _ => True) (resetMembership l h).2 := by
  have hn := reset_next l h
  have hm : ∀ a, ((resetMembership l h).2.obj a).members = (h.obj a).members := fun a =>
    core_members (reset_core l h a)
  have hu : ∀ a, ((resetMembership l h).2.obj a).uid = (h.obj a).uid := fun a =>
    core_uid (reset_core l h a)
  refine ⟨?_, ?_, ?_, ?_⟩
  · intro a ha ms hms m hm'
    rw [hn] at ha ⊢
    rw [hm] at hms
    exact hi.wfMem a ha ms hms m hm'
  · intro a ha g hg
    rw [hn] at ha ⊢
    rcases reset_memberOf l h a with ⟨-, h2⟩ | ⟨-, h2⟩ | ⟨x, hx, ms, -, -, h3⟩
    · rw [h2] at hg; exact hi.wfOf a ha g hg
    · rw [h2] at hg; simp at hg
    · rw [h3, Option.some.injEq] at hg
      subst hg
      exact hv _ hx
  · intro a ha ms hms m hm'
    rw [hn] at ha
    rw [hm] at hms ⊢
    exact hi.nest a ha ms hms m hm'
  · intro a ha _ g hg hus
    rw [hn] at ha
    rw [hm]
    rw [hu] at hus
    rcases reset_memberOf l h a with ⟨h1, h2⟩ | ⟨-, h2⟩ | ⟨x, hx, ms, h1, h2, h3⟩
    · rw [h2] at hg
      exact hi.agree a ha (hP a ha h1) g hg hus
    · rw [h2] at hg; simp at hg
    · rw [h3, Option.some.injEq] at hg
      subst hg
      exact ⟨ms, h1, h2⟩

lemma Inv.buildGroups {h : Heap} (hi : Inv (fun _ => True) h) (H : HashFn) (gr : List ℕ)
    (sp ex : Bool) (gs : List (List String)) {l : List ℕ} (hv : ∀ o ∈ l, o < h.next) :
    Inv (fun _ => True) (buildGroups H gr sp ex gs l h).2.2 := by
  induction gs generalizing l h with
  | nil => exact hi
  | cons us gs ih =>
    simp only [Grouping.buildGroups]
    cases hf : findAll h l gr us with
    | error e => exact hi
    | ok vals =>
      simp only
      have hvals : ∀ o ∈ vals, o < h.next := fun o ho => hv o (findAll_mem hf o ho).1
      have hi' := hi.newGroup H hvals sp ex
      obtain ⟨he, -⟩ := newGroup_spec H h hvals sp ex
      generalize Grouping.newGroup H h vals sp ex = r at *
      obtain ⟨r1, h2⟩ := r
      cases r1 with
      | error e => exact hi'
      | ok g =>
        simp only
        apply ih hi'
        intro o ho
        have hnx := he.next
        have hg := he.ok_self g rfl
        simp only at hnx
        rw [hnx]
        rcases List.mem_append.1 ho with h1 | h1
        · exact Nat.lt_succ_of_lt (hv o h1)
        · simp at h1; omega

lemma Inv.createGroups {h : Heap} (hi : Inv (fun _ => True) h) (H : HashFn) {l : List ℕ}
    (hv : ∀ o ∈ l, o < h.next) (gs : List (List String)) (cp sp ex : Bool) :
    Inv (fun _ => True) (createGroups H h l gs cp sp ex).heap := by
  simp only [Grouping.createGroups]
  cases cp with
  | true =>
    simp only [if_true]
    have hv' : ∀ o ∈ (Grouping.copyAll l h).1, o < (Grouping.copyAll l h).2.next := fun o ho =>
      (copyAll_mem.1 ho).2
    apply Inv.buildGroups
    · exact (hi.copyAll hv).reset hv' fun a _ h1 => h1
    · rw [reset_next]; exact hv'
  | false =>
    simp only [Bool.false_eq_true, if_false]
    apply Inv.buildGroups
    · exact hi.reset hv fun a _ _ => trivial
    · rw [reset_next]; exact hv

/-- `disable_orientations` only touches the `disabled` attribute. -/
lemma disable_spec (l : List ℕ) (us : List String) (h : Heap) :
    (disableOrientations l us h).2.next = h.next ∧
      ∀ a, ((disableOrientations l us h).2.obj a).members = (h.obj a).members ∧
        ((disableOrientations l us h).2.obj a).memberOf = (h.obj a).memberOf ∧
        ((disableOrientations l us h).2.obj a).uid = (h.obj a).uid ∧
        ((disableOrientations l us h).2.obj a).array = (h.obj a).array ∧
        ((disableOrientations l us h).2.obj a).mean = (h.obj a).mean := by
  induction us generalizing h with
  | nil => simp [disableOrientations]
  | cons u us ih =>
    simp only [disableOrientations]
    cases firstWith h u l with
    | error e => simp
    | ok x =>
      simp only
      obtain ⟨h1, h2⟩ := ih (h.set x { h.obj x with disabled := true })
      refine ⟨h1, fun a => ?_⟩
      obtain ⟨e1, e2, e3, e4, e5⟩ := h2 a
      rw [e1, e2, e3, e4, e5]
      by_cases hx : a = x
      · subst hx; simp
      · simp [set_ne _ _ _ hx]

lemma Inv.disable {h : Heap} (hi : Inv (fun _ => True) h) (l : List ℕ) (us : List String) :
    Inv (fun _ => True) (disableOrientations l us h).2 := by
  obtain ⟨hn, ho⟩ := disable_spec l us h
  refine ⟨?_, ?_, ?_, ?_⟩
  · intro a ha ms hms m hm
    rw [hn] at ha ⊢
    rw [(ho a).1] at hms
    exact hi.wfMem a ha ms hms m hm
  · intro a ha g hg
    rw [hn] at ha ⊢
    rw [(ho a).2.1] at hg
    exact hi.wfOf a ha g hg
  · intro a ha ms hms m hm
    rw [hn] at ha
    rw [(ho a).1] at hms
    rw [(ho m).1]
    exact hi.nest a ha ms hms m hm
  · intro a ha hP g hg hu
    rw [hn] at ha
    rw [(ho a).2.1] at hg
    rw [(ho g).2.2.1] at hu
    rw [(ho g).1]
    exact hi.agree a ha hP g hg hu

lemma Inv.measurement {h : Heap} (hi : Inv (fun _ => True) h) (H : HashFn) (p : Points) :
    Inv (fun _ => True) (newMeasurement H h p).2 := by
  unfold newMeasurement
  split_ifs
  · exact hi
  · have hold : ∀ a < h.next, ∀ o, (h.alloc o).obj a = h.obj a := fun a ha o =>
      alloc_obj_lt h o ha
    refine ⟨?_, ?_, ?_, ?_⟩
    · intro a ha ms hms m hm
      rcases Nat.lt_succ_iff_lt_or_eq.1 ha with h1 | rfl
      · simp only [hold a h1] at hms
        exact Nat.lt_succ_of_lt (hi.wfMem a h1 ms hms m hm)
      · simp at hms
    · intro a ha g hg
      rcases Nat.lt_succ_iff_lt_or_eq.1 ha with h1 | rfl
      · simp only [hold a h1] at hg
        exact Nat.lt_succ_of_lt (hi.wfOf a h1 g hg)
      · simp at hg
    · intro a ha ms hms m hm
      rcases Nat.lt_succ_iff_lt_or_eq.1 ha with h1 | rfl
      · simp only [hold a h1] at hms
        simp only [hold m (hi.wfMem a h1 ms hms m hm)]
        exact hi.nest a h1 ms hms m hm
      · simp at hms
    · intro a ha hP g hg hu
      rcases Nat.lt_succ_iff_lt_or_eq.1 ha with h1 | rfl
      · simp only [hold a h1] at hg
        have hglt := hi.wfOf a h1 g hg
        simp only [hold g hglt] at hu ⊢
        exact hi.agree a h1 hP g hg hu
      · simp at hg

/-- Every heap that a program can produce satisfies the invariant. -/
lemma reachable_inv {H : HashFn} {h : Heap} (hr : Reachable H h) : Inv (fun _ => True) h := by
  induction hr with
  | empty =>
    exact ⟨fun a ha => absurd ha (by simp), fun a ha => absurd ha (by simp),
      fun a ha => absurd ha (by simp), fun a ha => absurd ha (by simp)⟩
  | step op _ hv ih =>
    cases op with
    | measure p => exact ih.measurement H p
    | group os sp ex => exact ih.newGroup H hv sp ex
    | create l gs cp sp ex => exact ih.createGroups H hv gs cp sp ex
    | disable l us => exact ih.disable l us

/-! ### What a successful call builds -/

/-- Effect of the loop over the group lists on objects that existed before it. -/
lemma buildGroups_frame (H : HashFn) (gr : List ℕ) (sp ex : Bool) (gs : List (List String))
    {l : List ℕ} {h : Heap} (hv : ∀ o ∈ l, o < h.next) :
    h.next ≤ (buildGroups H gr sp ex gs l h).2.2.next ∧
    ∀ a < h.next, core ((buildGroups H gr sp ex gs l h).2.2.obj a) = core (h.obj a) ∧
      (((buildGroups H gr sp ex gs l h).2.2.obj a).memberOf = (h.obj a).memberOf ∨
        (a ∈ l ∧ (∃ us ∈ gs, ∃ u ∈ us, (h.obj a).uid = some u) ∧
          ∃ g, h.next ≤ g ∧
            ((buildGroups H gr sp ex gs l h).2.2.obj a).memberOf = some g)) := by
  induction gs generalizing l h with
  | nil => exact ⟨le_refl _, fun a _ => ⟨rfl, Or.inl rfl⟩⟩
  | cons us gs ih =>
    simp only [buildGroups]
    cases hf : findAll h l gr us with
    | error e => exact ⟨le_refl _, fun a _ => ⟨rfl, Or.inl rfl⟩⟩
    | ok vals =>
      simp only
      have hvals : ∀ o ∈ vals, o < h.next := fun o ho => hv o (findAll_mem hf o ho).1
      obtain ⟨he, -⟩ := newGroup_spec H h hvals sp ex
      generalize newGroup H h vals sp ex = r at *
      obtain ⟨r1, h2⟩ := r
      have hnx := he.next
      simp only at hnx
      have hmo : ∀ a < h.next, (h2.obj a).memberOf = (h.obj a).memberOf ∨
          (a ∈ l ∧ (∃ us' ∈ us :: gs, ∃ u ∈ us', (h.obj a).uid = some u) ∧
            (h2.obj a).memberOf = some h.next) := by
        intro a ha
        rcases he.memberOf a ha with h1 | ⟨h1, h1'⟩
        · exact Or.inl h1
        · obtain ⟨m1, -, u, hu, m2⟩ := findAll_mem hf a h1
          exact Or.inr ⟨m1, ⟨us, by simp, u, hu, m2⟩, h1'⟩
      cases r1 with
      | error e =>
        refine ⟨by simp only; omega, fun a ha => ⟨he.core a ha, ?_⟩⟩
        rcases hmo a ha with h1 | ⟨h1, h1', h1''⟩
        · exact Or.inl h1
        · exact Or.inr ⟨h1, h1', h.next, le_refl _, h1''⟩
      | ok g =>
        simp only
        have hg := he.ok_self g rfl
        obtain ⟨i1, i2⟩ := @ih (l ++ [g]) h2 (by
          intro o ho
          rw [hnx]
          rcases List.mem_append.1 ho with h1 | h1
          · exact Nat.lt_succ_of_lt (hv o h1)
          · simp at h1; omega)
        refine ⟨by omega, fun a ha => ?_⟩
        obtain ⟨c1, c2⟩ := i2 a (by omega)
        refine ⟨c1.trans (he.core a ha), ?_⟩
        rcases c2 with h1 | ⟨h1, ⟨us', hus', u, hu, h1'⟩, g', hg', h1''⟩
        · rcases hmo a ha with h3 | ⟨h3, h3', h3''⟩
          · exact Or.inl (h1.trans h3)
          · exact Or.inr ⟨h3, h3', h.next, le_refl _, h1.trans h3''⟩
        · right
          refine ⟨?_, ⟨us', List.mem_cons_of_mem _ hus', u, hu, ?_⟩, g', by omega, h1''⟩
          · rcases List.mem_append.1 h1 with h3 | h3
            · exact h3
            · simp at h3; omega
          · rw [← core_uid (he.core a ha)]; exact h1'

/-- What is built for one list of uids: a completed group whose members are the
first objects of the collection with these uids. -/
structure Built (H : HashFn) (sp : Bool) (base gr : List ℕ) (h0 h : Heap) (us : List String)
    (g : ℕ) : Prop where
  fresh : h0.next ≤ g
  lt : g < h.next
  ex : ∃ ms, (h.obj g).members = some ms ∧ (∀ m ∈ ms, m < h0.next) ∧
    List.Forall₂ (fun u m => firstWith h0 u base = .ok m ∧ m ∉ gr ∧ (h0.obj m).members = none) us ms ∧
    GroupData H h0 ms sp (h.obj g)

lemma GroupData.congr {H : HashFn} {h h' : Heap} {os : List ℕ} {sp : Bool} {o o' : Obj}
    (hd : GroupData H h os sp o) (hc : ∀ a ∈ os, (h.obj a).array = (h'.obj a).array)
    (ho : core o' = core o) : GroupData H h' os sp o' := by
  obtain ⟨ps, h1, h2, arr, h3, h4, h5, h6, h7, h8⟩ := hd.ex
  refine ⟨⟨ps, ?_, h2, arr, h3, h4, ?_, ?_, ?_, ?_⟩⟩
  · rw [← h1]
    exact List.map_congr_left fun a ha => (hc a ha).symm
  · rw [core_array ho, h5]
  · rw [core_uid ho, h6]
  · have := congrArg Obj.mean ho
    simp only [core] at this
    rw [this, h7]
  · have := congrArg Obj.disabled ho
    simp only [core] at this
    rw [this, h8]

lemma firstWith_append_left {h : Heap} {u : String} {l m : List ℕ} {x : ℕ}
    (hk : firstWith h u (l ++ m) = .ok x) (hx : x ∉ m) : firstWith h u l = .ok x := by
  induction l with
  | nil => exact absurd (firstWith_mem hk) hx
  | cons o os ih =>
    simp only [List.cons_append, firstWith] at hk ⊢
    cases ho : (h.obj o).uid with
    | none => rw [ho] at hk; simp at hk
    | some v =>
      rw [ho] at hk
      simp only at hk ⊢
      split_ifs at hk ⊢
      · exact hk
      · exact ih hk

/-- A successful loop: one new group per list, in order, with the right members. -/
lemma buildGroups_ok (H : HashFn) (gr : List ℕ) (sp ex : Bool) (gs : List (List String))
    {base done : List ℕ} {h0 h : Heap} (hb : ∀ o ∈ base, o < h0.next) (hle : h0.next ≤ h.next)
    (hcore : ∀ a < h0.next, core (h.obj a) = core (h0.obj a))
    (hdone : ∀ g ∈ done, h0.next ≤ g ∧ g < h.next ∧ (h.obj g).members.isSome)
    (hk : (buildGroups H gr sp ex gs (base ++ done) h).1 = .ok ()) :
    ∃ new, (buildGroups H gr sp ex gs (base ++ done) h).2.1 = base ++ done ++ new ∧
      List.Forall₂ (Built H sp base gr h0 (buildGroups H gr sp ex gs (base ++ done) h).2.2) gs new ∧
      (∀ g ∈ new, h.next ≤ g) ∧ new.Nodup := by
  induction gs generalizing done h with
  | nil => exact ⟨[], by simp [buildGroups], .nil, by simp, by simp⟩
  | cons us gs ih =>
    simp only [buildGroups] at hk ⊢
    cases hf : findAll h (base ++ done) gr us with
    | error e => rw [hf] at hk; simp at hk
    | ok vals =>
      rw [hf] at hk
      simp only at hk ⊢
      have hlt : ∀ o ∈ base ++ done, o < h.next := by
        intro o ho
        rcases List.mem_append.1 ho with h1 | h1
        · exact lt_of_lt_of_le (hb o h1) hle
        · exact (hdone o h1).2.1
      have hvals : ∀ o ∈ vals, o < h.next := fun o ho => hlt o (findAll_mem hf o ho).1
      obtain ⟨he, hd⟩ := newGroup_spec H h hvals sp ex
      generalize newGroup H h vals sp ex = r at *
      obtain ⟨r1, h2⟩ := r
      cases r1 with
      | error e => simp at hk
      | ok g =>
        simp only at hk ⊢
        have hnx := he.next
        simp only at hnx
        have hg : g = h.next := he.ok_self g rfl
        have hmem : (h2.obj h.next).members = some vals := he.ok_members g rfl
        have hplain : ∀ o ∈ vals, (h.obj o).members = none := by
          rcases he.self_members with h1 | ⟨-, h1⟩
          · simp only at h1
            rw [hmem] at h1; simp at h1
          · exact h1
        have hnd : ∀ o ∈ vals, o ∉ done := fun o ho hc => by
          have := (hdone o hc).2.2
          rw [hplain o ho] at this
          simp at this
        have hval0 : ∀ o ∈ vals, o < h0.next := by
          intro o ho
          rcases List.mem_append.1 (findAll_mem hf o ho).1 with h1 | h1
          · exact hb o h1
          · exact absurd h1 (hnd o ho)
        rw [List.append_assoc] at hk ⊢
        have hcore2 : ∀ a < h0.next, core (h2.obj a) = core (h0.obj a) := by
          intro a ha
          rw [← hcore a ha]
          exact he.core a (by omega)
        obtain ⟨new, e1, e2, e3, e4⟩ := @ih (done ++ [g]) h2 (by omega) hcore2 (by
          intro x hx
          rcases List.mem_append.1 hx with h1 | h1
          · obtain ⟨d1, d2, d3⟩ := hdone x h1
            refine ⟨d1, by omega, ?_⟩
            rw [core_members (he.core x d2)]
            exact d3
          · simp only [List.mem_singleton] at h1
            subst h1
            refine ⟨by omega, by omega, ?_⟩
            rw [hg, hmem]; simp) hk
        have hfr := buildGroups_frame H gr sp ex gs (l := base ++ (done ++ [g])) (h := h2) (by
          intro o ho
          rcases List.mem_append.1 ho with h1 | h1
          · have := hb o h1; omega
          · rcases List.mem_append.1 h1 with h1 | h1
            · have := (hdone o h1).2.1; omega
            · simp only [List.mem_singleton] at h1; omega)
        refine ⟨g :: new, ?_, ?_, ?_, ?_⟩
        · rw [e1]; simp
        · refine .cons ⟨by omega, by omega, vals, ?_, hval0, ?_, ?_⟩ e2
          · rw [core_members (hfr.2 g (by omega)).1, hg, hmem]
          · have h3 := findAll_ok hf
            have h4 : ∀ u x, firstWith h u (base ++ done) = .ok x ∧ x ∉ gr → x ∈ vals →
                firstWith h0 u base = .ok x ∧ x ∉ gr ∧ (h0.obj x).members = none := by
              intro u x hx hxv
              refine ⟨?_, hx.2, ?_⟩
              · rw [← firstWith_append_left hx.1 (hnd x hxv)]
                apply firstWith_congr
                intro y hy
                exact (core_uid (hcore y (hb y hy))).symm
              · rw [← core_members (hcore x (hval0 x hxv))]
                exact hplain x hxv
            rw [List.forall₂_iff_get] at h3 ⊢
            refine ⟨h3.1, fun i h1 h2 => ?_⟩
            exact h4 _ _ (h3.2 i h1 h2) (List.get_mem _ _)
          · refine (hd g rfl).congr ?_ (hfr.2 g (by omega)).1
            intro a ha
            exact core_array (hcore a (hval0 a ha))
        · intro x hx
          rcases List.mem_cons.1 hx with rfl | hx
          · omega
          · have := e3 x hx; omega
        · rw [List.nodup_cons]
          refine ⟨fun hc => ?_, e4⟩
          have := e3 g hc; omega

/-- With pairwise disjoint uid lists every member of every new group points to it. -/
lemma buildGroups_points (H : HashFn) (gr : List ℕ) (sp ex : Bool) (gs : List (List String))
    {l : List ℕ} {h : Heap} (hv : ∀ o ∈ l, o < h.next) (hd : gs.Pairwise List.Disjoint)
    (hk : (buildGroups H gr sp ex gs l h).1 = .ok ()) :
    ∀ g, h.next ≤ g → g < (buildGroups H gr sp ex gs l h).2.2.next →
      ∀ ms, ((buildGroups H gr sp ex gs l h).2.2.obj g).members = some ms →
        ∀ m ∈ ms, ((buildGroups H gr sp ex gs l h).2.2.obj m).memberOf = some g := by
  induction gs generalizing l h with
  | nil =>
    intro g h1 h2
    simp only [buildGroups] at h2
    omega
  | cons us gs ih =>
    rw [List.pairwise_cons] at hd
    simp only [buildGroups] at hk ⊢
    cases hf : findAll h l gr us with
    | error e => rw [hf] at hk; simp at hk
    | ok vals =>
      rw [hf] at hk
      simp only at hk ⊢
      have hvals : ∀ o ∈ vals, o < h.next := fun o ho => hv o (findAll_mem hf o ho).1
      obtain ⟨he, -⟩ := newGroup_spec H h hvals sp ex
      generalize newGroup H h vals sp ex = r at *
      obtain ⟨r1, h2⟩ := r
      cases r1 with
      | error e => simp at hk
      | ok g =>
        simp only at hk ⊢
        have hnx := he.next
        simp only at hnx
        have hg : g = h.next := he.ok_self g rfl
        have hmem : (h2.obj h.next).members = some vals := he.ok_members g rfl
        have hv2 : ∀ o ∈ l ++ [g], o < h2.next := by
          intro o ho
          rcases List.mem_append.1 ho with h1 | h1
          · have := hv o h1; omega
          · simp only [List.mem_singleton] at h1; omega
        have hfr := buildGroups_frame H gr sp ex gs (l := l ++ [g]) (h := h2) hv2
        intro g' h1 h1' ms hms m hm
        rcases Nat.eq_or_lt_of_le h1 with e | e
        · subst e
          rw [core_members (hfr.2 h.next (by omega)).1, hmem, Option.some.injEq] at hms
          subst hms
          have hmlt := hvals m hm
          obtain ⟨-, hor⟩ := hfr.2 m (by omega)
          have hpt : (h2.obj m).memberOf = some h.next := he.ok_memberOf g rfl m hm
          rcases hor with h3 | ⟨-, ⟨us', hus', u, hu, h3⟩, -⟩
          · rw [h3, hpt]
          · obtain ⟨-, -, v, hv', h4⟩ := findAll_mem hf m hm
            rw [core_uid (he.core m hmlt), h4, Option.some.injEq] at h3
            subst h3
            exact absurd hu (hd.1 us' hus' hv')
        · exact ih hv2 hd.2 hk g' (by omega) h1' ms hms m hm

/-! ### `create_groups` as a whole -/

/-- The working list and heap before any group is built. -/
def startOf (copy : Bool) (l : List ℕ) (h : Heap) : List ℕ × Heap :=
  if copy then copyAll l h else (l, h)

/-- The heap after the loop that resets membership. -/
def resetOf (copy : Bool) (l : List ℕ) (h : Heap) : List ℕ × Heap :=
  resetMembership (startOf copy l h).1 (startOf copy l h).2

lemma startOf_lt {copy : Bool} {l : List ℕ} {h : Heap} (hv : ∀ o ∈ l, o < h.next) :
    ∀ o ∈ (startOf copy l h).1, o < (startOf copy l h).2.next := by
  cases copy with
  | true => exact fun o ho => (copyAll_mem.1 ho).2
  | false => exact hv

lemma resetOf_next (copy : Bool) (l : List ℕ) (h : Heap) :
    (resetOf copy l h).2.next = (startOf copy l h).2.next := reset_next _ _

lemma resetOf_lt {copy : Bool} {l : List ℕ} {h : Heap} (hv : ∀ o ∈ l, o < h.next) :
    ∀ o ∈ (startOf copy l h).1, o < (resetOf copy l h).2.next := by
  rw [resetOf_next]; exact startOf_lt hv

lemma startOf_next_le (copy : Bool) (l : List ℕ) (h : Heap) :
    h.next ≤ (startOf copy l h).2.next := by
  cases copy with
  | true => simp only [startOf, if_true, copyAll_next]; omega
  | false => exact le_refl _

lemma startOf_old (copy : Bool) (l : List ℕ) (h : Heap) {a : ℕ} (ha : a < h.next) :
    (startOf copy l h).2.obj a = h.obj a := by
  cases copy with
  | true => exact copyAll_old l h ha
  | false => rfl

lemma resetOf_old_core (copy : Bool) (l : List ℕ) (h : Heap) {a : ℕ} (ha : a < h.next) :
    core ((resetOf copy l h).2.obj a) = core (h.obj a) := by
  rw [resetOf, reset_core, startOf_old copy l h ha]

lemma startOf_obj (copy : Bool) {l : List ℕ} {h : Heap} (hv : ∀ o ∈ l, o < h.next) :
    (startOf copy l h).1.map (startOf copy l h).2.obj = l.map h.obj := by
  cases copy with
  | true => exact copyAll_obj l h hv
  | false => rfl

lemma startOf_length (copy : Bool) (l : List ℕ) (h : Heap) :
    (startOf copy l h).1.length = l.length := by
  cases copy with
  | true => simp [startOf, copyAll_list]
  | false => rfl

/-- The working list has the same objects, up to `member_of`. -/
lemma resetOf_core (copy : Bool) {l : List ℕ} {h : Heap} (hv : ∀ o ∈ l, o < h.next) :
    (startOf copy l h).1.map (fun a => core ((resetOf copy l h).2.obj a))
      = l.map (fun a => core (h.obj a)) := by
  have h1 := congrArg (List.map core) (startOf_obj copy hv)
  simp only [List.map_map] at h1
  have h2 : (fun a => core ((resetOf copy l h).2.obj a))
      = core ∘ (startOf copy l h).2.obj := by
    funext a
    simp only [resetOf, reset_core, Function.comp]
  rw [h2, h1]
  rfl

lemma createGroups_eq (H : HashFn) (h : Heap) (l : List ℕ) (gs : List (List String))
    (copy sp ex : Bool) :
    createGroups H h l gs copy sp ex =
      let b := buildGroups H (resetOf copy l h).1 sp ex gs (startOf copy l h).1 (resetOf copy l h).2
      { result := match b.1 with
          | .error e => .error e
          | .ok () => .ok b.2.1
        callerList := if copy then l else b.2.1
        heap := b.2.2 } := rfl

/-- A successful call: the copies (or the originals), followed by one new group
per uid list. -/
lemma createGroups_ok {H : HashFn} {h : Heap} {l : List ℕ} {gs : List (List String)}
    {copy sp ex : Bool} (hv : ∀ o ∈ l, o < h.next) {L : List ℕ}
    (hk : (createGroups H h l gs copy sp ex).result = .ok L) :
    ∃ new, L = (startOf copy l h).1 ++ new ∧
      List.Forall₂ (Built H sp (startOf copy l h).1 (resetOf copy l h).1 (resetOf copy l h).2
        (createGroups H h l gs copy sp ex).heap) gs new ∧ new.Nodup ∧
      (∀ a < (resetOf copy l h).2.next,
        core ((createGroups H h l gs copy sp ex).heap.obj a)
          = core ((resetOf copy l h).2.obj a)) ∧
      (gs.Pairwise List.Disjoint → ∀ g ∈ new, ∀ ms,
        ((createGroups H h l gs copy sp ex).heap.obj g).members = some ms →
        ∀ m ∈ ms, ((createGroups H h l gs copy sp ex).heap.obj m).memberOf = some g) := by
  rw [createGroups_eq] at hk ⊢
  simp only at hk ⊢
  have hv0 := resetOf_lt (copy := copy) hv
  have hb := buildGroups_ok H (resetOf copy l h).1 sp ex gs (done := [])
    (h := (resetOf copy l h).2) hv0 (le_refl _) (fun _ _ => rfl) (by simp)
  have hf := buildGroups_frame H (resetOf copy l h).1 sp ex gs (h := (resetOf copy l h).2) hv0
  have hp := buildGroups_points H (resetOf copy l h).1 sp ex gs (h := (resetOf copy l h).2) hv0
  rw [List.append_nil] at hb
  generalize buildGroups H (resetOf copy l h).1 sp ex gs (startOf copy l h).1
    (resetOf copy l h).2 = b at *
  obtain ⟨b1, b2, b3⟩ := b
  cases b1 with
  | error e => simp at hk
  | ok u =>
    simp only [Except.ok.injEq] at hk hb hp hf ⊢
    obtain ⟨new, h1, h2, h3, h4⟩ := hb trivial
    refine ⟨new, by rw [← hk, h1], h2, h4, fun a ha => (hf.2 a ha).1, ?_⟩
    intro hd g hg ms hms m hm
    refine hp hd trivial g (h3 g hg) ?_ ms hms m hm
    obtain ⟨i, hi, rfl⟩ := List.getElem_of_mem hg
    rw [List.forall₂_iff_get] at h2
    exact (h2.2 i (by rw [h2.1]; exact hi) hi).lt

/-- What a call can do to objects that existed before it. -/
lemma createGroups_frame (H : HashFn) {h : Heap} {l : List ℕ} (gs : List (List String))
    (copy sp ex : Bool) (hv : ∀ o ∈ l, o < h.next) :
    h.next ≤ (createGroups H h l gs copy sp ex).heap.next ∧
    ∀ a < h.next, core ((createGroups H h l gs copy sp ex).heap.obj a) = core (h.obj a) ∧
      (((createGroups H h l gs copy sp ex).heap.obj a).memberOf
          = ((resetOf copy l h).2.obj a).memberOf ∨
        (a ∈ (startOf copy l h).1 ∧ ∃ g, (resetOf copy l h).2.next ≤ g ∧
          ((createGroups H h l gs copy sp ex).heap.obj a).memberOf = some g)) := by
  rw [createGroups_eq]
  simp only
  have hv0 := resetOf_lt (copy := copy) hv
  have hf := buildGroups_frame H (resetOf copy l h).1 sp ex gs (h := (resetOf copy l h).2) hv0
  have hn := resetOf_next copy l h
  have hs := startOf_next_le copy l h
  refine ⟨by omega, fun a ha => ?_⟩
  obtain ⟨h1, h2⟩ := hf.2 a (by omega)
  refine ⟨h1.trans (resetOf_old_core copy l h ha), ?_⟩
  rcases h2 with h2 | ⟨h2, -, g, hg, h3⟩
  · exact Or.inl h2
  · exact Or.inr ⟨h2, g, hg, h3⟩

end Attitude.Grouping
