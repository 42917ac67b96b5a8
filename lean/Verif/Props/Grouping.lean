import Verif.Lemmas.Grouping

/-! # Grouping of measurements: C37 - C44 -/

namespace Attitude.Props

open Attitude Grouping

namespace Spec

/-- `m` is one of the members of the group `g`. -/
def InGroup (h : Heap) (g m : ℕ) : Prop := ∃ ms, (h.obj g).members = some ms ∧ m ∈ ms

/-- `a` is a group (it has a `members` attribute). -/
def IsGroup (h : Heap) (a : ℕ) : Prop := (h.obj a).members ≠ none

/-- Two objects describe the same measurement: they have the same uid. -/
def SameMeasurement (h : Heap) (a b : ℕ) : Prop := (h.obj a).uid = (h.obj b).uid

/-- In the collection `l` no measurement is a member of two groups. -/
def AtMostOneGroup (h : Heap) (l : List ℕ) : Prop :=
  ∀ g ∈ l, ∀ g' ∈ l, ∀ m m', InGroup h g m → InGroup h g' m' → SameMeasurement h m m' → g = g'

/-- All objects of a collection exist. -/
def Exists (h : Heap) (l : List ℕ) : Prop := ∀ o ∈ l, o < h.next

/-- A collection of plain measurements with distinct uids. -/
def PlainCollection (h : Heap) (l : List ℕ) : Prop :=
  (∀ o ∈ l, ¬ IsGroup h o) ∧ (l.map fun o => (h.obj o).uid).Nodup

/-- The collections that can be produced from plain measurements with distinct
uids by successful calls with pairwise disjoint uid lists, where every call on a
collection that already has groups uses `copy=False`. -/
inductive CarefulHistory (H : HashFn) : Heap → List ℕ → Prop
  | start {h l} : Reachable H h → Exists h l → PlainCollection h l → CarefulHistory H h l
  | call {h l L} (gs : List (List String)) (copy sp ex : Bool) : CarefulHistory H h l →
      gs.Pairwise List.Disjoint → (copy = true → ∀ o ∈ l, ¬ IsGroup h o) →
      (createGroups H h l gs copy sp ex).result = .ok L →
      CarefulHistory H (createGroups H h l gs copy sp ex).heap L

/-- What serialising a measurement says about its group. -/
def SameSerialisation (h h' : Heap) (a : ℕ) : Prop := mappingMemberOf h a = mappingMemberOf h' a

/-- `m` is the first object of the collection with uid `u`. -/
def IsFirst (h : Heap) (l : List ℕ) (u : String) (m : ℕ) : Prop :=
  ∃ pre post, l = pre ++ m :: post ∧ (h.obj m).uid = some u ∧ ∀ y ∈ pre, (h.obj y).uid ≠ some u

end Spec

open Spec

/-! ### Example data -/

/-- Three, four and five points. -/
def pts (n : ℕ) : Points := List.replicate n 0

/-- A hash that distinguishes data sets by their size. -/
def sizeHash : HashFn := fun p =>
  if p.length = 3 then "a" else if p.length = 4 then "b" else if p.length = 5 then "c" else "g"

/-- A heap with the measurements `a` (address 0), `b` (1) and `c` (2). -/
noncomputable def heap3 : Heap :=
  Op.exec sizeHash (Op.exec sizeHash (Op.exec sizeHash ⟨0, fun _ => {}⟩
    (.measure (pts 3))) (.measure (pts 4))) (.measure (pts 5))

lemma heap3_reachable : Reachable sizeHash heap3 :=
  .step _ (.step _ (.step _ .empty trivial) trivial) trivial

lemma heap3_next : heap3.next = 3 := by
  simp [heap3, Op.exec, newMeasurement, pts]

lemma heap3_obj : heap3.obj 0 = { array := some (pts 3), mean := meanPts (pts 3), uid := some "a" } ∧
    heap3.obj 1 = { array := some (pts 4), mean := meanPts (pts 4), uid := some "b" } ∧
    heap3.obj 2 = { array := some (pts 5), mean := meanPts (pts 5), uid := some "c" } := by
  simp [heap3, Op.exec, newMeasurement, pts, Heap.alloc, sizeHash]

lemma centeredPts_length (p : Points) : (centeredPts p).length = p.length := by
  unfold centeredPts meanPts
  by_cases h : p = []
  · simp [h]
  · simp [h]

/-! ### C41, C42: invariants -/

/-- C41: after any history of operations, failing ones included, the members of
every group are plain measurements. -/
theorem C41_groups_never_nested {H : HashFn} {h : Heap} (hr : Reachable H h) {g m : ℕ}
    (hg : g < h.next) (hm : InGroup h g m) : ¬ IsGroup h m := by
  obtain ⟨ms, h1, h2⟩ := hm
  exact fun hc => hc ((reachable_inv hr).nest g hg ms h1 m h2)

/-- C42, first part: `member_of` never points to a completed group that does not
list the measurement. -/
theorem C42_member_of_agrees {H : HashFn} {h : Heap} (hr : Reachable H h) {m g : ℕ}
    (hm : m < h.next) (hg : (h.obj m).memberOf = some g) (hc : (h.obj g).uid.isSome) :
    InGroup h g m :=
  (reachable_inv hr).agree m hm trivial g hg hc

/-- C42, second part: after a successful call with pairwise disjoint uid lists the
result ends with one group per list, and every member of these groups points to
its group. -/
theorem C42_members_point_to_group {H : HashFn} {h : Heap} {l : List ℕ} (hl : Exists h l)
    {gs : List (List String)} (hd : gs.Pairwise List.Disjoint) {copy sp ex : Bool} {L : List ℕ}
    (hk : (createGroups H h l gs copy sp ex).result = .ok L) :
    ∃ base new, L = base ++ new ∧ base.length = l.length ∧ new.length = gs.length ∧
      ∀ g ∈ new, IsGroup (createGroups H h l gs copy sp ex).heap g ∧
        ∀ m, InGroup (createGroups H h l gs copy sp ex).heap g m →
          ((createGroups H h l gs copy sp ex).heap.obj m).memberOf = some g := by
  obtain ⟨new, h1, h2, -, -, h5⟩ := createGroups_ok hl hk
  refine ⟨_, new, h1, startOf_length copy l h, h2.length_eq.symm, fun g hg => ⟨?_, ?_⟩⟩
  · obtain ⟨i, hi, rfl⟩ := List.getElem_of_mem hg
    rw [List.forall₂_iff_get] at h2
    obtain ⟨ms, hms, -⟩ := (h2.2 i (by rw [h2.1]; exact hi) hi).ex
    intro hc
    simp only [List.get_eq_getElem] at hms
    rw [hms] at hc
    simp at hc
  · rintro m ⟨ms, hms, hm⟩
    exact h5 hd g hg ms hms m hm

/-! ### C37: at most one group -/

/-- The collection knows all members of its groups, and its plain measurements
have distinct uids. -/
private structure Tidy (h : Heap) (l : List ℕ) : Prop where
  closed : ∀ g ∈ l, ∀ m, InGroup h g m → m ∈ l ∧ ¬ IsGroup h m
  distinct : ∀ a ∈ l, ∀ b ∈ l, ¬ IsGroup h a → ¬ IsGroup h b → SameMeasurement h a b → a = b
  one : AtMostOneGroup h l
  nodup : l.Nodup

private lemma tidy_call {H : HashFn} {h : Heap} {l : List ℕ} (hl : Exists h l) (ht : Tidy h l)
    {gs : List (List String)} (hd : gs.Pairwise List.Disjoint) {copy sp ex : Bool}
    (hc : copy = true → ∀ o ∈ l, ¬ IsGroup h o) {L : List ℕ}
    (hk : (createGroups H h l gs copy sp ex).result = .ok L) :
    Tidy (createGroups H h l gs copy sp ex).heap L ∧
      Exists (createGroups H h l gs copy sp ex).heap L := by
  obtain ⟨new, h1, h2, hnd, h4, -⟩ := createGroups_ok hl hk
  have hbase := resetOf_lt (copy := copy) hl
  -- facts about the working list
  have key : (∀ g ∈ (startOf copy l h).1, ∀ m, InGroup (resetOf copy l h).2 g m →
        m ∈ (startOf copy l h).1 ∧ ¬ IsGroup (resetOf copy l h).2 m) ∧
      (∀ a ∈ (startOf copy l h).1, ∀ b ∈ (startOf copy l h).1, ¬ IsGroup (resetOf copy l h).2 a →
        ¬ IsGroup (resetOf copy l h).2 b → SameMeasurement (resetOf copy l h).2 a b → a = b) ∧
      AtMostOneGroup (resetOf copy l h).2 (startOf copy l h).1 := by
    cases copy with
    | false =>
      have hm : ∀ a, ((resetOf false l h).2.obj a).members = (h.obj a).members := fun a =>
        core_members (reset_core l h a)
      have hu : ∀ a, ((resetOf false l h).2.obj a).uid = (h.obj a).uid := fun a =>
        core_uid (reset_core l h a)
      refine ⟨?_, ?_, ?_⟩
      · rintro g hg m ⟨ms, e1, e2⟩
        rw [hm] at e1
        have := ht.closed g hg m ⟨ms, e1, e2⟩
        exact ⟨this.1, fun hcc => this.2 (by rwa [IsGroup, hm] at hcc)⟩
      · intro a ha b hb na nb hs
        rw [IsGroup, hm] at na nb
        rw [SameMeasurement, hu, hu] at hs
        exact ht.distinct a ha b hb na nb hs
      · rintro g hg g' hg' m m' ⟨ms, e1, e2⟩ ⟨ms', e1', e2'⟩ hs
        rw [hm] at e1 e1'
        rw [SameMeasurement, hu, hu] at hs
        exact ht.one g hg g' hg' m m' ⟨ms, e1, e2⟩ ⟨ms', e1', e2'⟩ hs
    | true =>
      have hpl := hc rfl
      have hcore : ∀ a, core ((resetOf true l h).2.obj a) = core ((copyAll l h).2.obj a) :=
        fun a => reset_core _ _ a
      have hplain : ∀ a ∈ (copyAll l h).1, ((resetOf true l h).2.obj a).members = none := by
        intro a ha
        obtain ⟨o, ho, he⟩ := copyAll_source hl ha
        rw [core_members (hcore a), he]
        by_contra hcc
        exact hpl o ho hcc
      refine ⟨?_, ?_, ?_⟩
      · rintro g hg m ⟨ms, e1, -⟩
        rw [hplain g hg] at e1; simp at e1
      · intro a ha b hb _ _ hs
        rw [SameMeasurement, core_uid (hcore a), core_uid (hcore b)] at hs
        have hmap := copyAll_obj l h hl
        obtain ⟨i, hi, rfl⟩ := List.getElem_of_mem ha
        obtain ⟨j, hj, rfl⟩ := List.getElem_of_mem hb
        have hlen : (copyAll l h).1.length = l.length := by simp [copyAll_list]
        have hli := List.length_map (as := (copyAll l h).1) (copyAll l h).2.obj
        have e : ∀ k (hk : k < (copyAll l h).1.length),
            (copyAll l h).2.obj ((copyAll l h).1[k]) = h.obj (l[k]'(by omega)) := by
          intro k hk
          have := List.getElem_map (copyAll l h).2.obj (l := (copyAll l h).1)
            (h := by rw [hli]; exact hk)
          rw [← this]
          simp only [hmap, List.getElem_map]
        have hs' := ht.distinct (l[i]'(by simpa [startOf, hlen] using hi)) (List.getElem_mem _)
          (l[j]'(by simpa [startOf, hlen] using hj)) (List.getElem_mem _)
          (hpl _ (List.getElem_mem _)) (hpl _ (List.getElem_mem _))
        have huid := hs' (by rw [SameMeasurement, ← e i hi, ← e j hj]; exact hs)
        have hij := (List.Nodup.getElem_inj_iff ht.nodup).1 huid
        subst hij
        rfl
      · rintro g hg g' hg' m m' ⟨ms, e1, e2⟩ _ _
        rw [hplain g hg] at e1; simp at e1
  obtain ⟨k1, k2, k3⟩ := key
  set base := (startOf copy l h).1 with hbdef
  set h0 := (resetOf copy l h).2 with hh0
  set gr := (resetOf copy l h).1 with hgr
  set h' := (createGroups H h l gs copy sp ex).heap with hh'
  have hm : ∀ a < h0.next, (h'.obj a).members = (h0.obj a).members := fun a ha =>
    core_members (h4 a ha)
  have hu : ∀ a < h0.next, (h'.obj a).uid = (h0.obj a).uid := fun a ha => core_uid (h4 a ha)
  have hgrp : ∀ b, b ∈ gr ↔ ∃ o ∈ base, InGroup h0 o b := by
    intro b
    rw [hgr, resetOf, reset_grouped]
    constructor
    · rintro ⟨o, ho, ms, e1, e2⟩
      exact ⟨o, ho, ms, by rw [← e1]; exact core_members (reset_core _ _ o), e2⟩
    · rintro ⟨o, ho, ms, e1, e2⟩
      exact ⟨o, ho, ms, by rw [← e1]; exact (core_members (reset_core _ _ o)).symm, e2⟩
  -- members of old groups
  have hold : ∀ g ∈ base, ∀ m, InGroup h' g m → InGroup h0 g m ∧ m < h0.next := by
    rintro g hg m ⟨ms, e1, e2⟩
    rw [hm g (hbase g hg)] at e1
    exact ⟨⟨ms, e1, e2⟩, hbase m (k1 g hg m ⟨ms, e1, e2⟩).1⟩
  -- members of new groups
  have hnew : ∀ i (hi : i < new.length) (hi' : i < gs.length), ∀ m, InGroup h' new[i] m →
      m ∈ base ∧ m ∉ gr ∧ (h0.obj m).members = none ∧ ∃ u ∈ gs[i], (h0.obj m).uid = some u := by
    rintro i hi hi' m ⟨ms, e1, e2⟩
    rw [List.forall₂_iff_get] at h2
    obtain ⟨ms', f1, -, f3, -⟩ := (h2.2 i hi' hi).ex
    simp only [List.get_eq_getElem] at f1
    rw [e1, Option.some.injEq] at f1
    subst f1
    obtain ⟨j, hj, rfl⟩ := List.getElem_of_mem e2
    rw [List.forall₂_iff_get] at f3
    obtain ⟨f4, f5, f6⟩ := f3.2 j (by rw [f3.1]; exact hj) hj
    simp only [List.get_eq_getElem] at f4 f5 f6
    obtain ⟨_, _, _, f7, _⟩ := firstWith_ok f4
    exact ⟨firstWith_mem f4, f5, f6, _, List.getElem_mem _, f7⟩
  have hlt : ∀ g ∈ new, h0.next ≤ g ∧ g < h'.next ∧ IsGroup h' g := by
    intro g hg
    obtain ⟨i, hi, rfl⟩ := List.getElem_of_mem hg
    rw [List.forall₂_iff_get] at h2
    have hB := h2.2 i (by rw [h2.1]; exact hi) hi
    obtain ⟨ms, f1, -⟩ := hB.ex
    refine ⟨hB.fresh, hB.lt, ?_⟩
    simp only [List.get_eq_getElem] at f1
    rw [IsGroup, f1]; simp
  have hlen : gs.length = new.length := h2.length_eq
  have hnext : h0.next ≤ h'.next := by
    have := buildGroups_frame H gr sp ex gs (l := base) (h := h0) hbase
    exact this.1
  have hexists : Exists h' L := by
    intro o ho
    rw [h1] at ho
    rcases List.mem_append.1 ho with h3 | h3
    · exact lt_of_lt_of_le (hbase o h3) hnext
    · exact (hlt o h3).2.1
  refine ⟨⟨?_, ?_, ?_, ?_⟩, hexists⟩
  · intro g hg m hmem
    rw [h1] at hg ⊢
    rcases List.mem_append.1 hg with h3 | h3
    · obtain ⟨e1, e2⟩ := hold g h3 m hmem
      obtain ⟨e3, e4⟩ := k1 g h3 m e1
      exact ⟨List.mem_append_left _ e3, by rw [IsGroup, hm m e2]; exact e4⟩
    · obtain ⟨i, hi, rfl⟩ := List.getElem_of_mem h3
      obtain ⟨e1, -, e3, -⟩ := hnew i hi (by omega) m hmem
      refine ⟨List.mem_append_left _ e1, ?_⟩
      rw [IsGroup, hm m (hbase m e1), e3]; simp
  · intro a ha b hb na nb hs
    rw [h1] at ha hb
    rcases List.mem_append.1 ha with ha | ha
    · rcases List.mem_append.1 hb with hb | hb
      · rw [IsGroup, hm a (hbase a ha)] at na
        rw [IsGroup, hm b (hbase b hb)] at nb
        rw [SameMeasurement, hu a (hbase a ha), hu b (hbase b hb)] at hs
        exact k2 a ha b hb na nb hs
      · exact absurd (hlt b hb).2.2 nb
    · exact absurd (hlt a ha).2.2 na
  · have hmix : ∀ g ∈ base, ∀ g' ∈ new, ∀ m m', InGroup h' g m → InGroup h' g' m' →
        ¬ SameMeasurement h' m m' := by
      intro g hg g' hg' m m' e e' hs
      obtain ⟨i, hi, rfl⟩ := List.getElem_of_mem hg'
      obtain ⟨e1, e2⟩ := hold g hg m e
      obtain ⟨e3, e4⟩ := k1 g hg m e1
      obtain ⟨f1, f2, f3, -⟩ := hnew i hi (by omega) m' e'
      rw [SameMeasurement, hu m e2, hu m' (hbase m' f1)] at hs
      have := k2 m e3 m' f1 e4 (fun hc => hc f3) hs
      subst this
      exact f2 ((hgrp m).2 ⟨g, hg, e1⟩)
    intro g hg g' hg' m m' e e' hs
    rw [h1] at hg hg'
    rcases List.mem_append.1 hg with hg | hg
    · rcases List.mem_append.1 hg' with hg' | hg'
      · obtain ⟨e1, e2⟩ := hold g hg m e
        obtain ⟨e1', e2'⟩ := hold g' hg' m' e'
        rw [SameMeasurement, hu m e2, hu m' e2'] at hs
        exact k3 g hg g' hg' m m' e1 e1' hs
      · exact absurd hs (hmix g hg g' hg' m m' e e')
    · rcases List.mem_append.1 hg' with hg' | hg'
      · exact absurd hs.symm (hmix g' hg' g hg m' m e' e)
      · obtain ⟨i, hi, rfl⟩ := List.getElem_of_mem hg
        obtain ⟨j, hj, rfl⟩ := List.getElem_of_mem hg'
        obtain ⟨f1, -, -, u, hu1, hu2⟩ := hnew i hi (by omega) m e
        obtain ⟨f1', -, -, u', hu1', hu2'⟩ := hnew j hj (by omega) m' e'
        rw [SameMeasurement, hu m (hbase m f1), hu m' (hbase m' f1'), hu2, hu2',
          Option.some.injEq] at hs
        subst hs
        rw [List.pairwise_iff_getElem] at hd
        rcases lt_trichotomy i j with hij | hij | hij
        · exact absurd hu1' (hd i j (by omega) (by omega) hij hu1)
        · subst hij; rfl
        · exact absurd hu1 (hd j i (by omega) (by omega) hij hu1')
  · rw [h1, List.nodup_append']
    refine ⟨?_, hnd, ?_⟩
    · cases copy with
      | false => exact ht.nodup
      | true =>
        rw [hbdef]
        simp only [startOf, if_true, copyAll_list]
        exact List.nodup_range'
    · intro x hx hx'
      have := hbase x hx
      have := (hlt x hx').1
      omega

/-- C37 as far as it holds: as long as every call uses pairwise disjoint uid lists
and no call copies a collection that already has groups, no measurement ends up in
two groups.  What is missing: overlapping lists and copying calls on collections
with groups, for which the claim is false (below). -/
theorem C37_at_most_one_group_partial {H : HashFn} {h : Heap} {l : List ℕ}
    (hh : CarefulHistory H h l) : AtMostOneGroup h l := by
  have : Tidy h l ∧ Exists h l := by
    induction hh with
    | start _ he hp =>
      refine ⟨⟨?_, ?_, ?_, hp.2.of_map⟩, he⟩
      · rintro g hg m ⟨ms, e, -⟩
        exact absurd (by rw [IsGroup, e]; simp) (hp.1 g hg)
      · intro a ha b hb _ _ hs
        exact List.inj_on_of_nodup_map hp.2 ha hb hs
      · rintro g hg _ _ m _ ⟨ms, e, -⟩
        exact absurd (by rw [IsGroup, e]; simp) (hp.1 g hg)
    | call gs copy sp ex _ hd hc hk ih => exact tidy_call ih.2 ih.1 hd hc hk
  exact this.1.one

/-- Hypotheses met: `heap3` with two calls without copying. -/
example : ∃ h l, CarefulHistory sizeHash h l ∧ ∃ g ∈ l, ∃ g' ∈ l, g ≠ g' ∧ IsGroup h g ∧
    IsGroup h g' := by
  obtain ⟨h0, h1, h2⟩ := heap3_obj
  have hs : CarefulHistory sizeHash heap3 [0, 1, 2] :=
    .start heap3_reachable (by intro o ho; rw [heap3_next]; simp at ho; omega)
      ⟨by intro o ho; simp at ho; rcases ho with rfl | rfl | rfl <;> simp [IsGroup, h0, h1, h2],
        by simp [h0, h1, h2]⟩
  have hr : (createGroups sizeHash heap3 [0, 1, 2] [["a", "b"], ["c"]] false).result
      = .ok [0, 1, 2, 3, 4] := by
    simp [createGroups, resetMembership, buildGroups, findAll, find, firstWith, newGroup, arraysOf,
      vstack, markMembers, Heap.alloc, Heap.set, Heap.setMemberOf, heap3_next, h0, h1, h2,
      centeredPts_length, pts]
  refine ⟨_, _, .call _ _ _ _ hs (by simp) (by simp) hr, 3, by simp, 4, by simp, by simp, ?_, ?_⟩
  all_goals
    simp [IsGroup, createGroups, resetMembership, buildGroups, findAll, find, firstWith, newGroup,
      arraysOf, vstack, markMembers, Heap.alloc, Heap.set, Heap.setMemberOf, heap3_next, h0, h1, h2,
      centeredPts_length, pts]

/-- The claim of C37 without restrictions, for a single call. -/
def Spec.OneGroupPerCall (H : HashFn) : Prop :=
  ∀ h l gs L, Reachable H h → Exists h l → PlainCollection h l →
    (createGroups H h l gs).result = .ok L →
    AtMostOneGroup (createGroups H h l gs).heap L

/-- The claim of C37 for two default calls, each with disjoint uid lists. -/
def Spec.OneGroupOverCalls (H : HashFn) : Prop :=
  ∀ h l gs L gs' L', Reachable H h → Exists h l → PlainCollection h l →
    gs.Pairwise List.Disjoint → gs'.Pairwise List.Disjoint →
    (createGroups H h l gs).result = .ok L →
    (createGroups H (createGroups H h l gs).heap L gs').result = .ok L' →
    AtMostOneGroup (createGroups H (createGroups H h l gs).heap L gs').heap L'

lemma heap3_exists : Exists heap3 [0, 1, 2] := by
  intro o ho; rw [heap3_next]; simp at ho; omega

lemma heap3_plain : PlainCollection heap3 [0, 1, 2] := by
  obtain ⟨h0, h1, h2⟩ := heap3_obj
  refine ⟨?_, by simp [h0, h1, h2]⟩
  intro o ho
  simp at ho
  rcases ho with rfl | rfl | rfl <;> simp [IsGroup, h0, h1, h2]

/-- C37 is false: one call accepts lists that share a uid, and the measurement then
is a member of both groups. -/
theorem C37_overlapping_lists_false : ¬ OneGroupPerCall sizeHash := by
  intro hc
  obtain ⟨h0, h1, h2⟩ := heap3_obj
  have hr : (createGroups sizeHash heap3 [0, 1, 2] [["a", "b"], ["a", "c"]]).result
      = .ok [3, 4, 5, 6, 7] := by
    simp [createGroups, copyAll, resetMembership, buildGroups, findAll, find, firstWith, newGroup,
      arraysOf, vstack, markMembers, Heap.alloc, Heap.set, Heap.setMemberOf, heap3_next, h0, h1, h2,
      centeredPts_length, pts]
  have := hc heap3 _ _ _ heap3_reachable heap3_exists heap3_plain hr 6 (by simp) 7 (by simp) 3 3
    ⟨[3, 4], by simp [createGroups, copyAll, resetMembership, buildGroups, findAll, find, firstWith,
      newGroup, arraysOf, vstack, markMembers, Heap.alloc, Heap.set, Heap.setMemberOf, heap3_next,
      h0, h1, h2, centeredPts_length, pts], by simp⟩
    ⟨[3, 5], by simp [createGroups, copyAll, resetMembership, buildGroups, findAll, find, firstWith,
      newGroup, arraysOf, vstack, markMembers, Heap.alloc, Heap.set, Heap.setMemberOf, heap3_next,
      h0, h1, h2, centeredPts_length, pts], by simp⟩ rfl
  simp at this

/-- The result of one default call. -/
noncomputable def firstCall : Outcome := createGroups sizeHash heap3 [0, 1, 2] [["a", "b"]]

lemma firstCall_result : firstCall.result = .ok [3, 4, 5, 6] := by
  obtain ⟨h0, h1, h2⟩ := heap3_obj
  simp [firstCall, createGroups, copyAll, resetMembership, buildGroups, findAll, find, firstWith,
    newGroup, arraysOf, vstack, markMembers, Heap.alloc, Heap.set, Heap.setMemberOf, heap3_next,
    h0, h1, h2, centeredPts_length, pts]

lemma firstCall_heap : firstCall.heap.next = 7 ∧
    firstCall.heap.obj 3 = { heap3.obj 0 with memberOf := some 6 } ∧
    firstCall.heap.obj 4 = { heap3.obj 1 with memberOf := some 6 } ∧
    firstCall.heap.obj 5 = heap3.obj 2 ∧
    (firstCall.heap.obj 6).members = some [3, 4] ∧ (firstCall.heap.obj 6).uid = some "g" ∧
    (firstCall.heap.obj 6).memberOf = none := by
  obtain ⟨h0, h1, h2⟩ := heap3_obj
  simp [firstCall, createGroups, copyAll, resetMembership, buildGroups, findAll, find, firstWith,
    newGroup, arraysOf, vstack, markMembers, Heap.alloc, Heap.set, Heap.setMemberOf, heap3_next,
    h0, h1, h2, centeredPts_length, pts, sizeHash]

lemma firstCall_reachable : Reachable sizeHash firstCall.heap :=
  .step (.create [0, 1, 2] [["a", "b"]] true false false) heap3_reachable heap3_exists

/-- C37 is false: with the default `copy=True` a second call does not notice that a
measurement already is in a group. -/
theorem C37_second_call_false : ¬ OneGroupOverCalls sizeHash := by
  intro hc
  obtain ⟨h0, h1, h2⟩ := heap3_obj
  obtain ⟨n, o3, o4, o5, m6, u6, _⟩ := firstCall_heap
  have hr : (createGroups sizeHash firstCall.heap [3, 4, 5, 6] [["a", "c"]]).result
      = .ok [7, 8, 9, 10, 11] := by
    simp [createGroups, copyAll, resetMembership, buildGroups, findAll, find, firstWith, newGroup,
      arraysOf, vstack, markMembers, pointTo, Heap.alloc, Heap.set, Heap.setMemberOf, n, o3, o4, o5,
      m6, u6, h0, h1, h2, centeredPts_length, pts]
  have := hc heap3 _ _ _ _ _ heap3_reachable heap3_exists heap3_plain (by simp) (by simp)
    firstCall_result hr 10 (by simp) 11 (by simp) 3 7
    ⟨[3, 4], by
      show ((createGroups sizeHash firstCall.heap [3, 4, 5, 6] [["a", "c"]]).heap.obj 10).members = _
      simp [createGroups, copyAll, resetMembership, buildGroups, findAll, find, firstWith,
        newGroup, arraysOf, vstack, markMembers, pointTo, Heap.alloc, Heap.set, Heap.setMemberOf, n,
        o3, o4, o5, m6, u6, h0, h1, h2, centeredPts_length, pts], by simp⟩
    ⟨[7, 9], by
      show ((createGroups sizeHash firstCall.heap [3, 4, 5, 6] [["a", "c"]]).heap.obj 11).members = _
      simp [createGroups, copyAll, resetMembership, buildGroups, findAll, find, firstWith,
        newGroup, arraysOf, vstack, markMembers, pointTo, Heap.alloc, Heap.set, Heap.setMemberOf, n,
        o3, o4, o5, m6, u6, h0, h1, h2, centeredPts_length, pts], by simp⟩
    (by
      show SameMeasurement (createGroups sizeHash firstCall.heap [3, 4, 5, 6] [["a", "c"]]).heap 3 7
      simp [SameMeasurement, createGroups, copyAll, resetMembership, buildGroups, findAll, find,
        firstWith, newGroup, arraysOf, vstack, markMembers, pointTo, Heap.alloc, Heap.set,
        Heap.setMemberOf, n, o3, o4, o5, m6, u6, h0, h1, h2, centeredPts_length, pts])
  simp at this

/-- Hypotheses of C41 and C42 are met by the group of the first call. -/
example : ∃ h g m, Reachable sizeHash h ∧ g < h.next ∧ m < h.next ∧ InGroup h g m ∧
    (h.obj m).memberOf = some g ∧ (h.obj g).uid.isSome := by
  obtain ⟨n, o3, _, _, m6, u6, _⟩ := firstCall_heap
  exact ⟨firstCall.heap, 6, 3, firstCall_reachable, by omega, by omega, ⟨[3, 4], m6, by simp⟩,
    by rw [o3], by rw [u6]; simp⟩

example : ∃ L, firstCall.result = .ok L ∧ [["a", "b"]].Pairwise List.Disjoint :=
  ⟨_, firstCall_result, by simp⟩

/-! ### C38, C39: what a call changes -/

/-- With `copy=True` an existing object can only change its `member_of`, and only
when it is a member of a group in the list; it then points to a copy of that group. -/
lemma copy_frame (H : HashFn) {h : Heap} {l : List ℕ} (gs : List (List String)) (sp ex : Bool)
    (hl : Exists h l) (a : ℕ) (ha : a < h.next) :
    core ((createGroups H h l gs true sp ex).heap.obj a) = core (h.obj a) ∧
      (((createGroups H h l gs true sp ex).heap.obj a).memberOf = (h.obj a).memberOf ∨
        ∃ g ∈ l, InGroup h g a ∧ ∃ g', h.next ≤ g' ∧
          ((createGroups H h l gs true sp ex).heap.obj a).memberOf = some g' ∧
          core ((createGroups H h l gs true sp ex).heap.obj g') = core (h.obj g)) := by
  have hf := createGroups_frame H gs true sp ex hl
  obtain ⟨h1, h2⟩ := hf.2 a ha
  refine ⟨h1, ?_⟩
  have hnot : a ∉ (startOf true l h).1 := fun hc => by
    have := (copyAll_mem.1 hc).1
    omega
  rcases h2 with h2 | ⟨h2, -⟩
  · rw [h2]
    rcases reset_memberOf (startOf true l h).1 (startOf true l h).2 a with
      ⟨-, h3⟩ | ⟨h3, -⟩ | ⟨o, ho, ms, h3, h4, h5⟩
    · left
      rw [resetOf, h3, startOf_old true l h ha]
    · exact absurd h3 hnot
    · right
      obtain ⟨g, hg, he⟩ := copyAll_source hl ho
      refine ⟨g, hg, ⟨ms, ?_, h4⟩, o, (copyAll_mem.1 ho).1, h5, ?_⟩
      · rw [← he]; exact h3
      · have hv0 := resetOf_lt (copy := true) hl
        have hb := buildGroups_frame H (resetOf true l h).1 sp ex gs (h := (resetOf true l h).2) hv0
        have e1 := (hb.2 o (hv0 o ho)).1
        rw [createGroups_eq]
        simp only
        rw [e1, resetOf, reset_core, ← he]
        rfl
  · exact absurd h2 hnot

/-- C38 as far as it holds: with the default `copy=True` a call (successful or not)
leaves the caller's list alone, and of all existing objects it changes only the
`member_of` of members of groups in the list.  What is missing: those `member_of`
do change (below). -/
theorem C38_inputs_unchanged_partial (H : HashFn) {h : Heap} {l : List ℕ} (hl : Exists h l)
    (gs : List (List String)) (sp ex : Bool) :
    (createGroups H h l gs true sp ex).callerList = l ∧
    ∀ a < h.next,
      { (createGroups H h l gs true sp ex).heap.obj a with memberOf := (h.obj a).memberOf }
        = h.obj a ∧
      ((∀ g ∈ l, ¬ InGroup h g a) → (createGroups H h l gs true sp ex).heap.obj a = h.obj a) := by
  refine ⟨rfl, fun a ha => ?_⟩
  obtain ⟨h1, h2⟩ := copy_frame H gs sp ex hl a ha
  refine ⟨?_, fun hn => ?_⟩
  · apply core_eq
    · rw [← h1]; rfl
    · rfl
  · apply core_eq h1
    rcases h2 with h2 | ⟨g, hg, h3, -⟩
    · exact h2
    · exact absurd h3 (hn g hg)

/-- C38 for collections without groups: nothing that existed changes. -/
theorem C38_plain_inputs_unchanged_partial (H : HashFn) {h : Heap} {l : List ℕ} (hl : Exists h l)
    (hp : ∀ o ∈ l, ¬ IsGroup h o) (gs : List (List String)) (sp ex : Bool) :
    ∀ a < h.next, (createGroups H h l gs true sp ex).heap.obj a = h.obj a := by
  intro a ha
  refine ((C38_inputs_unchanged_partial H hl gs sp ex).2 a ha).2 ?_
  rintro g hg ⟨ms, h1, -⟩
  exact hp g hg (by rw [IsGroup, h1]; simp)

example : Exists heap3 [0, 1, 2] ∧ ∀ o ∈ [0, 1, 2], ¬ IsGroup heap3 o :=
  ⟨heap3_exists, heap3_plain.1⟩

/-- The claim of C38: a default call changes no object reachable from its input. -/
def Spec.InputsUnchanged (H : HashFn) : Prop :=
  ∀ h l gs, Reachable H h → Exists h l → ∀ g ∈ l, ∀ m, InGroup h g m →
    (createGroups H h l gs).heap.obj m = h.obj m

/-- C38 is false: the members of a group in the input are redirected to the copy of
the group, even when no new group is requested. -/
theorem C38_members_redirected_false : ¬ InputsUnchanged sizeHash := by
  intro hc
  obtain ⟨h0, h1, h2⟩ := heap3_obj
  obtain ⟨n, o3, o4, o5, m6, u6, _⟩ := firstCall_heap
  have := hc firstCall.heap [3, 4, 5, 6] [] firstCall_reachable
    (by intro o ho; rw [n]; simp at ho; omega) 6 (by simp) 3 ⟨_, m6, by simp⟩
  simp [createGroups, copyAll, resetMembership, buildGroups, pointTo, Heap.alloc, Heap.set,
    Heap.setMemberOf, n, o3, o4, o5, m6, u6, h0, h1, h2] at this

/-- C39 as far as it holds: with the default `copy=True` a call, in particular a
failing one, leaves the caller's list alone, changes the membership of no
measurement outside the groups of the list, and every measurement that could be
serialised still can.  What is missing: members of existing groups are redirected
to copies of them, and `copy=False` (below). -/
theorem C39_failure_harmless_partial {H : HashFn} {h : Heap} (hr : Reachable H h) {l : List ℕ}
    (hl : Exists h l) (hu : ∀ o ∈ l, (h.obj o).uid.isSome) (gs : List (List String)) (sp ex : Bool) :
    (createGroups H h l gs true sp ex).callerList = l ∧
    ∀ a < h.next,
      ((∀ g ∈ l, ¬ InGroup h g a) →
        ((createGroups H h l gs true sp ex).heap.obj a).memberOf = (h.obj a).memberOf ∧
        SameSerialisation h (createGroups H h l gs true sp ex).heap a) ∧
      ((∃ r, mappingMemberOf h a = .ok r) →
        ∃ r, mappingMemberOf (createGroups H h l gs true sp ex).heap a = .ok r) := by
  refine ⟨rfl, fun a ha => ?_⟩
  have hsame : ((createGroups H h l gs true sp ex).heap.obj a).memberOf = (h.obj a).memberOf →
      SameSerialisation h (createGroups H h l gs true sp ex).heap a := by
    intro he
    unfold SameSerialisation mappingMemberOf
    rw [he]
    cases hg : (h.obj a).memberOf with
    | none => rfl
    | some g =>
      have hglt := (reachable_inv hr).wfOf a ha g hg
      simp only
      rw [core_uid (copy_frame H gs sp ex hl g hglt).1]
  obtain ⟨-, h2⟩ := copy_frame H gs sp ex hl a ha
  constructor
  · intro hn
    rcases h2 with h2 | ⟨g, hg, h3, -⟩
    · exact ⟨h2, hsame h2⟩
    · exact absurd h3 (hn g hg)
  · rintro ⟨r, hr'⟩
    rcases h2 with h2 | ⟨g, hg, -, g', -, h4, h5⟩
    · exact ⟨r, by rw [← hsame h2]; exact hr'⟩
    · obtain ⟨u, hu'⟩ := Option.isSome_iff_exists.1 (hu g hg)
      refine ⟨some u, ?_⟩
      unfold mappingMemberOf
      rw [h4]
      simp only
      rw [core_uid h5, hu']

example : Reachable sizeHash heap3 ∧ Exists heap3 [0, 1, 2] ∧
    ∀ o ∈ [0, 1, 2], (heap3.obj o).uid.isSome := by
  obtain ⟨h0, h1, h2⟩ := heap3_obj
  exact ⟨heap3_reachable, heap3_exists, by simp [h0, h1, h2]⟩

lemma arraysOf_error {h : Heap} {os : List ℕ} {e : PyErr} (he : arraysOf h os = .error e) :
    e = .attributeError ∧ os ≠ [] := by
  refine ⟨?_, by rintro rfl; simp [arraysOf] at he⟩
  induction os with
  | nil => simp [arraysOf] at he
  | cons o os ih =>
    simp only [arraysOf] at he
    cases hp : (h.obj o).array with
    | none => rw [hp] at he; cases he; rfl
    | some p =>
      rw [hp] at he
      cases hr : arraysOf h os with
      | error e' => rw [hr] at he; cases he; exact ih hr
      | ok ps => rw [hr] at he; cases he

/-- Constructor failures that are detected before any membership is written change
no existing object: an empty member list (`ValueError`) and members without point data
(`AttributeError`). -/
theorem C39_early_failure_partial (H : HashFn) {h : Heap} {os : List ℕ} (hl : Exists h os)
    (sp ex : Bool) (hbad : os = [] ∨ ∃ o ∈ os, (h.obj o).array = none) :
    (newGroup H h os sp ex).1 = .error (if os = [] then .valueError else .attributeError) ∧
      ∀ a < h.next, (newGroup H h os sp ex).2.obj a = h.obj a := by
  have hold : ∀ a < h.next, (h.alloc {}).obj a = h.obj a := fun a ha => alloc_obj_lt h _ ha
  unfold newGroup
  simp only
  cases ha : arraysOf (h.alloc {}) os with
  | error e =>
    obtain ⟨rfl, hne⟩ := arraysOf_error ha
    rw [if_neg hne]
    exact ⟨rfl, hold⟩
  | ok ps =>
    simp only
    rcases hbad with rfl | ⟨o, ho, hn⟩
    · simp only [arraysOf, Except.ok.injEq] at ha
      subst ha
      simp only [vstack, if_true]
      exact ⟨trivial, hold⟩
    · exfalso
      have h1 := arraysOf_ok ha
      have h2 : ((h.alloc {}).obj o).array ∈ os.map (fun o => ((h.alloc {}).obj o).array) :=
        List.mem_map_of_mem ho
      rw [h1, hold o (hl o ho), hn] at h2
      simp at h2

example : ∃ h : Heap, ∃ os, Exists h os ∧ os ≠ [] ∧ ∃ o ∈ os, (h.obj o).array = none :=
  ⟨⟨1, fun _ => { uid := some "r" }⟩, [0], by intro o ho; simp at ho; simp [ho], by simp, 0, by simp,
    rfl⟩

/-- The claim of C39: a failing call changes no membership, and what could be
serialised still can. -/
def Spec.FailureHarmless (H : HashFn) : Prop :=
  ∀ h l gs copy e, Reachable H h → Exists h l →
    (createGroups H h l gs copy).result = .error e → ∀ a ∈ l,
      ((createGroups H h l gs copy).heap.obj a).memberOf = (h.obj a).memberOf ∧
      ((∃ r, mappingMemberOf h a = .ok r) →
        ∃ r, mappingMemberOf (createGroups H h l gs copy).heap a = .ok r)

/-- C39 is false: with `copy=False` a call that fails because a group is requested as
a member leaves a measurement that belongs to an unfinished group, and serialising
that measurement raises `AttributeError`; the caller's list has grown, too. -/
theorem C39_failure_harmful_false : ¬ FailureHarmless sizeHash ∧
    ∃ h l gs, Reachable sizeHash h ∧ Exists h l ∧
      (createGroups sizeHash h l gs false).result = .error .groupedPlaneError ∧
      (createGroups sizeHash h l gs false).callerList ≠ l ∧
      ∃ a ∈ l, mappingMemberOf h a = .ok none ∧
        mappingMemberOf (createGroups sizeHash h l gs false).heap a = .error .attributeError := by
  obtain ⟨h0, h1, h2⟩ := heap3_obj
  have hr : (createGroups sizeHash heap3 [0, 1, 2] [["a", "b"], ["c", "g"]] false).result
      = .error .groupedPlaneError ∧
      (createGroups sizeHash heap3 [0, 1, 2] [["a", "b"], ["c", "g"]] false).callerList
        = [0, 1, 2, 3] ∧
      mappingMemberOf (createGroups sizeHash heap3 [0, 1, 2] [["a", "b"], ["c", "g"]] false).heap 2
        = .error .attributeError := by
    simp [mappingMemberOf, createGroups, resetMembership, buildGroups, findAll, find, firstWith,
      newGroup, arraysOf, vstack, markMembers, Heap.alloc, Heap.set, Heap.setMemberOf, heap3_next,
      h0, h1, h2, centeredPts_length, pts, sizeHash]
  have hs : mappingMemberOf heap3 2 = .ok none := by simp [mappingMemberOf, h2]
  refine ⟨fun hc => ?_, heap3, [0, 1, 2], [["a", "b"], ["c", "g"]], heap3_reachable, heap3_exists,
    hr.1, by rw [hr.2.1]; simp, 2, by simp, hs, hr.2.2⟩
  obtain ⟨r, hr'⟩ := (hc heap3 [0, 1, 2] [["a", "b"], ["c", "g"]] false _ heap3_reachable
    heap3_exists hr.1 2 (by simp)).2 ⟨_, hs⟩
  rw [hr.2.2] at hr'
  simp at hr'

/-! ### C40: uids -/

lemma buildGroups_append (H : HashFn) (gr : List ℕ) (sp ex : Bool) (gs rest : List (List String))
    (l : List ℕ) (h : Heap) (hk : (buildGroups H gr sp ex gs l h).1 = .ok ()) :
    buildGroups H gr sp ex (gs ++ rest) l h =
      buildGroups H gr sp ex rest (buildGroups H gr sp ex gs l h).2.1
        (buildGroups H gr sp ex gs l h).2.2 := by
  induction gs generalizing l h with
  | nil => rfl
  | cons us gs ih =>
    simp only [List.cons_append, buildGroups] at hk ⊢
    cases hf : findAll h l gr us with
    | error e => rw [hf] at hk; simp at hk
    | ok vals =>
      rw [hf] at hk
      simp only at hk ⊢
      generalize newGroup H h vals sp ex = r at *
      obtain ⟨r1, h2⟩ := r
      cases r1 with
      | error e => simp at hk
      | ok g =>
        simp only at hk ⊢
        exact ih _ _ hk

lemma findAll_missing {h : Heap} {l gr : List ℕ} {pre post : List String} {u : String}
    (hp : ∀ v ∈ pre, ∃ m, firstWith h v l = .ok m ∧ m ∉ gr)
    (hu : firstWith h u l = .error .keyError) :
    findAll h l gr (pre ++ u :: post) = .error .keyError := by
  induction pre with
  | nil => simp [findAll, find, hu]
  | cons v pre ih =>
    obtain ⟨m, h1, h2⟩ := hp v (by simp)
    simp only [List.cons_append, findAll, find, h1, if_neg h2]
    rw [ih fun w hw => hp w (List.mem_cons_of_mem _ hw)]

/-- C40, first part: a call that returns has found every requested uid among the
measurements of its input.  In other words, an unknown uid anywhere makes the call
raise. -/
theorem C40_success_means_known {H : HashFn} {h : Heap} {l : List ℕ} (hl : Exists h l)
    {gs : List (List String)} {copy sp ex : Bool} {L : List ℕ}
    (hk : (createGroups H h l gs copy sp ex).result = .ok L) :
    ∀ us ∈ gs, ∀ u ∈ us, ∃ o ∈ l, (h.obj o).uid = some u ∧ ¬ IsGroup h o := by
  obtain ⟨new, -, h2, -⟩ := createGroups_ok hl hk
  intro us hus u hu
  obtain ⟨i, hi, rfl⟩ := List.getElem_of_mem hus
  rw [List.forall₂_iff_get] at h2
  obtain ⟨ms, -, -, h3, -⟩ := (h2.2 i hi (by rw [← h2.1]; exact hi)).ex
  obtain ⟨j, hj, rfl⟩ := List.getElem_of_mem hu
  rw [List.forall₂_iff_get] at h3
  obtain ⟨h4, -, h5⟩ := h3.2 j hj (by rw [← h3.1]; exact hj)
  obtain ⟨_, _, _, h6, _⟩ := firstWith_ok h4
  have hmem := firstWith_mem h4
  have h7 := List.mem_map_of_mem (f := fun a => core ((resetOf copy l h).2.obj a)) hmem
  rw [resetOf_core copy hl, List.mem_map] at h7
  obtain ⟨o, ho, he⟩ := h7
  refine ⟨o, ho, ?_, ?_⟩
  · rw [core_uid he]; exact h6
  · rw [IsGroup, core_members he, h5]; simp

/-- C40, second part: the exception is `KeyError`.  If the lists before succeed, the
uids before it in its list are those of ungrouped measurements, and the uid is not
in the collection, then the call raises `KeyError`. -/
theorem C40_unknown_uid_raises_keyerror {H : HashFn} {h : Heap} {l : List ℕ} (hl : Exists h l)
    (hu : ∀ o ∈ l, (h.obj o).uid.isSome) {done rest : List (List String)} {copy sp ex : Bool}
    {L : List ℕ} (hk : (createGroups H h l done copy sp ex).result = .ok L)
    {pre post : List String} {u : String}
    (hpre : ∀ v ∈ pre, ∃ m, IsFirst (createGroups H h l done copy sp ex).heap L v m ∧
      ∀ g ∈ L, ¬ InGroup (createGroups H h l done copy sp ex).heap g m)
    (hmiss : ∀ o ∈ L, ((createGroups H h l done copy sp ex).heap.obj o).uid ≠ some u) :
    (createGroups H h l (done ++ (pre ++ u :: post) :: rest) copy sp ex).result
      = .error .keyError := by
  obtain ⟨new, h1, h2, -, h4, -⟩ := createGroups_ok hl hk
  have hv0 := resetOf_lt (copy := copy) hl
  -- all uids of the collection are defined
  have huL : ∀ o ∈ L, ((createGroups H h l done copy sp ex).heap.obj o).uid.isSome := by
    intro o ho
    rw [h1] at ho
    rcases List.mem_append.1 ho with h3 | h3
    · rw [core_uid (h4 o (hv0 o h3))]
      have h7 := List.mem_map_of_mem (f := fun a => core ((resetOf copy l h).2.obj a)) h3
      rw [resetOf_core copy hl, List.mem_map] at h7
      obtain ⟨x, hx, he⟩ := h7
      rw [← core_uid he]
      exact hu x hx
    · obtain ⟨i, hi, rfl⟩ := List.getElem_of_mem h3
      rw [List.forall₂_iff_get] at h2
      obtain ⟨ms, -, -, -, hd⟩ := (h2.2 i (by rw [h2.1]; exact hi) hi).ex
      obtain ⟨_, _, _, _, _, _, _, h8, _⟩ := hd.ex
      simp only [List.get_eq_getElem] at h8
      rw [h8]; simp
  -- grouped measurements are members of groups in the result
  have hgr : ∀ m, (∀ g ∈ L, ¬ InGroup (createGroups H h l done copy sp ex).heap g m) →
      m ∉ (resetOf copy l h).1 := by
    intro m hm hc
    rw [resetOf, reset_grouped] at hc
    obtain ⟨o, ho, ms, e1, e2⟩ := hc
    refine hm o (by rw [h1]; exact List.mem_append_left _ ho) ⟨ms, ?_, e2⟩
    rw [core_members (h4 o (hv0 o ho)), resetOf, core_members (reset_core _ _ o)]
    exact e1
  rw [createGroups_eq] at hk hpre hmiss huL hgr ⊢
  simp only at hk hpre hmiss huL hgr ⊢
  have hbk : (buildGroups H (resetOf copy l h).1 sp ex done (startOf copy l h).1
      (resetOf copy l h).2).1 = .ok () := by
    generalize buildGroups H (resetOf copy l h).1 sp ex done (startOf copy l h).1
      (resetOf copy l h).2 = b at hk
    obtain ⟨b1, b2⟩ := b
    cases b1 with
    | error e => simp at hk
    | ok u => rfl
  rw [buildGroups_append H _ sp ex done _ _ _ hbk]
  rw [hbk] at hk
  simp only [Except.ok.injEq] at hk
  rw [← hk] at hpre hmiss huL hgr
  generalize buildGroups H (resetOf copy l h).1 sp ex done (startOf copy l h).1
      (resetOf copy l h).2 = b at *
  obtain ⟨b1, b2, b3⟩ := b
  simp only at *
  simp only [buildGroups]
  rw [findAll_missing ?_ (firstWith_missing huL hmiss)]
  intro v hv
  obtain ⟨m, ⟨p, q, e1, e2, e3⟩, e4⟩ := hpre v hv
  refine ⟨m, ?_, hgr m e4⟩
  rw [e1]
  exact firstWith_eq (fun y hy => huL y (by rw [e1]; exact List.mem_append_left _ hy)) e3 e2

/-- Hypotheses met: nothing before, an unknown second uid. -/
example : (createGroups sizeHash heap3 [0, 1, 2] [["a", "x"]]).result = .error .keyError := by
  obtain ⟨h0, h1, h2⟩ := heap3_obj
  have hk : (createGroups sizeHash heap3 [0, 1, 2] []).result = .ok [3, 4, 5] := by
    simp [createGroups, copyAll, resetMembership, buildGroups, Heap.alloc, Heap.set,
      Heap.setMemberOf, heap3_next, h0, h1, h2]
  refine C40_unknown_uid_raises_keyerror (done := []) (pre := ["a"]) (post := []) (rest := [])
    heap3_exists ?_ hk ?_ ?_
  · intro o ho
    simp at ho
    rcases ho with rfl | rfl | rfl <;> simp [h0, h1, h2]
  · intro v hv
    simp at hv
    subst hv
    refine ⟨3, ⟨[], [4, 5], rfl, ?_, by simp⟩, ?_⟩
    · simp [createGroups, copyAll, resetMembership, buildGroups, Heap.alloc, Heap.set,
        Heap.setMemberOf, heap3_next, h0, h1, h2]
    · rintro g hg ⟨ms, e, -⟩
      revert e
      simp at hg
      rcases hg with rfl | rfl | rfl <;>
      simp [createGroups, copyAll, resetMembership, buildGroups, Heap.alloc, Heap.set,
        Heap.setMemberOf, heap3_next, h0, h1, h2]
  · intro o ho
    simp at ho
    rcases ho with rfl | rfl | rfl <;>
      simp [createGroups, copyAll, resetMembership, buildGroups, Heap.alloc, Heap.set,
        Heap.setMemberOf, heap3_next, h0, h1, h2]

/-- C40, third part: a call that returns has built, for each list in order, a group
whose members are, in order, the first measurements of the working collection with
the requested uids; the working collection lists the same uids as the input. -/
theorem C40_first_match {H : HashFn} {h : Heap} {l : List ℕ} (hl : Exists h l)
    {gs : List (List String)} {copy sp ex : Bool} {L : List ℕ}
    (hk : (createGroups H h l gs copy sp ex).result = .ok L) :
    ∃ base new, L = base ++ new ∧
      base.map (fun o => ((createGroups H h l gs copy sp ex).heap.obj o).uid)
        = l.map (fun o => (h.obj o).uid) ∧
      List.Forall₂ (fun us g => ∃ ms,
        ((createGroups H h l gs copy sp ex).heap.obj g).members = some ms ∧
        List.Forall₂ (fun u m => IsFirst (createGroups H h l gs copy sp ex).heap base u m) us ms)
        gs new := by
  obtain ⟨new, h1, h2, -, h4, -⟩ := createGroups_ok hl hk
  have hv0 := resetOf_lt (copy := copy) hl
  refine ⟨_, new, h1, ?_, ?_⟩
  · have h5 := congrArg (List.map Obj.uid) (resetOf_core copy hl)
    simp only [List.map_map] at h5
    have e2 : (Obj.uid ∘ fun a => core (h.obj a)) = fun o => (h.obj o).uid := rfl
    rw [e2] at h5
    rw [← h5]
    apply List.map_congr_left
    intro o ho
    rw [core_uid (h4 o (hv0 o ho))]
    rfl
  · refine h2.imp ?_
    intro us g hB
    obtain ⟨ms, e1, -, e3, -⟩ := hB.ex
    refine ⟨ms, e1, e3.imp ?_⟩
    rintro u m ⟨f1, -, -⟩
    obtain ⟨pre, post, g1, g2, g3⟩ := firstWith_ok f1
    refine ⟨pre, post, g1, ?_, ?_⟩
    · rw [core_uid (h4 m (hv0 m (firstWith_mem f1)))]; exact g2
    · intro y hy
      rw [core_uid (h4 y (hv0 y (by rw [g1]; exact List.mem_append_left _ hy)))]
      exact g3 y hy

/-! ### C43: the data of a group -/

namespace Spec

/-- The mean of a list of points is the point that, taken as often as there are
points, has the same coordinate sums. -/
def IsMean (p : Points) (m : Vec 3) : Prop := ∀ j, p.length * m j = (p.map fun v => v j).sum

/-- `q` is `p` moved so that its mean is the origin. -/
def IsCentered (p q : Points) : Prop := ∃ m, IsMean p m ∧ q = p.map fun v j => v j - m j

/-- The data of the group `g` are the data of its members. -/
def GroupHasMemberData (h : Heap) (g : ℕ) (samePlane : Bool) : Prop :=
  ∃ ms ps qs arr m, (h.obj g).members = some ms ∧ ms.map (fun a => (h.obj a).array) = ps.map some ∧
    List.Forall₂ (fun p q => if samePlane then q = p else p ≠ [] → IsCentered p q) ps qs ∧
    (h.obj g).array = some arr ∧ arr = qs.flatten ∧ arr.length = (ps.map List.length).sum ∧
    (h.obj g).mean = some m ∧ IsMean ps.flatten m

end Spec

lemma isMean_meanPts {p : Points} (hp : p ≠ []) : ∃ m, meanPts p = some m ∧ IsMean p m := by
  refine ⟨_, if_neg hp, fun j => ?_⟩
  have : (p.length : ℝ) ≠ 0 := by
    have : p.length ≠ 0 := by simpa using hp
    exact_mod_cast this
  field_simp

lemma isCentered_centeredPts {p : Points} (hp : p ≠ []) : IsCentered p (centeredPts p) := by
  obtain ⟨m, h1, h2⟩ := isMean_meanPts hp
  exact ⟨m, h2, by unfold centeredPts; rw [h1]⟩

lemma memberData_of_groupData {H : HashFn} {h h' : Heap} {ms : List ℕ} {sp : Bool} {g : ℕ}
    (hm : (h'.obj g).members = some ms) (hd : GroupData H h ms sp (h'.obj g))
    (ha : ∀ a ∈ ms, (h'.obj a).array = (h.obj a).array) : GroupHasMemberData h' g sp := by
  obtain ⟨ps, h1, -, arr, h3, h4, h5, -, h7, -⟩ := hd.ex
  have hlen : arr.length = (ps.map List.length).sum := by
    rw [h3]
    cases sp
    · simp only [Bool.false_eq_true, if_false, List.length_flatten, List.map_map]
      congr 1
      apply List.map_congr_left
      intro p _
      simp [centeredPts_length]
    · simp [List.length_flatten]
  have hne : ps.flatten ≠ [] := by
    intro hc
    have : (ps.map List.length).sum = 0 := by rw [← List.length_flatten, hc]; rfl
    omega
  obtain ⟨m, e1, e2⟩ := isMean_meanPts hne
  refine ⟨ms, ps, if sp then ps else ps.map centeredPts, arr, m, hm, ?_, ?_, h5, ?_, hlen, ?_, e2⟩
  · rw [← h1]
    exact List.map_congr_left fun a h => ha a h
  · cases sp
    · simp only [Bool.false_eq_true, if_false]
      rw [List.forall₂_map_right_iff]
      apply List.forall₂_same.2
      intro p _ hp
      exact isCentered_centeredPts hp
    · simp [List.forall₂_same]
  · rw [h3]; cases sp <;> rfl
  · rw [h7, e1]

/-- C43 for the constructor: a group holds exactly the data of the objects it was
built from. -/
theorem C43_group_has_member_data {H : HashFn} {h : Heap} {os : List ℕ} (hl : Exists h os)
    {sp ex : Bool} {g : ℕ} (hk : (newGroup H h os sp ex).1 = .ok g) :
    ((newGroup H h os sp ex).2.obj g).members = some os ∧
      (∀ a < h.next, ((newGroup H h os sp ex).2.obj a).array = (h.obj a).array) ∧
      GroupHasMemberData (newGroup H h os sp ex).2 g sp := by
  obtain ⟨he, hd⟩ := newGroup_spec H h hl sp ex
  obtain rfl := he.ok_self g hk
  have ha : ∀ a < h.next, ((newGroup H h os sp ex).2.obj a).array = (h.obj a).array := fun a h' =>
    core_array (he.core a h')
  exact ⟨he.ok_members _ hk, ha, memberData_of_groupData (he.ok_members _ hk) (hd _ hk) fun a h' =>
    ha a (hl a h')⟩

/-- C43 for `create_groups`: every group that a call adds holds exactly the data of
its members. -/
theorem C43_created_groups_have_member_data {H : HashFn} {h : Heap} {l : List ℕ} (hl : Exists h l)
    {gs : List (List String)} {copy sp ex : Bool} {L : List ℕ}
    (hk : (createGroups H h l gs copy sp ex).result = .ok L) :
    ∃ base new, L = base ++ new ∧ base.length = l.length ∧ new.length = gs.length ∧
      ∀ g ∈ new, GroupHasMemberData (createGroups H h l gs copy sp ex).heap g sp := by
  obtain ⟨new, h1, h2, -, h4, -⟩ := createGroups_ok hl hk
  refine ⟨_, new, h1, startOf_length copy l h, h2.length_eq.symm, fun g hg => ?_⟩
  obtain ⟨i, hi, rfl⟩ := List.getElem_of_mem hg
  rw [List.forall₂_iff_get] at h2
  obtain ⟨ms, f1, f2, -, f4⟩ := (h2.2 i (by rw [h2.1]; exact hi) hi).ex
  exact memberData_of_groupData f1 f4 fun a ha => core_array (h4 a (f2 a ha))

example : ∃ L, (createGroups sizeHash heap3 [0, 1, 2] [["a", "b"]]).result = .ok L ∧ L.length = 4 :=
  ⟨_, firstCall_result, rfl⟩

example : ∃ g, (newGroup sizeHash heap3 [0, 1] true false).1 = .ok g := by
  obtain ⟨h0, h1, h2⟩ := heap3_obj
  refine ⟨3, ?_⟩
  simp [newGroup, arraysOf, vstack, markMembers, Heap.alloc, Heap.set, Heap.setMemberOf, heap3_next,
      h0, h1, pts]

/-! ### C44: disabling -/

/-- Lookup does not depend on what is disabled. -/
lemma firstWith_disable (h : Heap) (x : ℕ) (u : String) (l : List ℕ) :
    firstWith (h.set x { h.obj x with disabled := true }) u l = firstWith h u l := by
  apply firstWith_congr
  intro y _
  by_cases e : y = x
  · subst e; simp
  · rw [set_ne _ _ _ e]

lemma isFirst_iff {h : Heap} {l : List ℕ} (hu : ∀ o ∈ l, (h.obj o).uid.isSome) (u : String)
    (m : ℕ) : IsFirst h l u m ↔ firstWith h u l = .ok m := by
  constructor
  · rintro ⟨pre, post, h1, h2, h3⟩
    rw [h1]
    exact firstWith_eq (fun y hy => hu y (by rw [h1]; exact List.mem_append_left _ hy)) h3 h2
  · intro hk
    obtain ⟨pre, post, h1, h2, h3⟩ := firstWith_ok hk
    exact ⟨pre, post, h1, h2, h3⟩

open Classical in
/-- The heap in which exactly the first measurements of the uids in `us` have been
disabled. -/
noncomputable def Spec.disabledFirst (h : Heap) (l : List ℕ) (us : List String) : Heap :=
  { next := h.next
    obj := fun a => if ∃ u ∈ us, IsFirst h l u a then { h.obj a with disabled := true } else h.obj a }

lemma firstWith_found {h : Heap} {l : List ℕ} (hu : ∀ o ∈ l, (h.obj o).uid.isSome) {u : String}
    (hx : ∃ o ∈ l, (h.obj o).uid = some u) : ∃ x, firstWith h u l = .ok x := by
  obtain ⟨o, ho, hou⟩ := hx
  cases hf : firstWith h u l with
  | ok x => exact ⟨x, rfl⟩
  | error e =>
    exfalso
    induction l with
    | nil => simp at ho
    | cons y ys ih =>
      obtain ⟨v, hv⟩ := Option.isSome_iff_exists.1 (hu y (by simp))
      simp only [firstWith, hv] at hf
      split_ifs at hf with e'
      rcases List.mem_cons.1 ho with rfl | ho
      · rw [hv, Option.some.injEq] at hou; exact e' hou
      · exact ih (fun o ho => hu o (List.mem_cons_of_mem _ ho)) ho hf

lemma isFirst_congr {h h' : Heap} {l : List ℕ} (hc : ∀ a, (h'.obj a).uid = (h.obj a).uid)
    (u : String) (m : ℕ) : IsFirst h' l u m ↔ IsFirst h l u m := by
  simp only [IsFirst, hc]

lemma heap_ext {h h' : Heap} (hn : h.next = h'.next) (ho : ∀ a, h.obj a = h'.obj a) : h = h' := by
  cases h; cases h'
  simp only [Heap.mk.injEq]
  exact ⟨hn, funext ho⟩

lemma disabledFirst_pos {h : Heap} {l : List ℕ} {us : List String} {a : ℕ}
    (hc : ∃ u ∈ us, IsFirst h l u a) :
    (disabledFirst h l us).obj a = { h.obj a with disabled := true } := by
  simp only [disabledFirst]; rw [if_pos hc]

lemma disabledFirst_neg {h : Heap} {l : List ℕ} {us : List String} {a : ℕ}
    (hc : ¬ ∃ u ∈ us, IsFirst h l u a) : (disabledFirst h l us).obj a = h.obj a := by
  simp only [disabledFirst]; rw [if_neg hc]

lemma disabledFirst_nil (h : Heap) (l : List ℕ) : disabledFirst h l [] = h := by
  simp [disabledFirst]

lemma disabledFirst_cons {h : Heap} {l : List ℕ} (hu : ∀ o ∈ l, (h.obj o).uid.isSome) {u : String}
    {x : ℕ} (hx : firstWith h u l = .ok x) (us : List String) :
    disabledFirst (h.set x { h.obj x with disabled := true }) l us = disabledFirst h l (u :: us) := by
  have hc : ∀ a, ((h.set x { h.obj x with disabled := true }).obj a).uid = (h.obj a).uid := by
    intro a
    by_cases e : a = x
    · subst e; simp
    · rw [set_ne _ _ _ e]
  have hfx : ∀ a, IsFirst h l u a ↔ a = x := by
    intro a
    rw [isFirst_iff hu, hx, Except.ok.injEq, eq_comm]
  refine heap_ext rfl fun a => ?_
  have hiff : (∃ v ∈ u :: us, IsFirst h l v a) ↔ a = x ∨ ∃ v ∈ us, IsFirst h l v a := by
    simp only [List.mem_cons, exists_eq_or_imp, hfx]
  by_cases h1 : ∃ v ∈ us, IsFirst h l v a
  · rw [disabledFirst_pos (by simpa only [isFirst_congr hc] using h1),
      disabledFirst_pos (hiff.2 (Or.inr h1))]
    by_cases e : a = x
    · subst e; simp
    · rw [set_ne _ _ _ e]
  · rw [disabledFirst_neg (by simpa only [isFirst_congr hc] using h1)]
    by_cases e : a = x
    · rw [disabledFirst_pos (hiff.2 (Or.inl e))]
      subst e; simp
    · rw [disabledFirst_neg fun hc => (hiff.1 hc).elim e h1, set_ne _ _ _ e]

lemma disable_eq {l : List ℕ} (us : List String) {h : Heap} (hu : ∀ o ∈ l, (h.obj o).uid.isSome)
    (hx : ∀ u ∈ us, ∃ o ∈ l, (h.obj o).uid = some u) (rest : List String) :
    disableOrientations l (us ++ rest) h = disableOrientations l rest (disabledFirst h l us) := by
  induction us generalizing h with
  | nil => rw [disabledFirst_nil]; rfl
  | cons u us ih =>
    obtain ⟨x, hf⟩ := firstWith_found hu (hx u (by simp))
    have hc : ∀ a, ((h.set x { h.obj x with disabled := true }).obj a).uid = (h.obj a).uid := by
      intro a
      by_cases e : a = x
      · subst e; simp
      · rw [set_ne _ _ _ e]
    simp only [List.cons_append, disableOrientations, hf]
    rw [ih (by simpa only [hc] using hu)
      (by simpa only [hc] using fun v hv => hx v (List.mem_cons_of_mem _ hv)),
      disabledFirst_cons hu hf]

lemma disabledFirst_uid (h : Heap) (l : List ℕ) (us : List String) (a : ℕ) :
    ((disabledFirst h l us).obj a).uid = (h.obj a).uid := by
  unfold disabledFirst
  simp only
  split_ifs <;> rfl

/-- C44, exactness: when all requested uids are known the call succeeds and the
first measurement of each requested uid, and nothing else, is disabled. -/
theorem C44_disables_exactly {h : Heap} {l : List ℕ} (hu : ∀ o ∈ l, (h.obj o).uid.isSome)
    {us : List String} (hx : ∀ u ∈ us, ∃ o ∈ l, (h.obj o).uid = some u) :
    disableOrientations l us h = (.ok (), disabledFirst h l us) := by
  have := disable_eq us hu hx []
  rwa [List.append_nil] at this

/-- C44, idempotence: a second identical call succeeds and changes nothing. -/
theorem C44_disable_idempotent {h : Heap} {l : List ℕ} (hu : ∀ o ∈ l, (h.obj o).uid.isSome)
    {us : List String} (hx : ∀ u ∈ us, ∃ o ∈ l, (h.obj o).uid = some u) :
    disableOrientations l us (disableOrientations l us h).2 = disableOrientations l us h := by
  rw [C44_disables_exactly hu hx]
  simp only
  rw [C44_disables_exactly (by simpa only [disabledFirst_uid] using hu)
    (by simpa only [disabledFirst_uid] using hx)]
  congr 1
  have hf : ∀ u a, IsFirst (disabledFirst h l us) l u a ↔ IsFirst h l u a :=
    isFirst_congr (disabledFirst_uid h l us)
  refine heap_ext rfl fun a => ?_
  by_cases h1 : ∃ u ∈ us, IsFirst h l u a
  · rw [disabledFirst_pos (by simpa only [hf] using h1), disabledFirst_pos h1]
  · rw [disabledFirst_neg (by simpa only [hf] using h1)]

/-- C44, order: only the set of uids matters. -/
theorem C44_disable_order_independent {h : Heap} {l : List ℕ}
    (hu : ∀ o ∈ l, (h.obj o).uid.isSome) {us vs : List String} (hp : ∀ u, u ∈ us ↔ u ∈ vs)
    (hx : ∀ u ∈ us, ∃ o ∈ l, (h.obj o).uid = some u) :
    disableOrientations l us h = disableOrientations l vs h := by
  rw [C44_disables_exactly hu hx,
    C44_disables_exactly hu fun u hv => hx u ((hp u).2 hv)]
  congr 1
  refine heap_ext rfl fun a => ?_
  by_cases h1 : ∃ u ∈ us, IsFirst h l u a
  · rw [disabledFirst_pos h1, disabledFirst_pos (by simpa only [hp] using h1)]
  · rw [disabledFirst_neg h1, disabledFirst_neg (by simpa only [hp] using h1)]

/-- C44, unknown uids: the call raises `KeyError`, and has by then disabled the
measurements requested before the unknown uid.  What is missing is "without effect",
which is false (below). -/
theorem C44_unknown_uid_partial {h : Heap} {l : List ℕ} (hu : ∀ o ∈ l, (h.obj o).uid.isSome)
    {pre post : List String} {u : String} (hx : ∀ v ∈ pre, ∃ o ∈ l, (h.obj o).uid = some v)
    (hm : ∀ o ∈ l, (h.obj o).uid ≠ some u) :
    disableOrientations l (pre ++ u :: post) h = (.error .keyError, disabledFirst h l pre) := by
  rw [disable_eq pre hu hx]
  simp only [disableOrientations]
  rw [firstWith_missing (by simpa only [disabledFirst_uid] using hu)
    (by simpa only [disabledFirst_uid] using hm)]

lemma heap3_uids : ∀ o ∈ [0, 1, 2], (heap3.obj o).uid.isSome := by
  obtain ⟨h0, h1, h2⟩ := heap3_obj
  intro o ho
  simp at ho
  rcases ho with rfl | rfl | rfl <;> simp [h0, h1, h2]

/-- Hypotheses met; one measurement is disabled, another is not. -/
example : (∀ u ∈ ["b"], ∃ o ∈ [0, 1, 2], (heap3.obj o).uid = some u) ∧
    ((disabledFirst heap3 [0, 1, 2] ["b"]).obj 1).disabled = true ∧
    ((disabledFirst heap3 [0, 1, 2] ["b"]).obj 0).disabled = false := by
  obtain ⟨h0, h1, h2⟩ := heap3_obj
  refine ⟨by simp [h1], ?_, ?_⟩
  · have : ∃ u ∈ ["b"], IsFirst heap3 [0, 1, 2] u 1 :=
      ⟨"b", by simp, [0], [2], rfl, by simp [h1], by simp [h0]⟩
    simp only [disabledFirst]
    rw [if_pos this]
  · simp only [disabledFirst]
    rw [if_neg]
    · simp [h0]
    · rintro ⟨u, hu, _, _, _, hc, _⟩
      simp at hu
      subst hu
      rw [h0] at hc
      simp at hc

/-- The claim "`KeyError` without effect". -/
def Spec.KeyErrorWithoutEffect : Prop :=
  ∀ H h l us, Reachable H h → Exists h l →
    (disableOrientations l us h).1 = .error .keyError →
    ∀ a ∈ l, ((disableOrientations l us h).2.obj a).disabled = (h.obj a).disabled

/-- C44 is false for unknown uids: the measurements named before the unknown uid stay
disabled. -/
theorem C44_keyerror_without_effect_false : ¬ KeyErrorWithoutEffect := by
  intro hc
  obtain ⟨h0, h1, h2⟩ := heap3_obj
  have := hc sizeHash heap3 [0, 1, 2] ["a", "x"] heap3_reachable heap3_exists
    (by simp [disableOrientations, firstWith, h0, h1, h2, Heap.set]) 0 (by simp)
  simp [disableOrientations, firstWith, h0, h1, h2, Heap.set] at this

end Attitude.Props
