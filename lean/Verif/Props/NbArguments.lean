import Mathlib.Data.List.Forall2
import Mathlib.Tactic.NormNum
import Verif.Model.NbArguments

/-!
# C288: what `plot_interactive` shows
-/

namespace Attitude.Props

open Attitude NbArguments

namespace Spec

/-- The value that stands for an attitude: its mapping, or itself if it is one already. -/
inductive ShownAs : PyObj → J → Prop where
  | mapping (v : J) : ShownAs (.orientation (.ok (some v))) v
  | itself (v : J) : ShownAs (.plain v) v

mutual
/-- Some number in the value is not finite. -/
inductive HasNan : J → Prop where
  | num : HasNan (.num none)
  | arr {xs : List J} : SomeNan xs → HasNan (.arr xs)
  | obj {ks : List (List Char)} {vs : List J} : SomeNan vs → HasNan (.obj ks vs)
/-- Some number in one of the values is not finite. -/
inductive SomeNan : List J → Prop where
  | head {v : J} {vs : List J} : HasNan v → SomeNan (v :: vs)
  | tail {v : J} {vs : List J} : SomeNan vs → SomeNan (v :: vs)
end

end Spec

mutual
lemma parses_iff : ∀ v : J, v.parses = true ↔ ¬ Spec.HasNan v
  | .null => ⟨fun _ h => (by cases h), fun _ => by simp [J.parses]⟩
  | .bool _ => ⟨fun _ h => (by cases h), fun _ => by simp [J.parses]⟩
  | .str _ => ⟨fun _ h => (by cases h), fun _ => by simp [J.parses]⟩
  | .num none => ⟨fun h => by simp [J.parses] at h, fun h => absurd .num h⟩
  | .num (some _) => ⟨fun _ h => (by cases h), fun _ => by simp [J.parses]⟩
  | .arr xs => by
      rw [J.parses, allParse_iff xs]
      exact ⟨fun h k => h (by cases k; assumption), fun h k => h (.arr k)⟩
  | .obj ks vs => by
      rw [J.parses, allParse_iff vs]
      exact ⟨fun h k => h (by cases k; assumption), fun h k => h (.obj k)⟩
lemma allParse_iff : ∀ vs : List J, allParse vs = true ↔ ¬ Spec.SomeNan vs
  | [] => ⟨fun _ h => (by cases h), fun _ => by simp [allParse]⟩
  | v :: vs => by
      rw [allParse, Bool.and_eq_true, parses_iff v, allParse_iff vs]
      constructor
      · rintro ⟨h1, h2⟩ k
        cases k with
        | head k => exact h1 k
        | tail k => exact h2 k
      · exact fun h => ⟨fun k => h (.head k), fun k => h (.tail k)⟩
end

lemma shownAs_iff (o : PyObj) (v : J) : mapped o = .ok (some v) ↔ Spec.ShownAs o v := by
  constructor
  · intro h
    rcases o with v' | m | _ | _
    · simp only [mapped, Except.ok.injEq, Option.some.injEq] at h
      subst h
      exact .itself _
    · simp only [mapped] at h
      subst h
      exact .mapping _
    · simp [mapped] at h
    · simp [mapped] at h
  · intro h
    cases h <;> rfl

lemma plot_list_iff (xs : List PyObj) (vs : List J) :
    (do let l ← xs.mapM mapped; dumps l) = Except.ok vs ↔ List.Forall₂ Spec.ShownAs xs vs := by
  induction xs generalizing vs with
  | nil =>
    cases vs <;> simp [pure, Except.pure, bind, Except.bind, dumps]
  | cons o xs ih =>
    rw [List.mapM_cons]
    rcases ho : mapped o with e | (_ | v)
    · constructor
      · intro h
        simp [bind, Except.bind] at h
      · intro h
        cases h with
        | cons h1 h2 => rw [(shownAs_iff _ _).2 h1] at ho; simp at ho
    · constructor
      · intro h
        rcases hx : xs.mapM mapped with e | l
        · simp [hx, bind, Except.bind] at h
        · simp [hx, bind, Except.bind, pure, Except.pure, dumps] at h
      · intro h
        cases h with
        | cons h1 h2 => rw [(shownAs_iff _ _).2 h1] at ho; simp at ho
    · constructor
      · intro h
        rcases hx : xs.mapM mapped with e | l
        · simp [hx, bind, Except.bind] at h
        · rw [hx] at ih
          simp only [hx, bind, Except.bind, pure, Except.pure, dumps] at h ih
          rcases hd : dumps l with e | ws
          · rw [hd] at h; simp [Except.map] at h
          · rw [hd] at h
            simp only [Except.map, Except.ok.injEq] at h
            subst h
            exact .cons ((shownAs_iff _ _).1 ho) ((ih ws).1 hd)
      · intro h
        cases h with
        | @cons _ w _ ws h1 h2 =>
          have e := (shownAs_iff _ _).2 h1
          rw [ho] at e
          simp only [Except.ok.injEq, Option.some.injEq] at e
          subst e
          have h3 := (ih ws).2 h2
          rcases hx : xs.mapM mapped with e | l
          · simp [hx, bind, Except.bind] at h3
          · simp only [hx, bind, Except.bind, pure, Except.pure, dumps] at h3 ⊢
            rw [h3]
            rfl

/-- A list of attitudes: the page shows the values that stand for them, each once and in order, provided that each
has one and that no number in any of them is `nan`; and this is the only way in which it shows anything. -/
theorem C288_list_partial (xs : List PyObj) (vs : List J) :
    shown (.list xs) = .ok (some vs) ↔ List.Forall₂ Spec.ShownAs xs vs ∧ ¬ Spec.SomeNan vs := by
  rw [← plot_list_iff, ← allParse_iff]
  unfold shown plotInteractive
  simp only [members]
  rcases (do let l ← xs.mapM mapped; dumps l : Except PyErr (List J)) with e | ws
  · simp [Except.map]
  · simp only [Except.map, Except.ok.injEq]
    constructor
    · intro h
      split_ifs at h with hp
      simp only [Option.some.injEq] at h
      subst h
      exact ⟨rfl, hp⟩
    · rintro ⟨rfl, hp⟩
      rw [if_pos hp]

example : List.Forall₂ Spec.ShownAs
      [.orientation (.ok (some (.obj ["strike".toList] [.num (some 30)]))), .plain (.num (some 1))]
      [.obj ["strike".toList] [.num (some 30)], .num (some 1)] ∧
    ¬ Spec.SomeNan [.obj ["strike".toList] [.num (some 30)], .num (some 1)] := by
  refine ⟨.cons (.mapping _) (.cons (.itself _) .nil), ?_⟩
  rw [← allParse_iff]
  rfl

/-- An orientation or a dictionary on its own is shown like a list of it. -/
theorem C288_single (o : PyObj) (h : (∃ m, o = .orientation m) ∨ ∃ ks vs, o = .plain (.obj ks vs)) :
    shown o = shown (.list [o]) := by
  rcases h with ⟨m, rfl⟩ | ⟨ks, vs, rfl⟩ <;> rfl

example : shown (.orientation (.ok (some (.num (some 1))))) = .ok (some [.num (some 1)]) := by
  rw [C288_single _ (.inl ⟨_, rfl⟩), C288_list_partial]
  refine ⟨.cons (.mapping _) .nil, ?_⟩
  rw [← allParse_iff]
  rfl

/-- One attitude with a number that is not finite, among however many others: Python displays the script without an
error, but the page shows none of them. -/
theorem C288_nan_false (as bs : List PyObj) (vs ws : List J) (o : PyObj) (v : J)
    (ha : List.Forall₂ Spec.ShownAs as vs) (hb : List.Forall₂ Spec.ShownAs bs ws)
    (ho : Spec.ShownAs o v) (hv : Spec.HasNan v) :
    plotInteractive (.list (as ++ o :: bs)) = .ok (vs ++ v :: ws) ∧ shown (.list (as ++ o :: bs)) = .ok none := by
  have h1 : plotInteractive (.list (as ++ o :: bs)) = .ok (vs ++ v :: ws) :=
    (plot_list_iff _ _).2 (List.rel_append ha (.cons ho hb))
  refine ⟨h1, ?_⟩
  have h2 : ∀ l : List J, Spec.SomeNan (l ++ v :: ws) := by
    intro l
    induction l with
    | nil => exact .head hv
    | cons _ _ ih => exact .tail ih
  have h3 : allParse (vs ++ v :: ws) ≠ true := fun h => (allParse_iff _).1 h (h2 vs)
  simp [shown, h1, Except.map, h3]

/-- A fit whose axes are `nan`, after one that is fine. -/
example : shown (.list [.plain (.num (some 1)), .orientation (.ok (some (.obj ["axes".toList] [.arr [.num none]])))])
    = .ok none :=
  (C288_nan_false [.plain (.num (some 1))] [] _ [] _ _ (.cons (.itself _) .nil) .nil (.mapping _)
    (.obj (.head (.arr (.head .num))))).2

/-- If `to_mapping` of some attitude raises, nothing is displayed, and the error is the first of these. -/
theorem C288_raises (as bs : List PyObj) (e : PyErr) (ha : ∀ a ∈ as, ∃ m, mapped a = .ok m) :
    plotInteractive (.list (as ++ .orientation (.error e) :: bs)) = .error e := by
  have : ∀ as : List PyObj, (∀ a ∈ as, ∃ m, mapped a = .ok m) →
      (as ++ .orientation (.error e) :: bs).mapM mapped = .error e := by
    intro as
    induction as with
    | nil => intro _; rfl
    | cons a as ih =>
      intro h
      obtain ⟨m, hm⟩ := h a (by simp)
      rw [List.cons_append, List.mapM_cons, hm, ih fun x hx => h x (by simp [hx])]
      rfl
  simp only [plotInteractive, members, this as ha]
  rfl

example : ∀ a ∈ [PyObj.opaque, .plain .null], ∃ m, mapped a = .ok m := by
  intro a ha
  simp only [List.mem_cons, List.not_mem_nil, or_false] at ha
  rcases ha with rfl | rfl <;> exact ⟨_, rfl⟩

/-- Collections that are not sequences, such as arrays, sets and generators of attitudes, are taken for a single
attitude and refused; lists in lists are refused as well, if they have orientations; and a string is shown as one
attitude per character. -/
theorem C288_collections_false :
    plotInteractive .opaque = .error .typeError ∧
    (∀ xs : List PyObj, plotInteractive (.list [.list xs]) = .error .typeError) ∧
    ∀ s : List Char, shown (.plain (.str s)) = .ok (some (s.map fun c => .str [c])) := by
  refine ⟨rfl, fun _ => rfl, fun s => ?_⟩
  have h1 : shown (.plain (.str s)) = shown (.list (s.map fun c => .plain (.str [c]))) := rfl
  rw [h1, C288_list_partial]
  refine ⟨?_, ?_⟩
  · induction s with
    | nil => exact .nil
    | cons c s ih => exact .cons (.itself _) (ih rfl)
  · rw [← allParse_iff]
    clear h1
    induction s with
    | nil => rfl
    | cons c s ih => simpa [allParse, J.parses] using ih

end Attitude.Props
