import Verif.Model.TestIO

/-!
# Properties of saved test planes: C82
-/

namespace Attitude.Props

open Attitude TestIO

variable {α : Type}

namespace Spec

/-- A proper table: at least two rows and two columns, all rows equally long; or a
vector of at least two entries.  These are the arrays whose shape `loadtxt` keeps. -/
def Proper : Arr α → Prop
  | .scalar _ => False
  | .vector l => 2 ≤ l.length
  | .table rows => 2 ≤ rows.length ∧ ∃ k, 2 ≤ k ∧ ∀ r ∈ rows, r.length = k

/-- The lines an array is written as. -/
def lines (c : Codec α) : Arr α → List Line
  | .scalar _ => []
  | .vector l => l.map fun x => [c.fmt x]
  | .table rows => rows.map fun r => r.map c.fmt

/-- The file that is meant: the arrays, with a line `---` between them. -/
def file (c : Codec α) : List (Arr α) → List Line
  | [] => []
  | [a] => lines c a
  | a :: b :: l => lines c a ++ ["---"] :: file c (b :: l)

/-- The arrays a caller gets for a list of arrays saved. -/
def loaded : List (Arr α) → Loaded α
  | [a] => .single a
  | l => .many l

end Spec

variable {c : Codec α}

lemma parse_row (hc : c.Valid) (r : List α) : (r.map c.fmt).mapM c.parse = some r := by
  induction r with
  | nil => rfl
  | cons x r ih => simp [List.mapM_cons, hc.round, ih]

lemma parse_rows (hc : c.Valid) (rows : List (List α)) :
    (rows.map fun r => r.map c.fmt).mapM (fun l => l.mapM c.parse) = some rows := by
  induction rows with
  | nil => rfl
  | cons r rows ih => simp [List.mapM_cons, parse_row hc, ih]

lemma loadtxt_table (hc : c.Valid) (rows : List (List α)) (k : ℕ) (hk : 0 < k)
    (h : ∀ r ∈ rows, r.length = k) :
    loadtxt c (rows.map fun r => r.map c.fmt) = .ok (squeeze rows) := by
  have hf : (rows.map fun r => r.map c.fmt).filter (fun l => !l.isEmpty)
      = rows.map fun r => r.map c.fmt := by
    rw [List.filter_eq_self]
    intro l hl
    obtain ⟨r, hr, rfl⟩ := List.mem_map.1 hl
    have := h r hr
    cases r with
    | nil => simp at this; omega
    | cons => simp
  have hrect : rectangular rows = true := by
    cases rows with
    | nil => rfl
    | cons r rs =>
      simp only [rectangular, List.all_eq_true, beq_iff_eq]
      intro r' hr'
      rw [h r (by simp), h r' (by simp [hr'])]
  rw [loadtxt, hf, parse_rows hc]
  simp [hrect]

lemma loadtxt_proper (hc : c.Valid) (a : Arr α) (h : Spec.Proper a) :
    loadtxt c (Spec.lines c a) = .ok a := by
  cases a with
  | scalar x => exact h.elim
  | vector l =>
    have e : Spec.lines c (.vector l) = (l.map fun x => [x]).map fun r => r.map c.fmt := by
      simp [Spec.lines, List.map_map, Function.comp_def]
    rw [e, loadtxt_table hc _ 1 one_pos (by simp)]
    match l, h with
    | [], h => simp [Spec.Proper] at h
    | [x], h => simp [Spec.Proper] at h
    | x :: y :: l, _ =>
      have : ((x :: y :: l).map fun x => [x]).flatten = x :: y :: l := by
        rw [← List.flatMap_def]
        simp
      simp only [List.map_cons, squeeze] at this ⊢
      rw [if_pos (by simp), this]
  | table rows =>
    obtain ⟨h1, k, hk, hr⟩ := h
    rw [Spec.lines, loadtxt_table hc rows k (by omega) hr]
    match rows, h1, hr with
    | [], h1, _ => simp at h1
    | [r], h1, _ => simp at h1
    | r :: r' :: rs, _, hr =>
      have : ¬ ((r :: r' :: rs).all fun r => r.length == 1) = true := by
        rw [List.all_eq_true]
        intro hall
        have h1 := hall r (by simp)
        have h2 := hr r (by simp)
        simp at h1
        omega
      simp only [squeeze]
      rw [if_neg this]

lemma lines_ne_sep (hc : c.Valid) (a : Arr α) : ∀ l ∈ Spec.lines c a, l ≠ separator := by
  have hne : ∀ x, c.fmt x ≠ "---" := by
    intro x h
    have := hc.round x
    rw [h, hc.sep] at this
    exact Option.some_ne_none _ this.symm
  intro l hl he
  subst he
  cases a with
  | scalar x => simp [Spec.lines] at hl
  | vector v =>
    simp only [Spec.lines, List.mem_map, separator] at hl
    obtain ⟨x, -, h⟩ := hl
    exact hne x (by simpa using h)
  | table rows =>
    simp only [Spec.lines, List.mem_map, separator] at hl
    obtain ⟨r, -, h⟩ := hl
    cases r with
    | nil => simp at h
    | cons x r => exact hne x (by simpa using (List.cons.inj h).1)

lemma splitText_append (acc ls rest : List Line) (h : ∀ l ∈ ls, l ≠ separator) :
    splitText acc (ls ++ rest) = splitText (acc ++ ls) rest := by
  induction ls generalizing acc with
  | nil => simp
  | cons l ls ih =>
    rw [List.cons_append, splitText, if_neg (h l (by simp)),
      ih _ fun l hl => h l (by simp [hl])]
    simp

lemma splitText_file (hc : c.Valid) (a : Arr α) (l : List (Arr α)) :
    splitText [] (Spec.file c (a :: l)) = (a :: l).map (Spec.lines c) := by
  induction l generalizing a with
  | nil =>
    have := splitText_append [] (Spec.lines c a) [] (lines_ne_sep hc a)
    rw [List.append_nil] at this
    rw [Spec.file, this]
    rfl
  | cons b l ih =>
    rw [Spec.file, splitText_append _ _ _ (lines_ne_sep hc a), splitText,
      if_pos (show ["---"] = separator from rfl), ih]
    rfl

/-- The reader is correct: from the file that is meant for any non-empty list of
proper arrays it returns those arrays. -/
theorem C82_reader_partial (c : Codec α) (hc : c.Valid) (a : Arr α) (l : List (Arr α))
    (h : ∀ x ∈ a :: l, Spec.Proper x) :
    load c (Spec.file c (a :: l)) = .ok (Spec.loaded (a :: l)) := by
  have hm : ((a :: l).map (Spec.lines c)).mapM (loadtxt c) = .ok (a :: l) := by
    generalize a :: l = m at h
    induction m with
    | nil => rfl
    | cons x m ih =>
      rw [List.map_cons, List.mapM_cons, loadtxt_proper hc x (h x (by simp)),
        ih fun y hy => h y (by simp [hy])]
      rfl
  rw [load, splitText_file hc, hm]
  cases l <;> rfl

/-- One proper array is saved and loads back. -/
theorem C82_single_partial (c : Codec α) (hc : c.Valid) (a : Arr α) (h : Spec.Proper a) :
    (save c [a]).1 = .ok () ∧ load c (save c [a]).2 = .ok (.single a) := by
  have hs : save c [a] = (.ok (), Spec.file c [a]) := by
    cases a with
    | scalar x => exact h.elim
    | vector l => simp [save, saveLoop, savetxt, Spec.file, Spec.lines]
    | table rows => simp [save, saveLoop, savetxt, Spec.file, Spec.lines]
  rw [hs]
  exact ⟨rfl, C82_reader_partial c hc a [] (by simpa using h)⟩

/-- Several arrays are never saved: writing raises `TypeError` after the first one,
and the file left behind loads as the first array alone. -/
theorem C82_several_false (c : Codec α) (hc : c.Valid) (a b : Arr α) (l : List (Arr α))
    (h : Spec.Proper a) :
    (save c (a :: b :: l)).1 = .error .typeError ∧
    load c (save c (a :: b :: l)).2 = .ok (.single a) := by
  have hs : save c (a :: b :: l) = (.error .typeError, (save c [a]).2) := by
    cases a with
    | scalar x => exact h.elim
    | vector l => simp [save, saveLoop, savetxt]
    | table rows => simp [save, saveLoop, savetxt]
  rw [hs]
  exact ⟨rfl, (C82_single_partial c hc a h).2⟩

/-- A table with one row loads back as a vector, one with one column as well, and one with a single entry as a
number: the shape is lost. -/
theorem C82_one_row_false (c : Codec α) (hc : c.Valid) (x y : α) (r : List α) :
    load c (save c [.table [x :: y :: r]]).2 = .ok (.single (.vector (x :: y :: r))) ∧
    load c (save c [.table ((x :: y :: r).map fun z => [z])]).2
      = .ok (.single (.vector (x :: y :: r))) ∧
    load c (save c [.table [[x]]]).2 = .ok (.single (.scalar x)) := by
  have key : ∀ rows : List (List α), ∀ k, 0 < k → (∀ r ∈ rows, r.length = k) →
      load c (save c [.table rows]).2 = .ok (.single (squeeze rows)) := by
    intro rows k hk h
    have hs : (save c [.table rows]).2 = Spec.file c [.table rows] := by
      simp [save, saveLoop, savetxt, Spec.file, Spec.lines]
    rw [hs, load, splitText_file hc]
    simp only [List.map_cons, List.map_nil, List.mapM_cons, List.mapM_nil, Spec.lines,
      loadtxt_table hc rows k hk h]
    rfl
  refine ⟨?_, ?_, by rw [key _ 1 one_pos (by simp)]; rfl⟩
  · rw [key _ (r.length + 2) (by omega) (by simp)]
    rfl
  · rw [key _ 1 one_pos (by simp)]
    have : ((x :: y :: r).map fun x => [x]).flatten = x :: y :: r := by
      rw [← List.flatMap_def]
      simp
    simp only [List.map_cons, squeeze] at this ⊢
    rw [if_pos (by simp), this]

/-- No arrays: an empty file, which loads as one empty array. -/
theorem C82_none_false (c : Codec α) :
    save c [] = (.ok (), []) ∧ load c (save c []).2 = .ok (.single (.vector [])) := by
  constructor <;> rfl

/-- A codec that meets the assumptions, with proper arrays: numbers in unary. -/
example : ∃ c : Codec ℕ, c.Valid ∧ Spec.Proper (.table [[1, 2, 3], [4, 5, 6]]) ∧
    load c (save c [.table [[1, 2, 3], [4, 5, 6]]]).2
      = .ok (.single (.table [[1, 2, 3], [4, 5, 6]])) := by
  have hv : Codec.Valid (α := ℕ) ⟨fun n => String.ofList (List.replicate n '1'),
      fun s => if s = "---" then none else some s.length⟩ := by
    constructor
    · intro n
      have : String.ofList (List.replicate n '1') ≠ "---" := by
        intro h
        have h2 := congrArg String.toList h
        rw [String.toList_ofList] at h2
        have h3 : '-' ∈ List.replicate n '1' := by rw [h2]; simp
        simp [List.mem_replicate] at h3
      simp [this]
    · simp
  have hp : Spec.Proper (.table [[1, 2, 3], [4, 5, 6]]) := ⟨by simp, 3, by norm_num, by simp⟩
  exact ⟨_, hv, hp, (C82_single_partial _ hv _ hp).2⟩

end Attitude.Props
