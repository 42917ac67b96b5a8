import Mathlib.Data.Rat.Floor
import Mathlib.Algebra.Order.Floor.Ring
import Mathlib.Tactic.Linarith
import Mathlib.Tactic.NormNum
import Mathlib.Tactic.FieldSimp
import Verif.Model.Webapp
import Verif.Props.FrontendStereonet

/-!
# C154 - C159: the spreadsheet of the web application and its plots
-/

namespace Attitude.Props

open Attitude Webapp

/-! ## C154 -/

/-- A row is plotted exactly if its five numbers can be read, whatever its color ... -/
theorem C154_plotted_iff (g : Value → Bool) (c0 c1 c2 c3 c4 c5 : Value) :
    (constructOrientation g [c0, c1, c2, c3, c4, c5]).isSome ↔
      ∀ c ∈ [c0, c1, c2, c3, c4], c.parseFloat.isSome := by
  simp only [constructOrientation, orientationFields, constructLoop]
  rcases h0 : c0.parseFloat with _ | x0 <;> rcases h1 : c1.parseFloat with _ | x1 <;>
    rcases h2 : c2.parseFloat with _ | x2 <;> rcases h3 : c3.parseFloat with _ | x3 <;>
    rcases h4 : c4.parseFloat with _ | x4 <;> simp [h0, h1, h2, h3, h4]

/-- ... with these numbers, and with the color if there is a valid one. -/
theorem C154_values (g : Value → Bool) (c0 c1 c2 c3 c4 c5 : Value) (o : List (String × Out))
    (h : constructOrientation g [c0, c1, c2, c3, c4, c5] = some o) :
    o.lookup "strike" = c0.parseFloat.map .number ∧ o.lookup "dip" = c1.parseFloat.map .number ∧
    o.lookup "rake" = c2.parseFloat.map .number ∧ o.lookup "maxError" = c3.parseFloat.map .number ∧
    o.lookup "minError" = c4.parseFloat.map .number ∧
    o.lookup "color" = if g c5 then some (.color c5) else none := by
  simp only [constructOrientation, orientationFields, constructLoop] at h
  rcases h0 : c0.parseFloat with _ | x0 <;> rcases h1 : c1.parseFloat with _ | x1 <;>
    rcases h2 : c2.parseFloat with _ | x2 <;> rcases h3 : c3.parseFloat with _ | x3 <;>
    rcases h4 : c4.parseFloat with _ | x4 <;> simp [h0, h1, h2, h3, h4] at h
  subst h
  rcases hg : g c5 <;> simp [List.lookup]

/-- Such a row: the first default. -/
example : (constructOrientation (fun _ => true) defaultRow1).isSome := by
  rw [defaultRow1, C154_plotted_iff]; simp [Value.parseFloat]

lemma construct_empty (g : Value → Bool) : constructOrientation g emptyRow = none := by
  simp [constructOrientation, emptyRow, orientationFields, constructLoop, Value.parseFloat, List.replicate]

/-- Empty rows are not plotted: adding rows changes no plot. -/
theorem C154_add_rows (g : Value → Bool) (data : Sheet) (modulus : ℕ) (t : ℤ) :
    cleanedData g (addEmptyRows data modulus t) = cleanedData g data := by
  simp only [addEmptyRows]
  split_ifs
  · rfl
  · simp [cleanedData, List.filterMap_append, construct_empty]

/-- Every plotted orientation is that of a row, and each row that can be read is plotted. -/
theorem C154_rows (g : Value → Bool) (data : Sheet) (o : List (String × Out)) :
    o ∈ cleanedData g data ↔ ∃ row ∈ data, constructOrientation g row = some o := by
  simp [cleanedData, List.mem_filterMap]

/-! ## C155 -/

/-- Adding rows keeps all rows where they are and adds empty ones, up to the next multiple of
the modulus. -/
theorem C155_add_rows (data : Sheet) (modulus : ℕ) (hm : 0 < modulus) (t : ℕ) :
    (∃ k, addEmptyRows data modulus t = data ++ List.replicate k emptyRow) ∧
    modulus ∣ (addEmptyRows data modulus t).length ∧
    data.length + t ≤ (addEmptyRows data modulus t).length ∧
    (addEmptyRows data modulus t).length < data.length + t + modulus := by
  set n := data.length with hn
  set c : ℤ := ⌈(((n : ℤ) + t : ℤ) : ℚ) / modulus⌉ with hc
  have hmq : (0 : ℚ) < modulus := by exact_mod_cast hm
  have h1 : (n : ℤ) + t ≤ c * modulus := by
    have := Int.le_ceil ((((n : ℤ) + t : ℤ) : ℚ) / modulus)
    rw [← hc, div_le_iff₀ hmq] at this
    exact_mod_cast this
  have h2 : c * modulus < (n : ℤ) + t + modulus := by
    have := Int.ceil_lt_add_one ((((n : ℤ) + t : ℤ) : ℚ) / modulus)
    rw [← hc, ← sub_lt_iff_lt_add, lt_div_iff₀ hmq] at this
    have h3 : (c : ℚ) * modulus < ((n : ℤ) + t : ℤ) + modulus := by linarith
    exact_mod_cast h3
  have hc0 : 0 ≤ c := by
    by_contra h
    push Not at h
    have : c * modulus < 0 := by
      apply mul_neg_of_neg_of_pos h; exact_mod_cast hm
    omega
  have hlen : ((addEmptyRows data modulus t).length : ℤ) = c * modulus := by
    simp only [addEmptyRows, ← hn, ← hc]
    split_ifs with h
    · rw [← hn]; omega
    · simp only [List.length_append, List.length_replicate, ← hn]
      push Not at h
      rw [Nat.cast_add, Int.toNat_of_nonneg h.le]
      ring
  refine ⟨?_, ?_, by omega, by omega⟩
  · simp only [addEmptyRows]
    split_ifs
    · exact ⟨0, by simp⟩
    · exact ⟨_, rfl⟩
  · have : (modulus : ℤ) ∣ (addEmptyRows data modulus t).length := by rw [hlen]; exact Dvd.intro_left _ rfl
    exact_mod_cast this

example : 10 ∣ (addEmptyRows [defaultRow1, defaultRow1] 10 (5 : ℕ)).length :=
  (C155_add_rows [defaultRow1, defaultRow1] 10 (by norm_num) 5).2.1

/-- "Add more rows" adds ten to nineteen rows, exactly ten to a multiple of ten. -/
theorem C155_button (data : Sheet) :
    data.length + 10 ≤ (step data .addRows).length ∧ (step data .addRows).length < data.length + 20 ∧
    (10 ∣ data.length → (step data .addRows).length = data.length + 10) := by
  obtain ⟨-, h1, h2, h3⟩ := C155_add_rows data 10 (by norm_num) 10
  simp only [step]
  push_cast at h1 h2 h3
  refine ⟨h2, by omega, fun h => by omega⟩

/-! ## C156 -/

/-- The errors of a row, if both can be read, are in order. -/
def Spec.ErrorsOrdered (row : Row) : Prop :=
  ∀ a b, (row.getD 3 .null).parseFloat = some a → (row.getD 4 .null).parseFloat = some b → b ≤ a

lemma finalizeRow_length (row : Row) : (finalizeRow row).length = row.length := by
  simp only [finalizeRow]
  split
  · split_ifs <;> simp
  · rfl

lemma getD_parse {row : Row} {i : ℕ} {x : ℚ} (h : (row.getD i .null).parseFloat = some x) :
    i < row.length := by
  by_contra hc
  push Not at hc
  simp [List.getD_eq_getElem?_getD, List.getElem?_eq_none hc, Value.parseFloat] at h

lemma finalizeRow_ordered (row : Row) : Spec.ErrorsOrdered (finalizeRow row) := by
  intro a b ha hb
  rcases h3 : (row.getD 3 .null).parseFloat with _ | x
  · have e : finalizeRow row = row := by simp only [finalizeRow, h3]
    rw [e, h3] at ha
    simp at ha
  rcases h4 : (row.getD 4 .null).parseFloat with _ | y
  · have e : finalizeRow row = row := by simp only [finalizeRow, h3, h4]
    rw [e, h4] at hb
    simp at hb
  have l3 := getD_parse h3
  have l4 := getD_parse h4
  by_cases hlt : x < y
  · have e : finalizeRow row = (row.set 3 (row.getD 4 .null)).set 4 (row.getD 3 .null) := by
      simp only [finalizeRow, h3, h4, if_pos hlt]
    rw [e] at ha hb
    have e3 : ((row.set 3 (row.getD 4 .null)).set 4 (row.getD 3 .null)).getD 3 .null = row.getD 4 .null := by
      simp [List.getD_eq_getElem?_getD, l3]
    have e4 : ((row.set 3 (row.getD 4 .null)).set 4 (row.getD 3 .null)).getD 4 .null = row.getD 3 .null := by
      simp [List.getD_eq_getElem?_getD, l4]
    rw [e3, h4] at ha
    rw [e4, h3] at hb
    simp only [Option.some.injEq] at ha hb
    linarith
  · have e : finalizeRow row = row := by simp only [finalizeRow, h3, h4, if_neg hlt]
    rw [e, h3] at ha
    rw [e, h4] at hb
    simp only [Option.some.injEq] at ha hb
    linarith

lemma finalizeRow_of_ordered {row : Row} (h : Spec.ErrorsOrdered row) : finalizeRow row = row := by
  simp only [finalizeRow]
  split
  · rename_i a b ha hb
    rw [if_neg (not_lt.2 (h a b ha hb))]
  · rfl

/-- What holds of every sheet. -/
structure Spec.GoodSheet (data : Sheet) : Prop where
  width : ∀ row ∈ data, row.length = 6
  ordered : ∀ row ∈ data, Spec.ErrorsOrdered row
  tens : 10 ∣ data.length

lemma emptyRow_length : emptyRow.length = 6 := rfl

lemma emptyRow_ordered : Spec.ErrorsOrdered emptyRow := by
  intro a b ha
  simp [emptyRow, orientationFields, List.replicate, Value.parseFloat] at ha

lemma good_add {data : Sheet} (hw : ∀ row ∈ data, row.length = 6)
    (ho : ∀ row ∈ data, Spec.ErrorsOrdered row) (t : ℕ) : Spec.GoodSheet (addEmptyRows data 10 t) := by
  obtain ⟨⟨k, hk⟩, hd, -, -⟩ := C155_add_rows data 10 (by norm_num) t
  refine ⟨?_, ?_, hd⟩
  · intro row hr
    rw [hk, List.mem_append] at hr
    rcases hr with hr | hr
    · exact hw row hr
    · rw [List.eq_of_mem_replicate hr]; rfl
  · intro row hr
    rw [hk, List.mem_append] at hr
    rcases hr with hr | hr
    · exact ho row hr
    · rw [List.eq_of_mem_replicate hr]; exact emptyRow_ordered

lemma good_default : Spec.GoodSheet defaultData := by
  refine good_add (t := 0) ?_ ?_
  · intro row hr
    simp only [List.mem_cons, List.not_mem_nil, or_false] at hr
    rcases hr with rfl | rfl <;> rfl
  · intro row hr
    simp only [List.mem_cons, List.not_mem_nil, or_false] at hr
    rcases hr with rfl | rfl <;> intro a b ha hb <;>
      simp [defaultRow1, defaultRow2, Value.parseFloat] at ha hb <;> subst ha hb <;> norm_num

lemma applyChange_length (data : Sheet) (c : Change) : (applyChange data c).length = data.length := by
  simp [applyChange]

lemma foldl_length (changes : List Change) (data : Sheet) :
    (changes.foldl applyChange data).length = data.length := by
  induction changes generalizing data with
  | nil => rfl
  | cons c cs ih => rw [List.foldl_cons, ih, applyChange_length]

lemma mem_applyChange {data : Sheet} {c : Change} {row : Row} (h : row ∈ applyChange data c) :
    ∃ r ∈ data, row = r ∨ row = r.set c.col c.value := by
  simp only [applyChange] at h
  obtain ⟨i, hi, rfl⟩ := List.mem_iff_getElem.1 h
  have hi' : i < data.length := by simpa using hi
  refine ⟨data[i], List.getElem_mem hi', ?_⟩
  rw [List.getElem_modify]
  split_ifs
  · right; rfl
  · left; rfl

lemma foldl_width (changes : List Change) (data : Sheet) (hw : ∀ row ∈ data, row.length = 6) :
    ∀ row ∈ changes.foldl applyChange data, row.length = 6 := by
  induction changes generalizing data with
  | nil => exact hw
  | cons c cs ih =>
    rw [List.foldl_cons]
    apply ih
    intro row hr
    obtain ⟨r, hr', rfl | rfl⟩ := mem_applyChange hr
    · exact hw _ hr'
    · simp [hw r hr']

/-- After any sequence of edits, added rows and resets all rows have six cells and ordered
errors, and the number of rows is a multiple of ten. -/
theorem C156_invariant (events : List Event) : Spec.GoodSheet (run events) := by
  unfold run
  induction events using List.reverseRecOn with
  | nil => exact good_default
  | append_singleton es e ih =>
    rw [List.foldl_append, List.foldl_cons, List.foldl_nil]
    cases e with
    | edit changes =>
      simp only [step, onCellsChanged]
      refine ⟨?_, ?_, ?_⟩
      · intro row hr
        obtain ⟨r, hr', rfl⟩ := List.mem_map.1 hr
        rw [finalizeRow_length]
        exact foldl_width changes _ ih.width r hr'
      · intro row hr
        obtain ⟨r, hr', rfl⟩ := List.mem_map.1 hr
        exact finalizeRow_ordered r
      · rw [List.length_map, foldl_length]
        exact ih.tens
    | addRows => exact good_add ih.width ih.ordered 10
    | reset => exact good_default

/-- So every plotted orientation has a maximum error that is not less than the minimum. -/
theorem C156_plotted (g : Value → Bool) (events : List Event) (o : List (String × Out))
    (ho : o ∈ cleanedData g (run events)) :
    ∃ a b, o.lookup "maxError" = some (.number a) ∧ o.lookup "minError" = some (.number b) ∧ b ≤ a := by
  obtain ⟨row, hr, hc⟩ := (C154_rows g _ o).1 ho
  have hg := C156_invariant events
  have hw := hg.width row hr
  have hord := hg.ordered row hr
  match row, hw with
  | [c0, c1, c2, c3, c4, c5], _ =>
    obtain ⟨-, -, -, h3, h4, -⟩ := C154_values g c0 c1 c2 c3 c4 c5 o hc
    have hs := (C154_plotted_iff g c0 c1 c2 c3 c4 c5).1 (by rw [hc]; rfl)
    obtain ⟨a, ha⟩ := Option.isSome_iff_exists.1 (hs c3 (by simp))
    obtain ⟨b, hb⟩ := Option.isSome_iff_exists.1 (hs c4 (by simp))
    refine ⟨a, b, by rw [h3, ha]; rfl, by rw [h4, hb]; rfl, ?_⟩
    exact hord a b (by simpa using ha) (by simpa using hb)

example (g : Value → Bool) : cleanedData g (run []) ≠ [] := by
  have h : (constructOrientation g defaultRow1).isSome := by
    rw [defaultRow1, C154_plotted_iff]; simp [Value.parseFloat]
  obtain ⟨o, ho⟩ := Option.isSome_iff_exists.1 h
  have hm : defaultRow1 ∈ run [] := by
    simp only [run, List.foldl_nil, defaultData, addEmptyRows]
    split <;> simp
  have : o ∈ cleanedData g (run []) := (C154_rows g _ o).2 ⟨defaultRow1, hm, ho⟩
  exact List.ne_nil_of_mem this

/-- Ordering exchanges the two errors at most; all other cells remain. -/
theorem C156_nothing_lost (row : Row) (hw : row.length = 6) :
    (finalizeRow row).Perm row ∧ ∀ i, i ≠ 3 → i ≠ 4 → (finalizeRow row)[i]? = row[i]? := by
  match row, hw with
  | [c0, c1, c2, c3, c4, c5], _ =>
    simp only [finalizeRow]
    split
    · split_ifs
      · refine ⟨?_, ?_⟩
        · simp only [List.getD_cons_succ, List.getD_cons_zero, List.set_cons_succ, List.set_cons_zero]
          exact ((List.Perm.swap c3 c4 [c5]).cons c2).cons c1 |>.cons c0
        · intro i h3 h4
          simp only [List.getElem?_set]
          split_ifs <;> first | omega | rfl
      · exact ⟨.refl _, fun _ _ _ => rfl⟩
    · exact ⟨.refl _, fun _ _ _ => rfl⟩

example : (finalizeRow ((defaultRow1.set 3 (.num 2)).set 4 (.num 7))).Perm
    ((defaultRow1.set 3 (.num 2)).set 4 (.num 7)) :=
  (C156_nothing_lost _ rfl).1

/-- Edits in other columns are applied as they are and change nothing else. -/
theorem C156_other_columns (events : List Event) (changes : List Change)
    (hc : ∀ c ∈ changes, c.col ≠ 3 ∧ c.col ≠ 4) :
    run (events ++ [.edit changes]) = changes.foldl applyChange (run events) := by
  have hg := (C156_invariant events).ordered
  rw [run, List.foldl_append, List.foldl_cons, List.foldl_nil]
  change onCellsChanged (run events) changes = _
  have key : ∀ (changes : List Change), (∀ c ∈ changes, c.col ≠ 3 ∧ c.col ≠ 4) → ∀ data : Sheet,
      (∀ row ∈ data, Spec.ErrorsOrdered row) →
      ∀ row ∈ changes.foldl applyChange data, Spec.ErrorsOrdered row := by
    intro changes
    induction changes with
    | nil => intro _ data h; exact h
    | cons c cs ih =>
      intro hc data h
      rw [List.foldl_cons]
      apply ih (fun c' h' => hc c' (List.mem_cons_of_mem _ h'))
      intro row hr
      obtain ⟨r, hr', rfl | rfl⟩ := mem_applyChange hr
      · exact h _ hr'
      · obtain ⟨n3, n4⟩ := hc c List.mem_cons_self
        intro a b ha hb
        rw [List.getD_eq_getElem?_getD, List.getElem?_set_ne n3, ← List.getD_eq_getElem?_getD] at ha
        rw [List.getD_eq_getElem?_getD, List.getElem?_set_ne n4, ← List.getD_eq_getElem?_getD] at hb
        exact h r hr' a b ha hb
  simp only [onCellsChanged]
  conv_rhs => rw [← List.map_id (changes.foldl applyChange (run events))]
  apply List.map_congr_left
  intro row hr
  exact finalizeRow_of_ordered (key changes hc _ hg row hr)

example : run ([.addRows] ++ [.edit [⟨0, 1, .num 12⟩, ⟨1, 0, .num 3⟩]])
    = [⟨0, 1, .num 12⟩, ⟨1, 0, .num 3⟩].foldl applyChange (run [.addRows]) :=
  C156_other_columns _ _ (by simp)

/-- Errors that are entered together (pasted) in the right order are kept ... -/
theorem C156_both_at_once (row : Row) (hw : row.length = 6) (u v : Value) (a b : ℚ)
    (hu : u.parseFloat = some a) (hv : v.parseFloat = some b) (hab : b ≤ a) :
    finalizeRow ((row.set 3 u).set 4 v) = (row.set 3 u).set 4 v := by
  apply finalizeRow_of_ordered
  match row, hw with
  | [c0, c1, c2, c3, c4, c5], _ =>
    intro a' b' ha hb
    simp at ha hb
    rw [hu] at ha
    rw [hv] at hb
    simp only [Option.some.injEq] at ha hb
    linarith

example : finalizeRow ((emptyRow.set 3 (.num 20)).set 4 (.num 10)) = (emptyRow.set 3 (.num 20)).set 4 (.num 10) :=
  C156_both_at_once emptyRow rfl (.num 20) (.num 10) 20 10 rfl rfl (by norm_num)

/-- ... and those entered one after the other if the maximum comes first and is not less than
the old minimum ... -/
theorem C156_one_by_one_partial (row : Row) (hw : row.length = 6) (u v : Value) (a b b0 : ℚ)
    (hu : u.parseFloat = some a) (hv : v.parseFloat = some b) (hab : b ≤ a)
    (h0 : (row.getD 4 .null).parseFloat = some b0) (ha : b0 ≤ a) :
    finalizeRow ((finalizeRow (row.set 3 u)).set 4 v) = (row.set 3 u).set 4 v := by
  have e : finalizeRow (row.set 3 u) = row.set 3 u := by
    apply finalizeRow_of_ordered
    match row, hw with
    | [c0, c1, c2, c3, c4, c5], _ =>
      intro a' b' ha' hb'
      simp at ha' hb' h0
      rw [hu] at ha'
      rw [h0] at hb'
      simp only [Option.some.injEq] at ha' hb'
      linarith
  rw [e]
  exact C156_both_at_once row hw u v a b hu hv hab

example : finalizeRow ((finalizeRow ((emptyRow.set 4 (.num 5)).set 3 (.num 20))).set 4 (.num 10))
    = ((emptyRow.set 4 (.num 5)).set 3 (.num 20)).set 4 (.num 10) :=
  C156_one_by_one_partial (emptyRow.set 4 (.num 5)) rfl (.num 20) (.num 10) 20 10 5 rfl rfl
    (by norm_num) rfl (by norm_num)

/-- ... but not in general: the errors 8 and 5 are to be replaced by 20 and 10, the minimum is
entered first; in the end the minimum is 8. -/
theorem C156_one_by_one_false : ∃ row : Row, row.length = 6 ∧ Spec.ErrorsOrdered row ∧
    (let final := finalizeRow ((finalizeRow (row.set 4 (.num 10))).set 3 (.num 20))
     final.getD 3 .null = .num 20 ∧ final.getD 4 .null = .num 8) := by
  refine ⟨[.num 0, .num 0, .num 0, .num 8, .num 5, .null], rfl, ?_, ?_⟩
  · intro a b ha hb
    simp [Value.parseFloat] at ha hb
    subst ha hb; norm_num
  · simp only [finalizeRow, List.set_cons_succ, List.set_cons_zero, List.getD_cons_succ, List.getD_cons_zero,
      Value.parseFloat]
    norm_num [Value.parseFloat]

/-! ## C157 -/

/-- Nothing that could continue a number. -/
def Stops (w : List Char) : Prop := ∀ c t, w = c :: t → isSpace c

lemma stops_head {w : List Char} (hw : Stops w) {c : Char} {t : List Char} (h : w = c :: t) :
    c = ' ' ∨ c = '\t' ∨ c = '\n' ∨ c = '\r' := by
  have := hw c t h
  simpa [isSpace, or_assoc] using this

lemma takeSign_append {w : List Char} (hw : Stops w) (s : List Char) :
    takeSign (s ++ w) = ((takeSign s).1, (takeSign s).2 ++ w) := by
  cases s with
  | nil =>
    cases w with
    | nil => rfl
    | cons c t => rcases stops_head hw rfl with rfl | rfl | rfl | rfl <;> rfl
  | cons c t =>
    by_cases h1 : c = '-'
    · subst h1; rfl
    by_cases h2 : c = '+'
    · subst h2; rfl
    have e : ∀ t, takeSign (c :: t) = (false, c :: t) := by
      intro t
      simp only [takeSign]
      split <;> simp_all
    rw [List.cons_append, e, e]
    rfl

lemma takeDigits_append {w : List Char} (hw : Stops w) (s : List Char) :
    takeDigits (s ++ w) = ((takeDigits s).1, (takeDigits s).2 ++ w) := by
  induction s with
  | nil =>
    cases w with
    | nil => rfl
    | cons c t => rcases stops_head hw rfl with rfl | rfl | rfl | rfl <;> rfl
  | cons c t ih =>
    simp only [takeDigits, Prod.mk.injEq] at ih
    simp only [takeDigits, List.cons_append, List.takeWhile_cons, List.dropWhile_cons]
    by_cases h : isDigit c
    · simp only [h, if_true, ih.1, ih.2]
    · simp [h]

lemma takeFraction_append {w : List Char} (hw : Stops w) (s : List Char) :
    takeFraction (s ++ w) = ((takeFraction s).1, (takeFraction s).2 ++ w) := by
  cases s with
  | nil =>
    cases w with
    | nil => rfl
    | cons c t => rcases stops_head hw rfl with rfl | rfl | rfl | rfl <;> rfl
  | cons c t =>
    by_cases h1 : c = '.'
    · subst h1
      exact takeDigits_append hw t
    · have e : ∀ t, takeFraction (c :: t) = ([], c :: t) := by
        intro t
        simp only [takeFraction]
        split <;> simp_all
      rw [List.cons_append, e, e]
      rfl

lemma exponentOf_append {w : List Char} (hw : Stops w) (s : List Char) :
    exponentOf (s ++ w) = (exponentOf s).map fun p => (p.1, p.2 ++ w) := by
  simp only [exponentOf, takeSign_append hw, takeDigits_append hw]
  rcases h : takeDigits (takeSign s).2 with ⟨ds, r⟩
  cases ds <;> simp

lemma takeExponent_append {w : List Char} (hw : Stops w) (s : List Char) :
    takeExponent (s ++ w) = ((takeExponent s).1, (takeExponent s).2 ++ w) := by
  cases s with
  | nil =>
    cases w with
    | nil => rfl
    | cons c t => rcases stops_head hw rfl with rfl | rfl | rfl | rfl <;> rfl
  | cons c t =>
    simp only [List.cons_append, takeExponent, exponentOf_append hw]
    split_ifs
    · cases exponentOf t <;> simp
    · simp

lemma decimalPrefix_append {w : List Char} (hw : Stops w) (s : List Char) :
    decimalPrefix (s ++ w) = (decimalPrefix s).map fun p => (p.1, p.2 ++ w) := by
  simp only [decimalPrefix, takeSign_append hw, takeDigits_append hw, takeFraction_append hw,
    takeExponent_append hw]
  split_ifs <;> simp

lemma trim_append (s : List Char) : ∃ w, Stops w ∧ s.dropWhile isSpace = trim s ++ w := by
  set l := s.dropWhile isSpace with hl
  refine ⟨(l.reverse.takeWhile isSpace).reverse, ?_, ?_⟩
  · intro c t h
    have : c ∈ (l.reverse.takeWhile isSpace).reverse := by rw [h]; exact List.mem_cons_self
    exact List.mem_takeWhile_imp (List.mem_reverse.1 this)
  · rw [trim, List.rdropWhile, ← hl, ← List.reverse_append, List.takeWhile_append_dropWhile,
      List.reverse_reverse]

/-- A cell that is marked as valid is plotted with its value (as JavaScript's `Number` gives
it), unless it is blank or hexadecimal ... -/
theorem C157_ok_is_read_partial (g : Value → Bool) (f : Field) (hf : f.isColor = false) (s : List Char)
    (h : status g f (.str s) = .ok) (hb : trim s ≠ []) (hx : hexLiteral (trim s) = none) :
    ∃ v, toNumber s = some v ∧ (Value.str s).parseFloat = some v := by
  have hne : (Value.str s).isEmpty = false := by
    by_contra hc
    simp only [Bool.not_eq_false] at hc
    simp [status, hc] at h
  have hn : (toNumber s).isSome := by
    simp only [status, hne, hf, Value.isNumber] at h
    by_contra hc
    simp [hc] at h
  obtain ⟨v, hv⟩ := Option.isSome_iff_exists.1 hn
  refine ⟨v, hv, ?_⟩
  simp only [toNumber, if_neg hb, hx] at hv
  rcases hd : decimalPrefix (trim s) with _ | ⟨u, r⟩
  · simp [hd] at hv
  · cases r with
    | cons c t => simp [hd] at hv
    | nil =>
      simp only [hd, Option.some.injEq] at hv
      obtain ⟨w, hw, e⟩ := trim_append s
      simp only [Value.parseFloat, Webapp.parseFloat, e, decimalPrefix_append hw, hd, Option.map_some, hv]

/-- Such a cell: `12.5` between spaces. -/
example : status (fun _ => true) { key := "dip" } (.str " 12.5 ".toList) = .ok ∧
    (Value.str " 12.5 ".toList).parseFloat = some (25 / 2) := by decide +kernel

/-- ... in which cases it is marked as valid but not plotted, or plotted with another value. -/
theorem C157_ok_false (g : Value → Bool) (f : Field) (hf : f.isColor = false) :
    (status g f (.str " ".toList) = .ok ∧ (Value.str " ".toList).parseFloat = none) ∧
    (status g f (.str "0x10".toList) = .ok ∧ toNumber "0x10".toList = some 16 ∧
      (Value.str "0x10".toList).parseFloat = some 0) := by
  have e1 : (Value.str " ".toList).isEmpty = false := by decide
  have e2 : (Value.str "0x10".toList).isEmpty = false := by decide
  have n1 : (Value.str " ".toList).isNumber = true := by decide +kernel
  have n2 : (Value.str "0x10".toList).isNumber = true := by decide +kernel
  refine ⟨⟨by simp only [status, e1, hf, n1]; rfl, by decide +kernel⟩,
    ⟨by simp only [status, e2, hf, n2]; rfl, by decide +kernel, by decide +kernel⟩⟩

example : ∃ f : Field, f.isColor = false := ⟨{ key := "dip" }, rfl⟩

/-- Cells marked as invalid or empty can be plotted nevertheless: text after a number is
ignored, and the number zero is taken for an empty cell. -/
theorem C157_invalid_false (g : Value → Bool) (f : Field) (hf : f.isColor = false) :
    (status g f (.str "12abc".toList) = .invalid ∧ (Value.str "12abc".toList).parseFloat = some 12) ∧
    (status g f (.num 0) = .empty ∧ (Value.num 0).parseFloat = some 0) := by
  have e1 : (Value.str "12abc".toList).isEmpty = false := by decide
  have n1 : (Value.str "12abc".toList).isNumber = false := by decide +kernel
  refine ⟨⟨by simp only [status, e1, hf, n1]; rfl, by decide +kernel⟩, ⟨rfl, rfl⟩⟩

example : ∃ f : Field, f.isColor = false := ⟨{ key := "strike" }, rfl⟩

/-- Cells without text are never read as numbers, and colors are judged as they are used. -/
theorem C157_empty_partial (g : Value → Bool) (f : Field) :
    Value.null.parseFloat = none ∧ (Value.str []).parseFloat = none ∧
    (f.isColor = true → ∀ v, status g f v = .ok → g v = true) := by
  refine ⟨rfl, rfl, fun hf v h => ?_⟩
  simp only [status, hf, if_true] at h
  by_contra hc
  split_ifs at h

/-- Stored clip angles that are accepted are angles for which the net has a size. -/
theorem C157_clip_angle (v : Value) : clipAngleValid v = true ↔
    ∃ x, v.parseFloat = some x ∧ 0 < x ∧ x ≤ 90 := by
  simp only [clipAngleValid]
  cases v.parseFloat <;> simp

/-! ## C158 -/

/-- Ellipses of the vertical plot: opacities are between 0 and 0.8, no less for the stroke than
for the fill, and do not increase with the error. -/
theorem C158_ellipse_opacity (e : Option ℝ) (he : ∀ x, e = some x → 0 ≤ x) :
    0 < ellipseAlpha 1 e ∧ ellipseAlpha 1 e ≤ ellipseAlpha 2 e ∧ ellipseAlpha 2 e ≤ 0.8 ∧
    ∀ x y, e = some x → x ≤ y → ellipseAlpha 1 (some y) ≤ ellipseAlpha 1 (some x) ∧
      ellipseAlpha 2 (some y) ≤ ellipseAlpha 2 (some x) := by
  rcases e with _ | x
  · simp only [ellipseAlpha]
    refine ⟨by norm_num, le_refl _, by norm_num, ?_⟩
    intro x y h; simp at h
  · have hx := he x rfl
    have mono : ∀ k : ℝ, 0 < k → ∀ y, x ≤ y → ellipseAlpha k (some y) ≤ ellipseAlpha k (some x) := by
      intro k hk y hxy
      simp only [ellipseAlpha]
      rcases hx.eq_or_lt with h0 | hpos
      · rw [if_pos h0.symm]
        split_ifs <;> linarith
      · have hy : 0 < y := lt_of_lt_of_le hpos hxy
        rw [if_neg hpos.ne', if_neg hy.ne']
        have : k / y ≤ k / x := div_le_div_of_nonneg_left hk.le hpos hxy
        split_ifs <;> linarith
    refine ⟨?_, ?_, ?_, ?_⟩
    · simp only [ellipseAlpha]
      rcases hx.eq_or_lt with h0 | hpos
      · rw [if_pos h0.symm]; norm_num
      · rw [if_neg hpos.ne']
        split_ifs
        · norm_num
        · positivity
    · simp only [ellipseAlpha]
      rcases hx.eq_or_lt with h0 | hpos
      · rw [if_pos h0.symm, if_pos h0.symm]
      · rw [if_neg hpos.ne', if_neg hpos.ne']
        have h1 : 0 < 1 / x := by positivity
        have h2 : 2 / x = 2 * (1 / x) := by ring
        rw [h2]
        split_ifs <;> linarith
    · simp only [ellipseAlpha]
      split_ifs <;> linarith
    · rintro x' y h hxy
      rw [Option.some.injEq] at h
      subst h
      exact ⟨mono 1 one_pos y hxy, mono 2 two_pos y hxy⟩

example : 0 < ellipseAlpha 1 (some 12) :=
  (C158_ellipse_opacity (some 12) (by rintro x ⟨⟩; norm_num)).1

/-! ## C159 -/

/-- The direction that a label names: a point of the compass, or an azimuth in degrees from
north towards east, which has to be in [0, 360) and not one of the four. -/
def Spec.LabelShows (l : Label) (d : Vec 3) : Prop :=
  match l with
  | .name s => Spec.compass s = some d
  | .deg v => 0 ≤ v ∧ v < 360 ∧ v ≠ 0 ∧ d = ![Real.sin (radians v), Real.cos (radians v), 0]

lemma shown_horizontal (lon : ℝ) :
    Spec.shown true false (lon, 0) = ![Real.sin (radians (180 - lon)), Real.cos (radians (180 - lon)), 0] := by
  have h : radians (180 - lon) = Real.pi - radians lon := by unfold radians; ring
  simp [Spec.shown, Spec.direction, Rotations.sph2cart, radians_zero, h, Real.sin_pi_sub, Real.cos_pi_sub]

/-- Azimuth labels of graticules name the direction in which data on the meridian are, for
longitudes above -180 ... -/
theorem C159_azimuth_partial (lon : ℝ) (h0 : -180 < lon) (h1 : lon ≤ 180) :
    Spec.LabelShows (formatAzimuthLabel lon) (Spec.shown true false (lon, 0)) := by
  rw [shown_horizontal]
  simp only [formatAzimuthLabel]
  split_ifs with ha hb hc hd
  · rw [ha]; simp [Spec.LabelShows, Spec.compass, radians_180]
  · rw [hb]; simp [Spec.LabelShows, Spec.compass, radians_90]
  · rw [hc]; simp [Spec.LabelShows, Spec.compass, radians_zero]
  · rw [hd]
    have : radians 270 = Real.pi + Real.pi / 2 := by unfold radians; ring
    simp [Spec.LabelShows, Spec.compass, this, Real.sin_add, Real.cos_add]
  · exact ⟨by linarith, by linarith, hc, rfl⟩

example : Spec.LabelShows (formatAzimuthLabel 120) (Spec.shown true false (120, 0)) :=
  C159_azimuth_partial 120 (by norm_num) (by norm_num)

/-- ... but of the meridians of the graticule, which are ten degrees apart, the first, north, is labelled 360
degrees. -/
theorem C159_azimuth_false : (∀ m : ℤ, m ∈ meridians ↔ -180 ≤ m ∧ m < 180 ∧ 10 ∣ m) ∧
    formatAzimuthLabel ((-180 : ℤ) : ℝ) = .deg 360 ∧
    Spec.compass "N" = some (Spec.shown true false (((-180 : ℤ) : ℝ), 0)) := by
  refine ⟨fun m => ?_, ?_, ?_⟩
  · unfold meridians
    rw [List.mem_map]
    constructor
    · rintro ⟨k, hk, rfl⟩
      simp at hk
      omega
    · rintro ⟨h1, h2, c, rfl⟩
      exact ⟨c + 18, by simp; exact ⟨(c + 18).toNat, by omega, by omega⟩, by ring⟩
  · simp only [formatAzimuthLabel]
    push_cast
    norm_num
  · rw [shown_horizontal]
    have : radians (180 - ((-180 : ℤ) : ℝ)) = 2 * Real.pi := by unfold radians; push_cast; ring
    rw [this]
    simp [Spec.compass]

/-- Dip labels are the dips of the planes whose normals are at that latitude. -/
theorem C159_dip (lon lat : ℝ) (h0 : 0 ≤ lat) (h1 : lat ≤ 90) : ∃ d, formatDipLabel lat = .deg d ∧
    0 ≤ d ∧ d ≤ 90 ∧ Spec.shown true false (lon, lat) 2 = Real.cos (radians d) := by
  refine ⟨90 - lat, rfl, by linarith, by linarith, ?_⟩
  have h : radians (90 - lat) = Real.pi / 2 - radians lat := by unfold radians; ring
  rw [h, Real.cos_pi_div_two_sub]
  simp [Spec.shown, Spec.direction, Rotations.sph2cart]

example : ∃ d, formatDipLabel 30 = .deg d ∧ d ≤ 90 := by
  obtain ⟨d, h, _, h', _⟩ := C159_dip 0 30 (by norm_num) (by norm_num)
  exact ⟨d, h, h'⟩

end Attitude.Props
