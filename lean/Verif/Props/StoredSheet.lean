import Mathlib.Tactic.Linarith
import Mathlib.Tactic.NormNum
import Verif.Model.StoredSheet
import Verif.Props.Webapp

/-!
# C271, C272: the sheet for any stored content, and the color picker
-/

namespace Attitude.Props

open Attitude Webapp
open Attitude.Frontend (JsErr)

/-! ## C271 -/

namespace Spec

/-- No row has more cells than there are columns. -/
def NoRowTooLong (data : StoredSheet) : Prop := ∀ cells, some cells ∈ data → cells.length ≤ 6

/-- The table shows the content: a row for each row in order, numbered from one, and in it a cell for each
cell in order with the stored value, with the color picker in the sixth column only. -/
def ShowsContent (data : StoredSheet) (rows : List ShownRow) : Prop :=
  rows.length = data.length ∧ ∀ i (hi : i < rows.length) (hd : i < data.length),
    rows[i].number = i + 1 ∧
    rows[i].cells.map ShownCell.value = (data[i].getD []).map (·.getD .null) ∧
    ∀ j (hj : j < rows[i].cells.length), rows[i].cells[j].editor = .color ↔ j = 5

/-- The value of the row `r` in the column with the title `t`; the first column is that of the numbers. -/
def Under (r : ShownRow) (t : String) (v : Value) : Prop :=
  ∃ j, headerCells[j + 1]? = some t ∧ (r.cells.map ShownCell.value)[j]? = some v

/-- No event is the button "Reset data". -/
def NoReset (events : List Event) : Prop := ∀ e ∈ events, e ≠ .reset

end Spec

lemma editorOf_ok_iff (i : ℕ) : (∃ e, editorOf i = .ok e) ↔ i < 6 := by
  rcases i with _ | _ | _ | _ | _ | _ | i <;> simp [editorOf, orientationFields]

lemma editorOf_color (i : ℕ) (e : Editor) (h : editorOf i = .ok e) : e = .color ↔ i = 5 := by
  rcases i with _ | _ | _ | _ | _ | _ | i <;> simp [editorOf, orientationFields] at h <;> simp [← h]

lemma enhanceCells_ok_iff (cells : List (Option Value)) : ∀ i, i ≤ 6 →
    ((∃ s, enhanceCells i cells = .ok s) ↔ i + cells.length ≤ 6) := by
  induction cells with
  | nil => intro i hi; simp [enhanceCells, hi]
  | cons c cs ih =>
    intro i hi
    simp only [enhanceCells, List.length_cons]
    rcases he : editorOf i with e | e
    · have : ¬ i < 6 := by rw [← editorOf_ok_iff, he]; simp
      constructor
      · rintro ⟨s, hs⟩; simp [bind, Except.bind] at hs
      · intro h; omega
    · have hlt : i < 6 := by rw [← editorOf_ok_iff, he]; simp
      have := ih (i + 1) (by omega)
      rcases hr : enhanceCells (i + 1) cs with r | r
      · rw [hr] at this
        simp only [reduceCtorEq, exists_false, false_iff] at this
        simp only [bind, Except.bind, reduceCtorEq, exists_false, false_iff]
        omega
      · rw [hr] at this
        simp only [Except.ok.injEq, exists_eq', true_iff] at this
        simp only [bind, Except.bind, Except.ok.injEq, exists_eq', true_iff]
        omega

lemma enhanceCells_shows (cells : List (Option Value)) : ∀ i s, enhanceCells i cells = .ok s →
    s.map ShownCell.value = cells.map (·.getD .null) ∧
    ∀ j (hj : j < s.length), s[j].editor = .color ↔ i + j = 5 := by
  induction cells with
  | nil => intro i s h; simp only [enhanceCells, Except.ok.injEq] at h; subst h; simp
  | cons c cs ih =>
    intro i s h
    simp only [enhanceCells] at h
    rcases he : editorOf i with e | e
    · rw [he] at h; simp [bind, Except.bind] at h
    · rcases hr : enhanceCells (i + 1) cs with r | r
      · rw [he, hr] at h; simp [bind, Except.bind] at h
      · rw [he, hr] at h
        simp only [bind, Except.bind, Except.ok.injEq] at h
        subst h
        obtain ⟨h1, h2⟩ := ih (i + 1) r hr
        refine ⟨by simp [h1], ?_⟩
        intro j hj
        rcases j with _ | j
        · simpa using editorOf_color i e he
        · have := h2 j (by simpa using hj)
          simp only [List.getElem_cons_succ, this]
          omega

lemma enhanceData_ok_iff (r : StoredRow) :
    (∃ s, enhanceData r = .ok s) ↔ ∀ cells, r = some cells → cells.length ≤ 6 := by
  rcases r with _ | cells
  · simp [enhanceData]
  · simpa [enhanceData] using enhanceCells_ok_iff cells 0 (by omega)

lemma enhanceData_shows (r : StoredRow) (s : List ShownCell) (h : enhanceData r = .ok s) :
    s.map ShownCell.value = (r.getD []).map (·.getD .null) ∧
    ∀ j (hj : j < s.length), s[j].editor = .color ↔ j = 5 := by
  rcases r with _ | cells
  · simp only [enhanceData, Except.ok.injEq] at h; subst h; simp
  · simpa using enhanceCells_shows cells 0 s h

lemma shownRows_ok_iff (data : StoredSheet) : ∀ i,
    (∃ rows, shownRows i data = .ok rows) ↔ Spec.NoRowTooLong data := by
  induction data with
  | nil => intro i; simp [shownRows, Spec.NoRowTooLong]
  | cons r rs ih =>
    intro i
    have hiff : Spec.NoRowTooLong (r :: rs) ↔
        (∃ s, enhanceData r = .ok s) ∧ ∃ rows, shownRows (i + 1) rs = .ok rows := by
      rw [enhanceData_ok_iff, ih]
      constructor
      · intro h
        exact ⟨fun cells hc => h cells (by simp [hc]), fun cells hc => h cells (by simp [hc])⟩
      · rintro ⟨h1, h2⟩ cells hc
        rcases List.mem_cons.mp hc with hc | hc
        · exact h1 cells hc.symm
        · exact h2 cells hc
    rw [hiff]
    simp only [shownRows]
    rcases enhanceData r with e | e <;> rcases shownRows (i + 1) rs with t | t <;> simp [bind, Except.bind]

lemma shownRows_shows (data : StoredSheet) : ∀ i rows, shownRows i data = .ok rows →
    rows.length = data.length ∧ ∀ k (hk : k < rows.length) (hd : k < data.length),
      rows[k].number = i + k + 1 ∧
      rows[k].cells.map ShownCell.value = (data[k].getD []).map (·.getD .null) ∧
      ∀ j (hj : j < rows[k].cells.length), rows[k].cells[j].editor = .color ↔ j = 5 := by
  induction data with
  | nil => intro i rows h; simp only [shownRows, Except.ok.injEq] at h; subst h; simp
  | cons r rs ih =>
    intro i rows h
    simp only [shownRows] at h
    rcases he : enhanceData r with e | e
    · rw [he] at h; simp [bind, Except.bind] at h
    · rcases hr : shownRows (i + 1) rs with t | t
      · rw [he, hr] at h; simp [bind, Except.bind] at h
      · rw [he, hr] at h
        simp only [bind, Except.bind, Except.ok.injEq] at h
        subst h
        obtain ⟨h1, h2⟩ := ih (i + 1) t hr
        refine ⟨by simp [h1], ?_⟩
        intro k hk hd
        rcases k with _ | k
        · obtain ⟨g1, g2⟩ := enhanceData_shows r e he
          exact ⟨by simp, by simpa using g1, fun j hj => by simpa using g2 j (by simpa using hj)⟩
        · obtain ⟨g0, g1, g2⟩ := h2 k (by simpa using hk) (by simpa using hd)
          refine ⟨by simp only [List.getElem_cons_succ, g0]; omega, by simpa using g1, fun j hj => ?_⟩
          simpa using g2 j (by simpa using hj)

/-- Whatever the storage holds, the table is shown exactly if no row has more than six cells; it then shows
every row in order, with its number and its values. -/
theorem C271_shown (data : StoredSheet) :
    (Spec.NoRowTooLong data ↔ ∃ rows, dataArea data = .table rows) ∧
    ∀ rows, dataArea data = .table rows → Spec.ShowsContent data rows := by
  rw [← shownRows_ok_iff data 0]
  unfold dataArea
  rcases h : shownRows 0 data with e | rows
  · simp
  · refine ⟨by simp, ?_⟩
    intro rows' hr
    simp only [Area.table.injEq] at hr
    subst hr
    simpa [Spec.ShowsContent] using shownRows_shows data 0 rows h

/-- A table with a row that is `null`, one with a cell that is `null`, and one that fills the columns. -/
example : Spec.NoRowTooLong [none, some [some (.num 3), none], Row.stored defaultRow1] := by
  intro cells h
  simp [Row.stored, defaultRow1] at h
  rcases h with h | h <;> simp [h]

/-- With a row of seven cells nothing of the sheet is shown. -/
example : dataArea [Row.stored defaultRow1, some (List.replicate 7 none)] = .error := by decide +kernel

/-- The plots do not fail: an orientation is plotted for exactly those rows whose first six cells exist and
make one, whatever the other rows are and whether or not the table is shown. -/
theorem C271_plotted (g : Value → Bool) (data : StoredSheet) (o : List (String × Out)) :
    o ∈ cleanedStored g data ↔ ∃ c0 c1 c2 c3 c4 c5 rest,
      some (some c0 :: some c1 :: some c2 :: some c3 :: some c4 :: some c5 :: rest) ∈ data ∧
      constructOrientation g [c0, c1, c2, c3, c4, c5] = some o := by
  have key : ∀ row : StoredRow, constructStored g row = some o ↔ ∃ c0 c1 c2 c3 c4 c5 rest,
      row = some (some c0 :: some c1 :: some c2 :: some c3 :: some c4 :: some c5 :: rest) ∧
      constructOrientation g [c0, c1, c2, c3, c4, c5] = some o := by
    intro row
    constructor
    · intro h
      rcases row with _ | cells
      · simp [constructStored, readable, constructOrientation, orientationFields, constructLoop] at h
      · have : ∀ r : Row, constructOrientation g r = some o → 6 ≤ r.length := by
          intro r hr
          rcases r with _ | ⟨c0, _ | ⟨c1, _ | ⟨c2, _ | ⟨c3, _ | ⟨c4, _ | ⟨c5, r⟩⟩⟩⟩⟩⟩ <;>
            simp [constructOrientation, orientationFields, constructLoop] at hr ⊢
          all_goals (repeat' split at hr) <;> simp_all
        have h6 := this _ h
        simp only [readable] at h6
        rcases cells with _ | ⟨_ | c0, _ | ⟨_ | c1, _ | ⟨_ | c2, _ | ⟨_ | c3, _ | ⟨_ | c4, _ | ⟨_ | c5, rest⟩⟩⟩⟩⟩⟩ <;>
          simp [List.takeWhile] at h6
        refine ⟨c0, c1, c2, c3, c4, c5, rest, rfl, ?_⟩
        rw [← h]
        simp [constructStored, readable, constructOrientation, orientationFields, constructLoop, List.takeWhile]
    · rintro ⟨c0, c1, c2, c3, c4, c5, rest, rfl, h⟩
      rw [← h]
      simp [constructStored, readable, constructOrientation, orientationFields, constructLoop, List.takeWhile]
  simp only [cleanedStored, List.mem_filterMap, key]
  constructor
  · rintro ⟨row, hm, c0, c1, c2, c3, c4, c5, rest, rfl, h⟩
    exact ⟨c0, c1, c2, c3, c4, c5, rest, hm, h⟩
  · rintro ⟨c0, c1, c2, c3, c4, c5, rest, hm, h⟩
    exact ⟨_, hm, c0, c1, c2, c3, c4, c5, rest, rfl, h⟩

lemma finalizeAll_ok_iff (data : StoredSheet) : (∃ d, finalizeAll data = .ok d) ↔ none ∉ data := by
  induction data with
  | nil => simp [finalizeAll]
  | cons r rs ih =>
    rcases r with _ | cells
    · simp [finalizeAll, finalizeStored, bind, Except.bind]
    · have : ∃ r', finalizeStored (some cells) = .ok r' := by
        simp only [finalizeStored]
        repeat' split
        all_goals exact ⟨_, rfl⟩
      obtain ⟨r', hr'⟩ := this
      simp only [finalizeAll, hr']
      rcases h : finalizeAll rs with e | d
      · rw [h] at ih; simpa [bind, Except.bind] using ih
      · rw [h] at ih; simpa [bind, Except.bind] using ih

lemma setStored_none (data : StoredSheet) (c : Change) : none ∈ setStored data c ↔ none ∈ data := by
  simp only [setStored]
  induction data generalizing c with
  | nil => simp
  | cons r rs ih =>
    rcases c with ⟨_ | i, col, v⟩
    · rcases r with _ | cells <;> simp [List.modify]
    · have := ih ⟨i, col, v⟩
      simp only [List.modify, List.modifyTailIdx_succ_cons, List.mem_cons] at this ⊢
      rw [this]

lemma foldl_setStored_none (changes : List Change) : ∀ data : StoredSheet,
    none ∈ changes.foldl setStored data ↔ none ∈ data := by
  induction changes with
  | nil => simp
  | cons c cs ih => intro data; rw [List.foldl_cons, ih, setStored_none]

/-- Where the table is shown, what is plotted for a row is what the table shows in it under the titles of the
columns, and no row has more cells than there are titles. -/
theorem C271_columns (g : Value → Bool) (data : StoredSheet) (rows : List ShownRow)
    (h : dataArea data = .table rows) :
    (∀ i (hi : i < rows.length) (hd : i < data.length), (rows[i].cells.length + 1 ≤ headerCells.length) ∧
      ∀ o, constructStored g data[i] = some o → ∃ strike dip rake max min color,
        Spec.Under rows[i] "Strike" strike ∧ Spec.Under rows[i] "Dip" dip ∧ Spec.Under rows[i] "Rake" rake ∧
        Spec.Under rows[i] "Max." max ∧ Spec.Under rows[i] "Min." min ∧ Spec.Under rows[i] "Color" color ∧
        o.lookup "strike" = strike.parseFloat.map .number ∧ o.lookup "dip" = dip.parseFloat.map .number ∧
        o.lookup "rake" = rake.parseFloat.map .number ∧ o.lookup "maxError" = max.parseFloat.map .number ∧
        o.lookup "minError" = min.parseFloat.map .number ∧
        o.lookup "color" = if g color then some (.color color) else none) := by
  intro i hi hd
  obtain ⟨-, hs⟩ := (C271_shown data).2 rows h
  obtain ⟨-, hv, -⟩ := hs i hi hd
  have hlong := (C271_shown data).1.2 ⟨rows, h⟩
  constructor
  · have := congrArg List.length hv
    rw [List.length_map, List.length_map] at this
    rw [this]
    rcases hc : data[i] with _ | cells
    · simp [headerCells]
    · have := hlong cells (hc ▸ List.getElem_mem hd)
      simp [headerCells]
      omega
  · intro o ho
    obtain ⟨c0, c1, c2, c3, c4, c5, rest, hr, hc⟩ := (C271_plotted g [data[i]] o).1
      (by simp [cleanedStored, ho])
    rw [List.mem_singleton] at hr
    rw [← hr] at hv
    refine ⟨c0, c1, c2, c3, c4, c5, ⟨0, rfl, by rw [hv]; rfl⟩, ⟨1, rfl, by rw [hv]; rfl⟩, ⟨2, rfl, by rw [hv]; rfl⟩,
      ⟨3, rfl, by rw [hv]; rfl⟩, ⟨4, rfl, by rw [hv]; rfl⟩, ⟨5, rfl, by rw [hv]; rfl⟩, C154_values g _ _ _ _ _ _ o hc⟩

/-- A table with a row that is plotted, after one that is `null`. -/
example : (∃ rows, dataArea [none, Row.stored defaultRow1] = .table rows) ∧
    (constructStored (fun _ => true) (Row.stored defaultRow1)).isSome := by
  constructor
  · refine (C271_shown _).1.1 fun cells h => ?_
    simp [Row.stored, defaultRow1] at h
    simp [h]
  · decide +kernel

/-- An edit is stored exactly if no row is `null`, whichever cells are edited. -/
theorem C271_edit_partial (data : StoredSheet) (changes : List Change) :
    (∃ d, editStored data changes = .ok d) ↔ none ∉ data := by
  rw [editStored, finalizeAll_ok_iff, foldl_setStored_none]

/-- With a single row that is `null`, which the table shows as an empty row, no edit of any other row is ever
stored, however often rows are added: only empty rows are appended, until the sheet is reset. -/
theorem C271_edit_false (data : StoredSheet) (hn : none ∈ data) (events : List Event)
    (hr : Spec.NoReset events) :
    ∃ n, events.foldl stepStored data = data ++ List.replicate n (Row.stored emptyRow) := by
  induction events generalizing data with
  | nil => exact ⟨0, by simp⟩
  | cons e es ih =>
    have hes : Spec.NoReset es := fun x hx => hr x (List.mem_cons_of_mem _ hx)
    rw [List.foldl_cons]
    cases e with
    | edit changes =>
      have : stepStored data (.edit changes) = data := by
        have h := (C271_edit_partial data changes).not.mpr (by simpa using hn)
        simp only [stepStored]
        rcases he : editStored data changes with x | d
        · rfl
        · exact absurd ⟨d, he⟩ h
      rw [this]
      exact ih data hn hes
    | addRows =>
      simp only [stepStored]
      split_ifs
      · exact ih data hn hes
      · obtain ⟨n, h⟩ := ih (data ++ List.replicate _ (Row.stored emptyRow))
          (List.mem_append_left _ hn) hes
        rw [h]
        exact ⟨_, by rw [List.append_assoc, List.replicate_append_replicate]⟩
    | reset => exact absurd rfl (hr _ List.mem_cons_self)

/-- Such a sheet, and its table is shown. -/
example : none ∈ ([Row.stored defaultRow1, none] : StoredSheet) ∧
    Spec.NoRowTooLong [Row.stored defaultRow1, none] ∧
    Spec.NoReset [.edit [⟨0, 0, .num 5⟩], .addRows, .edit [⟨0, 1, .num 6⟩]] := by
  refine ⟨by simp, ?_, ?_⟩
  · intro cells h
    simp [Row.stored, defaultRow1] at h
    simp [h]
  · intro e he
    simp at he
    rcases he with rfl | rfl | rfl <;> simp

lemma stored_getD (r : Row) (k : ℕ) : storedValue (r.map some) k = r.getD k .null := by
  simp only [storedValue, List.getD_eq_getElem?_getD, List.getElem?_map]
  rcases r[k]? with _ | v <;> simp

lemma finalizeStored_stored (r : Row) (h : r.length = 6) :
    finalizeStored (Row.stored r) = .ok (Row.stored (finalizeRow r)) := by
  rcases r with _ | ⟨c0, _ | ⟨c1, _ | ⟨c2, _ | ⟨c3, _ | ⟨c4, _ | ⟨c5, _ | ⟨c6, r⟩⟩⟩⟩⟩⟩⟩ <;>
    simp at h
  simp only [Row.stored, finalizeStored, stored_getD, finalizeRow]
  rcases (List.getD [c0, c1, c2, c3, c4, c5] 3 .null).parseFloat with _ | a <;>
    rcases (List.getD [c0, c1, c2, c3, c4, c5] 4 .null).parseFloat with _ | b <;> try rfl
  by_cases hab : a < b
  · simp [hab]
  · simp [hab]

lemma finalizeAll_stored (d : Sheet) (h : ∀ r ∈ d, r.length = 6) :
    finalizeAll (d.map Row.stored) = .ok ((d.map finalizeRow).map Row.stored) := by
  induction d with
  | nil => simp [finalizeAll]
  | cons r rs ih =>
    simp only [List.map_cons, finalizeAll, finalizeStored_stored r (h r (by simp)),
      ih (fun x hx => h x (List.mem_cons_of_mem _ hx)), bind, Except.bind]

lemma setStored_stored (d : Sheet) (c : Change) :
    setStored (d.map Row.stored) c = (applyChange d c).map Row.stored := by
  simp only [setStored, applyChange]
  induction d generalizing c with
  | nil => simp
  | cons r rs ih =>
    rcases c with ⟨_ | i, col, v⟩
    · simp [List.modify, Row.stored, List.map_set]
    · have := ih ⟨i, col, v⟩
      simpa [List.modify] using this

lemma applyChange_six (d : Sheet) (c : Change) (h : ∀ r ∈ d, r.length = 6) :
    ∀ r ∈ applyChange d c, r.length = 6 := by
  simp only [applyChange]
  induction d generalizing c with
  | nil => simp
  | cons r rs ih =>
    have h1 := h r (by simp)
    have h2 : ∀ x ∈ rs, x.length = 6 := fun x hx => h x (List.mem_cons_of_mem _ hx)
    rcases c with ⟨_ | i, col, v⟩
    · intro x hx
      simp [List.modify] at hx
      rcases hx with rfl | hx
      · simpa using h1
      · exact h2 x hx
    · intro x hx
      simp [List.modify] at hx
      rcases hx with rfl | hx
      · exact h1
      · exact ih ⟨i, col, v⟩ h2 x hx

lemma foldl_setStored_stored (changes : List Change) : ∀ d : Sheet, (∀ r ∈ d, r.length = 6) →
    changes.foldl setStored (d.map Row.stored) = (changes.foldl applyChange d).map Row.stored ∧
    ∀ r ∈ changes.foldl applyChange d, r.length = 6 := by
  induction changes with
  | nil => intro d h; exact ⟨rfl, h⟩
  | cons c cs ih =>
    intro d h
    rw [List.foldl_cons, List.foldl_cons, setStored_stored]
    exact ih _ (applyChange_six d c h)

/-- Once the sheet has been reset, whatever was stored before, it is the sheet of a page without stored
values: after any further events it is what C156 describes, and the table shows it. -/
theorem C271_reset (data : StoredSheet) (events : List Event) :
    (Event.reset :: events).foldl stepStored data = (run events).map Row.stored ∧
    ∃ rows, dataArea ((run events).map Row.stored) = .table rows := by
  have hlen : ∀ es : List Event, ∀ r ∈ run es, r.length = 6 := fun es r hr => (C156_invariant es).width r hr
  constructor
  · rw [List.foldl_cons]
    show events.foldl stepStored (defaultData.map Row.stored) = _
    induction events using List.reverseRecOn with
    | nil => rfl
    | append_singleton es e ih =>
      have hs : run (es ++ [e]) = step (run es) e := by simp [run, List.foldl_append]
      rw [List.foldl_append, ih, hs, List.foldl_cons, List.foldl_nil]
      cases e with
      | edit changes =>
        obtain ⟨h1, h2⟩ := foldl_setStored_stored changes (run es) (hlen es)
        simp only [stepStored, editStored, h1, finalizeAll_stored _ h2, step, onCellsChanged]
      | addRows =>
        simp only [stepStored, step, addEmptyRows, List.length_map]
        push_cast
        split_ifs
        · rfl
        · simp
      | reset => rfl
  · rw [← (C271_shown _).1]
    intro cells hc
    rw [List.mem_map] at hc
    obtain ⟨r, hr, h⟩ := hc
    simp only [Row.stored, Option.some.injEq] at h
    rw [← h, List.length_map, hlen events r hr]

/-! ## C272 -/

namespace Spec

/-- The texts that chroma gives for a color, its name and its hexadecimal text, are texts of that color. -/
def TextsOfColors (ch : Chroma) : Prop :=
  ∀ c, ch.parse (.str (ch.name c)) = some c ∧ ch.parse (.str (ch.hex c)) = some c

end Spec

/-- The text stored for a color that is picked is that of the same color: opened again the picker shows it,
the row is plotted with it, and its numbers are as before. -/
theorem C272_picked (ch : Chroma) (ht : Spec.TextsOfColors ch) (c : ch.Color)
    (c0 c1 c2 c3 c4 old : Value) (o : List (String × Out))
    (ho : constructOrientation (fun v => (ch.parse v).isSome) [c0, c1, c2, c3, c4, old] = some o) :
    ∃ t, pickerPicks ch (ch.hex c) = (t, false) ∧ ch.parse (.str t) = some c ∧
      pickerShows ch (.str t) = ch.hex c ∧
      ∃ o', constructOrientation (fun v => (ch.parse v).isSome) [c0, c1, c2, c3, c4, .str t] = some o' ∧
        o'.lookup "color" = some (.color (.str t)) ∧
        ∀ k ∈ ["strike", "dip", "rake", "maxError", "minError"], o'.lookup k = o.lookup k := by
  obtain ⟨h1, h2⟩ := ht c
  refine ⟨ch.name c, by simp [pickerPicks, h2], h1, by simp [pickerShows, h1], ?_⟩
  have hs : (constructOrientation (fun v => (ch.parse v).isSome)
      [c0, c1, c2, c3, c4, .str (ch.name c)]).isSome := by
    rw [C154_plotted_iff]
    exact (C154_plotted_iff _ c0 c1 c2 c3 c4 old).mp (by rw [ho]; rfl)
  obtain ⟨o', ho'⟩ := Option.isSome_iff_exists.mp hs
  obtain ⟨a0, a1, a2, a3, a4, _⟩ := C154_values _ _ _ _ _ _ _ _ ho
  obtain ⟨b0, b1, b2, b3, b4, b5⟩ := C154_values _ _ _ _ _ _ _ _ ho'
  refine ⟨o', ho', by rw [b5]; simp [h1], ?_⟩
  intro k hk
  simp only [List.mem_cons, List.not_mem_nil, or_false] at hk
  rcases hk with rfl | rfl | rfl | rfl | rfl
  · rw [a0, b0]
  · rw [a1, b1]
  · rw [a2, b2]
  · rw [a3, b3]
  · rw [a4, b4]

/-- Two colors with names. -/
def twoColors : Chroma where
  Color := Bool
  parse v := if v = .str "red".toList ∨ v = .str "#ff0000".toList then some true
    else if v = .str "blue".toList ∨ v = .str "#0000ff".toList then some false else none
  hex c := if c then "#ff0000".toList else "#0000ff".toList
  name c := if c then "red".toList else "blue".toList

example : Spec.TextsOfColors twoColors ∧
    (constructOrientation (fun v => (twoColors.parse v).isSome) defaultRow1).isSome := by
  refine ⟨?_, ?_⟩
  · intro c
    show twoColors.parse _ = _ ∧ twoColors.parse _ = _
    cases c <;> exact ⟨by simp [twoColors], by simp [twoColors]⟩
  · rw [defaultRow1, C154_plotted_iff]; simp [Value.parseFloat]

/-- Without a color that chroma knows, such as for an empty cell, the picker shows a grey, which is not
stored: the cell changes only when a color is picked. -/
theorem C272_grey (ch : Chroma) (v : Value) (h : ch.parse v = none) :
    pickerShows ch v = "#aaaaaa".toList ∧
    ∀ c0 c1 c2 c3 c4 o, constructOrientation (fun v => (ch.parse v).isSome) [c0, c1, c2, c3, c4, v] = some o →
      o.lookup "color" = none := by
  refine ⟨by simp [pickerShows, h], ?_⟩
  intro c0 c1 c2 c3 c4 o ho
  rw [(C154_values _ _ _ _ _ _ _ _ ho).2.2.2.2.2]
  simp [h]

example : twoColors.parse .null = none := by decide +kernel

/-- A text from the picker that chroma does not know would empty the cell, although the exception goes on
to the picker. -/
theorem C272_unknown (ch : Chroma) (t : List Char) (h : ch.parse (.str t) = none) :
    pickerPicks ch t = ([], true) := by
  simp [pickerPicks, h]

example : twoColors.parse (.str "transparent".toList) = none := by decide +kernel

end Attitude.Props
