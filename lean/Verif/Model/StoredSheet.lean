import Verif.Model.Webapp
import Verif.Model.FrontendShapes

/-!
# The sheet as it is shown (`frontend/packages/webapp/src/sheet.ts`)

The content of the sheet comes from the storage of the browser (`useStoredState`, app.ts L133-136),
where any JSON text may be found.  Modelled here is an array of rows, each `null` or an array of
cells, each `null` or an object with a value.  Values that are objects themselves are not modelled.
-/

namespace Attitude.Webapp

open Attitude.Frontend (JsErr)

/-- A row as stored: `null`, or cells, each `null` or with a value.  sheet.ts L91 and L217. -/
abbrev StoredRow := Option (List (Option Value))

/-- The content of the sheet as stored.  sheet.ts L91, app.ts L133-136. -/
abbrev StoredSheet := List StoredRow

/-- The editors of cells: the one of react-datasheet or `ColorEditor`.  sheet.ts L99 and L122. -/
inductive Editor where
  | standard
  | color
deriving DecidableEq

/-- A cell as given to react-datasheet, sheet.ts L231: the editor and the value.  Spreading `null`
adds nothing, so the value is `undefined`, here `null`: the two are treated alike at L251 and L256. -/
structure ShownCell where
  editor : Editor
  value : Value
deriving DecidableEq

/-- `getFieldData(orientationFields[i])` for the editor, sheet.ts L182-190 and L219; past the last
field the argument is `undefined`, which cannot be destructured. -/
def editorOf (i : ℕ) : Except JsErr Editor :=
  match orientationFields[i]? with
  | none => .error .typeError
  | some f => .ok (if f.isColor then .color else .standard)

/-- The `map` of `enhanceData`, sheet.ts L218-232, from the index `i` on. -/
def enhanceCells : ℕ → List (Option Value) → Except JsErr (List ShownCell)
  | _, [] => .ok []
  | i, c :: cs => do
    let e ← editorOf i
    let rest ← enhanceCells (i + 1) cs
    .ok (⟨e, c.getD .null⟩ :: rest)

/-- `enhanceData`, sheet.ts L215-233. -/
def enhanceData : StoredRow → Except JsErr (List ShownCell)
  | none => .ok []
  | some cells => enhanceCells 0 cells

/-- A row of the table: the number in its first cell (`row + 1`, sheet.ts L151-154) and the cells. -/
structure ShownRow where
  number : ℕ
  cells : List ShownCell
deriving DecidableEq

/-- The rows of the table, sheet.ts L151-154 and L249, from the row `i` on; react-datasheet passes
the index of the row and makes a table cell of each cell. -/
def shownRows : ℕ → StoredSheet → Except JsErr (List ShownRow)
  | _, [] => .ok []
  | i, r :: rs => do
    let cells ← enhanceData r
    let rest ← shownRows (i + 1) rs
    .ok (⟨i + 1, cells⟩ :: rest)

/-- The cells of the header, sheet.ts L156-172: one for the numbers, then one for each field.  The
names of the fields are those of sheet.ts L110-124. -/
def headerCells : List String := "" :: ["Strike", "Dip", "Rake", "Max.", "Min.", "Color"]

/-- What `DataArea` shows, sheet.ts L277-282: the table, or what `ErrorBoundary` shows if an
exception is raised by its content, and the two buttons, which are outside of the boundary. -/
inductive Area where
  | table (rows : List ShownRow)
  | error
deriving DecidableEq

/-- `DataArea`, sheet.ts L277-282, without the buttons. -/
def dataArea (data : StoredSheet) : Area :=
  match shownRows 0 data with
  | .ok rows => .table rows
  | .error _ => .error

/-- `row[ix].value` for the columns of a stored row, app.ts L65: `none` where an exception is raised,
for a row or a cell that is `null`.  The values before the first such cell. -/
def readable : StoredRow → Row
  | none => []
  | some cells => (cells.takeWhile Option.isSome).map (·.getD .null)

/-- `constructOrientation` of a stored row, app.ts L56-77: exceptions are caught, and the loop ends
at the first cell that cannot be read. -/
def constructStored (getColor : Value → Bool) (row : StoredRow) : Option (List (String × Out)) :=
  constructOrientation getColor (readable row)

/-- `cleanedData` of stored content, app.ts L138-140. -/
def cleanedStored (getColor : Value → Bool) (data : StoredSheet) : List (List (String × Out)) :=
  data.filterMap (constructStored getColor)

/-- `row[k]?.value`, sheet.ts L237. -/
def storedValue (cells : List (Option Value)) (k : ℕ) : Value := (cells.getD k none).getD .null

/-- `finalizeRow`, sheet.ts L235-245, of a stored row: `row[3]` of `null` is an exception. -/
def finalizeStored : StoredRow → Except JsErr StoredRow
  | none => .error .typeError
  | some cells =>
    match (storedValue cells 3).parseFloat, (storedValue cells 4).parseFloat with
    | some a, some b =>
      if a < b then .ok (some ((cells.set 3 (cells.getD 4 none)).set 4 (cells.getD 3 none)))
      else .ok (some cells)
    | _, _ => .ok (some cells)

/-- The `map` of sheet.ts L272. -/
def finalizeAll : StoredSheet → Except JsErr StoredSheet
  | [] => .ok []
  | r :: rs => do
    let r' ← finalizeStored r
    let rs' ← finalizeAll rs
    .ok (r' :: rs')

/-- The update of a cell that is shown, sheet.ts L267-272. -/
def setStored (data : StoredSheet) (c : Change) : StoredSheet :=
  data.modify c.row fun r => r.map fun cells => cells.set c.col (some c.value)

/-- `onCellsChanged`, sheet.ts L266-273, for changes of cells that are shown: the new content, or the
exception with which the handler ends before `updateData` is called. -/
def editStored (data : StoredSheet) (changes : List Change) : Except JsErr StoredSheet :=
  finalizeAll (changes.foldl setStored data)

/-- A stored row from the values of its cells.  sheet.ts L91. -/
def Row.stored (r : Row) : StoredRow := some (r.map some)

/-- What a user can do, on stored content: the handlers of sheet.ts L192-213 and L266-273.  An
exception leaves the content as it is. -/
def stepStored (data : StoredSheet) : Event → StoredSheet
  | .edit changes => match editStored data changes with
    | .ok d => d
    | .error _ => data
  | .addRows =>
    let nToAdd : ℤ := ⌈(((data.length : ℤ) + 10 : ℤ) : ℚ) / 10⌉ * 10 - data.length
    if nToAdd ≤ 0 then data else data ++ List.replicate nToAdd.toNat (Row.stored emptyRow)
  | .reset => defaultData.map Row.stored

/-! ## `ColorEditor` -/

/-- What of chroma-js is used: which texts are colors, their hexadecimal text and their name.
External; sheet.ts L32 and L60. -/
structure Chroma where
  Color : Type
  parse : Value → Option Color
  hex : Color → List Char
  name : Color → List Char

/-- The color that the picker shows, sheet.ts L30-33 and L55. -/
def pickerShows (ch : Chroma) (value : Value) : List Char :=
  match ch.parse value with
  | some c => ch.hex c
  | none => "#aaaaaa".toList

/-- The handler `onChange` of the picker, sheet.ts L56-65, for the text `color.hex`: the value given to
the cell, and whether the exception goes on (there is no `catch`). -/
def pickerPicks (ch : Chroma) (hex : List Char) : List Char × Bool :=
  match ch.parse (.str hex) with
  | some c => (ch.name c, false)
  | none => ([], true)

end Attitude.Webapp
