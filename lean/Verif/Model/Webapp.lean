import Mathlib.Algebra.Order.Floor.Ring
import Mathlib.Data.List.DropRight
import Mathlib.Data.Rat.Floor
import Mathlib.Data.Rat.Cast.Order
import Verif.Model.FrontendStereonet

/-!
# Model of the web application (`frontend/packages/webapp/src/app.ts`, `sheet.ts`) and of
the plots it shows (`frontend/packages/plots/src/vertical.ts`, `graticule-labels.ts`)

Numbers in cells are rational numbers.  React and `react-datasheet` are not modelled; the
events they deliver are.
-/

namespace Attitude.Webapp

open Attitude

/-! ## Numbers in text -/

/-- The characters that are trimmed (the other Unicode spaces are left out).  External; used by
`parseFloat` and `isNaN`, sheet.ts L184-185 and L237. -/
def isSpace (c : Char) : Bool := c = ' ' || c = '\t' || c = '\n' || c = '\r'

/-- A decimal digit.  External; used by `parseFloat`, sheet.ts L184 and L237. -/
def isDigit (c : Char) : Bool := decide ('0'.toNat ≤ c.toNat) && decide (c.toNat ≤ '9'.toNat)

/-- The number that a list of decimal digits stands for.  External; used by `parseFloat` and
`isNaN`, sheet.ts L184-185 and L237. -/
def natOf (ds : List Char) : ℕ := ds.foldl (fun a c => 10 * a + (c.toNat - '0'.toNat)) 0

/-- An optional sign.  External; used by `parseFloat` and `isNaN`, sheet.ts L184-185 and L237. -/
def takeSign : List Char → Bool × List Char
  | '-' :: t => (true, t)
  | '+' :: t => (false, t)
  | t => (false, t)

/-- The digits at the beginning, and what follows.  External; used by `parseFloat` and `isNaN`,
sheet.ts L184-185 and L237. -/
def takeDigits (s : List Char) : List Char × List Char := (s.takeWhile isDigit, s.dropWhile isDigit)

/-- An optional fraction: a dot and digits (possibly none).  External; used by `parseFloat` and
`isNaN`, sheet.ts L184-185 and L237. -/
def takeFraction : List Char → List Char × List Char
  | '.' :: t => takeDigits t
  | t => ([], t)

/-- The digits of an exponent, and what follows; without digits there is no exponent.  External;
used by `parseFloat` and `isNaN`, sheet.ts L184-185 and L237. -/
def exponentOf (s : List Char) : Option (ℤ × List Char) :=
  match takeSign s with
  | (neg, t) =>
    match takeDigits t with
    | ([], _) => none
    | (ds, r) => some (if neg then -(natOf ds : ℤ) else natOf ds, r)

/-- An optional exponent.  External; used by `parseFloat` and `isNaN`, sheet.ts L184-185 and
L237. -/
def takeExponent (s : List Char) : ℤ × List Char :=
  match s with
  | c :: t => if c = 'e' ∨ c = 'E' then (exponentOf t).getD (0, s) else (0, s)
  | [] => (0, [])

/-- The longest decimal number at the beginning of a text and what follows it
(`StrDecimalLiteral` of ECMAScript without `Infinity`).  External; used by `parseFloat` and
`isNaN`, sheet.ts L184-185 and L237. -/
def decimalPrefix (s : List Char) : Option (ℚ × List Char) :=
  match takeSign s with
  | (neg, s1) =>
    match takeDigits s1 with
    | (ip, s2) =>
      match takeFraction s2 with
      | (fp, s3) =>
        if ip = [] ∧ fp = [] then none
        else
          match takeExponent s3 with
          | (e, s4) =>
            let v : ℚ := natOf (ip ++ fp) * 10 ^ (e - fp.length)
            some (if neg then -v else v, s4)

/-- JavaScript's `parseFloat` of a text; `none` is `NaN`.  External; used at sheet.ts L184 and
L237. -/
def parseFloat (s : List Char) : Option ℚ := (decimalPrefix (s.dropWhile isSpace)).map Prod.fst

/-- Both ends trimmed.  External; used by `isNaN`, sheet.ts L185. -/
def trim (s : List Char) : List Char := (s.dropWhile isSpace).rdropWhile isSpace

/-- The value of a hexadecimal digit.  External; used by `isNaN`, sheet.ts L185. -/
def hexDigit (c : Char) : Option ℕ :=
  if isDigit c then some (c.toNat - '0'.toNat)
  else if 'a'.toNat ≤ c.toNat ∧ c.toNat ≤ 'f'.toNat then some (c.toNat - 'a'.toNat + 10)
  else if 'A'.toNat ≤ c.toNat ∧ c.toNat ≤ 'F'.toNat then some (c.toNat - 'A'.toNat + 10)
  else none

/-- A hexadecimal literal (octal and binary ones are left out).  External; used by `isNaN`,
sheet.ts L185. -/
def hexLiteral : List Char → Option ℚ
  | '0' :: x :: d :: t =>
    if x = 'x' ∨ x = 'X' then
      ((d :: t).mapM hexDigit).map fun ds => ((ds.foldl (fun a k => 16 * a + k) 0 : ℕ) : ℚ)
    else none
  | _ => none

/-- JavaScript's `Number` of a text; `none` is `NaN`.  External; used by `isNaN`, sheet.ts L185. -/
def toNumber (s : List Char) : Option ℚ :=
  let t := trim s
  if t = [] then some 0
  else
    match hexLiteral t with
    | some v => some v
    | none =>
      match decimalPrefix t with
      | some (v, []) => some v
      | _ => none

/-! ## Cells -/

/-- The value of a cell: `null`, a number or a text.  sheet.ts L16-18; the editor and pasting
give texts. -/
inductive Value where
  | null
  | num (x : ℚ)
  | str (s : List Char)
deriving DecidableEq

/-- `parseFloat(value)`; a number is converted to a text and back.  External; used at sheet.ts
L184 and L237. -/
def Value.parseFloat : Value → Option ℚ
  | .null => none
  | .num x => some x
  | .str s => Webapp.parseFloat s

/-- `!isNaN(value)`.  External; used at sheet.ts L185. -/
def Value.isNumber : Value → Bool
  | .null => true
  | .num _ => true
  | .str s => (toNumber s).isSome

/-- `value == null || value == ""`, sheet.ts L256: the number zero equals the empty text. -/
def Value.isEmpty : Value → Bool
  | .null => true
  | .num x => decide (x = 0)
  | .str s => s.isEmpty

/-- A row of the sheet: the values of its cells.  sheet.ts L91. -/
abbrev Row := List Value
/-- `SheetContent`, sheet.ts L91. -/
abbrev Sheet := List Row

/-- Whether a field holds a color; otherwise `transform`, `isValid` and `required` have the
defaults of `getFieldData`, sheet.ts L182-190. -/
structure Field where
  key : String
  isColor : Bool := false

/-- `orientationFields`, sheet.ts L110-124. -/
def orientationFields : List Field :=
  [{ key := "strike" }, { key := "dip" }, { key := "rake" }, { key := "maxError" }, { key := "minError" },
    { key := "color", isColor := true }]

/-- Values of an orientation.  app.ts L56-77. -/
inductive Out where
  | number (x : ℚ)
  | color (v : Value)
deriving DecidableEq

/-- The loop of `constructOrientation`, app.ts L59-73, from the field `fields` and the cell
`row` on.  A cell that does not exist raises an exception, which is caught: `none`. -/
def constructLoop (getColor : Value → Bool) : List Field → Row → Option (List (String × Out))
  | [], _ => some []
  | _ :: _, [] => none
  | f :: fs, c :: cs =>
    if f.isColor then
      match constructLoop getColor fs cs with
      | none => none
      | some o => some (if getColor c then (f.key, .color c) :: o else o)
    else
      match c.parseFloat with
      | none => none
      | some x => (constructLoop getColor fs cs).map ((f.key, .number x) :: ·)

/-- `constructOrientation`, app.ts L56-77; `none` is `null`.  `getColor` tells whether chroma
knows a color. -/
def constructOrientation (getColor : Value → Bool) (row : Row) : Option (List (String × Out)) :=
  constructLoop getColor orientationFields row

/-- `cleanedData`, app.ts L138-140. -/
def cleanedData (getColor : Value → Bool) (data : Sheet) : List (List (String × Out)) :=
  data.filterMap (constructOrientation getColor)

/-- An empty row, `emptyData` in sheet.ts L134. -/
def emptyRow : Row := List.replicate orientationFields.length .null

/-- `addEmptyRows`, sheet.ts L126-137 (the same in app.ts L41-52), for a positive modulus. -/
def addEmptyRows (data : Sheet) (modulus : ℕ := 10) (targetN : ℤ := 0) : Sheet :=
  let nToAdd : ℤ := ⌈(((data.length : ℤ) + targetN : ℤ) : ℚ) / modulus⌉ * modulus - data.length
  if nToAdd ≤ 0 then data
  else data ++ List.replicate nToAdd.toNat emptyRow

/-- `finalizeRow`, sheet.ts L235-245. -/
def finalizeRow (row : Row) : Row :=
  match (row.getD 3 .null).parseFloat, (row.getD 4 .null).parseFloat with
  | some a, some b =>
    if a < b then (row.set 3 (row.getD 4 .null)).set 4 (row.getD 3 .null) else row
  | _, _ => row

/-- A change of a cell, as given by `react-datasheet`.  sheet.ts L268. -/
structure Change where
  row : ℕ
  col : ℕ
  value : Value

/-- The update with `immutability-helper`, sheet.ts L267-271, of a cell in the sheet. -/
def applyChange (data : Sheet) (c : Change) : Sheet := data.modify c.row fun r => r.set c.col c.value

/-- `onCellsChanged`, sheet.ts L266-273. -/
def onCellsChanged (data : Sheet) (changes : List Change) : Sheet :=
  (changes.foldl applyChange data).map finalizeRow

/-- `transformData`, app.ts L35-39, of the first default orientation. -/
def defaultRow1 : Row := [.num 10, .num 8, .num 2, .num 20, .num 8, .str "#65499e".toList]
/-- The second, app.ts L25-32. -/
def defaultRow2 : Row := [.num 120, .num 46, .num 5, .num 45, .num 2, .str "dodgerblue".toList]
/-- `defaultData`, app.ts L54. -/
def defaultData : Sheet := addEmptyRows [defaultRow1, defaultRow2] 10

/-- What a user can do with the sheet.  sheet.ts L192-213 and L266-273. -/
inductive Event where
  /-- edit, paste or delete cells -/
  | edit (changes : List Change)
  /-- "Add more rows", sheet.ts L195-203 -/
  | addRows
  /-- "Reset data": `useStoredState` returns to the initial value -/
  | reset

/-- The handlers of the application.  sheet.ts L192-213 and L266-273. -/
def step (data : Sheet) : Event → Sheet
  | .edit changes => onCellsChanged data changes
  | .addRows => addEmptyRows data 10 10
  | .reset => defaultData

/-- The sheet after events, from the initial one.  For the handlers of sheet.ts L192-213 and
L266-273. -/
def run (events : List Event) : Sheet := events.foldl step defaultData

/-- The attribute `data-status`, sheet.ts L255-261. -/
inductive Status where
  | empty
  | ok
  | invalid
deriving DecidableEq

/-- `attributesRenderer`, sheet.ts L255-261. -/
def status (getColor : Value → Bool) (f : Field) (v : Value) : Status :=
  if v.isEmpty then .empty
  else if (if f.isColor then getColor v else v.isNumber) then .ok else .invalid

/-- Which stored clip angles are accepted, app.ts L80-83. -/
def clipAngleValid (v : Value) : Bool :=
  match v.parseFloat with
  | some x => decide (0 < x) && decide (x ≤ 90)
  | none => false

/-! ## Plots -/

/-- `cfunc` of `translucentEllipseStyle`, plots/src/vertical.ts L10-20; without an error
the quotient is `NaN`, for the error zero infinite. -/
noncomputable def ellipseAlpha (max : ℝ) (maxError : Option ℝ) : ℝ :=
  match maxError with
  | none => 0.5
  | some e =>
    if e = 0 then 0.8
    else
      let a := max / e * 5
      if a > 0.8 then 0.8 else a

/-- Texts of labels: a name or a number of degrees.  plots/src/graticule-labels.ts L8-23 and
L143-146. -/
inductive Label where
  | name (s : String)
  | deg (x : ℝ)

/-- `formatAzimuthLabel`, plots/src/graticule-labels.ts L8-23. -/
noncomputable def formatAzimuthLabel (value : ℝ) : Label :=
  let v := 180 - value
  if v = 180 then .name "S"
  else if v = 90 then .name "E"
  else if v = 0 then .name "N"
  else if v = 270 then .name "W"
  else .deg v

/-- `DipLabels.format`, plots/src/graticule-labels.ts L143-146. -/
noncomputable def formatDipLabel (value : ℝ) : Label := .deg (90 - value)

/-- The longitudes of the meridians of `graticule(10, ·)`: d3's `range(-180, 180, 10)`
(stereonet/index.ts L61-72). -/
def meridians : List ℤ := (List.range 36).map fun k => -180 + 10 * (k : ℤ)

end Attitude.Webapp
