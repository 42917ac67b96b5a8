import Verif.Model.NotebookUi

/-!
# The text copied by the list of the notebook interface (`notebook-ui/src/components/list.ts`)
-/

namespace Attitude.NotebookUi

/-- The texts of JavaScript's `join(",")`.  External; used at list.ts L112. -/
def joinComma : List (List Char) → List Char
  | [] => []
  | [x] => x
  | x :: y :: l => x ++ ',' :: joinComma (y :: l)

/-- `selectionText`, list.ts L110-113, for the uids of the selection. -/
def selectionText (uids : List (List Char)) : List Char :=
  '[' :: joinComma (uids.map fun u => '"' :: u ++ ['"']) ++ [']']

/-- The uids of the selection of the page, list.ts L111 and index.ts L77-96. -/
def selectedUids (items : List Item) (s : Ui) : List (List Char) :=
  s.selection.items.map fun j => ((items[j]?.map Item.uid).getD "").toList

/-- Whether "Copy to clipboard" can be pressed, list.ts L29 and L58-60. -/
def copyEnabled (s : Ui) : Bool := !s.selection.items.isEmpty

/-- The style of an item of the list, list.ts L79-94: what is set of the background, the stroke and the color of
the text. -/
structure ItemStyle where
  background : Option String := none
  stroke : Option String := none
  color : Option String := none
deriving DecidableEq

/-- `style` in `createListItem`, list.ts L72 and L79-94.  The color of the datum is `none` if it is missing; the
empty text counts as missing. -/
def itemStyle (hovered : Bool) (d : Item) (color : Option String) : ItemStyle :=
  if !hovered then {}
  else
    let c := match color with
      | some s => if s = "" then "gray" else s
      | none => "gray"
    if d.memberOf.isSome then { stroke := some c, color := some c }
    else { background := some c, color := some "white" }

end Attitude.NotebookUi
