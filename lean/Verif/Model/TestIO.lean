import Verif.Model.Num

/-!
# Saved test planes

Models `attitude/test/io.py`.  A text file is a list of lines and a line is the
list of its words (runs of characters that are not white space); the code only uses
lines through `strip` and `loadtxt`, which do not see the white space between words.
-/

namespace Attitude.TestIO

open Attitude

variable {α : Type}

/-- A numpy array with zero, one or two dimensions; `α` is the type of floats.  The arguments and
results of test/io.py L19-55. -/
inductive Arr (α : Type)
  | scalar (x : α)
  | vector (l : List α)
  | table (rows : List (List α))

/-- A line of text, as words.  test/io.py L37. -/
abbrev Line := List String

/-- How `savetxt` writes a float (`'%.18e'`) and `loadtxt` reads a word; external.  Used at
test/io.py L31 and L52. -/
structure Codec (α : Type) where
  fmt : α → String
  parse : String → Option α

/-- What is assumed of the two: reading back what was written, and `'---'` is not a
number.  (For double precision floats 18 digits suffice.).  Used at test/io.py L31 and L52. -/
structure Codec.Valid (c : Codec α) : Prop where
  round : ∀ x, c.parse (c.fmt x) = some x
  sep : c.parse "---" = none

/-- `numpy.savetxt`: one line per row, or per entry of a one-dimensional array; a
scalar raises `ValueError`.  External; used at test/io.py L31. -/
def savetxt (c : Codec α) : Arr α → Except PyErr (List Line)
  | .scalar _ => .error .valueError
  | .vector l => .ok (l.map fun x => [c.fmt x])
  | .table rows => .ok (rows.map fun r => r.map c.fmt)

/-- The separator line.  test/io.py L33 and L38. -/
def separator : Line := ["---"]

/-- `save_test_plane`, io.py L19-33, in Python 3: the result and the content of the
file afterwards.  The file is opened in binary mode, in which `print` raises
`TypeError`; `done` is what has been written. -/
def saveLoop (c : Codec α) (done : List Line) : List (Arr α) → Except PyErr Unit × List Line
  | [] => (.ok (), done)
  | a :: rest =>
      match savetxt c a with
      | .error e => (.error e, done)
      | .ok ls =>
          if rest.isEmpty then (.ok (), done ++ ls)
          else (.error .typeError, done ++ ls)

/-- `save_test_plane(name, *arrays)`.  test/io.py L19-33. -/
def save (c : Codec α) (arrays : List (Arr α)) : Except PyErr Unit × List Line := saveLoop c [] arrays

/-- `__split_text`, io.py L35-43, with the accumulated text `acc`. -/
def splitText (acc : List Line) : List Line → List (List Line)
  | [] => [acc]
  | l :: ls => if l = separator then acc :: splitText [] ls else splitText (acc ++ [l]) ls

/-- Removal of axes of length one from a table, as `loadtxt` does.  External; used at test/io.py
L52. -/
def squeeze : List (List α) → Arr α
  | [] => .vector []
  | [[x]] => .scalar x
  | [row] => .vector row
  | rows => if rows.all fun r => r.length == 1 then .vector rows.flatten else .table rows

/-- All rows of the length of the first one.  External; used by `loadtxt`, test/io.py L52. -/
def rectangular : List (List α) → Bool
  | [] => true
  | r :: rs => rs.all fun r' => r'.length == r.length

/-- `numpy.loadtxt`: blank lines are skipped, a word that is no number or a row of a
different length raises `ValueError`; no rows give an empty array.  External; used at test/io.py
L52. -/
def loadtxt (c : Codec α) (ls : List Line) : Except PyErr (Arr α) :=
  match (ls.filter fun l => !l.isEmpty).mapM (fun l => l.mapM c.parse) with
  | none => .error .valueError
  | some rows => if rectangular rows then .ok (squeeze rows) else .error .valueError

/-- What `load_test_plane` returns: the array itself if there is one.  test/io.py L52-55. -/
inductive Loaded (α : Type)
  | single (a : Arr α)
  | many (l : List (Arr α))

/-- `load_test_plane`, io.py L45-55, from the content of the file. -/
def load (c : Codec α) (file : List Line) : Except PyErr (Loaded α) := do
  let arrays ← (splitText [] file).mapM (loadtxt c)
  match arrays with
  | [a] => .ok (.single a)
  | l => .ok (.many l)

end Attitude.TestIO
