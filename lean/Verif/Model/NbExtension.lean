import Verif.Model.Num

/-!
# The notebook extension

Models `attitude/display/nbextension.py`.  Strings are lists of characters.
-/

namespace Attitude.NbExtension

open Attitude

/-! ## Loading the library -/

/-- `__ATTITUDE_INITIALIZED` (nbextension.py L15) and how often the library has been
displayed. -/
structure State where
  initialized : Bool
  displayed : ℕ

/-- State after the module is imported.  display/nbextension.py L15. -/
def State.start : State := ⟨false, 0⟩

/-- `init_notebook_mode`, nbextension.py L17-30.  `load` is the outcome of reading
and displaying the library in case that is attempted. -/
def initNotebookMode (load : Except PyErr Unit) (s : State) : Except PyErr Unit × State :=
  if s.initialized then (.ok (), s)
  else
    match load with
    | .error e => (.error e, s)
    | .ok () => (.ok (), { initialized := true, displayed := s.displayed + 1 })

/-- A history of calls: the results and the last state.  For callers of `init_notebook_mode`,
display/nbextension.py L17-30. -/
def calls : List (Except PyErr Unit) → State → List (Except PyErr Unit) × State
  | [], s => ([], s)
  | o :: os, s =>
      let (r, s') := initNotebookMode o s
      let (rs, s'') := calls os s'
      (r :: rs, s'')

/-! ## The script -/

/-- `str.replace`: occurrences are replaced from left to right without overlap;
`skip` characters belong to an occurrence already replaced.  External; used at
display/nbextension.py L48 and L51. -/
def replaceAux (old new : List Char) : ℕ → List Char → List Char
  | _, [] => []
  | skip + 1, _ :: cs => replaceAux old new skip cs
  | 0, c :: cs =>
      if old.isPrefixOf (c :: cs) then new ++ replaceAux old new (old.length - 1) cs
      else c :: replaceAux old new 0 cs

/-- `s.replace(old, new)` for a non-empty `old`.  External; used at display/nbextension.py L48
and L51. -/
def replace (s old new : List Char) : List Char := replaceAux old new 0 s

/-- `__TEMPLATE__`, nbextension.py L32-38, up to the data. -/
def templateHead : List Char :=
  "\n<div id='a__<<<hash>>>'></div>\n<script type='text/javascript'>\n  var data=JSON.parse('".toList

/-- The template after the data.  display/nbextension.py L35-38. -/
def templateTail : List Char :=
  "');\n  attitudeUI(document.querySelector('#a__<<<hash>>>'),data);\n</script>\n".toList

/-- `__TEMPLATE__`.  display/nbextension.py L32-38. -/
def template : List Char := templateHead ++ "<<<data>>>".toList ++ templateTail

/-- The script of `plot_interactive`, nbextension.py L47-51, for the serialised data
and the class name. -/
def script (data hash : List Char) : List Char :=
  replace (replace template "<<<data>>>".toList data) "<<<hash>>>".toList hash

/-! ## The browser -/

/-- Value of a hexadecimal digit.  External; used to read the literal of display/nbextension.py
L35. -/
def hexDigit (c : Char) : Option ℕ :=
  if '0' ≤ c ∧ c ≤ '9' then some (c.toNat - 48)
  else if 'a' ≤ c ∧ c ≤ 'f' then some (c.toNat - 87)
  else if 'A' ≤ c ∧ c ≤ 'F' then some (c.toNat - 55)
  else none

/-- A character after a backslash in a JavaScript string.  External; used to read the literal of
display/nbextension.py L35. -/
def escape : Char → Char
  | 'n' => '\n'
  | 't' => '\t'
  | 'r' => '\r'
  | 'b' => Char.ofNat 8
  | 'f' => Char.ofNat 12
  | 'v' => Char.ofNat 11
  | '0' => Char.ofNat 0
  | c => c

/-- Rest of a JavaScript string literal in single quotes: its value, up to the
closing quote.  A line break is a syntax error (`none`).  External (ECMAScript);
`\x..`, octal escapes and line continuations are not modelled.  Used to read the literal of
display/nbextension.py L35. -/
def jsString : List Char → Option (List Char)
  | [] => none
  | ch :: cs =>
      if ch = '\'' then some []
      else if ch = '\n' ∨ ch = '\r' then none
      else if ch = '\\' then
        match cs with
        | [] => none
        | 'u' :: a :: b :: c :: d :: cs => do
            let a ← hexDigit a
            let b ← hexDigit b
            let c ← hexDigit c
            let d ← hexDigit d
            let r ← jsString cs
            some (Char.ofNat (((a * 16 + b) * 16 + c) * 16 + d) :: r)
        | e :: cs => do
            let r ← jsString cs
            some (escape e :: r)
      else do
        let r ← jsString cs
        some (ch :: r)

/-- Text after the first occurrence of a word.  Used to read the script of display/nbextension.py
L32-38. -/
def after (word : List Char) : List Char → Option (List Char)
  | [] => none
  | c :: cs => if word.isPrefixOf (c :: cs) then some ((c :: cs).drop word.length) else after word cs

/-- Text before the first occurrence of a word.  Used to read the script of
display/nbextension.py L32-38. -/
def before (word : List Char) : List Char → List Char
  | [] => []
  | c :: cs => if word.isPrefixOf (c :: cs) then [] else c :: before word cs

/-- The string that `JSON.parse` receives when a browser runs the script: HTML ends
the script element at the first `</script`, and the argument is the literal after
`JSON.parse('`.  External.  The script is in display/nbextension.py L32-38. -/
def received (html : List Char) : Option (List Char) := do
  let body ← after "<script type='text/javascript'>".toList html
  let body := before "</script".toList body
  let lit ← after "JSON.parse('".toList body
  jsString lit

end Attitude.NbExtension
