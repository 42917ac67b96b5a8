import Verif.Model.Num

/-!
# Model of the arguments of `plot_interactive` (`attitude/display/nbextension.py`)

How the text of the data is quoted in the script is `Model/NbExtension.lean`; here it is taken to arrive.
-/

namespace Attitude.NbArguments

open Attitude

/-- A value that `json.dumps` can write.  Numbers are `none` for `nan` and infinities.  Objects have a list of keys
and a list of values.  For display/nbextension.py L47. -/
inductive J where
  | null
  | bool (b : Bool)
  | num (x : Option ℝ)
  | str (s : List Char)
  | arr (xs : List J)
  | obj (keys : List (List Char)) (values : List J)

mutual
/-- Whether `JSON.parse` accepts what `json.dumps` writes: `NaN` and `Infinity`, which Python writes for
numbers that are not finite, are not JSON.  External; for display/nbextension.py L35 and L47. -/
def J.parses : J → Bool
  | .null => true
  | .bool _ => true
  | .num x => x.isSome
  | .str _ => true
  | .arr xs => allParse xs
  | .obj _ vs => allParse vs
/-- The same for all members.  External; for display/nbextension.py L35 and L47. -/
def allParse : List J → Bool
  | [] => true
  | x :: xs => x.parses && allParse xs
end

/-- Arguments of `plot_interactive`, and their members.  display/nbextension.py L40-45.
* `plain`: dictionaries, numbers, strings, lists of such
* `orientation`: an object with a method `to_mapping`; the method raises, or returns something that `json` can
  write, or (`none`) something that it cannot
* `opaque`: other objects, such as arrays, sets and generators
* `list`: a list or tuple of which some member is not plain -/
inductive PyObj where
  | plain (v : J)
  | orientation (mapping : Except PyErr (Option J))
  | opaque
  | list (xs : List PyObj)

/-- `if not isinstance(attitudes, Sequence): attitudes = [attitudes]`, and then the members over which the loop
goes: display/nbextension.py L41-45.  Strings are sequences of characters. -/
def members : PyObj → List PyObj
  | .list xs => xs
  | .plain (.arr xs) => xs.map .plain
  | .plain (.str s) => s.map fun c => .plain (.str [c])
  | o => [o]

/-- `a.to_mapping() if hasattr(a,'to_mapping') else a`, display/nbextension.py L43-44; `none` for what
`json` cannot write. -/
def mapped : PyObj → Except PyErr (Option J)
  | .orientation m => m
  | .plain v => .ok (some v)
  | .opaque => .ok none
  | .list _ => .ok none

/-- `dumps`, display/nbextension.py L47: a `TypeError` for objects that it cannot write.  The text is given by the
values. -/
def dumps : List (Option J) → Except PyErr (List J)
  | [] => .ok []
  | none :: _ => .error .typeError
  | some v :: l => (dumps l).map (v :: ·)

/-- `plot_interactive`, display/nbextension.py L40-53: the values in the data of the script that is displayed. -/
def plotInteractive (attitudes : PyObj) : Except PyErr (List J) := do
  let l ← (members attitudes).mapM mapped
  dumps l

/-- What `attitudeUI` is called with in the page: `none` if `JSON.parse` throws, so that it is not called.
display/nbextension.py L32-38. -/
def shown (attitudes : PyObj) : Except PyErr (Option (List J)) :=
  (plotInteractive attitudes).map fun vs => if allParse vs then some vs else none

end Attitude.NbArguments
