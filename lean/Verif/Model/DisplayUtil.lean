import Verif.Model.Pca

/-!
# Model of `attitude/display/util.py`, `attitude/display/plot/misc.py` and `attitude/error/bootstrap.py`
-/

namespace Attitude.DisplayUtil

open Attitude

/-! ## display/util.py -/

/-- A byte.  For the bytes of display/util.py L10-16. -/
abbrev Byte := Fin 256

/-- The character of the base64 alphabet for a number below 64, as its ASCII code
(`base64.b64encode` of the standard library).  External; used at display/util.py L16. -/
def b64char (i : ℕ) : ℕ :=
  if i < 26 then 65 + i else if i < 52 then 97 + (i - 26) else if i < 62 then 48 + (i - 52)
  else if i = 62 then 43 else 47

/-- `base64.b64encode`: three bytes become four characters, with `=` (61) to fill the last
group.  External; used at display/util.py L16. -/
def b64encode : List Byte → List ℕ
  | [] => []
  | [a] => [b64char (a / 4), b64char (a % 4 * 16), 61, 61]
  | [a, b] => [b64char (a / 4), b64char (a % 4 * 16 + b / 16), b64char (b % 16 * 4), 61]
  | a :: b :: c :: r =>
    b64char (a / 4) :: b64char (a % 4 * 16 + b / 16) :: b64char (b % 16 * 4 + c / 64) ::
      b64char (c % 64) :: b64encode r

/-- Characters that `urllib.parse.quote` leaves alone (with its default `safe='/'`): letters,
digits and `_.-~/`.  External; used at display/util.py L16. -/
def quoteSafe (b : ℕ) : Bool :=
  (65 ≤ b && b ≤ 90) || (97 ≤ b && b ≤ 122) || (48 ≤ b && b ≤ 57) || b = 95 || b = 46 || b = 45 ||
    b = 126 || b = 47

/-- A hexadecimal digit, `'%02X'`.  External; used by `quote`, display/util.py L16. -/
def hexDigit (i : ℕ) : Char := Char.ofNat (if i < 10 then 48 + i else 55 + i)

/-- `urllib.parse.quote` of one byte.  External; used at display/util.py L16. -/
def quoteByte (b : ℕ) : List Char :=
  if quoteSafe b then [Char.ofNat b] else ['%', hexDigit (b / 16), hexDigit (b % 16)]

/-- `urllib.parse.quote` of bytes.  External; used at display/util.py L16. -/
def quote (l : List ℕ) : List Char := l.flatMap quoteByte

/-- `encode`, display/util.py L10-16.  The argument is what `fig.savefig` wrote. -/
def encode (png : List Byte) : List Char :=
  "<img src =\"".toList ++ ("data:image/png;base64".toList ++ ',' :: quote (b64encode png)) ++
    "\"/>".toList

/-! ## display/plot/misc.py -/

/-- One of the two plots: title and points given to `seaborn.regplot`.  display/plot/misc.py
L22-29. -/
structure Section (n : ℕ) where
  title : String
  points : Fin n → ℝ × ℝ

/-- The plots that `aligned_residuals` has made when it reaches its loop over `ax.spines`,
plot/misc.py L13-33.  `lengths` (L19) is never used. -/
def sections {n : ℕ} (f : Pca.Fit n) : List (Section n) :=
  let A := Pca.rotated f
  [⟨"Long cross-section (axis 3 vs. axis 1)", fun i => (A i 0, A i 2)⟩,
    ⟨"Short cross-section (axis 3 vs. axis 2)", fun i => (A i 1, A i 2)⟩]

/-- The methods of dictionaries with which their values are read, by the version of Python.  External; for
plot/misc.py L34. -/
def valueMethods (python : ℕ) : List String :=
  if 3 ≤ python then ["values"] else ["values", "itervalues", "viewvalues"]

/-- `aligned_residuals`, plot/misc.py L6-37, if L34 reads the spines of the axes with the method `method`:
looking for a method that is missing raises `AttributeError`.  The result is what is in the figure. -/
def alignedResidualsWith (method : String) (python : ℕ) {n : ℕ} (f : Pca.Fit n) :
    Except PyErr (List (Section n)) :=
  if method ∈ valueMethods python then .ok (sections f) else .error .attributeError

/-- `aligned_residuals`, plot/misc.py L6-37. -/
def alignedResiduals (python : ℕ) {n : ℕ} (f : Pca.Fit n) : Except PyErr (List (Section n)) :=
  alignedResidualsWith "itervalues" python f

/-! ## error/bootstrap.py -/

/-- Python's binding of arguments to the parameters of a function without default values: the
number of positional arguments and the names of the keyword arguments.  External; used for the
call at error/bootstrap.py L15. -/
def bindArgs (params : List String) (positional : ℕ) (keywords : List String) : Except PyErr Unit :=
  if params.length < positional then .error .typeError
  else if keywords.all (fun k => k ∈ params.drop positional) ∧
      (params.drop positional).all (fun p => p ∈ keywords) then .ok ()
  else .error .typeError

/-- The parameters of the function that the name `bootstrap` stands for in the module
error/bootstrap.py once it is loaded: the definition of L6 replaces the import of L4. -/
def bootstrapParams : List String := ["array"]

/-- `bootstrap`, error/bootstrap.py L6-16: after the call of L15 the body would raise `NameError`
because `yhat` is not defined.  The arguments are those of the call. -/
def bootstrap (positional : ℕ) (keywords : List String) : Except PyErr Unit := do
  bindArgs bootstrapParams positional keywords
  bindArgs bootstrapParams 1 ["func"]
  .error .nameError

end Attitude.DisplayUtil
