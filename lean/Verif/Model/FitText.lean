import Verif.Model.ErrorAxes

/-!
# Model of the text of a fit, `PCAOrientation.__repr__`
-/

namespace Attitude.FitText

open Attitude

/-- A decimal digit.  External; part of `{:.2f}`, orientation/pca.py L519-520. -/
def digitChar (d : ℕ) : Char := Char.ofNat (48 + d)

/-- A number without fraction in decimal digits.  External; part of `{:.2f}`,
orientation/pca.py L519-520. -/
def natText (n : ℕ) : List Char :=
  if n < 10 then [digitChar n] else natText (n / 10) ++ [digitChar (n % 10)]
termination_by n

/-- The closest whole number, the even one if there are two.  External; the rounding of
`{:.2f}`, orientation/pca.py L519-520. -/
noncomputable def roundHalfEven (x : ℝ) : ℕ :=
  if x - ⌊x⌋₊ < 1 / 2 then ⌊x⌋₊
  else if 1 / 2 < x - ⌊x⌋₊ then ⌊x⌋₊ + 1
  else if ⌊x⌋₊ % 2 = 0 then ⌊x⌋₊ else ⌊x⌋₊ + 1

/-- `'{:.2f}'.format(x)`; `none` is `nan`.  External; used at orientation/pca.py L519-521.  Python
rounds the exact value of the float; here the value is a real number. -/
noncomputable def fixed2 : Option ℝ → List Char
  | none => "nan".toList
  | some x =>
    let h := roundHalfEven (|x| * 100)
    (if x < 0 then ['-'] else [])
      ++ natText (h / 100) ++ '.' :: [digitChar (h / 10 % 10), digitChar (h % 10)]

/-- The text of `__repr__` for `sdr` and `ae`, orientation/pca.py L519-521.  Field `{2}` is the
rake, `{3}` and `{4}` are the errors. -/
noncomputable def reprText (strike dip rake e₀ e₁ : Option ℝ) : List Char :=
  "Orientation:: strike: ".toList ++ (fixed2 strike ++ (" dip: ".toList ++ (fixed2 dip
    ++ ("\n".toList ++ ("      error:: min: ".toList ++ (fixed2 e₀ ++ (" max: ".toList
    ++ (fixed2 e₁ ++ (" rake: ".toList ++ fixed2 rake)))))))))

/-- `PCAOrientation.__repr__`, orientation/pca.py L516-521, with the default method for errors;
`angular_errors` is in degrees (L304-306). -/
noncomputable def fitRepr (Q : ErrorAxes.Quantiles) {n : ℕ} (f : Pca.Fit n) : List Char :=
  let sd := Pca.strikeDip f
  let ae := ErrorAxes.fitAngularErrors Q f
  reprText (sd.map Prod.fst) (sd.map Prod.snd) (Pca.rake f) (ae.map fun e => degrees e.1)
    (ae.map fun e => degrees e.2)

end Attitude.FitText
