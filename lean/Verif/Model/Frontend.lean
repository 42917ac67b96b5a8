import Verif.Model.Reconstructed

/-!
# Model of `frontend/packages/attitude/src/math.ts`

A JavaScript number is an `Option ℝ`; `none` is `NaN` (also the value that
`undefined` has in arithmetic).  Infinities are not modelled; where a division
by zero could produce one this is said at the definition.  An array of options
(`opts`) is an object that the functions modify, so they also return its new
state.
-/

namespace Attitude.Frontend

open Attitude

/-- A JavaScript number.  For the arrays of math.ts L15-257. -/
abbrev Num := Option ℝ

/-- Multiplication, `NaN` if a factor is.  External; used at math.ts L15-63. -/
def Num.mul (a b : Num) : Num := do some ((← a) * (← b))

/-- `d3.sum`, which skips `NaN`.  External; used at math.ts L18 and L23. -/
def d3sum (l : List Num) : ℝ := (l.map fun x => x.getD 0).sum

/-- `norm`, math.ts L15-19. -/
noncomputable def norm (d : List Num) : ℝ :=
  Real.sqrt (d3sum (d.map fun a => Num.mul a a))

/-- `sdot`, math.ts L21-24.  The index runs up to and including the length; the
element beyond the end is `undefined` and the product `NaN`. -/
def sdot (a b : List Num) : ℝ :=
  d3sum ((List.range (a.length + 1)).map fun i => Num.mul (a[i]?.join) (b[i]?.join))

/-- The options object of math.ts; `none` is a missing property.  Its properties are read at
math.ts L26-63, L69-77, L103-115 and L164-169. -/
structure Opts where
  n : Option ℕ := none
  degrees : Option Bool := none
  traditionalLayout : Option Bool := none
  upperHemisphere : Option Bool := none
  sheet : Option String := none
  level : Option ℝ := none

/-- The numbers `sinAngle` of `ellipse`, math.ts L40-51: `v = n/2` and
`stepSize = 2/v`, so `i < v` are the first `⌈n/2⌉` numbers. -/
noncomputable def sinAngles (n : ℕ) : List ℝ :=
  (List.range ((n + 1) / 2)).map fun i : ℕ => -1 + (i : ℝ) * (2 / ((n : ℝ) / 2))

/-- `ellAdaptive` of `ellipse`, math.ts L37-60. -/
noncomputable def ellipse (n : ℕ) (a b : Num) : List (Num × Num) :=
  let angles := (sinAngles n).map fun s =>
    (Num.mul b (some (Real.cos (Real.arcsin s))), Num.mul a (some s))
  let a1 := ((angles.drop 1).map fun p => (p.1.map fun x => -x, p.2)).reverse
  angles ++ [(some 0, a)] ++ a1

/-- `cart2sph`, math.ts L65-95, on three numbers that are not `NaN`; `none` when
the latitude is `NaN`, for the zero vector. -/
noncomputable def cart2sph (o : Opts) (d : Vec 3) : Option (ℝ × ℝ) :=
  let c := if o.degrees.getD false then 180 / Real.pi else 1
  let r := Attitude.norm d
  let (x, y, z) := if o.traditionalLayout.getD false then (d 2, d 0, d 1) else (d 1 * -1, d 0, d 2)
  let z := if o.upperHemisphere.getD true then z else z * -1
  if r = 0 then none else some (c * arctan2 y x, c * Real.arcsin (z / r))

/-- `Math.sqrt`.  External; used at math.ts L117. -/
noncomputable def sqrtNum (x : ℝ) : Num := if x < 0 then none else some (Real.sqrt x)

/-- The vectors that the step functions return: `Array.from(axes).map((i) =>
sdot(e, i))` for the transposed axes, math.ts L135-139 and L195-201. -/
def toWorld (e : List Num) (axes : Mat 3 3) : Vec 3 :=
  fun j => sdot e ((List.finRange 3).map fun i => some (axes i j))

/-- The values that `planeErrors` and `normalErrors` fill in, together with those
of `cart2sph` (`degrees`).  math.ts L69-77, L103-115 and L164-169. -/
def Opts.defaults (o : Opts) : Opts :=
  { o with n := some (o.n.getD 100), upperHemisphere := some (o.upperHemisphere.getD true),
           traditionalLayout := some (o.traditionalLayout.getD true),
           degrees := some (o.degrees.getD false) }

/-- The table `scales` of `planeErrors`, math.ts L120-124. -/
def planeScale (sheet : String) : Num :=
  if sheet = "upper" then some 1 else if sheet = "lower" then some (-1)
  else if sheet = "nominal" then some 0 else none

/-- `planeErrors`, math.ts L97-143: the curve and the options afterwards. -/
noncomputable def planeErrors (cov : Vec 3) (axes : Option (Mat 3 3)) (o : Opts) :
    List (Option (ℝ × ℝ)) × Opts :=
  let o := o.defaults
  let sheet := match o.sheet with
    | none => "nominal"
    | some s => if s = "" then "nominal" else s
  let axes := axes.getD 1
  let s := fun i => sqrtNum (cov i)
  let c1 := planeScale sheet
  let c1 := if o.upperHemisphere.getD true then Num.mul c1 (some (-1)) else c1
  let c1 := if axes 2 2 < 0 then Num.mul c1 (some (-1)) else c1
  let step := fun a : Num × Num => toWorld [a.2, a.1, Num.mul (s 2) c1] axes
  (((ellipse (o.n.getD 100) (s 0) (s 1)).map step).map (cart2sph o), o)

/-- The table `scales` of `normalErrors`, math.ts L171-174. -/
def normalScale (sheet : String) : Num :=
  if sheet = "upper" then some 1 else if sheet = "lower" then some (-1) else none

/-- Division, `NaN` if an argument is; only used for divisors other than zero.  External; used at
math.ts L192. -/
noncomputable def Num.div (a b : Num) : Num := do some ((← a) / (← b))

/-- `normalErrors`, math.ts L153-206: the curve and the options afterwards.
Not modelled, and `none`, for a first or second covariance of zero, where the
code divides by zero. -/
noncomputable def normalErrors (cov : Vec 3) (axes : Option (Mat 3 3)) (o : Opts) :
    Option (List (Option (ℝ × ℝ)) × Opts) :=
  let o := { o.defaults with sheet := some (o.sheet.getD "upper"),
                             level := some (o.level.getD 1) }
  let axes := axes.getD 1
  let s := fun i => sqrtNum (cov i)
  let v0 := normalScale (o.sheet.getD "upper")
  let c1 := Num.mul (some 1) v0
  let c1 := if o.upperHemisphere.getD true then Num.mul c1 (some (-1)) else c1
  let c1 := Num.mul c1 o.level
  let component := fun (d : Num) i =>
    Num.div (Num.mul (Num.mul (d.map fun x => -x) c1) (s 2)) (s i)
  let step := fun es : Num × Num =>
    toWorld [component es.1 0, component es.2 1, Num.mul (some (norm [es.1, es.2])) v0] axes
  if cov 0 = 0 ∨ cov 1 = 0 then none
  else some (((ellipse (o.n.getD 100) (s 0) (s 1)).map step).map (cart2sph o), o)

/-- The object returned by `combinedErrors` and used by functions.ts.  math.ts L208-224;
functions.ts L91. -/
structure Combined (α : Type) where
  nominal : List α
  upper : List α
  lower : List α

/-- `combinedErrors`, math.ts L208-224. -/
noncomputable def combinedErrors (cov : Vec 3) (axes : Option (Mat 3 3)) (o : Opts) :
    Combined (Option (ℝ × ℝ)) × Opts :=
  let func := fun (o : Opts) type =>
    planeErrors cov axes { o with sheet := some type, degrees := some true }
  let nominal := func o "nominal"
  let upper := func nominal.2 "upper"
  let lower := func upper.2 "lower"
  (⟨nominal.1, upper.1, lower.1⟩, lower.2)

/-- `deconvolveAxes`, math.ts L237-257: the lengths and the axes; the array given
is changed into the latter.  `none` when a column is zero (`NaN`). -/
noncomputable def deconvolveAxes (axes : Mat 3 3) : Option (Vec 3 × Mat 3 3) :=
  let sv : Vec 3 := fun i => norm ((List.finRange 3).map fun j => some (axes j i))
  if sv 0 = 0 ∨ sv 1 = 0 ∨ sv 2 = 0 then none
  else some (sv, Matrix.of fun j i => axes j i / sv i)

/-- `convolveAxes`, math.ts L226-235: the result and the array given afterwards. -/
noncomputable def convolveAxes (axes : Mat 3 3) (sv : Vec 3) : Option (Mat 3 3 × Mat 3 3) := do
  let (_, axes) ← deconvolveAxes axes
  some (Matrix.of fun i j => axes i j * sv i, axes)

/-- A use of an options object by one of the exported functions of math.ts
(L259-268). -/
inductive Call where
  | plane (cov : Vec 3) (axes : Option (Mat 3 3))
  | normal (cov : Vec 3) (axes : Option (Mat 3 3))
  | combined (cov : Vec 3) (axes : Option (Mat 3 3))
  | position

/-- The options object after a call: `planeErrors`, `normalErrors` (L164-168 and
`cart2sph`; also where the curve is not modelled), `combinedErrors` and `cart2sph`
(L69-77). -/
noncomputable def Call.after (o : Opts) : Call → Opts
  | .plane cov axes => (planeErrors cov axes o).2
  | .normal _ _ => { o.defaults with sheet := some (o.sheet.getD "upper"),
                                     level := some (o.level.getD 1) }
  | .combined cov axes => (combinedErrors cov axes o).2
  | .position => { o with degrees := some (o.degrees.getD false),
                          traditionalLayout := some (o.traditionalLayout.getD false),
                          upperHemisphere := some (o.upperHemisphere.getD true) }

end Attitude.Frontend
