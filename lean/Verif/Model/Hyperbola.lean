import Verif.Model.Conics
import Verif.Model.Stereonet
import Mathlib.Analysis.SpecialFunctions.Arsinh

/-!
# Model of `attitude/display/hyperbola.py`, of `hyperbola` in
`attitude/display/plot/cov_types/regressions.py`, of
`attitude/display/parametric.py`, of `attitude/error/ellipse.py` and of
`asymptotes` in `attitude/error/__init__.py`
-/

namespace Attitude.Hyperbola

open Attitude Matrix Conics

/-- `augment_tensor` of a square array with the default `ndim`, util.py L9-21:
the array as a block of an identity matrix of one more dimension. -/
def augmentTensor {d : ℕ} (A : Mat d d) : Con d := affine A 0

/-- `axes[0].copy()` with its last component set to zero, hyperbola.py L14-15. -/
def flatten {d : ℕ} (a : Vec (d + 1)) : Vec (d + 1) := fun i => if i = Fin.last d then 0 else a i

/-- `apparent_dip_correction`, hyperbola.py L9-31, as a function of `axes[0]`.
When `angle` gives `nan` (vertical or zero `axes[0]`) the comparison in L18 is
false and the identity is returned. -/
noncomputable def apparentDipCorrection {d : ℕ} (a : Vec (d + 1)) : Mat 2 2 :=
  match angleCos a (flatten a) with
  | none => 1
  | some c =>
    if 1 - c ^ 2 > 1e-12 then
      let s := if c < 0 then -Real.sqrt (1 - c ^ 2) else Real.sqrt (1 - c ^ 2)
      !![c, s; -s, c]
    else 1

/-- The three arrays of points that `hyperbolic_errors` returns, one `Vec 2` per
column.  Unpacked at display/hyperbola.py L215-217 and L244-249. -/
structure Bands where
  nominal : List (Vec 2)
  bottom : List (Vec 2)
  top : List (Vec 2)

/-- `A[1]*cosh(arcsinh(x/A[0]))`, hyperbola.py L84 and L201. -/
noncomputable def width (a b x : ℝ) : ℝ := b * Real.cosh (Real.arsinh (x / a))

/-- The end of `hyperbolic_errors`, hyperbola.py L84-103: `R` is the array
`ax1` of L91 before it is transposed by `reverse`; points are rows multiplied by
the array from the right; `top` is returned backwards. -/
noncomputable def bands (a b : ℝ) (xs : List ℝ) (R : Mat 2 2) (means : Vec 2) (reverse : Bool) :
    Bands :=
  let R' := if reverse then R.transpose else R
  { nominal := xs.map fun x => ![x, 0] ᵥ* R' + means
    bottom := xs.map fun x => ![x, -width a b x] ᵥ* R' + means
    top := (xs.map fun x => ![x, width a b x] ᵥ* R' + means).reverse }

/-- `hyperbolic_errors` for three-component `hyp_axes`, hyperbola.py L33-103.
`correct_apparent_dip` is never read by the code.  `none` when a value is not
finite: dependent `axes` (`nan` everywhere) or a zero on the diagonal of the
sliced conic. -/
noncomputable def hyperbolicErrors (h : Vec 3) (xs : List ℝ) (T : Mat 3 3 := 1)
    (axes : Option (Vec 3 × Vec 3) := none) (means : Vec 2 := 0) (reverse : Bool := false) :
    Except PyErr (Option Bands) := do
  let hyp ← dual (augmentTensor (Matrix.diagonal h))
  let hyp := transform hyp (augmentTensor T)
  let ax := axes.getD (![0, 1, 0], ![0, 0, 1])
  match ← slice3 hyp (plane (cross ax.1 ax.2)) (some ax) with
  | none => .ok none
  | some (h1, _, _) =>
    match semiaxes h1 with
    | none => .ok none
    | some s => .ok (some (bands (Real.sqrt (s 0)) (Real.sqrt (s 1)) xs
        (apparentDipCorrection ax.1) means reverse))

/-- `hyperbolic_errors` for two-component `hyp_axes`, hyperbola.py L33-103: `axes`
stays `None` unless given, and `None` cannot be indexed in L14. -/
noncomputable def hyperbolicErrors2 (h : Vec 2) (xs : List ℝ)
    (axes : Option (Vec 2 × Vec 2) := none) (means : Vec 2 := 0) (reverse : Bool := false) :
    Except PyErr (Option Bands) := do
  let hyp ← dual (augmentTensor (Matrix.diagonal h))
  match axes with
  | none => .error .typeError
  | some ax =>
    match semiaxes hyp with
    | none => .ok none
    | some s => .ok (some (bands (Real.sqrt (s 0)) (Real.sqrt (s 1)) xs
        (apparentDipCorrection ax.1) means reverse))

/-- `hyperbola_values` for one x value and non-negative `hyp_axes`, hyperbola.py
L193-201; `none` when the first axis is zero (`inf` or `nan`). -/
noncomputable def hyperbolaValues (h : Vec 2) (x : ℝ) : Option ℝ :=
  (fdiv x (Real.sqrt (h 0))).map fun q => Real.sqrt (h 1) * Real.cosh (Real.arsinh q)

/-- `HyperbolicErrors.__set_plot_data`, hyperbola.py L247-249: the vertices of
the polygon that is filled. -/
def polygon (b : Bands) : List (Vec 2) := b.bottom ++ b.top

/-- `hyperbola`, cov_types/regressions.py L8-29, for one x value, positive `cov`
and `n > 0`: `(t[0], b[1], t[1])`. -/
noncomputable def regressionHyperbola (cov : Vec 2) (axes : Mat 2 2) (means : Vec 2) (x : ℝ)
    (n : ℝ := 1) (level : ℝ := 1) : ℝ × ℝ × ℝ :=
  let y := level * Real.sqrt (cov 1) * Real.sqrt (x ^ 2 / (Real.sqrt (cov 0) ^ 2 * n) + 1 / n)
  let t := ![x, y] ᵥ* axes + means
  let b := ![x, -y] ᵥ* axes + means
  (t 0, b 1, t 1)

/-- The point of `parametric.hyperbola` for one angle, before the two extreme
points are replaced by `nan`, parametric.py L17-30; `none` when the cosine is
zero. -/
noncomputable def parametricHyperbola (axes : Vec 2) (center : Vec 2) (opensUp : Bool) (th : ℝ) :
    Option (Vec 2) :=
  if Real.cos th = 0 then none
  else if opensUp then
    some ![axes 0 * Real.tan th + center 0, axes 1 * (1 / Real.cos th) + center 1]
  else some ![axes 0 * (1 / Real.cos th) + center 0, axes 1 * Real.tan th + center 1]

/-- The point of `parametric.ellipse` for one angle, parametric.py L43-48. -/
noncomputable def parametricEllipse (axes : Vec 2) (center : Vec 2) (th : ℝ) : Vec 2 :=
  ![axes 0 * Real.cos th + center 0, axes 1 * Real.sin th + center 1]

/-- `__inverse_ellipse` with `scalar=1`, parametric.py L57-60; `none` when an
axis is zero. -/
noncomputable def inverseEllipse (axes : Vec 2) : Option (Vec 2 × ℝ) :=
  if axes 0 = 0 ∨ axes 1 = 0 then none
  else
    let ax : Vec 2 := fun i => 1 / axes i * axes 1 ^ 2
    some (ax, ax 1 * Real.sqrt 2)

/-- `ellipse`, error/ellipse.py L4-16 (and its copy, base.py L16-28), for a 2x2
array: one point per parameter. -/
noncomputable def errorEllipse (svd : SqSvd) (center : Vec 2) (cov : Mat 2 2) (level : ℝ := 1)
    (n : ℕ := 1000) : List (Vec 2) :=
  let r := svd 2 cov
  let saxes : Vec 2 := fun i => Real.sqrt (r.2.1 i) * level
  (Stereonet.angles n).map fun u =>
    ![saxes 0 * Real.cos u, saxes 1 * Real.sin u] ᵥ* r.2.2 + center

/-- `asymptotes`, error/__init__.py L12-21. -/
noncomputable def asymptotes (C : Con 3) (n : ℕ := 1000) : Except PyErr (List (Vec 3)) := do
  let c ← center C
  if norm c = 0 then
    .ok ((Stereonet.angles n).map fun u => ![Real.cos u, Real.sin u, 1] ᵥ* quad C)
  else .error .assertionError

end Attitude.Hyperbola
