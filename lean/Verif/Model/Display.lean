import Verif.Model.Hyperbola
import Verif.Model.PcaConics
import Verif.Model.ErrorAxes

/-!
# Model of `attitude/display/polar.py`, `attitude/display/cartopy.py`,
`attitude/display/pca_aligned.py`, `attitude/display/error_comparison.py`,
`attitude/display/plot/__init__.py` and of `hyperbolic_errors_parametric` in
`attitude/display/hyperbola.py`

Modelled is what is handed to matplotlib, shapely and mplstereonet, not what these draw.
-/

namespace Attitude.Display

open Attitude Matrix Stereonet Rotations

/-! ## polar.py -/

/-- The end of `pole_error`, polar.py L44-52: angle (radians) and radius (degrees). -/
noncomputable def polarPoint (v : Vec 3) : Option (ℝ × ℝ) :=
  (cart2sph (-v 0) (v 1) (v 2)).map fun q => (q.1 - Real.pi / 2, 90 - degrees q.2)

/-- The vertices of `pole_error`, polar.py L19-59, and the caller's axes afterwards
(L30 changes them in place).  The path has one vertex per angle of `ellipse()`. -/
noncomputable def polarPoleError (axes cov : Mat 3 3) : Curve × Mat 3 3 :=
  let axes := flipped axes
  let step := fun a =>
    let f := norm ![Real.cos a * cov 0 0, Real.sin a * cov 1 1]
    let e := ![-Real.cos a * cov 2 2 * 2, -Real.sin a * cov 2 2 * 2, f]
    polarPoint (toWorld e axes)
  ((angles 1000).map step, axes)

/-- `pole`, polar.py L65-67. -/
noncomputable def polarPole (strike dip : ℝ) : ℝ × ℝ := (radians (strike + 90), dip)

/-! ## cartopy.py -/

/-- `fix_stereonet_coords`, cartopy.py L13-15: the array, changed in place, is returned. -/
def fixStereonetCoords {n : ℕ} (coords : Fin n → Vec 2) : Fin n → Vec 2 :=
  fun i => ![coords i 0, -coords i 1]

/-- The polygon of `cartopy_girdle`, cartopy.py L17-24, as a function of the values `d` of
`hyperbolic_axes`: exterior ring and hole. -/
noncomputable def cartopyGirdle (axes : Mat 3 3) (d : Vec 3) : Except PyErr (Curve × Curve) := do
  let up ← planeErrors axes (Matrix.diagonal d) "upper"
  let low ← planeErrors axes (Matrix.diagonal d) "lower"
  .ok (curveDegrees up, (curveDegrees low).reverse)

/-- The polygon of `cartopy_normal`, cartopy.py L26-32, and the caller's axes afterwards. -/
noncomputable def cartopyNormal (axes : Mat 3 3) (d : Vec 3) : Except PyErr (Curve × Mat 3 3) := do
  let (c, axes') ← normalErrors axes (Matrix.diagonal d)
  .ok (curveDegrees c, axes')

/-! ## pca_aligned.py -/

/-- The data of `plot_aligned` before subsampling, pca_aligned.py L24-27. -/
noncomputable def alignedData {n : ℕ} (f : Pca.Fit n) : Mat n 3 :=
  if f.normal 2 < 0 then Matrix.of fun i j => if j = 2 then -Pca.rotated f i j else Pca.rotated f i j
  else Pca.rotated f

/-- The step of the subsampling, pca_aligned.py L31-36. -/
noncomputable def stride (sparse : Bool) (l : ℕ) : ℕ :=
  if sparse && decide (10000 < l) then ⌈(l : ℝ) / 10000⌉₊ else 1

/-- The rows `A[::k]` as the list of their indices.  display/pca_aligned.py L36. -/
def sampledRows (k l : ℕ) : List ℕ := (List.range l).filter fun i => i % k = 0

/-- `minmax`, pca_aligned.py L28, for at least one point. -/
noncomputable def minMax {n : ℕ} (A : Mat (n + 1) 3) (j : Fin 3) : ℝ × ℝ :=
  (Finset.univ.inf' Finset.univ_nonempty fun i => A i j,
   Finset.univ.sup' Finset.univ_nonempty fun i => A i j)

/-- The angular error in the title of the section along axis `a`, pca_aligned.py L84-93,
for `hyp` without negative values. -/
noncomputable def titleError (hyp : Vec 3) (a : Fin 2) : ℝ :=
  let v0 : Vec 3 := Pi.single a.castSucc 1
  let axes : Mat 2 3 := Matrix.of ![v0, ![0, 0, 1]]
  let m : Mat 2 2 := (axes * Matrix.diagonal hyp * axes.transpose).transpose.map Real.sqrt
  2 * degrees (arctan2 (norm (m 1)) (norm (m 0)))

/-- The ends of the x values for which the hyperbola is drawn, pca_aligned.py L97-98:
those of the first axis, also in the section along the second. -/
noncomputable def hyperbolaRange {n : ℕ} (A : Mat (n + 1) 3) : ℝ × ℝ :=
  ((minMax A 0).1 * 1.2, (minMax A 0).2 * 1.2)

/-- `lengths`, pca_aligned.py L29. -/
noncomputable def lengths {n : ℕ} (A : Mat (n + 1) 3) (j : Fin 3) : ℝ := (minMax A j).2 - (minMax A j).1

/-- The height of the figure in inches, pca_aligned.py L40-43 and L51; the width is 8.  `none` is
the result of a division by a length of zero: infinite or not a number, and so not smaller than 3.
The height ratios of L45-49 are not passed on to the figure and are not modelled. -/
noncomputable def figureHeight {n : ℕ} (A : Mat (n + 1) 3) : Option ℝ :=
  if lengths A 0 = 0 then none
  else
    let h := 8 * ((lengths A 2 * 2 + lengths A 1) / lengths A 0 * 1.5)
    some (if h < 3 then 3 else h)

/-- The number in the caption "Max residual" of the figure, pca_aligned.py L127. -/
noncomputable def captionResidual {n : ℕ} (A : Mat (n + 1) 3) : ℝ := lengths A 2

/-! ## error_comparison.py -/

/-- The limits of the horizontal axis of `error_comparison`, error_comparison.py L35-53, for
at least one point: `deskewed_data[0]` is the first row. -/
noncomputable def comparisonLimits {n : ℕ} (A : Mat (n + 1) 3) (width : Option ℝ := none) : ℝ × ℝ :=
  let w := width.getD (2.5 * max |A 0 0| (max |A 0 1| |A 0 2|))
  (-(w / 2), w / 2)

/-- Python's search for a name: in the function, then in the functions around its definition, then in the
module and in `builtins`; not in functions that call it.  External; for error_comparison.py L14-22. -/
def lookupName (scopes : List (List String)) (name : String) : Except PyErr Unit :=
  if scopes.any (fun s => name ∈ s) then .ok () else .error .nameError

/-- The names of the module, error_comparison.py L1-11 and L30. -/
def comparisonModule : List String :=
  ["N", "subplots", "chi2", "Orientation", "sampling_axes", "noise_axes", "vector", "hyperbola",
    "bootstrap_noise", "augment", "ci", "HyperbolicErrors", "bootstrap_ci", "error_comparison"]

/-- The variables of `bootstrap_ci` and of `func` in it, error_comparison.py L11-28. -/
def bootstrapCiScopes : List (List String) :=
  [["arr", "means", "f", "al", "xc", "yc", "y"], ["deskewed_data", "func", "s", "yhat_boots"]]

/-- The names that `func` reads, in order, error_comparison.py L15-22. -/
def bootstrapFuncReads : List String :=
  ["arr", "means", "Orientation", "arr", "f", "xvals", "means", "al", "xc", "yc", "means", "y"]

/-- The first call of `func` (error_comparison.py L14-22) if the module has the names `names`, as the error
it raises if any. -/
def bootstrapFunc (names : List String) : Except PyErr Unit :=
  bootstrapFuncReads.forM (lookupName (bootstrapCiScopes ++ [names]))

/-- `error_comparison`, error_comparison.py L30-80, as the error it raises if any.  `bootstrap_noise` calls
`func` at least once. -/
def errorComparison (doBootstrap : Bool) : Except PyErr Unit :=
  if doBootstrap then bootstrapFunc comparisonModule else .ok ()

/-! ## plot/__init__.py -/

/-- The argument `alpha` of the functions of plot/__init__.py.  display/plot/__init__.py L27,
L45, L60 and L81. -/
inductive Alpha
  | number (x : ℝ)
  | list (xs : List Alpha)

/-- Lines 27-29 (and 45-47, 60-62, 81-83) of plot/__init__.py: the values for the levels. -/
def alphas (a : Alpha) (levels : ℕ) : Except PyErr (List Alpha) :=
  match a with
  | .number _ => .error .typeError
  | .list xs => if xs.length ≠ levels then .ok (List.replicate levels (.list xs)) else .ok xs

/-- `Polygon(.., alpha=a)`: matplotlib accepts numbers only.  External; used at
display/plot/__init__.py L36, L53 and L97. -/
def polygonAlpha : Alpha → Except PyErr ℝ
  | .number x => .ok x
  | .list _ => .error .typeError

/-- The opacities with which `strike_dip` draws its polygons, plot/__init__.py L75-98. -/
def drawnAlphas (a : Alpha) (levels : ℕ) : Except PyErr (List ℝ) := do
  let xs ← alphas a levels
  xs.mapM polygonAlpha

/-- Default of `alpha` in `trend_plunge` and `plane_confidence` (plot/__init__.py L27, L60). -/
noncomputable def defaultAlpha : Alpha := .list [.number 0.7]
/-- Default of `alpha` in `strike_dip` (plot/__init__.py L81). -/
noncomputable def strikeDipDefaultAlpha : Alpha := .list [.number 1]
/-- Default of `alpha` in `normal` (plot/__init__.py L45). -/
noncomputable def normalDefaultAlpha : Alpha := .number 0.7

/-- A vertex of the polygon drawn by `strike_dip(spherical=False)` and `error_ellipse`,
plot/__init__.py L86-95, for a point `(e0, e1)` of `orientation.error_ellipse`. -/
noncomputable def strikeDipVertex (p : ℝ × ℝ) : ℝ × ℝ := (degrees p.1, 90 - degrees p.2)

/-- One point of `strike_dip_montecarlo`, plot/__init__.py L100-111, as the arguments strike
and dip of `ax.pole`; `z` are three standard normal numbers.  `none` for a zero vector. -/
noncomputable def montecarloPoint {n : ℕ} (f : Pca.Fit n) (level : ℝ) (z : Vec 3) : Option (ℝ × ℝ) := do
  let arr : Vec 3 := (fun j => ∑ i, z i * level * Pca.covarianceMatrix f .noise i j)
    + Matrix.diagonal f.s 2
  let arr := toWorld arr f.V
  let q ← fdiv (arr 2) (norm arr)
  some (degrees (arctan2 (arr 0) (arr 1)), degrees (Real.arccos q))

/-- Unpacking `a,b = orientation.plane_errors()` of `plane_confidence`, plot/__init__.py L65:
the list has one entry per angle. -/
noncomputable def planeConfidence (axes cov : Mat 3 3) : Except PyErr Unit := do
  let c ← planeErrors axes cov
  match c with
  | [_, _] => .ok ()
  | _ => .error .valueError

/-! ## hyperbola.py -/

/-- One point of `do(angles)`, hyperbola.py L158-171, for semi-axes `a ≥ 1e-5` and `b`
(L138): the end points added in L163-167 are left out. -/
noncomputable def parametricPoint (a b : ℝ) (means : Vec 2) (th : ℝ) : Vec 2 :=
  ![a * Real.tan th * Real.cos a, b * (1 / Real.cos th) * Real.sin a] + means

/-- The angles `top`, hyperbola.py L139-145, before `bottom` is shifted by half a turn and
reversed. -/
noncomputable def parametricAngle (a b : ℝ) (k : ℕ) : ℝ :=
  let cut := arctan2 b a
  cut + k * (Real.pi - cut - cut) / 499 - Real.pi / 2

/-- The point of the upper curve, hyperbola.py L182-184. -/
noncomputable def parametricTop (a b : ℝ) (R : Mat 2 2) (means : Vec 2) (k : ℕ) : Vec 2 :=
  parametricPoint a b means (parametricAngle a b k) ᵥ* R + means

/-- `hyperbolic_errors_parametric` for two-component axes, hyperbola.py L105-152: `axes`
stays `None` unless given and is indexed in L150. -/
def parametricErrors2 (axesGiven : Bool) : Except PyErr Unit :=
  if axesGiven then .ok () else .error .typeError

end Attitude.Display
