import Verif.Model.Coordinates
import Verif.Model.Rotations

/-!
# Model of `attitude/orientation/pca.py` (class `PCAOrientation`) and of the
parts of `attitude/orientation/base.py` it inherits

Three-column input; see `Pca2` and `Pca2Options` for arrays of two columns.
-/

namespace Attitude.Pca

open Attitude

/-- `numpy.linalg.svd(·, full_matrices=False)` as an external function.  Used at
orientation/pca.py L186. -/
abbrev SvdFn := (m : ℕ) → Mat m 3 → Mat m 3 × Vec 3 × Mat 3 3

/-- The external function meets numpy's contract whenever there are at least
three rows.  Used at orientation/pca.py L186. -/
def SvdFn.Valid (svd : SvdFn) : Prop :=
  ∀ (m : ℕ) (A : Mat m 3), 3 ≤ m → IsSVD A (svd m A).1 (svd m A).2.1 (svd m A).2.2

/-- The attributes of a `PCAOrientation` object that the modelled methods use.
`V` and `axes` are the same array object (pca.py L213), so there is one field.
`normalIsView` records whether `normal` is a view of `axes[-1]` (pca.py L219) or
a fresh array (L222). -/
structure Fit (n : ℕ) where
  /-- `self.array` (L155) -/
  array : Fin n → Vec 3
  /-- `self.mean` (L157); `none` is `nan`, for an empty array -/
  mean : Option (Vec 3)
  /-- `self.arr` (L158) -/
  arr : Fin n → Vec 3
  /-- `self.weights` (L163) -/
  weights : Vec 3
  /-- `self._U` (L189, L209) -/
  U : Option (Mat n 3)
  /-- `self.singular_values` (L195, L210) -/
  s : Vec 3
  /-- `self.V` and `self.axes` (L196, L207, L213) -/
  V : Mat 3 3
  /-- `self.normal` (L219-222) -/
  normal : Vec 3
  /-- whether `self.normal` shares memory with `self.axes` -/
  normalIsView : Bool
  /-- `self.strike`, the strike vector (L227) -/
  strikeVec : Vec 3
  /-- `self.dip_dr` (L229); `none` when normalising a zero vector gives `nan` -/
  dipDr : Option (Vec 3)

/-- `normalize`, pca.py L51-52; `none` for the zero vector (`nan`). -/
noncomputable def normalize (v : Vec 3) : Option (Vec 3) := vdivOpt v (norm v)

/-- Choice of the upward normal, pca.py L219-222. -/
noncomputable def upward (n : Vec 3) : Vec 3 := if n 2 < 0 then -n else n

/-- `self._vertical`, pca.py L224-226. -/
def vertical : Vec 3 := ![0, 0, 1]

/-- `__compute_derived_parameters`, pca.py L212-232 (`sigma` and `offset` are
computed from `s` where needed). -/
noncomputable def derive {n : ℕ} (array : Fin n → Vec 3) (mean : Option (Vec 3))
    (arr : Fin n → Vec 3) (weights : Vec 3) (U : Option (Mat n 3)) (s : Vec 3) (V : Mat 3 3) :
    Fit n :=
  let nrm := upward (V 2)
  let sv := cross nrm vertical
  { array, mean, arr, weights, U, s, V,
    normal := nrm,
    normalIsView := decide (¬ V 2 2 < 0),
    strikeVec := sv,
    dipDr := normalize (cross sv nrm) }

/-- `__run_svd`, pca.py L174-196: the new `_U`, `singular_values`, `V`.
A zero weight makes the matrix non-finite, for which numpy's SVD raises
`LinAlgError`. -/
noncomputable def runSvd (svd : SvdFn) {n : ℕ} (arr : Fin n → Vec 3) (weights : Vec 3) :
    Except PyErr (Mat n 3 × Vec 3 × Mat 3 3) :=
  if n < 3 then .error .valueError
  else if weights 0 = 0 ∨ weights 1 = 0 ∨ weights 2 = 0 then .error .linAlgError
  else
    let a : Mat n 3 := Matrix.of fun i j => arr i j / weights j
    let res := svd n a
    let s : Vec 3 := fun j => res.2.1 j * weights j
    .ok (res.1, s, res.2.2)

/-- `N.linalg.norm(axes, axis=0)`: the norm of every column.  orientation/pca.py L206. -/
noncomputable def columnNorms (axes : Mat 3 3) : Vec 3 := fun j => norm fun i => axes i j

/-- `__load_saved_fit`, pca.py L198-210: `singular_values` and `V`; `none` when
a column is zero, in which case `V` contains `nan`. -/
noncomputable def loadSavedFit (axes : Mat 3 3) : Option (Vec 3 × Mat 3 3) :=
  let s := columnNorms axes
  if s 0 = 0 ∨ s 1 = 0 ∨ s 2 = 0 then none
  else some (s, Matrix.of fun i j => axes i j / s j)

/-- `PCAOrientation.__init__`, pca.py L123-172.  `.ok none` is an object whose
axes contain `nan`. -/
noncomputable def init (svd : SvdFn) {n : ℕ} (a : Fin n → Vec 3) (weights : Option (Vec 3))
    (axes : Option (Mat 3 3)) : Except PyErr (Option (Fit n)) :=
  let mean := if n = 0 then none else some (meanRows a)
  let arr := Coordinates.centered a
  let w := weights.getD ![1, 1, 1]
  match axes with
  | none => do
      let (U, s, V) ← runSvd svd arr w
      .ok (some (derive a mean arr w (some U) s V))
  | some ax =>
      match loadSavedFit ax with
      | none => .ok none
      | some (s, V) => .ok (some (derive a mean arr w none s V))

/-- The `U` property, pca.py L239-247: returns the value and the object with the
value cached.  `none` when `1/singular_values` is not finite. -/
noncomputable def getU {n : ℕ} (f : Fit n) : Option (Mat n 3) × Fit n :=
  match f.U with
  | some u => (some u, f)
  | none =>
      if f.s 0 = 0 ∨ f.s 1 = 0 ∨ f.s 2 = 0 then (none, f)
      else
        let sinv : Mat 3 3 := Matrix.diagonal fun j => 1 / f.s j
        let u : Mat n 3 := Matrix.of f.arr * f.V.transpose * sinv
        (some u, { f with U := some u })

/-- `eigenvalues`, pca.py L249-254 (the divisor is zero for one point, which only
`axes=` allows; theorems assume `n ≥ 2`). -/
noncomputable def eigenvalues {n : ℕ} (f : Fit n) : Vec 3 := fun j => f.s j ^ 2 / ((n : ℝ) - 1)

/-- `rotated`, pca.py L256-262. -/
def rotated {n : ℕ} (f : Fit n) : Mat n 3 := Matrix.of f.arr * f.V.transpose

/-- `residuals`, pca.py L264-274. -/
def residuals {n : ℕ} (f : Fit n) : Mat n 3 :=
  let r : Mat n 3 := Matrix.of fun i j => if j = 2 then 0 else rotated f i j
  Matrix.of f.arr - r * f.V

/-- `numpy.var(·, axis=0)` (ddof 0) of an `(n, 3)` array.  External; used at orientation/pca.py
L317. -/
noncomputable def varRows {n : ℕ} (a : Mat n 3) : Vec 3 :=
  fun j => (∑ i, (a i j - (∑ k, a k j) / n) ^ 2) / n

/-- Type of covariance requested (`type='sampling'` or `type='noise'`).  orientation/pca.py
L309-317. -/
inductive CovType
  | sampling
  | noise

/-- `_covariance_matrix`, pca.py L309-317.  `sigma**2` is elementwise and
`4*sigma*N.var(...)` multiplies column `j` by the `j`-th variance. -/
noncomputable def covarianceMatrix {n : ℕ} (f : Fit n) : CovType → Mat 3 3
  | .sampling => Matrix.of fun i j => (Matrix.diagonal f.s i j) ^ 2 / ((n : ℝ) - 1)
  | .noise => Matrix.of fun i j => 4 * Matrix.diagonal f.s i j * varRows (rotated f) j

/-- `explained_variance`, pca.py L328-337; `none` when all variances are zero. -/
noncomputable def explainedVariance {n : ℕ} (f : Fit n) : Option ℝ :=
  let v : Vec 3 := fun j => covarianceMatrix f .noise j j
  fdiv (v 0 + v 1) (v 0 + v 1 + v 2)

/-- `strike_dip`, pca.py L361-385, as a function of `axes[2]`; `none` when that
vector is zero. -/
noncomputable def strikeDipOf (n : Vec 3) : Option (ℝ × ℝ) := do
  let r := norm n
  let strike := degrees (arctan2 (n 0) (n 1)) - 90
  let q ← fdiv (n 2) r
  let dip := degrees (Real.arccos q)
  let (strike, dip) := if dip > 90 then (strike + 180, 180 - dip) else (strike, dip)
  let strike := if strike < 0 then strike + 360 else strike
  some (strike, dip)

/-- `strike_dip()` of a fit.  orientation/pca.py L361-385. -/
noncomputable def strikeDip {n : ℕ} (f : Fit n) : Option (ℝ × ℝ) := strikeDipOf (f.V 2)

/-- `_strike_dip`, pca.py L354-359 (radians, no quadrant correction). -/
noncomputable def strikeDipRaw (n : Vec 3) : Option (ℝ × ℝ) := do
  let strike := arctan2 (n 0) (n 1) - Real.pi / 2
  let q ← fdiv (n 2) (norm n)
  some (strike, Real.arccos q)

/-- `azimuth`, pca.py L343-346. -/
noncomputable def azimuth {n : ℕ} (f : Fit n) : ℝ := arctan2 (f.V 2 0) (f.V 2 1)

/-- `slope`, pca.py L463-467. -/
noncomputable def slope {n : ℕ} (f : Fit n) : Option ℝ := do
  let q ← fdiv (f.V 2 2) (norm (f.V 2))
  some (Real.arccos q)

/-- `rake`, pca.py L387-396 (degrees); `none` is `nan`. -/
noncomputable def rake {n : ℕ} (f : Fit n) : Option ℝ := do
  let d ← f.dipDr
  let a ← Rotations.angle d (f.V 0)
  some (degrees a)

/-- `strike_dip_rake`, pca.py L398-400.  The three values are computed
independently, so each may be `nan` on its own. -/
noncomputable def strikeDipRake {n : ℕ} (f : Fit n) : Option (ℝ × ℝ) × Option ℝ :=
  (strikeDip f, rake f)

/-- `dip_direction`, base.py L38-43 (without uncertainties). -/
noncomputable def dipDirection {n : ℕ} (f : Fit n) : Option (ℝ × ℝ) := do
  let (s, d) ← strikeDip f
  some (s + 90, d)

/-- `principal_axes`, base.py L75-77: broadcasting scales column `j` by the
`j`-th singular value. -/
def principalAxes {n : ℕ} (f : Fit n) : Mat 3 3 := Matrix.of fun i j => f.s j * f.V i j

/-- `hash` / uid, base.py L79-81, for a digest function `H` of the array's bytes
(L7-8, sha1 truncated to eight hexadecimal digits). -/
def uid {n : ℕ} {α : Type} (H : Mat 3 3 → α) (f : Fit n) : α := H (principalAxes f)

end Attitude.Pca
