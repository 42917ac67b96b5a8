import Verif.Model.PcaState
import Verif.Model.Hyperbola
import Verif.Model.Linear

/-!
# Conics of a fit and error ellipses

Models `as_conic`, `as_hyperbola`, `_ellipse` and `error_ellipse` of
`attitude/orientation/pca.py`, and `_ellipse` and `error_ellipse` of
`attitude/orientation/base.py`.
-/

namespace Attitude.PcaConics

open Attitude Matrix Conics Pca

/-- `self.offset`, pca.py L214-217: the cross product of the first two rows of the
diagonal array of singular values. -/
def offset {n : ℕ} (f : Fit n) : Vec 3 := cross (Matrix.diagonal f.s 0) (Matrix.diagonal f.s 1)

/-- `cov[idx]` with `idx = N.diag_indices(3)`, pca.py L407-410, L426-427. -/
noncomputable def variances {n : ℕ} (f : Fit n) : Vec 3 := fun i => covarianceMatrix f .noise i i

/-- `as_conic`, pca.py L402-420: the conic and the object afterwards (L404-405
flip its axes in place).  `none` when a variance is zero, where numpy stores `inf`. -/
noncomputable def asConic {n : ℕ} (f : Fit n) (level : ℝ := 1) : Option (Con 3) × Fit n :=
  let f := flipDown f
  let c := variances f
  if c 0 = 0 ∨ c 1 = 0 ∨ c 2 = 0 then (none, f)
  else
    let ell : Con 3 := fromAxes fun i => 1 / c i * level ^ 2
    let ell := translate ell (offset f)
    (some (Conics.transform ell (Hyperbola.augmentTensor f.V)), f)

/-- `as_hyperbola`, pca.py L422-437; `none` when a variance is zero. -/
noncomputable def asHyperbola {n : ℕ} (f : Fit n) (isRotated : Bool := false) : Option (Con 3) :=
  let c := variances f
  if c 0 = 0 ∨ c 1 = 0 ∨ c 2 = 0 then none
  else
    let hyp : Con 3 := fromAxes ![1 / c 0, 1 / c 1, 1 / c 2 * -1]
    some (if isRotated then Conics.transform hyp (Hyperbola.augmentTensor f.V) else hyp)

/-- `PCAOrientation._ellipse`, pca.py L439-455: the bundle, its center, and the
object afterwards.  The transform that `projection` returns has four columns, so the
vectors of the bundle have four components.  An array with entries that are not
finite makes `numpy.linalg.svd` raise `LinAlgError`; `none` in the bundle when
`major_axes` is `nan`. -/
noncomputable def bundle (svd : SqSvd) {n : ℕ} (f : Fit n) (level : ℝ) :
    Except PyErr (List (Option (Vec 4)) × Vec 3) × Fit n :=
  match asConic f level with
  | (none, f) => (.error .linAlgError, f)
  | (some ell, f) =>
    (match projection3 ell with
      | .error e => .error e
      | .ok none => .error .linAlgError
      | .ok (some (con, matrix, center)) =>
        .ok ((Stereonet.angles 1000).map fun u =>
          (majorAxes svd con).map fun ax =>
            let axs : Mat 2 4 := (Matrix.of fun i => ![ax i 0, ax i 1, 0] : Mat 2 3) * matrix
            ![Real.cos u, Real.sin u] ᵥ* axs, center), f)

/-- `data += center` of numpy for rows of length `k` and a vector of length `m > 1`:
lengths that differ raise `ValueError`.  orientation/pca.py L471. -/
def addRows {k m : ℕ} (data : List (Option (Vec k))) (center : Vec m) :
    Except PyErr (List (Option (Vec k))) :=
  if h : k = m then .ok (data.map fun r => r.map fun v i => v i + center (Fin.cast h i))
  else .error .valueError

/-- `PCAOrientation.error_ellipse`, pca.py L469-477: trend and plunge, `none` for
`nan`.  `spherical` and `vector` are not read by the code. -/
noncomputable def errorEllipse (svd : SqSvd) {n : ℕ} (f : Fit n) (level : ℝ := 1) :
    Except PyErr (List (Option (ℝ × ℝ))) × Fit n :=
  match bundle svd f level with
  | (.error e, f) => (.error e, f)
  | (.ok (data, center), f) =>
    match addRows data center with
    | .error e => (.error e, f)
    | .ok data => (.ok (data.map fun r => do
        let v ← r
        let q ← fdiv (v 2) (norm v)
        some (arctan2 (v 0) (v 1), Real.arcsin q)), f)

/-- `BaseOrientation._ellipse`, base.py L59-63, for a `LinearOrientation`. -/
noncomputable def linearEllipse (svd : SqSvd) (o : Linear.LinearOrientation) (level : ℝ) :
    List (Vec 2) :=
  Hyperbola.errorEllipse svd ![o.coefficients 0, o.coefficients 1]
    (o.covarianceMatrix.submatrix ![0, 1] ![0, 1]) level

/-- `BaseOrientation.error_ellipse(spherical=True, vector=..)`, base.py L65-72, at one
point `e` of the ellipse. -/
noncomputable def sphericalPoint (o : Linear.LinearOrientation) (vector : Bool) (e : Vec 2) : ℝ × ℝ :=
  let slope := Real.arctan (-e 0)
  let azimuth := o.azimuth + arctan2 (-e 1) (-e 0)
  let azimuth := if vector then azimuth + Real.pi / 2 else azimuth
  (Real.pi + azimuth, Real.pi / 2 - slope)

/-- `BaseOrientation.error_ellipse`, base.py L65-73. -/
noncomputable def linearErrorEllipse (svd : SqSvd) (o : Linear.LinearOrientation)
    (spherical : Bool := true) (vector : Bool := false) (level : ℝ := 1) : List (ℝ × ℝ) :=
  let e := linearEllipse svd o level
  if spherical then e.map (sphericalPoint o vector) else e.map fun p => (p 1, p 0)

end Attitude.PcaConics
