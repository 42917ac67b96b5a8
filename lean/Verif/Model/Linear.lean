import Verif.Model.Coordinates
import Mathlib.Analysis.SpecialFunctions.Trigonometric.Arctan

/-!
# Model of `attitude/orientation/linear/regression.py`,
`attitude/orientation/linear/__init__.py` and of the parts of
`attitude/orientation/base.py` that `LinearOrientation` uses
-/

namespace Attitude.Linear

open Attitude Matrix

/-- `add_ones`, regression.py L9-13, for an array of shape `(n, 2)`. -/
def addOnes {n : ℕ} (a : Fin n → Vec 2) : Mat n 3 :=
  Matrix.of fun i => ![a i 0, a i 1, 1]

/-- `matrix_squared`, regression.py L15-17. -/
def matrixSquared {n : ℕ} (C : Mat n 3) : Mat 3 3 := C.transpose * C

/-- A `Regression` object, regression.py L29-38: the design matrix, the response
and the cached attributes.  `n` is `self.nobs` and `self.n`; `self.k` is 3.
`xTx` is the attribute that only exists once `coefficients` has been computed. -/
structure Regression (n : ℕ) where
  C : Mat n 3
  Z : Vec n
  coef : Option (Vec 3) := none
  xTx : Option (Mat 3 3) := none
  cov : Option (Mat 3 3) := none

/-- `Regression.__init__`, regression.py L25-38, for centred points in rows. -/
def ofCentered {n : ℕ} (c : Fin n → Vec 3) : Regression n :=
  { C := addOnes fun i => ![c i 0, c i 1], Z := fun i => c i 2 }

/-- `Regression.__init__`, regression.py L20-38, for an array of shape `(n, 3)`.
With `n = 0` the access `coordinates[0]` raises. -/
noncomputable def initRows {n : ℕ} (a : Fin n → Vec 3) : Except PyErr (Regression n) :=
  if n = 0 then .error .indexError else .ok (ofCentered (Coordinates.centered a))

/-- `centered`, coordinates/__init__.py L19-28, for an array of shape `(3, n)`:
the mean along axis 0 runs over the three rows. -/
noncomputable def centeredCols {n : ℕ} (a : Fin 3 → Vec n) : Fin 3 → Vec n :=
  fun j i => a j i - (a 0 i + a 1 i + a 2 i) / 3

/-- `Regression.__init__`, regression.py L20-38, for an array of shape `(3, n)`
with more than three columns: the array is centred first (L25) and transposed
afterwards (L26-27). -/
noncomputable def initCols {n : ℕ} (a : Fin 3 → Vec n) (_ : 3 < n) : Regression n :=
  ofCentered fun i j => centeredCols a j i

/-- `coefficients`, regression.py L40-47: value and updated object. -/
noncomputable def coefficients {n : ℕ} (r : Regression n) : Except PyErr (Vec 3) × Regression n :=
  match r.coef with
  | some c => (.ok c, r)
  | none =>
    if (matrixSquared r.C).det = 0 then (.error .linAlgError, r)
    else
      let inv := (matrixSquared r.C)⁻¹
      let xy := r.C.transpose *ᵥ r.Z
      let c := inv *ᵥ xy
      (.ok c, { r with coef := some c, xTx := some inv })

/-- The third component of `predictions`, regression.py L49-51.  The first two
are columns of `C` and need no computation, but an exception in the third
prevents the tuple from being returned. -/
noncomputable def predictions {n : ℕ} (r : Regression n) : Except PyErr (Vec n) × Regression n :=
  match coefficients r with
  | (.ok c, r') => (.ok (r'.C *ᵥ c), r')
  | (.error e, r') => (.error e, r')

/-- `residuals`, regression.py L53-55. -/
noncomputable def residuals {n : ℕ} (r : Regression n) : Except PyErr (Vec n) × Regression n :=
  match predictions r with
  | (.ok p, r') => (.ok (fun i => r'.Z i - p i), r')
  | (.error e, r') => (.error e, r')

/-- `covariance_matrix`, regression.py L57-69.  `self.xTx` raises
`AttributeError` when it has not been set. -/
noncomputable def covarianceMatrix {n : ℕ} (r : Regression n) :
    Except PyErr (Mat 3 3) × Regression n :=
  match r.cov with
  | some c => (.ok c, r)
  | none =>
    if n = 3 then (.ok 0, { r with cov := some 0 })
    else match residuals r with
      | (.error e, r') => (.error e, r')
      | (.ok e, r') =>
        let sse := e ⬝ᵥ e
        match r'.xTx with
        | none => (.error .attributeError, r')
        | some x => (.ok (sse • x), { r' with cov := some (sse • x) })

/-- `standard_errors`, regression.py L71-73 (variances are not negative, see
C36). -/
noncomputable def standardErrors {n : ℕ} (r : Regression n) :
    Except PyErr (Vec 3) × Regression n :=
  match covarianceMatrix r with
  | (.ok c, r') => (.ok (fun j => Real.sqrt (c j j)), r')
  | (.error e, r') => (.error e, r')

/-- The things a caller can read from a `Regression`.  orientation/linear/regression.py L40-73. -/
inductive Read
  | coefficients
  | predictions
  | residuals
  | covariance
  | standardErrors

/-- What a read returns.  orientation/linear/regression.py L40-73. -/
inductive Value (n : ℕ)
  | vec3 (v : Vec 3)
  | vecn (v : Vec n)
  | mat (m : Mat 3 3)

/-- One read.  orientation/linear/regression.py L40-73. -/
noncomputable def readOp {n : ℕ} (r : Regression n) : Read → Except PyErr (Value n) × Regression n
  | .coefficients => ((coefficients r).1.map .vec3, (coefficients r).2)
  | .predictions => ((predictions r).1.map .vecn, (predictions r).2)
  | .residuals => ((residuals r).1.map .vecn, (residuals r).2)
  | .covariance => ((covarianceMatrix r).1.map .mat, (covarianceMatrix r).2)
  | .standardErrors => ((standardErrors r).1.map .vec3, (standardErrors r).2)

/-- The object after a history of reads.  For callers of orientation/linear/regression.py L40-73. -/
noncomputable def after {n : ℕ} (r : Regression n) (h : List Read) : Regression n :=
  h.foldl (fun r q => (readOp r q).2) r

/-- `rotation`, base.py L10-14. -/
noncomputable def rotation (t : ℝ) : Mat 3 3 :=
  !![Real.cos t, -Real.sin t, 0; Real.sin t, Real.cos t, 0; 0, 0, 1]

/-- The attributes of a `LinearOrientation`, linear/__init__.py L15-25 (lines of
that file). -/
structure LinearOrientation where
  azimuth : ℝ
  coefficients : Vec 3
  slope : ℝ
  covarianceMatrix : Mat 3 3

/-- `LinearOrientation.__init__`, linear/__init__.py L15-25. -/
noncomputable def initLinear {n : ℕ} (r : Regression n) : Except PyErr LinearOrientation :=
  match coefficients r with
  | (.error e, _) => .error e
  | (.ok values, r') =>
    let azimuth := -arctan2 (-values 1) (-values 0)
    let coef := rotation azimuth *ᵥ values
    let slope := Real.arctan (-coef 0)
    match covarianceMatrix r' with
    | (.error e, _) => .error e
    | (.ok c, _) =>
      .ok { azimuth := azimuth, coefficients := coef, slope := slope, covarianceMatrix := c }

/-- `LinearOrientation(coordinates)` for an array of shape `(n, 3)`.
orientation/linear/__init__.py L14-25. -/
noncomputable def linearOrientation {n : ℕ} (a : Fin n → Vec 3) : Except PyErr LinearOrientation :=
  match initRows a with
  | .error e => .error e
  | .ok r => initLinear r

/-- `LinearOrientation.strike_dip`, linear/__init__.py L27-31. -/
noncomputable def strikeDip (o : LinearOrientation) : ℝ × ℝ := (degrees o.azimuth, degrees o.slope)

/-- `rotated_covariance`, base.py L51-54. -/
noncomputable def rotatedCovariance (o : LinearOrientation) : Mat 3 3 :=
  (rotation o.azimuth).transpose * o.covarianceMatrix * rotation o.azimuth

/-- `BaseOrientation.standard_errors`, base.py L56-57. -/
noncomputable def orientationErrors (o : LinearOrientation) : Vec 3 :=
  fun j => Real.sqrt (rotatedCovariance o j j)

end Attitude.Linear
