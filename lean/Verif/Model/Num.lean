import Mathlib.Analysis.SpecialFunctions.Complex.Arg
import Mathlib.Analysis.SpecialFunctions.Trigonometric.Inverse
import Mathlib.LinearAlgebra.Matrix.NonsingularInverse
import Mathlib.Tactic.Ring
import Mathlib.Tactic.Linarith
import Mathlib.Tactic.FieldSimp

/-!
# Numerical primitives of the model

The numpy operations that the modelled code uses.  Floating point numbers are
idealised as reals; see DESIGN.md.
-/

namespace Attitude

/-- Python exception classes raised by the modelled code.  For example at geom/conics.py L53
(`LinAlgError`) and orientation/grouped.py L14 (`ValueError`). -/
inductive PyErr
  | valueError
  | typeError
  | keyError
  | attributeError
  | nameError
  | indexError
  | zeroDivisionError
  | unboundLocalError
  | assertionError
  | linAlgError
  | groupedPlaneError
  | transformNotInvertibleError
  | notImplementedError
  deriving DecidableEq, Repr

/-- A one dimensional numpy array of length `n`.  For example `axes[2]`, orientation/pca.py L341. -/
abbrev Vec (n : ℕ) := Fin n → ℝ

/-- A two dimensional numpy array of shape `(m, n)`.  For example `arr` of orientation/pca.py
L123. -/
abbrev Mat (m n : ℕ) := Matrix (Fin m) (Fin n) ℝ

/-- `numpy.arctan2(y, x)`: the angle of the point `(x, y)` in `(-π, π]`, with
`arctan2(0, 0) = 0`. Signed zeros are not modelled.  External; used for example at
orientation/pca.py L295 and L371. -/
noncomputable def arctan2 (y x : ℝ) : ℝ := Complex.arg ⟨x, y⟩

/-- `numpy.degrees`.  External; used for example at orientation/pca.py L306 and L371-372. -/
noncomputable def degrees (x : ℝ) : ℝ := x * 180 / Real.pi

/-- `numpy.radians`.  External; used for example at orientation/reconstructed.py L62. -/
noncomputable def radians (x : ℝ) : ℝ := x * Real.pi / 180

/-- `numpy.linalg.norm` of a vector (the 2-norm).  External; used for example at
orientation/pca.py L52 and L370. -/
noncomputable def norm {n : ℕ} (v : Vec n) : ℝ := Real.sqrt (∑ i, v i ^ 2)

/-- `numpy.dot` of two vectors.  External; used for example at orientation/pca.py L262. -/
def vdot {n : ℕ} (v w : Vec n) : ℝ := ∑ i, v i * w i

/-- `numpy.cross` of two three-component vectors.  External; used for example at
orientation/pca.py L227-229. -/
def cross (v w : Vec 3) : Vec 3 :=
  ![v 1 * w 2 - v 2 * w 1, v 2 * w 0 - v 0 * w 2, v 0 * w 1 - v 1 * w 0]

/-- Division of a scalar, where a zero divisor gives a non-finite float
(`nan` or `inf`), written `none`.  For example orientation/pca.py L372. -/
noncomputable def fdiv (a b : ℝ) : Option ℝ := if b = 0 then none else some (a / b)

/-- Division of an array by a scalar; `none` when the scalar is zero, in which
case numpy fills the result with `nan`/`inf`.  For example orientation/pca.py L52. -/
noncomputable def vdivOpt {n : ℕ} (v : Vec n) (b : ℝ) : Option (Vec n) :=
  if b = 0 then none else some (fun i => v i / b)

/-- Mean over the rows of an `(n, 3)` array (`numpy.mean(axis=0)`), for `n > 0`.
With `n = 0` numpy returns `nan`; callers guard for that.  Used for example at orientation/pca.py
L157. -/
noncomputable def meanRows {n : ℕ} (a : Fin n → Vec 3) : Vec 3 :=
  fun j => (∑ i, a i j) / n

/-- The contract of `numpy.linalg.svd(A, full_matrices=False)` for an `(m, 3)`
array with `m ≥ 3`: `A = U · diag(s) · V` with orthonormal columns of `U`,
orthogonal `V`, and `s` non-negative and sorted in descending order.  External; used at
orientation/pca.py L186. -/
structure IsSVD {m : ℕ} (A : Mat m 3) (U : Mat m 3) (s : Vec 3) (V : Mat 3 3) : Prop where
  recon : A = U * Matrix.diagonal s * V
  orthU : U.transpose * U = 1
  orthV : V * V.transpose = 1
  nonneg : 0 ≤ s 2
  le01 : s 1 ≤ s 0
  le12 : s 2 ≤ s 1

end Attitude
