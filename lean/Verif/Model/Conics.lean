import Verif.Model.Num
import Mathlib.LinearAlgebra.Matrix.Determinant.Basic
import Mathlib.Data.Matrix.Mul

/-!
# Model of `attitude/geom/conics.py`, `attitude/geom/util.py` and of
`fit_angle` in `attitude/geom/__init__.py`

A conic in `d` dimensions is a `(d+1, d+1)` array acting on homogeneous
coordinates.
-/

namespace Attitude.Conics

open Attitude Matrix

/-- `Conic`, conics.py L28. -/
abbrev Con (d : ℕ) := Mat (d + 1) (d + 1)

/-- `augment`, util.py L34-40. -/
def augment {d : ℕ} (p : Vec d) : Vec (d + 1) := Fin.snoc p 1

/-- `numpy.linalg.inv`: singular arrays raise `LinAlgError`.  External; used at geom/conics.py
L53, L144-145 and L201. -/
noncomputable def inv {k : ℕ} (A : Mat k k) : Except PyErr (Mat k k) :=
  if A.det = 0 then .error .linAlgError else .ok A⁻¹

/-- The block `conic[:-1, :-1]`.  geom/conics.py L53. -/
def quad {d : ℕ} (C : Con d) : Mat d d := C.submatrix Fin.castSucc Fin.castSucc

/-- The column `conic[:-1, -1]`.  geom/conics.py L54. -/
def lin {d : ℕ} (C : Con d) : Vec d := fun i => C i.castSucc (Fin.last d)

/-- `Conic.from_axes`, conics.py L29-38. -/
def fromAxes {d : ℕ} (ax : Vec d) : Con d := Matrix.diagonal (Fin.snoc ax (-1))

/-- `Conic.from_semiaxes`, conics.py L40-49; `none` when a semiaxis is zero
(numpy then stores `inf`). -/
noncomputable def fromSemiaxes {d : ℕ} (ax : Vec d) : Option (Con d) :=
  open Classical in
  if ∃ i, ax i = 0 then none else some (fromAxes fun i => 1 / ax i ^ 2)

/-- `Conic.center`, conics.py L51-55. -/
noncomputable def center {d : ℕ} (C : Con d) : Except PyErr (Vec d) := do
  let ec ← inv (quad C)
  .ok (ec *ᵥ (-lin C))

/-- `Conic.solve` for one vector, conics.py L105-111. -/
def solve {d : ℕ} (C : Con d) (v : Vec (d + 1)) : ℝ := v ⬝ᵥ C *ᵥ v

/-- `Conic.contains`, conics.py L57-67; `numpy.allclose(x, 0)` is `|x| ≤ 1e-8`. -/
noncomputable def contains {d : ℕ} (C : Con d) (p : Vec d) (shellOnly : Bool := false) : Bool :=
  if shellOnly then decide (|solve C (augment p)| ≤ 1e-8) else decide (solve C (augment p) ≤ 0)

/-- `Conic.semiaxes`, conics.py L69-78; `none` when a diagonal entry is zero
(numpy then stores `inf`). -/
noncomputable def semiaxes {d : ℕ} (C : Con d) : Option (Vec d) :=
  open Classical in
  if ∃ i, quad C i i = 0 then none else some fun i => |quad C i i|⁻¹

/-- The contract of `numpy.linalg.svd` for a square array.  External; used at geom/conics.py L85. -/
structure IsSqSVD {k : ℕ} (A U : Mat k k) (s : Vec k) (V : Mat k k) : Prop where
  recon : A = U * Matrix.diagonal s * V
  orthU : U.transpose * U = 1
  orthV : V * V.transpose = 1
  nonneg : ∀ i, 0 ≤ s i
  anti : Antitone s

/-- A backend for the SVD of square arrays.  External; used at geom/conics.py L85. -/
def SqSvd := ∀ k : ℕ, Mat k k → Mat k k × Vec k × Mat k k

/-- The backend meets its contract.  External; used at geom/conics.py L85. -/
def SqSvd.Valid (svd : SqSvd) : Prop :=
  ∀ k A, IsSqSVD A (svd k A).1 (svd k A).2.1 (svd k A).2.2

/-- `Conic.major_axes`, conics.py L80-87; `none` when the square root of a
negative number is taken (`nan`).  `ell.sum() - _.sum()` is written out as the
sum of the last row and column; `sqrt(s*scalar)*V` multiplies the columns of `V`. -/
noncomputable def majorAxes (svd : SqSvd) {d : ℕ} (C : Con d) : Option (Mat d d) :=
  open Classical in
  let r := svd d (quad C)
  let scalar := -((∑ i, ∑ j, C i j) - ∑ i, ∑ j, quad C i j)
  if ∃ i, r.2.1 i * scalar < 0 then none
  else some (Matrix.of fun i j => Real.sqrt (r.2.1 j * scalar) * r.2.2 i j)

/-- `Conic.__type`, conics.py L89-90. -/
def type {d : ℕ} (C : Con d) : ℝ := (quad C).det

/-- `Conic.is_elliptical`, conics.py L92-97. -/
noncomputable def isElliptical {d : ℕ} (C : Con d) : Bool := decide (0 < type C)

/-- `Conic.is_hyperbolic`, conics.py L99-100. -/
noncomputable def isHyperbolic {d : ℕ} (C : Con d) : Bool := decide (type C < 0)

/-- `Conic.is_parabolic`, conics.py L102-103. -/
noncomputable def isParabolic {d : ℕ} (C : Con d) : Bool := decide (type C = 0)

/-- `Conic.transform`, conics.py L113-118: `dot(T.T, conic, T)`. -/
def transform {m k : ℕ} (C : Mat m m) (T : Mat m k) : Mat k k := T.transpose * C * T

/-- A matrix with block `L`, last column `t` and last row `(0, ..., 0, 1)`: the
shape of the matrices built in `translate` and `slice`.  geom/conics.py L125-126 and L164-166. -/
def affine {d k : ℕ} (L : Mat d k) (t : Vec d) : Mat (d + 1) (k + 1) :=
  Matrix.of (Fin.snoc (α := fun _ => Vec (k + 1)) (fun i => Fin.snoc (α := fun _ => ℝ) (L i) (t i))
    (Fin.snoc (α := fun _ => ℝ) 0 1))

/-- `Conic.translate`, conics.py L120-127. -/
def translate {d : ℕ} (C : Con d) (v : Vec d) : Con d := transform C (affine 1 (-v))

/-- `Conic.polar_plane`, conics.py L129-137. -/
def polarPlane {d : ℕ} (C : Con d) (v : Vec d) : Vec (d + 1) := C *ᵥ augment v

/-- `Conic.pole`, conics.py L139-145; `none` on division by zero. -/
noncomputable def pole {d : ℕ} (C : Con d) (plane : Vec (d + 1)) :
    Except PyErr (Option (Vec d)) := do
  let ci ← inv C
  let v := ci *ᵥ plane
  .ok (vdivOpt (fun i => v i.castSucc) (v (Fin.last d)))

/-- `Conic.dual`, conics.py L194-201. -/
noncomputable def dual {d : ℕ} (C : Con d) : Except PyErr (Con d) := inv C

/-- `Plane.hessian_normal`, util.py L67-73; `none` for a zero normal (`nan`). -/
noncomputable def hessianNormal {d : ℕ} (plane : Vec (d + 1)) : Option (Vec (d + 1)) :=
  vdivOpt plane (norm fun i : Fin d => plane i.castSucc)

/-- `Plane.normal`, util.py L83-85. -/
noncomputable def planeNormal {d : ℕ} (plane : Vec (d + 1)) : Option (Vec d) :=
  (hessianNormal plane).map fun v i => v i.castSucc

/-- `Plane.offset`, util.py L75-81. -/
noncomputable def planeOffset {d : ℕ} (plane : Vec (d + 1)) : Option (Vec d) :=
  (hessianNormal plane).map fun v i => -(v i.castSucc * v (Fin.last d))

/-- `plane`, util.py L87-89. -/
def plane {d : ℕ} (normal : Vec d) (offset : ℝ := 0) : Vec (d + 1) := Fin.snoc normal offset

/-- The loop of `perpendicular_vector` in three dimensions, util.py L100-110. -/
noncomputable def perpendicular3 (n : Vec 3) : Except PyErr (Vec 3) :=
  if norm (cross n ![0, 0, 1]) ≠ 0 then .ok (cross n ![0, 0, 1])
  else if norm (cross n ![0, 1, 0]) ≠ 0 then .ok (cross n ![0, 1, 0])
  else if norm (cross n ![1, 0, 0]) ≠ 0 then .ok (cross n ![1, 0, 0])
  else .error .valueError

/-- `perpendicular_vector`, util.py L91-110.  In other dimensions than 2 and 3
`numpy.cross` (or the last line) raises `ValueError`. -/
noncomputable def perpendicularVector : (k : ℕ) → Vec k → Except PyErr (Vec k)
  | 2, n => .ok ![n 1, n 0]
  | 3, n => perpendicular3 n
  | _, _ => .error .valueError

/-- `angle`, util.py L55-64 (in radians); `none` for a zero vector (`nan`). -/
noncomputable def angle {k : ℕ} (v w : Vec k) : Option ℝ := do
  let q ← fdiv (vdot v w) (norm v * norm w)
  some (Real.arccos q)

/-- `angle(v1, v2, cos=True)`, util.py L55-64. -/
noncomputable def angleCos {k : ℕ} (v w : Vec k) : Option ℝ :=
  fdiv (vdot v w) (norm v * norm w)

/-- `fit_angle`, geom/__init__.py L17-21 (the `degrees` argument is ignored by
the code), as a function of the two normals. -/
noncomputable def fitAngle (n₁ n₂ : Vec 3) (_degrees : Bool := true) : Option ℝ :=
  (angle n₁ n₂).map degrees

/-- `Conic.slice` of a quadric in three dimensions, conics.py L147-179: the
conic, the transform and the offset.  `none` for a zero normal, where numpy
fills everything with `nan`. -/
noncomputable def slice3 (C : Con 3) (plane : Vec 4) (axes : Option (Vec 3 × Vec 3) := none) :
    Except PyErr (Option (Con 2 × Mat 3 4 × Vec 3)) :=
  match planeNormal plane, planeOffset plane with
  | some n, some pt => do
    let ax ← match axes with
      | some ax => .ok ax
      | none => do
        let v1 ← perpendicularVector 3 n
        .ok (v1, cross v1 n)
    let m := affine (Matrix.of fun i j => ![ax.1, ax.2] j i : Mat 3 2) pt
    .ok (some (transform C m, m.transpose, pt))
  | _, _ => .ok none

/-- `Conic.slice` of a conic in two dimensions, conics.py L147-179. -/
noncomputable def slice2 (C : Con 2) (plane : Vec 3) (axes : Option (Vec 2) := none) :
    Except PyErr (Option (Con 1 × Mat 2 3 × Vec 2)) :=
  match planeNormal plane, planeOffset plane with
  | some n, some pt => do
    let ax ← match axes with
      | some ax => .ok ax
      | none => perpendicularVector 2 n
    let m := affine (Matrix.of fun i _ => ax i : Mat 2 1) pt
    .ok (some (transform C m, m.transpose, pt))
  | _, _ => .ok none

/-- `Conic.projection` in three dimensions, conics.py L181-192. -/
noncomputable def projection3 (C : Con 3) (viewpoint : Vec 3 := 0) :
    Except PyErr (Option (Con 2 × Mat 3 4 × Vec 3)) :=
  slice3 C (polarPlane C viewpoint)

/-- `angle_subtended` in three dimensions, conics.py L8-26, sorted with the
larger first; `none` when a value is `nan` (or infinite, for the tangent). -/
noncomputable def angleSubtended3 (svd : SqSvd) (C : Con 3) (viewpoint : Vec 3 := 0)
    (tangent : Bool := false) : Except PyErr (Option (ℝ × ℝ)) := do
  match ← projection3 C viewpoint with
  | none => .ok none
  | some (con, _, offset) =>
    match majorAxes svd con with
    | none => .ok none
    | some M =>
      let a := norm (M 0)
      let b := norm (M 1)
      let B := norm offset
      if tangent then
        if B = 0 then .ok none else .ok (some (max a b / B, min a b / B))
      else .ok (some (arctan2 (max a b) B, arctan2 (min a b) B))

end Attitude.Conics
