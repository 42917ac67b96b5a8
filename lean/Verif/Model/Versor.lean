import Verif.Model.FrontendShapes

/-!
# Model of the rotations of reconstruct.ts

`frontend/packages/attitude/src/reconstruct.ts` takes `versor_fromAxisAngle`,
`versor_multiply` and `versor_toRotationMatrix` from the modules `attitude/src/versor` and
`attitude/src/matrix`, which are not part of the repository.  They are modelled by what their
names say: unit quaternions, the Hamilton product and the matrix of the rotation.  Whether that
matrix has the images of the axes as columns or as rows cannot be read from the repository and
is a parameter.
-/

namespace Attitude.Frontend

open Attitude

/-- A quaternion `a + b i + c j + d k`.  External; used at reconstruct.ts L18-22. -/
structure Versor where
  a : ℝ
  b : ℝ
  c : ℝ
  d : ℝ

/-- `versor_fromAxisAngle([lon, lat], angle)` (external, see above): the rotation by `angle`
about the axis through the position, in degrees.  Used at reconstruct.ts L18-22. -/
noncomputable def Versor.fromAxisAngle (lon lat angle : ℝ) : Versor :=
  let h := radians angle / 2
  ⟨Real.cos h, Real.sin h * (Real.cos (radians lat) * Real.cos (radians lon)),
    Real.sin h * (Real.cos (radians lat) * Real.sin (radians lon)), Real.sin h * Real.sin (radians lat)⟩

/-- `versor_multiply` (external, see above).  Used at reconstruct.ts L18-22. -/
def Versor.mul (p q : Versor) : Versor :=
  ⟨p.a * q.a - p.b * q.b - p.c * q.c - p.d * q.d, p.a * q.b + p.b * q.a + p.c * q.d - p.d * q.c,
    p.a * q.c - p.b * q.d + p.c * q.a + p.d * q.b, p.a * q.d + p.b * q.c - p.c * q.b + p.d * q.a⟩

/-- `versor_toRotationMatrix` (external, see above), with the images of the axes as columns.
Used at reconstruct.ts L33. -/
def Versor.toMatrix (q : Versor) : Mat 3 3 :=
  !![q.a ^ 2 + q.b ^ 2 - q.c ^ 2 - q.d ^ 2, 2 * (q.b * q.c - q.a * q.d), 2 * (q.b * q.d + q.a * q.c);
    2 * (q.b * q.c + q.a * q.d), q.a ^ 2 - q.b ^ 2 + q.c ^ 2 - q.d ^ 2, 2 * (q.c * q.d - q.a * q.b);
    2 * (q.b * q.d - q.a * q.c), 2 * (q.c * q.d + q.a * q.b), q.a ^ 2 - q.b ^ 2 - q.c ^ 2 + q.d ^ 2]

/-- `v4`, reconstruct.ts L18-22. -/
noncomputable def orientationVersor (p : Orientation) : Versor :=
  let v := Versor.fromAxisAngle 0 90 (90 - p.strike)
  let v1 := Versor.fromAxisAngle 0 0 p.dip
  let v3 := Versor.fromAxisAngle 0 90 (90 - p.rake)
  (v.mul v1).mul v3

/-- `axes`, reconstruct.ts L33, with the images of the axes as rows or as columns. -/
noncomputable def orientationAxes (rows : Bool) (p : Orientation) : Mat 3 3 :=
  if rows then (orientationVersor p).toMatrix.transpose else (orientationVersor p).toMatrix

end Attitude.Frontend
