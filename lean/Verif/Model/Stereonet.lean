import Verif.Model.Reconstructed

/-!
# Model of `attitude/stereonet.py` and of the curves drawn by
`attitude/display/stereonet.py`

A position is a pair `(lon, lat)` in radians, `none` when it is `nan` (the zero
vector has no direction).  A curve is the list of positions that the Python
functions return.
-/

namespace Attitude.Stereonet

open Attitude Rotations

/-- The keyword arguments of the functions of this file.  `other` are names of
further keywords, which `ellipse(**kwargs)` does not know.  stereonet.py L46-49 and L89-95. -/
structure Options where
  level : ℝ := 1
  traditional : Bool := true
  n : Option ℕ := none
  adaptive : Bool := false
  other : List String := []

/-- A curve of positions.  stereonet.py L14-24 and L67-69. -/
abbrev Curve := List (Option (ℝ × ℝ))

/-- `N.linspace(0, 2*N.pi, n)[k]`.  External; used at stereonet.py L21. -/
noncomputable def linspace (n k : ℕ) : ℝ :=
  if n = 1 then 0 else 2 * Real.pi * k / (n - 1)

/-- The angles `N.linspace(0, 2*N.pi, n)`.  stereonet.py L21. -/
noncomputable def angles (n : ℕ) : List ℝ := (List.range n).map (linspace n)

/-- `ellipse`, stereonet.py L14-24, as its list of angles (the array is
`[cos u, sin u]`).  `adaptive` is accepted and ignored; unknown keywords are a
`TypeError`. -/
noncomputable def ellipse (o : Options) : Except PyErr (List ℝ) :=
  if o.other ≠ [] then .error .typeError else .ok (angles (o.n.getD 1000))

/-- `dot(e, axes)`.  stereonet.py L64 and L111. -/
def toWorld (e : Vec 3) (axes : Mat 3 3) : Vec 3 := fun j => ∑ i, e i * axes i j

/-- The end of `plane_errors`, stereonet.py L113-116. -/
noncomputable def planeLonLat (traditional : Bool) (v : Vec 3) : Option (ℝ × ℝ) :=
  if traditional then cart2sph (v 2) (v 0) (v 1) else cart2sph (-v 1) (v 0) (v 2)

/-- The end of `normal_errors`, stereonet.py L66-69. -/
noncomputable def normalLonLat (traditional : Bool) (v : Vec 3) : Option (ℝ × ℝ) :=
  if traditional then cart2sph (v 2) (v 0) (-v 1) else cart2sph (-v 1) (v 0) (v 2)

/-- `axes *= -1` if `axes[2,2] < 0`, stereonet.py L51-52, L131-132 (in place: this
is also the new value of the caller's array). -/
noncomputable def flipped (axes : Mat 3 3) : Mat 3 3 := if axes 2 2 < 0 then -axes else axes

/-- `normal_errors`, stereonet.py L42-70: the curve, and the caller's axes
afterwards.  `level` is not used. -/
noncomputable def normalErrors (axes cov : Mat 3 3) (o : Options := {}) :
    Except PyErr (Curve × Mat 3 3) := do
  let ell ← ellipse o
  let axes := flipped axes
  let c1 : ℝ := 2
  let step := fun a =>
    let f := norm ![Real.cos a * cov 0 0, Real.sin a * cov 1 1]
    let e := ![-Real.cos a * cov 2 2 * c1, -Real.sin a * cov 2 2 * c1, f]
    normalLonLat o.traditional (toWorld e axes)
  .ok (ell.map step, axes)

/-- `plane_errors`, stereonet.py L78-118. -/
noncomputable def planeErrors (axes cov : Mat 3 3) (sheet : String := "upper")
    (o : Options := {}) : Except PyErr Curve := do
  let ell ← ellipse o
  let res : Vec 3 := fun j => cov 2 j * o.level * 2
  let res := if axes 2 2 > 0 then -res else res
  let step := fun a =>
    let bundle : Vec 3 := fun j => Real.cos a * cov 0 j + Real.sin a * cov 1 j
    let bundle := if sheet = "upper" then bundle + res
      else if sheet = "lower" then bundle - res
      else bundle
    planeLonLat o.traditional (toWorld bundle axes)
  .ok (ell.map step)

/-- `iterative_normal_errors`, stereonet.py L120-161.  Unknown keywords and
`level` are ignored. -/
noncomputable def iterativeNormalErrors (axes cov : Mat 3 3) (o : Options := {}) :
    Curve × Mat 3 3 :=
  let axes := flipped axes
  let c1 : ℝ := 2
  let step := fun a =>
    let e := ![-c1 * cov 2 2 * Real.cos a, -c1 * cov 2 2 * Real.sin a,
      norm ![Real.cos a * cov 0 0, Real.sin a * cov 1 1]]
    let r : Vec 3 := fun j => ∑ i, e i * axes i j
    if o.traditional then cart2sph (r 2) (r 0) (-r 1) else cart2sph (-r 1) (r 0) (r 2)
  ((angles (o.n.getD 100)).map step, axes)

/-- The dictionary `scales`, stereonet.py L175. -/
def scales (sheet : String) : Except PyErr ℝ :=
  if sheet = "upper" then .ok 1
  else if sheet = "lower" then .ok (-1)
  else if sheet = "nominal" then .ok 0
  else .error .keyError

/-- `iterative_plane_errors`, stereonet.py L163-200.  Unknown keywords, `level`
and `traditional_layout` are ignored. -/
noncomputable def iterativePlaneErrors (axes cov : Mat 3 3) (sheet : String := "upper")
    (o : Options := {}) : Except PyErr Curve := do
  let s ← scales sheet
  let c1 := s * 2
  let c1 := c1 * -1
  let c1 := if axes 2 2 < 0 then c1 * -1 else c1
  let step := fun a =>
    let e := ![Real.cos a * cov 0 0, Real.sin a * cov 1 1, c1 * cov 2 2]
    let d : Vec 3 := fun j => ∑ i, e i * axes i j
    cart2sph (d 2) (d 0) (d 1)
  .ok ((angles (o.n.getD 100)).map step)

/-- `error_ellipse`, stereonet.py L202-227.  The array `normal + bundle` has shape
`(n, 3)` and is not transposed, so `_[2], _[0], _[1]` are three of its rows and
the result has one entry per coordinate.  Columns with a negative covariance are
`nan`. -/
noncomputable def errorEllipse (_axes cov : Mat 3 3) (o : Options := {}) : Except PyErr Curve := do
  let ell ← ellipse o
  let bundle : ℝ → Vec 3 := fun a j =>
    Real.cos a * Real.sqrt (cov 0 j) + Real.sin a * Real.sqrt (cov 1 j)
  let normal : Vec 3 := ![0, 0, 1]
  match ell with
  | a0 :: a1 :: a2 :: _ =>
    .ok ((List.finRange 3).map fun j =>
      if cov 0 j < 0 ∨ cov 1 j < 0 then none
      else
        let r0 := (normal + bundle a0) j
        let r1 := (normal + bundle a1) j
        let r2 := (normal + bundle a2) j
        if o.traditional then cart2sph r2 r0 r1 else cart2sph (-r1) r0 r2)
  | _ => .error .indexError

/-- `N.degrees(lonlat).tolist()`.  stereonet.py L243 and L253. -/
noncomputable def curveDegrees (c : Curve) : Curve :=
  c.map fun q => q.map fun p => (degrees p.1, degrees p.2)

/-- The entries that `error_coords` stores for one level, stereonet.py L245-254. -/
structure LevelData where
  upper : Curve
  lower : Curve
  ellipse : Option Curve

/-- The dictionary returned by `error_coords`: the curve under `nominal`, and
either the entries of one level at top level or a dictionary per level.  stereonet.py from L229. -/
structure ErrorCoords where
  nominal : Curve
  top : Option LevelData
  byLevel : ℝ → Option LevelData

/-- The local function `__` of `error_coords`, stereonet.py L245-254. -/
noncomputable def levelData (axes cov : Mat 3 3) (doEllipse : Bool) (o : Options) (level : ℝ) :
    Except PyErr LevelData := do
  let upper ← planeErrors axes cov "upper" { o with level }
  let lower ← planeErrors axes cov "lower" { o with level }
  if doEllipse then
    let ell ← errorEllipse axes cov { o with level }
    .ok { upper := curveDegrees upper, lower := curveDegrees lower,
          ellipse := some (curveDegrees ell) }
  else .ok { upper := curveDegrees upper, lower := curveDegrees lower, ellipse := none }

/-- The dictionary comprehension over `levels`, stereonet.py L260. -/
noncomputable def levelsData (axes cov : Mat 3 3) (doEllipse : Bool) (o : Options) :
    List ℝ → (ℝ → Option LevelData) → Except PyErr (ℝ → Option LevelData)
  | [], acc => .ok acc
  | l :: ls, acc => do
    let d ← levelData axes cov doEllipse o l
    levelsData axes cov doEllipse o ls (open Classical in Function.update acc l (some d))

/-- `error_coords`, stereonet.py L229-262.  `levelGiven` says that the caller
passed `level`, which then reaches `plane_errors` twice: a `TypeError`. -/
noncomputable def errorCoords (axes cov : Mat 3 3) (levels : Option (List ℝ) := none)
    (doEllipse : Bool := true) (levelGiven : Bool := false) (o : Options := {}) :
    Except PyErr ErrorCoords := do
  if levelGiven then .error .typeError
  else
    let nominal ← planeErrors axes cov "nominal" { o with level := 1 }
    match levels with
    | none => do
      let d ← levelData axes cov doEllipse o 1
      .ok { nominal := curveDegrees nominal, top := some d, byLevel := fun _ => none }
    | some ls => do
      let m ← levelsData axes cov doEllipse o ls (fun _ => none)
      .ok { nominal := curveDegrees nominal, top := none, byLevel := m }

/-- The vertices drawn by `girdle_error`, display/stereonet.py L21-39. -/
noncomputable def girdleVertices (axes cov : Mat 3 3) : Except PyErr Curve := do
  let up ← planeErrors axes cov "upper"
  let low ← planeErrors axes cov "lower"
  let neg := fun q : Option (ℝ × ℝ) => q.map fun p => (-p.1, -p.2)
  .ok (up.map neg ++ (low.map neg).reverse)

/-- The vertices drawn by `pole_error`, display/stereonet.py L41-53, and the
caller's axes afterwards. -/
noncomputable def poleVertices (axes cov : Mat 3 3) : Except PyErr (Curve × Mat 3 3) := do
  let (c, axes') ← normalErrors axes cov
  .ok (c.map fun q => q.map fun p => (-p.1, p.2), axes')

/-- The vertices drawn by `uncertain_plane` with two angular errors,
display/stereonet.py L63-65; `none` when an error is a multiple of 360 degrees
and its axis is infinite. -/
noncomputable def uncertainPlane (strike dip rake e₁ e₂ : ℝ) : Option (Except PyErr Curve) := do
  let fit ← Reconstructed.reconstruct strike dip rake [e₁, e₂]
  match ← fit.hyperbolicAxes with
  | [a, b, c] => some (girdleVertices fit.axes (Matrix.diagonal ![a, b, c]))
  | _ => none

end Attitude.Stereonet
