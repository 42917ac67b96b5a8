import Verif.Model.Num
import Mathlib.Algebra.Order.Floor.Ring
import Mathlib.Algebra.Order.Archimedean.Real.Basic

/-!
# Extraction of attitudes from elevation models

Models `attitude/helpers/dem.py` and `attitude/helpers/interpolation.py`.

External functions, transcribed or taken as parameters: `numpy.trim_zeros`
(transcribed), `rasterio`'s windowed `read` (a shifted array), `geometry_mask`
and `subdivide` (parameters), `scipy.ndimage.map_coordinates` with
`mode="nearest"` for orders 0 and 1 (transcribed), `affine.Affine` (transcribed).
-/

namespace Attitude.Dem

open Attitude

/-! ## Coordinates -/

/-- `clean_coordinates`, dem.py L15-28, without the printed message: rows in which
no entry is `nan` (`none`). -/
def cleanCoordinates {k : ℕ} (coords : List (Fin k → Option ℝ)) : List (Fin k → Option ℝ) :=
  coords.filter fun c => !decide (∃ i, (c i).isNone)

/-- The numbers in the message of `clean_coordinates`, dem.py L20-27: coordinates
kept, and coordinates removed if that is printed. -/
def cleanMessage {k : ℕ} (coords : List (Fin k → Option ℝ)) : ℕ × Option ℕ :=
  let l1 := coords.length
  let l2 := (cleanCoordinates coords).length
  (l2, if l2 < l1 then some (l1 - l2) else none)

/-! ## Masks -/

/-- A boolean array; `get r c` matters for `r < rows`, `c < cols`.  The argument of
`offset_mask`, helpers/dem.py L30. -/
structure Mask where
  rows : ℕ
  cols : ℕ
  get : ℕ → ℕ → Bool

/-- `numpy.trim_zeros(x, "f")`.  External; used at helpers/dem.py L40. -/
def trimFront (x : List ℕ) : List ℕ := x.dropWhile (· == 0)

/-- `numpy.trim_zeros(x, "b")`.  External; used at helpers/dem.py L42. -/
def trimBack (x : List ℕ) : List ℕ := (x.reverse.dropWhile (· == 0)).reverse

/-- `axis_data`, dem.py L37-43, from the sums along the axis: offset and size. -/
def axisData (x : List ℕ) : ℕ × ℕ :=
  let trimmed := trimFront x
  (x.length - trimmed.length, (trimBack trimmed).length)

/-- `mask.sum(0)`: number of true cells in each column.  helpers/dem.py L39. -/
def sum0 (m : Mask) : List ℕ :=
  (List.range m.cols).map fun c => ((List.range m.rows).filter fun r => m.get r c).length

/-- `mask.sum(1)`: number of true cells in each row.  helpers/dem.py L39. -/
def sum1 (m : Mask) : List ℕ :=
  (List.range m.rows).map fun r => ((List.range m.cols).filter fun c => m.get r c).length

/-- `mask[r0:r1, c0:c1]` (slices are clipped to the array).  helpers/dem.py L48. -/
def slice (m : Mask) (r0 r1 c0 c1 : ℕ) : Mask where
  rows := min r1 m.rows - min r0 m.rows
  cols := min c1 m.cols - min c0 m.cols
  get r c := m.get (min r0 m.rows + r) (min c0 m.cols + c)

/-- `offset_mask`, dem.py L30-50: offset (row, column) and the mask cut out. -/
def offsetMask (m : Mask) : (ℕ × ℕ) × Mask :=
  let (xo, xs) := axisData (sum0 m)
  let (yo, ys) := axisData (sum1 m)
  ((yo, xo), slice m yo (yo + ys) xo (xo + xs))

/-! ## Affine transformations -/

/-- `affine.Affine`: `x' = a x + b y + c`, `y' = d x + e y + f`.  External; used at
helpers/dem.py L68-94 and L145. -/
@[ext] structure Affine where
  a : ℝ
  b : ℝ
  c : ℝ
  d : ℝ
  e : ℝ
  f : ℝ

namespace Affine

/-- `Affine.__mul__` with a pair.  External; used at helpers/dem.py L78 and L94. -/
def app (T : Affine) (p : ℝ × ℝ) : ℝ × ℝ :=
  (p.1 * T.a + p.2 * T.b + T.c, p.1 * T.d + p.2 * T.e + T.f)

/-- `Affine.__mul__` with an affine transformation.  External; used at helpers/dem.py L94 and
L145. -/
def comp (S T : Affine) : Affine where
  a := S.a * T.a + S.b * T.d
  b := S.a * T.b + S.b * T.e
  c := S.a * T.c + S.b * T.f + S.c
  d := S.d * T.a + S.e * T.d
  e := S.d * T.b + S.e * T.e
  f := S.d * T.c + S.e * T.f + S.f

/-- `Affine.translation`.  External; used at helpers/dem.py L92 and L145. -/
def translation (x y : ℝ) : Affine := ⟨1, 0, x, 0, 1, y⟩

/-- `Affine.determinant`.  External; used by `~dem.transform`, helpers/dem.py L68. -/
def det (T : Affine) : ℝ := T.a * T.e - T.b * T.d

/-- `Affine.__invert__`; a degenerate transformation raises
`TransformNotInvertibleError`.  External; used at helpers/dem.py L68. -/
noncomputable def inv (T : Affine) : Except PyErr Affine :=
  if T.det = 0 then .error .transformNotInvertibleError
  else
    let i := 1 / T.det
    let ra := T.e * i
    let rb := -T.b * i
    let rd := -T.d * i
    let re := T.a * i
    .ok ⟨ra, rb, -T.c * ra - T.f * rb, rd, re, -T.c * rd - T.f * re⟩

/-- The 3×3 array of the transformation times the column `(x, y, 1)`, first two
rows (dem.py L147-148). -/
def dot (T : Affine) (p : ℝ × ℝ) : ℝ × ℝ :=
  (T.a * p.1 + T.b * p.2 + T.c * 1, T.d * p.1 + T.e * p.2 + T.f * 1)

end Affine

/-! ## Rasters -/

/-- One cell of a masked array.  The arrays read at helpers/dem.py L98 and L124-126. -/
inductive Pixel
  | masked
  | nan
  | val (z : ℝ)

/-- Masked in a masked array.  Tested at helpers/dem.py L138. -/
def Pixel.isMasked : Pixel → Bool
  | .masked => true
  | _ => false

/-- The value of an unmasked cell, `nan` as `none`; also
`array.astype(float).filled(nan)`, interpolation.py L22. -/
def Pixel.filled : Pixel → Option ℝ
  | .masked => none
  | .nan => none
  | .val z => some z

/-- A band read from a dataset; `px r c` matters inside the array.  Read at helpers/dem.py L98
and L124-126. -/
structure Raster where
  rows : ℕ
  cols : ℕ
  px : ℤ → ℤ → Pixel

/-- `dem.read(band, window=((r0,r1),(c0,c1)), masked=True)` for a window inside the
dataset.  `rasterio` treats other windows specially; that is not modelled.  Used at
helpers/dem.py L98 and L124-126. -/
def Raster.read (d : Raster) (w : (ℤ × ℤ) × (ℤ × ℤ)) : Raster where
  rows := (w.1.2 - w.1.1).toNat
  cols := (w.2.2 - w.2.1).toNat
  px r c := d.px (w.1.1 + r) (w.2.1 + c)

/-! ## Areas -/

/-- The window of `extract_area`, dem.py L115-118: row range and column range. -/
def areaWindow (msk : Mask) : (ℕ × ℕ) × (ℕ × ℕ) :=
  let (off, m) := offsetMask msk
  ((off.1, off.1 + m.rows), (off.2, off.2 + m.cols))

/-- `z[msk == False] = N.ma.masked`, dem.py L129, on one cell. -/
def maskOut (keep : Bool) (p : Pixel) : Pixel := if keep then p else .masked

/-- `extract_area`, dem.py L105-150, for the mask of the geometry (`geometry_mask`,
true inside, with the shape of the DEM): rows `(x, y, z)`.  An empty mask gives an
empty window, for which an empty array is assumed. -/
noncomputable def extractArea (msk : Mask) (dem : Raster) (T : Affine) :
    List (ℝ × ℝ × Option ℝ) :=
  let m := (offsetMask msk).2
  let w := areaWindow msk
  let z := dem.read ((w.1.1, w.1.2), (w.2.1, w.2.2))
  -- `z.flatten()` and `meshgrid(cols, rows)` flattened, row by row
  let xyz : List (ℕ × ℕ × Pixel) :=
    (List.range (w.1.2 - w.1.1)).flatMap fun (i : ℕ) =>
      (List.range (w.2.2 - w.2.1)).map fun (j : ℕ) =>
        (w.2.1 + j, w.1.1 + i, maskOut (m.get i j) (z.px i j))
  let kept := xyz.filter fun p => !p.2.2.isMasked
  let aff := T.comp (Affine.translation 0.5 0.5)
  kept.map fun p =>
    let q := aff.dot (p.1, p.2.1)
    (q.1, q.2, p.2.2.filled)

/-! ## Interpolation -/

/-- `mode="nearest"` of `map_coordinates`: coordinates outside are moved to the
edge.  External; used at helpers/interpolation.py L30. -/
noncomputable def clamp (n : ℕ) (x : ℝ) : ℝ := max 0 (min x ((n : ℝ) - 1))

/-- The same for indices.  External; used at helpers/interpolation.py L30. -/
def clampIdx (n : ℕ) (i : ℤ) : ℤ := max 0 (min i ((n : ℤ) - 1))

/-- `map_coordinates(order=1, mode="nearest")` at one position (row, column).  All
four neighbours enter the sum, also with weight zero, so any `nan` among them makes
the result `nan`; an empty array has no value.  External; used at helpers/interpolation.py L30,
with the order of L48. -/
noncomputable def mapCoordinates1 (a : Raster) (r c : ℝ) : Option ℝ :=
  if a.rows = 0 ∨ a.cols = 0 then none
  else do
    let r := clamp a.rows r
    let c := clamp a.cols c
    let i := ⌊r⌋
    let j := ⌊c⌋
    let i' := clampIdx a.rows (i + 1)
    let j' := clampIdx a.cols (j + 1)
    let u := r - i
    let v := c - j
    let z00 ← (a.px i j).filled
    let z01 ← (a.px i j').filled
    let z10 ← (a.px i' j).filled
    let z11 ← (a.px i' j').filled
    some (z00 * (1 - u) * (1 - v) + z01 * (1 - u) * v + z10 * u * (1 - v) + z11 * u * v)

/-- `map_coordinates(order=0, mode="nearest")` at one position.  External; used at
helpers/interpolation.py L30, with the order of L47. -/
noncomputable def mapCoordinates0 (a : Raster) (r c : ℝ) : Option ℝ :=
  if a.rows = 0 ∨ a.cols = 0 then none
  else (a.px ⌊clamp a.rows r + 1 / 2⌋ ⌊clamp a.cols c + 1 / 2⌋).filled

/-- `line_handler` of `bilinear` at one point `(x, y)` in pixels, interpolation.py
L27-35: half a pixel is subtracted and the order reversed to (row, column). -/
noncomputable def bilinearAt (a : Raster) (p : ℝ × ℝ) : Option ℝ :=
  mapCoordinates1 a (p.2 - 0.5) (p.1 - 0.5)

/-- The same for `nearest` (order 0), interpolation.py L47. -/
noncomputable def nearestAt (a : Raster) (p : ℝ × ℝ) : Option ℝ :=
  mapCoordinates0 a (p.2 - 0.5) (p.1 - 0.5)

/-- Geometries accepted by `interpolate`, with two-dimensional coordinates.
helpers/interpolation.py L37-42. -/
inductive Geometry
  | point (p : ℝ × ℝ)
  | lineString (l : List (ℝ × ℝ))
  | multiLineString (ls : List (List (ℝ × ℝ)))

/-- `line_handler`, interpolation.py L27-35. -/
noncomputable def lineHandler (a : Raster) (l : List (ℝ × ℝ)) : List (ℝ × ℝ × Option ℝ) :=
  l.map fun p => (p.1, p.2, bilinearAt a p)

/-- The error that `line_handler` raises, if any, for `coords` that make an array of the shape `shape` (the
lengths of its axes); interpolation.py L27-35.  A slice is taken of the second axis, the axes are reversed, the
first of them has to be as long as the raster has dimensions (otherwise there is a `RuntimeError`, here not
distinguished from a `ValueError`), and the others are those of `z`.  Assigning to the
column 2 of an array that has none is an `IndexError`, which is handled by `hstack` of the array and a column;
`hstack` needs arrays with the same number of axes. -/
def handlerError (shape : List ℕ) : Except PyErr Unit :=
  let sliced := shape.set 1 (min 2 (shape.getD 1 0))
  match sliced.reverse with
  | 2 :: _ =>
    if 2 < shape.getD 1 0 then .ok ()
    else
      let column := [shape.getD 0 0, 1]
      if shape.length = column.length then .ok () else .error .valueError
  | _ => .error .valueError

/-- `interpolate`, interpolation.py L15-44, for `bilinear`.  For a point, `point_handler` (L24-25) wraps the
coordinate sequence, already a list of one point, in another list, which makes an array of the shape (1, 1, 2); the
first point of what the handler returns is taken. -/
noncomputable def interpolate (a : Raster) : Geometry → Except PyErr (List (List (ℝ × ℝ × Option ℝ)))
  | .point p => do
    handlerError [1, 1, 2]
    .ok [[(p.1, p.2, bilinearAt a p)]]
  | .lineString l => .ok [lineHandler a l]
  | .multiLineString ls => .ok (ls.map (lineHandler a))

/-! ## Lines -/

/-- Smallest entry (`min(axis=0)` of one column).  helpers/dem.py L86. -/
noncomputable def minimum : ℝ → List ℝ → ℝ
  | x, [] => x
  | x, y :: l => min x (minimum y l)

/-- Largest entry.  helpers/dem.py L87. -/
noncomputable def maximum : ℝ → List ℝ → ℝ
  | x, [] => x
  | x, y :: l => max x (maximum y l)

/-- The window read by `extract_line`, dem.py L85-90, for pixel coordinates
`p :: l`: row range and column range. -/
noncomputable def lineWindow (p : ℝ × ℝ) (l : List (ℝ × ℝ)) : (ℤ × ℤ) × (ℤ × ℤ) :=
  ((⌊minimum p.2 (l.map Prod.snd)⌋, ⌈maximum p.2 (l.map Prod.snd)⌉),
   (⌊minimum p.1 (l.map Prod.fst)⌋, ⌈maximum p.1 (l.map Prod.fst)⌉))

/-- `extract_line`, dem.py L59-103, for a line with coordinates `geom` (third
coordinate `none` for a two-dimensional line) and `subdivide` given as a function on
pixel coordinates (the identity for `subdivide=None`).  A third coordinate makes
`Affine.__mul__` fail (L68); no coordinates make `min` fail (L86). -/
noncomputable def extractLine (subdivide : List (ℝ × ℝ) → List (ℝ × ℝ)) (dem : Raster) (T : Affine)
    (geom : List (ℝ × ℝ × Option ℝ)) : Except PyErr (List (ℝ × ℝ × Option ℝ)) := do
  let I ← T.inv
  if geom.any (fun p => p.2.2.isSome) then .error .typeError
  else
    let px := subdivide (geom.map fun p => I.app (p.1, p.2.1))
    match px with
    | [] => .error .valueError
    | p :: l =>
        let w := lineWindow p l
        let band := dem.read w
        let shift := Affine.translation (-(w.2.1 : ℝ)) (-(w.1.1 : ℝ))
        .ok ((p :: l).map fun q =>
          ((T.app q).1, (T.app q).2, bilinearAt band (shift.app q)))

/-- One returned row as an array of floats.  The rows of `extract_line` and `extract_area`,
helpers/dem.py L103 and L150, as `clean_coordinates` (L15-28) gets them. -/
def toRow (p : ℝ × ℝ × Option ℝ) : Fin 3 → Option ℝ := ![some p.1, some p.2.1, p.2.2]

/-- `extract_shape`, dem.py L152-159; `area` is `geom.area`, `msk` its mask and
`geom` its coordinates. -/
noncomputable def extractShape (subdivide : List (ℝ × ℝ) → List (ℝ × ℝ)) (area : ℝ) (msk : Mask)
    (geom : List (ℝ × ℝ × Option ℝ)) (dem : Raster) (T : Affine) :
    Except PyErr (List (Fin 3 → Option ℝ)) := do
  let coords ← if area = 0 then extractLine subdivide dem T geom else .ok (extractArea msk dem T)
  .ok (cleanCoordinates (coords.map toRow))

end Attitude.Dem
