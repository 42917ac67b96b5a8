import Verif.Model.Linear
import Verif.Model.Rotations
import Mathlib.Data.List.Sort
import Mathlib.Algebra.Order.Floor.Semiring
import Mathlib.Analysis.SpecialFunctions.Gamma.Basic
import Mathlib.Analysis.SpecialFunctions.Log.Basic

/-!
# Model of the statistical helpers

`attitude/display/plot/cov_types/misc.py`, the bootstrap functions of
`attitude/display/plot/cov_types/regressions.py`, `attitude/bingham.py`,
`attitude/__dustbin/statistical_distances.py` and the synthetic planes of
`attitude/test/__init__.py`.
-/

namespace Attitude.Statistics

open Attitude

/-! ## Percentiles -/

/-- The value at the fractional index `t` of a sorted list: linear interpolation between
neighbours, as in scipy's `_compute_qth_percentile` (external; transcribed).  The default
of `getD` is not used for `0 ≤ t ≤ length - 1`.  Used through `scoreatpercentile`,
display/plot/cov_types/misc.py L30-32. -/
noncomputable def interpolate (s : List ℝ) (t : ℝ) : ℝ :=
  let i := ⌊t⌋₊
  if (i : ℝ) = t then s.getD i 0
  else (i + 1 - t) * s.getD i 0 + (t - i) * s.getD (i + 1) 0

/-- `scipy.stats.scoreatpercentile(a, per)` (external; transcribed): `nan` (`none`) for no
data, `ValueError` for a percentile out of range.  Used at display/plot/cov_types/misc.py L30-32. -/
noncomputable def scoreAtPercentile (a : List ℝ) (per : ℝ) : Except PyErr (Option ℝ) :=
  if a = [] then .ok none
  else if per < 0 ∨ 100 < per then .error .valueError
  else .ok (some (interpolate (a.insertionSort (· ≤ ·)) (per / 100 * (a.length - 1))))

/-- `percentiles` for a list of percentiles and `axis=None`, cov_types/misc.py L6-38. -/
noncomputable def percentiles (a : List ℝ) (pcts : List ℝ) : Except PyErr (List (Option ℝ)) :=
  pcts.mapM (scoreAtPercentile a)

/-- `ci` with `axis=None`, cov_types/misc.py L41-44. -/
noncomputable def ci (a : List ℝ) (which : ℝ := 95) : Except PyErr (List (Option ℝ)) :=
  percentiles a [50 - which / 2, 50 + which / 2]

/-- `ci` with `axis=0`, cov_types/misc.py L35 and L41-44, for an array with rows `a`, at
column `j` (`apply_along_axis`). -/
noncomputable def ciColumn {k : ℕ} (a : List (Vec k)) (which : ℝ) (j : Fin k) :
    Except PyErr (List (Option ℝ)) := ci (a.map fun r => r j) which

/-- `augment` of a one-dimensional array, cov_types/misc.py L46-53. -/
def augmentColumn {n : ℕ} (x : Vec n) : Mat n 2 := Matrix.of fun i => ![x i, 1]

/-- `augment` of a two-dimensional array, cov_types/misc.py L46-53: `A[:,0] = x` assigns
an array of shape `(n, k)` to one of shape `(n,)`, which numpy allows only if `n = k = 1`
(a leading dimension of one is dropped). -/
def augmentTable {n k : ℕ} (x : Mat n k) : Except PyErr (Mat n (k + 1)) :=
  if h : n = 1 ∧ k = 1 then
    .ok (Matrix.of fun i j => if j = 0 then x i ⟨0, by omega⟩ else 1)
  else .error .valueError

/-! ## Bootstrap -/

/-- `bootstrap_resampled`, cov_types/regressions.py L31-41.  `draw i k` is the `k`-th
random index of the `i`-th repetition; it is below the number of rows.  Without data
`randint(0, 0, 0)` is a `ValueError`. -/
def bootstrapResampled {α β : Type} {l : ℕ} (data : Fin l → α) (func : (Fin l → α) → β)
    (draw : ℕ → Fin l → Fin l) (n : ℕ := 10000) : Except PyErr (List β) :=
  if l = 0 ∧ n ≠ 0 then .error .valueError
  else .ok ((List.range n).map fun i => func fun k => data (draw i k))

/-- `bootstrap_noise`, cov_types/regressions.py L43-57, for an array of shape `(m, 3)`.
`noise i` are the standard normal numbers of the `i`-th repetition. -/
def bootstrapNoise {β : Type} {m : ℕ} (data : Fin m → Vec 3) (func : (Fin m → Vec 3) → β)
    (noise : ℕ → Fin m → Vec 3) (n : ℕ := 10000) (std : ℝ := 1) (symmetric : Bool := true) :
    List β :=
  (List.range n).map fun i => func fun r =>
    if symmetric then data r + std • noise i r
    else data r + ![0, 0, noise i r 2 * std]

/-! ## Bingham distribution -/

/-- `confluent_hypergeometric_function`, bingham.py L13-19. -/
noncomputable def hypergeometric (k1 k2 : ℝ) (n : ℕ := 10) : ℝ :=
  ∑ i ∈ Finset.range n, ∑ j ∈ Finset.range n,
    Real.Gamma (i + 0.5) * Real.Gamma (j + 0.5) * k1 ^ i * k2 ^ j
      / (Real.Gamma (i + j + 3 / 2) * i.factorial * j.factorial)

/-- The exponent `dot(xhat.T, M, N.diag(Z), M.T, xhat)` of bingham.py L59-62. -/
def binghamExponent (Z : Vec 3) (M : Mat 3 3) (x : Vec 3) : ℝ :=
  ∑ j, Z j * (∑ i, x i * M i j) ^ 2

/-- `bingham_pdf(fit)((lon, lat))`, bingham.py L21-64, as a function of
`fit.hyperbolic_axes` and `fit.axes`.  The first value of `F` (with the series above) is
overwritten and left out.  `hyp1f1` is scipy's function.  `none` when a value is not
finite. -/
noncomputable def binghamPdf (hyp1f1 : ℝ → ℝ → ℝ → ℝ) (h : Vec 3) (axes : Mat 3 3)
    (lon lat : ℝ) : Option ℝ :=
  if h 0 = 0 ∨ h 1 = 0 ∨ h 2 = 0 then none
  else
    let e : Vec 3 := fun i => h 2 ^ 2 / h i
    let Z : Vec 3 := fun i => 1 / e i
    let w := hyp1f1 (1 / Z 0) (1 / Z 1) (1 / Z 2)
    if w = 0 then none
    else
      let F := 1 / w
      let x := Rotations.sph2cart lon lat
      some (1 / (F * Real.exp (binghamExponent Z axes ![x.1, x.2.1, x.2.2])))

/-- `N.mgrid[a:b:n*1j]` in one direction: `n` values from `a` to `b` (external).  Used at
bingham.py L75. -/
noncomputable def mgrid (a b : ℝ) (n k : ℕ) : ℝ := if n = 1 then a else a + k * ((b - a) / (n - 1))

/-- `regular_grid`, bingham.py L66-76: the shape of the arrays, and longitude and latitude
at an index. -/
noncomputable def regularGrid (n : ℕ := 100) (gridsize : Option (ℕ × ℕ) := none) :
    (ℕ × ℕ) × (ℕ → ℕ → ℝ × ℝ) :=
  let g := gridsize.getD (n, n)
  ((g.2, g.1), fun i j => (mgrid (-(Real.pi / 2)) (Real.pi / 2) g.2 i,
    mgrid (-(Real.pi / 2)) (Real.pi / 2) g.1 j))

/-! ## Statistical distance -/

/-- `bhattacharyya_distance`, __dustbin/statistical_distances.py L13-31, as a function of
coefficients and covariance matrices.  `none` is a value that is not finite. -/
noncomputable def bhattacharyya (u1 u2 : Vec 3) (s1 s2 : Mat 3 3) : Except PyErr (Option ℝ) := by
  classical
  exact
  let sigma : Mat 3 3 := (1 / 2 : ℝ) • (s1 + s2)
  if ¬ ((∀ i, 0 < u1 i) ∧ (∀ i, 0 < u2 i) ∧ (∀ i, 0 < ∑ j, s1 i j) ∧ (∀ i, 0 < ∑ j, s2 i j)) then
    .error .assertionError
  else if sigma.det = 0 then .error .linAlgError
  else
    let q := 1 / 8 * ((u1 - u2) ⬝ᵥ sigma⁻¹.mulVec (u1 - u2))
    if s1.det * s2.det = 0 ∨ sigma.det / (s1.det * s2.det) ≤ 0 then .ok none
    else .ok (some (q + 1 / 2 * Real.log (sigma.det / (s1.det * s2.det))))

/-! ## Synthetic planes -/

/-- `make_plane`, test/__init__.py L14-25, for arrays of the lengths `n` and `m`. -/
def makePlane {n m : ℕ} (x : Vec n) (y : Vec m) (c : Vec 3) : Except PyErr (Vec n) :=
  if h : n = m then .ok fun i => c 0 * x i + c 1 * y (Fin.cast h i) + c 2
  else .error .valueError

/-- `randomize`, test/__init__.py L27-28: `noise` are the standard normal numbers. -/
def randomize {n : ℕ} (plane : Fin 3 → Vec n) (noise : Fin 3 → Vec n) (scatter : ℝ := 0.05) :
    Fin 3 → Vec n := fun j i => plane j i * (1 + noise j i * scatter)

/-- `random_plane`, test/__init__.py L30-34: coordinates and coefficients, from numbers
`x`, `y` that are uniform in `[-limit, limit]` and three standard normal numbers. -/
noncomputable def randomPlane {n : ℕ} (x y : Vec n) (g : Vec 3) (limit : ℝ := 100) :
    Except PyErr ((Fin 3 → Vec n) × Vec 3) := do
  let c : Vec 3 := ![g 0 * 1, g 1 * 1, g 2 * (limit / 2)]
  let z ← makePlane x y c
  .ok (![x, y, z], c)

/-- `scattered_plane`, test/__init__.py L36-39. -/
noncomputable def scatteredPlane {n : ℕ} (x y : Vec n) (g : Vec 3) (noise : Fin 3 → Vec n)
    (limit : ℝ := 100) (scatter : ℝ := 0.5) : Except PyErr ((Fin 3 → Vec n) × Vec 3) := do
  let (plane, c) ← randomPlane x y g limit
  .ok (randomize plane noise scatter, c)

/-- `quaternion`, stereonet.py L8-12: numpy adds the cosine to each component. -/
noncomputable def quaternion (v : Vec 3) (angle : ℝ) : Vec 3 :=
  fun i => Real.cos (angle / 2) + v i * Real.sin (angle / 2)

/-- `scale_errors`, stereonet.py L33-40, with the quantile function of the chi-squared
distribution as parameter, for non-negative values. -/
noncomputable def scaleErrors (ppf : ℝ → ℕ → ℝ) {k : ℕ} (cov : Vec k) (level : ℝ := 0.95) : Vec k :=
  fun i => Real.sqrt (ppf level k * cov i)

end Attitude.Statistics
