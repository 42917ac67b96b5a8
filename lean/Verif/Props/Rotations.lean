import Mathlib.Analysis.SpecialFunctions.Log.Basic
import Verif.Model.Rotations
import Verif.Lemmas.Trig

/-!
# C03, C04, C05: stereonet coordinates and rotations
-/

namespace Attitude.Props

open Attitude Rotations

/-! ## C03 -/

/-- Spherical positions are only unique away from the poles and with a
longitude in `(-π, π]`. -/
def Spec.ProperPosition (lon lat : ℝ) : Prop :=
  -Real.pi < lon ∧ lon ≤ Real.pi ∧ -(Real.pi / 2) < lat ∧ lat < Real.pi / 2

lemma cart2sph_unit {x y z : ℝ} (h : x ^ 2 + y ^ 2 + z ^ 2 = 1) :
    cart2sph x y z = some (arctan2 y x, Real.arcsin z) := by
  simp [cart2sph, h, fdiv]

lemma sph2cart_of_unit {x y z : ℝ} (h : x ^ 2 + y ^ 2 + z ^ 2 = 1) :
    sph2cart (arctan2 y x) (Real.arcsin z) = (x, y, z) := by
  have hz : -1 ≤ z ∧ z ≤ 1 := by
    constructor <;> nlinarith [sq_nonneg x, sq_nonneg y]
  have hc : Real.cos (Real.arcsin z) = Real.sqrt (x ^ 2 + y ^ 2) := by
    rw [Real.cos_arcsin]; congr 1; linarith
  simp only [sph2cart, hc, sqrt_mul_cos_arctan2, sqrt_mul_sin_arctan2,
    Real.sin_arcsin hz.1 hz.2]

lemma sph2cart_unit (lon lat : ℝ) :
    (Real.cos lat * Real.cos lon) ^ 2 + (Real.cos lat * Real.sin lon) ^ 2 + Real.sin lat ^ 2
      = 1 := by
  have h1 := Real.sin_sq_add_cos_sq lon
  have h2 := Real.sin_sq_add_cos_sq lat
  have : (Real.cos lat * Real.cos lon) ^ 2 + (Real.cos lat * Real.sin lon) ^ 2
      = Real.cos lat ^ 2 * (Real.sin lon ^ 2 + Real.cos lon ^ 2) := by ring
  rw [this, h1]; linarith

lemma cart2sph_sph2cart {lon lat : ℝ} (h : Spec.ProperPosition lon lat) :
    cart2sph (Real.cos lat * Real.cos lon) (Real.cos lat * Real.sin lon) (Real.sin lat)
      = some (lon, lat) := by
  obtain ⟨h1, h2, h3, h4⟩ := h
  rw [cart2sph_unit (sph2cart_unit lon lat),
    arctan2_of_polar (Real.cos_pos_of_mem_Ioo ⟨h3, h4⟩) h1 h2, Real.arcsin_sin h3.le h4.le]

/-- Going to the stereonet frame undoes coming from it. -/
theorem C03_to_from_stereonet (lon lat : ℝ) (h : Spec.ProperPosition lon lat) :
    (fromStereonet lon lat).bind (fun p => toStereonet p.1 p.2) = some (lon, lat) := by
  have hu := sph2cart_unit lon lat
  have hu' : (Real.cos lat * Real.sin lon) ^ 2 + Real.sin lat ^ 2
      + (-(Real.cos lat * Real.cos lon)) ^ 2 = 1 := by linarith
  simp only [fromStereonet, sph2cart]
  rw [cart2sph_unit hu']
  simp only [Option.bind_some, toStereonet, sph2cart_of_unit hu', neg_neg]
  exact cart2sph_sph2cart h

example : (fromStereonet 1 (-1 / 2)).bind (fun p => toStereonet p.1 p.2) = some (1, -1 / 2) :=
  have := Real.two_le_pi
  C03_to_from_stereonet 1 (-1 / 2) ⟨by linarith, by linarith, by linarith, by linarith⟩

/-- Coming from the stereonet frame undoes going to it. -/
theorem C03_from_to_stereonet (lon lat : ℝ) (h : Spec.ProperPosition lon lat) :
    (toStereonet lon lat).bind (fun p => fromStereonet p.1 p.2) = some (lon, lat) := by
  have hu := sph2cart_unit lon lat
  have hu' : (-Real.sin lat) ^ 2 + (Real.cos lat * Real.cos lon) ^ 2
      + (Real.cos lat * Real.sin lon) ^ 2 = 1 := by linarith
  simp only [toStereonet, sph2cart]
  rw [cart2sph_unit hu']
  simp only [Option.bind_some, fromStereonet, sph2cart_of_unit hu', neg_neg]
  exact cart2sph_sph2cart h

example : (toStereonet 2 (1 / 2)).bind (fun p => fromStereonet p.1 p.2) = some (2, 1 / 2) :=
  have := Real.two_le_pi
  C03_from_to_stereonet 2 (1 / 2) ⟨by linarith, by linarith, by linarith, by linarith⟩

/-- Both maps are defined everywhere and land in the closed coordinate range. -/
theorem C03_defined_everywhere (lon lat : ℝ) :
    (∃ p, fromStereonet lon lat = some p ∧ -Real.pi < p.1 ∧ p.1 ≤ Real.pi ∧ |p.2| ≤ Real.pi / 2) ∧
    (∃ p, toStereonet lon lat = some p ∧ -Real.pi < p.1 ∧ p.1 ≤ Real.pi ∧
      |p.2| ≤ Real.pi / 2) := by
  have hu := sph2cart_unit lon lat
  constructor
  · have hu' : (Real.cos lat * Real.sin lon) ^ 2 + Real.sin lat ^ 2
      + (-(Real.cos lat * Real.cos lon)) ^ 2 = 1 := by linarith
    refine ⟨_, by simp only [fromStereonet, sph2cart]; exact cart2sph_unit hu', ?_, ?_, ?_⟩
    · exact neg_pi_lt_arctan2 _ _
    · exact arctan2_le_pi _ _
    · exact abs_le.2 ⟨Real.neg_pi_div_two_le_arcsin _, Real.arcsin_le_pi_div_two _⟩
  · have hu' : (-Real.sin lat) ^ 2 + (Real.cos lat * Real.cos lon) ^ 2
      + (Real.cos lat * Real.sin lon) ^ 2 = 1 := by linarith
    refine ⟨_, by simp only [toStereonet, sph2cart]; exact cart2sph_unit hu', ?_, ?_, ?_⟩
    · exact neg_pi_lt_arctan2 _ _
    · exact arctan2_le_pi _ _
    · exact abs_le.2 ⟨Real.neg_pi_div_two_le_arcsin _, Real.arcsin_le_pi_div_two _⟩

/-- The frame change is the documented one: the stereonet's x axis (center of
the net) is the downward vertical, so a point `(x, y, z)` of the net is
`(y, z, -x)` in the library's frame. -/
theorem C03_from_stereonet_axes (lon lat : ℝ) :
    ∃ p, fromStereonet lon lat = some p ∧
      cartesian p.1 p.2 =
        ![(cartesian lon lat) 1, (cartesian lon lat) 2, -(cartesian lon lat) 0] := by
  have hu := sph2cart_unit lon lat
  have hu' : (Real.cos lat * Real.sin lon) ^ 2 + Real.sin lat ^ 2
      + (-(Real.cos lat * Real.cos lon)) ^ 2 = 1 := by linarith
  refine ⟨_, by simp only [fromStereonet, sph2cart]; exact cart2sph_unit hu', ?_⟩
  have h := sph2cart_of_unit hu'
  simp only [sph2cart, Prod.mk.injEq] at h
  simp only [cartesian, h.1, h.2.1, h.2.2]
  simp

/-- Non-vacuity: a proper position. -/
example : Spec.ProperPosition 1 (1 / 2) := by
  have := Real.two_le_pi
  refine ⟨by linarith, by linarith, by linarith, by linarith⟩

/-! ## C04 -/

/-- Squared Euclidean distance. -/
def Spec.dist2 (v w : Vec 3) : ℝ := (v 0 - w 0) ^ 2 + (v 1 - w 1) ^ 2 + (v 2 - w 2) ^ 2

/-- Every position is a unit vector whose height is the sine of the latitude
and whose horizontal direction is the longitude. -/
theorem C04_cartesian_unit (lon lat : ℝ) :
    norm (cartesian lon lat) = 1 ∧ (cartesian lon lat) 2 = Real.sin lat ∧
    (Spec.ProperPosition lon lat →
      arctan2 ((cartesian lon lat) 1) ((cartesian lon lat) 0) = lon ∧
      Real.arcsin ((cartesian lon lat) 2) = lat) := by
  refine ⟨?_, rfl, ?_⟩
  · rw [norm3]
    have := sph2cart_unit lon lat
    simp only [cartesian, Matrix.cons_val_zero, Matrix.cons_val_one, Matrix.cons_val]
    rw [this, Real.sqrt_one]
  · rintro ⟨h1, h2, h3, h4⟩
    exact ⟨arctan2_of_polar (Real.cos_pos_of_mem_Ioo ⟨h3, h4⟩) h1 h2,
      Real.arcsin_sin h3.le h4.le⟩

/-- The stereonet axis swap sends the x axis to the z axis, is its own inverse
and preserves all distances. -/
theorem C04_stereonet_transformation (v w : Vec 3) :
    stereonetTransformation.mulVec ![1, 0, 0] = ![0, 0, 1] ∧
    stereonetTransformation.mulVec (stereonetTransformation.mulVec v) = v ∧
    Spec.dist2 (stereonetTransformation.mulVec v) (stereonetTransformation.mulVec w)
      = Spec.dist2 v w := by
  have hm : ∀ u : Vec 3, stereonetTransformation.mulVec u = ![u 2, u 1, u 0] := by
    intro u
    funext i
    fin_cases i <;> simp [stereonetTransformation, Matrix.mulVec, dotProduct, Fin.sum_univ_three]
  refine ⟨by simp [hm], ?_, ?_⟩
  · rw [hm, hm]
    funext i
    fin_cases i <;> simp
  · simp only [hm, Spec.dist2, Matrix.cons_val_zero, Matrix.cons_val_one, Matrix.cons_val]
    ring

/-! ## C05 -/

/-- `R` is a rotation that carries `v1` to `v2`. -/
def Spec.RotatesOnto (R : Mat 3 3) (v1 v2 : Vec 3) : Prop :=
  R * R.transpose = 1 ∧ R.mulVec v1 = v2

/-- For vectors that are not parallel, `transform` returns a finite matrix. -/
theorem C05_transform_defined (v1 v2 : Vec 3) (h : cross v1 v2 ≠ 0) :
    ∃ R, transform v1 v2 = some R := by
  have h1 : norm v1 ≠ 0 := by
    intro e
    rw [norm_eq_zero_iff] at e
    exact h (by subst e; funext i; fin_cases i <;> simp [cross])
  have h2 : norm v2 ≠ 0 := by
    intro e
    rw [norm_eq_zero_iff] at e
    exact h (by subst e; funext i; fin_cases i <;> simp [cross])
  have h3 : norm (cross v1 v2) ≠ 0 := fun e => h ((norm_eq_zero_iff _).1 e)
  simp [transform, angle, fdiv, vdivOpt, h1, h2, h3]

example : ∃ R, transform ![1, 2, 2] ![0, 3, 4] = some R :=
  C05_transform_defined _ _ (fun h => by have := congrFun h 2; simp [cross] at this)

lemma transform_entries {v1 v2 : Vec 3} {R : Mat 3 3} (h : transform v1 v2 = some R) :
    (∀ i j, 0 < R i j) ∧ ∀ i, R i i = 1 := by
  simp only [transform, Option.bind_eq_bind, Option.bind_eq_some_iff, Option.some.injEq] at h
  obtain ⟨θ, _, x, _, rfl⟩ := h
  refine ⟨fun i j => Real.exp_pos _, fun i => ?_⟩
  fin_cases i <;> simp

/-- The returned matrix is never orthogonal, whatever the two vectors. -/
theorem C05_transform_never_orthogonal (v1 v2 : Vec 3) (R : Mat 3 3)
    (h : transform v1 v2 = some R) : R * R.transpose ≠ 1 := by
  obtain ⟨hp, hd⟩ := transform_entries h
  intro e
  have h00 := congrFun (congrFun e 0) 0
  simp only [Matrix.mul_apply, Matrix.transpose_apply, Fin.sum_univ_three, Matrix.one_apply_eq,
    hd 0] at h00
  nlinarith [hp 0 1, hp 0 2, sq_nonneg (R 0 1), sq_nonneg (R 0 2), mul_pos (hp 0 1) (hp 0 1),
    mul_pos (hp 0 2) (hp 0 2)]

example : ∃ R, transform ![1, 2, 2] ![0, 3, 4] = some R ∧ R * R.transpose ≠ 1 := by
  obtain ⟨R, h⟩ := C05_transform_defined ![1, 2, 2] ![0, 3, 4]
    (fun h => by have := congrFun h 2; simp [cross] at this)
  exact ⟨R, h, C05_transform_never_orthogonal _ _ R h⟩

/-- No call of `transform` on non-parallel vectors meets its documentation. -/
theorem C05_transform_false (v1 v2 : Vec 3) :
    ¬ ∃ R, transform v1 v2 = some R ∧ Spec.RotatesOnto R v1 v2 := by
  rintro ⟨R, h, ho, _⟩
  exact C05_transform_never_orthogonal v1 v2 R h ho

/-- Nor does it at least move `v1` to `v2`: it maps the x axis to a vector whose
x component is 1 when asked for the y axis. -/
theorem C05_transform_misses_target :
    ∃ R, transform ![1, 0, 0] ![0, 1, 0] = some R ∧ R.mulVec ![1, 0, 0] ≠ ![0, 1, 0] := by
  have hc : cross ![1, 0, 0] ![0, 1, 0] ≠ 0 := fun e => by
    have := congrFun e 2; simp [cross] at this
  obtain ⟨R, hR⟩ := C05_transform_defined _ _ hc
  refine ⟨R, hR, fun e => ?_⟩
  have h0 := congrFun e 0
  simp [Matrix.mulVec, dotProduct, Fin.sum_univ_three, (transform_entries hR).2 0] at h0

lemma angle_comm {n : ℕ} (v w : Vec n) : angle v w = angle w v := by
  have : vdot v w = vdot w v := by simp [vdot, mul_comm]
  simp [angle, this, mul_comm]

/-- What does hold: the result is finite exactly for non-parallel vectors, has a
unit diagonal and positive entries, and exchanging the arguments transposes it
(which for a rotation would be the inverse). -/
theorem C05_transform_partial (v1 v2 : Vec 3) (h : cross v1 v2 ≠ 0) :
    ∃ R, transform v1 v2 = some R ∧ transform v2 v1 = some R.transpose ∧
      (∀ i, R i i = 1) ∧ ∀ i j, 0 < R i j ∧ R i j * R j i = 1 := by
  have hneg : cross v2 v1 = -cross v1 v2 := by
    funext i; fin_cases i <;> simp [cross] <;> ring
  have hnn : norm (-cross v1 v2) = norm (cross v1 v2) := by simp [norm]
  obtain ⟨R, hR⟩ := C05_transform_defined v1 v2 h
  refine ⟨R, hR, ?_, (transform_entries hR).2, fun i j => ⟨(transform_entries hR).1 i j, ?_⟩⟩
  all_goals
    simp only [transform, Option.bind_eq_bind, Option.bind_eq_some_iff, Option.some.injEq] at hR
    obtain ⟨θ, hθ, x, hx, rfl⟩ := hR
  · have hx' : vdivOpt (cross v2 v1) (norm (cross v2 v1)) = some (-x) := by
      rw [hneg, hnn]
      unfold vdivOpt at hx ⊢
      split_ifs at hx ⊢ with h0
      simp only [Option.some.injEq] at hx ⊢
      subst hx
      funext i
      simp [neg_div]
    simp only [transform, Option.bind_eq_bind]
    rw [angle_comm, hθ, hx']
    simp only [Option.bind_some, Option.some.injEq]
    ext i j
    fin_cases i <;> fin_cases j <;> simp
  · fin_cases i <;> fin_cases j <;> simp [← Real.exp_add]

example : ∃ R, transform ![1, 2, 2] ![0, 3, 4] = some R ∧ transform ![0, 3, 4] ![1, 2, 2] = some R.transpose := by
  obtain ⟨R, h1, h2, _⟩ := C05_transform_partial ![1, 2, 2] ![0, 3, 4]
    (fun h => by have := congrFun h 2; simp [cross] at this)
  exact ⟨R, h1, h2⟩

/-- The logarithms of the entries generate the rotation that is asked for: they form
the cross product with the unit vector perpendicular to both arguments times the angle
between them.  Missing from the claim: the code takes the exponential entry by entry
instead of that of the matrix. -/
theorem C05_generator_partial (v1 v2 : Vec 3) (h : cross v1 v2 ≠ 0) :
    ∃ R, transform v1 v2 = some R ∧ ∀ w, (Matrix.of fun i j => Real.log (R i j)).mulVec w
      = (Real.arccos (vdot v1 v2 / (norm v1 * norm v2)) / norm (cross v1 v2))
        • cross (cross v1 v2) w := by
  obtain ⟨R, hR⟩ := C05_transform_defined v1 v2 h
  refine ⟨R, hR, fun w => ?_⟩
  simp only [transform, Option.bind_eq_bind, Option.bind_eq_some_iff, Option.some.injEq] at hR
  obtain ⟨θ, hθ, x, hx, rfl⟩ := hR
  have hθ' : θ = Real.arccos (vdot v1 v2 / (norm v1 * norm v2)) := by
    unfold angle fdiv at hθ
    split_ifs at hθ with h0
    · simp at hθ
    · simpa using hθ.symm
  have hx' : x = fun i => cross v1 v2 i / norm (cross v1 v2) := by
    unfold vdivOpt at hx
    split_ifs at hx with h0
    simpa using hx.symm
  rw [← hθ']
  have e : ∀ i, x i = cross v1 v2 i / norm (cross v1 v2) := fun i => by rw [hx']
  generalize cross v1 v2 = c at e
  funext i
  fin_cases i <;>
  · simp only [Matrix.mulVec, dotProduct, Fin.sum_univ_three, Matrix.of_apply, Real.log_exp,
      Pi.smul_apply, smul_eq_mul]
    simp [cross, e]
    ring

/-- Non-vacuity: two non-parallel vectors. -/
example : cross ![1, 0, 0] ![0, 1, 0] ≠ 0 := fun e => by
  have := congrFun e 2; simp [cross] at this

end Attitude.Props
