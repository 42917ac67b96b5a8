import Verif.Model.Shells
import Verif.Props.Display

/-! # Error shells and uncertain poles of reconstructed planes: C261 -/

namespace Attitude.Props

open Attitude Matrix Stereonet Shells

/-- Angle between a unit vector and a unit normal. -/
noncomputable def Spec.tilt (u m : Vec 3) : ℝ := Real.arccos (vdot u m)

/-- The direction at a longitude and latitude in degrees, in the layout with the pole up. -/
noncomputable def Spec.onGlobe (p : ℝ × ℝ) : Vec 3 :=
  Spec.direction false (p.1 * Real.pi / 180, p.2 * Real.pi / 180)

/-- A ring of a polygon: the first vertex is repeated at the end. -/
def Spec.ClosedRing (c : Curve) : Prop := c.length = 1000 ∧ c.head? = c.getLast?

/-- More than half the smaller of the two errors (degrees), less than the larger. -/
def Spec.betweenErrors (e₁ e₂ x : ℝ) : Prop :=
  radians (min e₁ e₂) / 2 < x ∧ x < radians (max e₁ e₂)

lemma onGlobe_degrees (p : ℝ × ℝ) :
    Spec.onGlobe (degrees p.1, degrees p.2) = Spec.direction false p := by
  unfold Spec.onGlobe degrees
  have h : ∀ x : ℝ, x * 180 / Real.pi * Real.pi / 180 = x := by
    intro x; field_simp
  simp only [h]

lemma half_error_range {e : ℝ} (h : 0 < e) (h' : e < 180) :
    0 < radians e / 2 ∧ radians e / 2 < Real.pi / 2 := by
  have hpi := Real.pi_pos
  unfold radians
  constructor
  · positivity
  · nlinarith

/-- Semiaxes of a plane with two errors. -/
noncomputable def shellAxes (e₁ e₂ : ℝ) : Vec 3 :=
  ![1 / Real.tan (radians e₂ / 2), 1 / Real.tan (radians e₁ / 2), 1]

lemma shellAxes_pos {e₁ e₂ : ℝ} (h1 : 0 < e₁) (h1' : e₁ < 180) (h2 : 0 < e₂) (h2' : e₂ < 180) :
    0 < shellAxes e₁ e₂ 0 ∧ 0 < shellAxes e₁ e₂ 1 ∧ shellAxes e₁ e₂ 2 = 1 := by
  obtain ⟨a1, a1'⟩ := half_error_range h1 h1'
  obtain ⟨a2, a2'⟩ := half_error_range h2 h2'
  have t1 : 0 < Real.tan (radians e₁ / 2) := Real.tan_pos_of_pos_of_lt_pi_div_two a1 a1'
  have t2 : 0 < Real.tan (radians e₂ / 2) := Real.tan_pos_of_pos_of_lt_pi_div_two a2 a2'
  refine ⟨?_, ?_, by simp [shellAxes]⟩
  · show 0 < 1 / Real.tan (radians e₂ / 2); positivity
  · show 0 < 1 / Real.tan (radians e₁ / 2); positivity

lemma shell_width {e₁ e₂ : ℝ} (h1 : 0 < e₁) (h1' : e₁ < 180) (h2 : 0 < e₂) (h2' : e₂ < 180)
    {x : ℝ} (hx : Real.arctan (2 / max (shellAxes e₁ e₂ 0) (shellAxes e₁ e₂ 1)) ≤ x)
    (hx' : x ≤ Real.arctan (2 / min (shellAxes e₁ e₂ 0) (shellAxes e₁ e₂ 1))) :
    Spec.betweenErrors e₁ e₂ x := by
  obtain ⟨a1, a1'⟩ := half_error_range h1 h1'
  obtain ⟨a2, a2'⟩ := half_error_range h2 h2'
  obtain ⟨b1, b1'⟩ := tan_half_bounds a1 a1'
  obtain ⟨b2, b2'⟩ := tan_half_bounds a2 a2'
  have hpi := Real.pi_pos
  have v0 : 2 / shellAxes e₁ e₂ 0 = 2 * Real.tan (radians e₂ / 2) := by
    show 2 / (1 / Real.tan (radians e₂ / 2)) = _
    field_simp
  have v1 : 2 / shellAxes e₁ e₂ 1 = 2 * Real.tan (radians e₁ / 2) := by
    show 2 / (1 / Real.tan (radians e₁ / 2)) = _
    field_simp
  have hmono : ∀ a b : ℝ, a ≤ b → radians a ≤ radians b := by
    intro a b hab
    unfold radians
    have := mul_le_mul_of_nonneg_right hab hpi.le
    linarith
  unfold Spec.betweenErrors
  constructor
  · rcases le_total (shellAxes e₁ e₂ 0) (shellAxes e₁ e₂ 1) with h | h
    · rw [max_eq_right h, v1] at hx
      have := hmono _ _ (min_le_left e₁ e₂)
      linarith
    · rw [max_eq_left h, v0] at hx
      have := hmono _ _ (min_le_right e₁ e₂)
      linarith
  · rcases le_total (shellAxes e₁ e₂ 0) (shellAxes e₁ e₂ 1) with h | h
    · rw [min_eq_left h, v0] at hx'
      have := hmono _ _ (le_max_right e₁ e₂)
      linarith
    · rw [min_eq_right h, v1] at hx'
      have := hmono _ _ (le_max_left e₁ e₂)
      linarith

/-- The plane and its shell. -/
lemma shell_of_plane (s d r e₁ e₂ : ℝ) (hd0 : 0 ≤ d) (hd1 : d ≤ 90) (h1 : 0 < e₁) (h1' : e₁ < 180)
    (h2 : 0 < e₂) (h2' : e₂ < 180) :
    ∃ fit, Reconstructed.reconstruct s d r [e₁, e₂] = some fit ∧ Spec.OrthonormalRows fit.axes ∧
      fit.axes 2 = fit.normal ∧ flipped fit.axes = fit.axes ∧
      ofPlane fit = some { axes := fit.axes, covariance := Matrix.diagonal (shellAxes e₁ e₂) } := by
  obtain ⟨fit, hfit, ho, hn, hup, -⟩ := C47_orthonormal_partial s d r hd0 hd1 [e₁, e₂] 1
  obtain ⟨-, -, fit', hfit', -, -, -, -, -, -, -, hhyp, -⟩ := reconstruct_eq s d r [e₁, e₂] 1
  rw [hfit] at hfit'
  cases hfit'
  rw [lengths_two h1 h1' h2 h2'] at hhyp
  refine ⟨fit, hfit, ho, hn, ?_, ?_⟩
  · unfold flipped
    rw [if_neg]
    rw [hn]
    exact not_lt.2 hup
  · simp only [ofPlane, hhyp]
    rfl

lemma scale_bounds {d : Vec 3} (h0 : 0 < d 0) (h1 : 0 < d 1) (a : ℝ) :
    min (d 0) (d 1) ≤ normalVec d a 2 ∧ normalVec d a 2 ≤ max (d 0) (d 1) := by
  have hcs := Real.sin_sq_add_cos_sq a
  simp only [normalVec, Matrix.cons_val]
  have hm : 0 < min (d 0) (d 1) := lt_min h0 h1
  have hM : 0 < max (d 0) (d 1) := lt_of_lt_of_le h0 (le_max_left _ _)
  have m0 := pow_le_pow_left₀ hm.le (min_le_left (d 0) (d 1)) 2
  have m1 := pow_le_pow_left₀ hm.le (min_le_right (d 0) (d 1)) 2
  have M0 := pow_le_pow_left₀ h0.le (le_max_left (d 0) (d 1)) 2
  have M1 := pow_le_pow_left₀ h1.le (le_max_right (d 0) (d 1)) 2
  set c := Real.cos a
  set s := Real.sin a
  constructor
  · apply Real.le_sqrt_of_sq_le
    have e : min (d 0) (d 1) ^ 2 = c ^ 2 * min (d 0) (d 1) ^ 2 + s ^ 2 * min (d 0) (d 1) ^ 2 := by
      rw [← add_mul, add_comm, hcs, one_mul]
    rw [e, mul_pow, mul_pow]
    exact add_le_add (mul_le_mul_of_nonneg_left m0 (sq_nonneg _))
      (mul_le_mul_of_nonneg_left m1 (sq_nonneg _))
  · rw [Real.sqrt_le_left hM.le]
    have e : max (d 0) (d 1) ^ 2 = c ^ 2 * max (d 0) (d 1) ^ 2 + s ^ 2 * max (d 0) (d 1) ^ 2 := by
      rw [← add_mul, add_comm, hcs, one_mul]
    rw [e, mul_pow, mul_pow]
    exact add_le_add (mul_le_mul_of_nonneg_left M0 (sq_nonneg _))
      (mul_le_mul_of_nonneg_left M1 (sq_nonneg _))

/-- Angle of a vector of the normal curve from the normal. -/
lemma normalVec_tilt {axes : Mat 3 3} (ho : Spec.OrthonormalRows axes) {d : Vec 3} (h0 : 0 < d 0)
    (h1 : 0 < d 1) (h2 : d 2 = 1) (a : ℝ) :
    Real.arctan (2 / max (d 0) (d 1)) ≤ Spec.tilt ((1 / norm (toWorld (normalVec d a) axes)) •
        toWorld (normalVec d a) axes) (axes 2) ∧
      Spec.tilt ((1 / norm (toWorld (normalVec d a) axes)) •
        toWorld (normalVec d a) axes) (axes 2) ≤ Real.arctan (2 / min (d 0) (d 1)) := by
  have hcs := Real.sin_sq_add_cos_sq a
  obtain ⟨l, u⟩ := scale_bounds h0 h1 a
  have hz : 0 < normalVec d a 2 := lt_of_lt_of_le (lt_min h0 h1) l
  set f := normalVec d a 2 with hf
  have hn : norm (normalVec d a) = Real.sqrt (4 + f ^ 2) := by
    rw [norm3, ← hf]
    congr 1
    have e0 : normalVec d a 0 = -(2 * Real.cos a) := by simp [normalVec, h2]
    have e1 : normalVec d a 1 = -(2 * Real.sin a) := by simp [normalVec, h2]
    rw [e0, e1]
    linear_combination 4 * hcs
  have hs : 0 < Real.sqrt (4 + f ^ 2) := by positivity
  have hsq : Real.sqrt (4 + f ^ 2) ^ 2 = 4 + f ^ 2 := Real.sq_sqrt (by positivity)
  have ht : Spec.tilt ((1 / norm (toWorld (normalVec d a) axes)) •
      toWorld (normalVec d a) axes) (axes 2) = Real.arctan (2 / f) := by
    unfold Spec.tilt
    rw [norm_toWorld ho, vdot_smul_left, toWorld_dot ho, ← hf, hn, one_div, inv_mul_eq_div,
      Real.arccos_eq_arctan (by positivity)]
    congr 1
    have e : 1 - (f / Real.sqrt (4 + f ^ 2)) ^ 2 = (2 / Real.sqrt (4 + f ^ 2)) ^ 2 := by
      rw [div_pow, div_pow, hsq]
      field_simp
      ring
    rw [e, Real.sqrt_sq (by positivity)]
    field_simp
  rw [ht]
  have hm : 0 < min (d 0) (d 1) := lt_min h0 h1
  exact ⟨Real.arctan_strictMono.monotone (div_le_div_of_nonneg_left (by norm_num) hz u),
    Real.arctan_strictMono.monotone (div_le_div_of_nonneg_left (by norm_num) hm l)⟩

lemma normalVec_world_ne {axes : Mat 3 3} (ho : Spec.OrthonormalRows axes) {d : Vec 3} (h0 : 0 < d 0)
    (h1 : 0 < d 1) (a : ℝ) : toWorld (normalVec d a) axes ≠ 0 := by
  apply toWorld_ne ho
  intro e
  have := (lt_of_lt_of_le (lt_min h0 h1) (scale_bounds h0 h1 a).1)
  rw [e] at this
  simp at this

/-! ## C261 -/

/-- The polygon of the girdle: two closed rings of directions, on opposite sides of the plane,
each further from the plane than half the smaller error and closer than the larger. -/
theorem C261_girdle (s d r e₁ e₂ : ℝ) (hd0 : 0 ≤ d) (hd1 : d ≤ 90) (h1 : 0 < e₁)
    (h1' : e₁ < 180) (h2 : 0 < e₂) (h2' : e₂ < 180) :
    ∃ fit shell up low, Reconstructed.reconstruct s d r [e₁, e₂] = some fit ∧
      ofPlane fit = some shell ∧ shell.cartopyGirdle = .ok (up, low) ∧
      Spec.ClosedRing up ∧ Spec.ClosedRing low ∧
      (∀ q ∈ up ++ low, ∃ p, q = some p ∧
        Spec.betweenErrors e₁ e₂ (Spec.elevation (Spec.onGlobe p) fit.normal)) ∧
      (∀ q ∈ up, ∀ q' ∈ low, ∃ p p', q = some p ∧ q' = some p' ∧
        vdot (Spec.onGlobe p) fit.normal * vdot (Spec.onGlobe p') fit.normal < 0) := by
  obtain ⟨fit, hfit, ho, hn, -, hsh⟩ := shell_of_plane s d r e₁ e₂ hd0 hd1 h1 h1' h2 h2'
  obtain ⟨D0, D1, D2⟩ := shellAxes_pos h1 h1' h2 h2'
  set D := shellAxes e₁ e₂ with hD
  obtain ⟨cu, hu, hu'⟩ := C67_elevation_bounds fit.axes ho D D0 D1 (by rw [D2]; norm_num)
    { traditional := false } rfl one_pos "upper" (Or.inl rfl)
  obtain ⟨cl, hl, hl'⟩ := C67_elevation_bounds fit.axes ho D D0 D1 (by rw [D2]; norm_num)
    { traditional := false } rfl one_pos "lower" (Or.inr rfl)
  obtain ⟨cu2, cl2, hu2, hl2, hopp⟩ := C87_opposite_sides_partial fit.axes ho D D0 D1
    (by rw [D2]; norm_num) { traditional := false } rfl one_pos
  rw [hu] at hu2
  rw [hl] at hl2
  cases hu2
  cases hl2
  have eu := planeErrors_eq fit.axes D "upper" (o := { traditional := false }) rfl
  have el := planeErrors_eq fit.axes D "lower" (o := { traditional := false }) rfl
  rw [diag3] at eu el
  rw [hu] at eu
  rw [hl] at el
  have eu := Except.ok.inj eu
  have el := Except.ok.inj el
  have ku := curve_closed 1000 (by norm_num) (fun a =>
    planeLonLat false (toWorld (girdleVec D (height fit.axes "upper" 1) a) fit.axes)) (by simp [girdleVec])
  have kl := curve_closed 1000 (by norm_num) (fun a =>
    planeLonLat false (toWorld (girdleVec D (height fit.axes "lower" 1) a) fit.axes)) (by simp [girdleVec])
  have key : ∀ p : ℝ × ℝ,
      Real.arctan (2 * 1 * D 2 / max (D 0) (D 1)) ≤
        Spec.elevation (Spec.direction false p) (fit.axes 2) →
      Spec.elevation (Spec.direction false p) (fit.axes 2) ≤
        Real.arctan (2 * 1 * D 2 / min (D 0) (D 1)) →
      Spec.betweenErrors e₁ e₂ (Spec.elevation (Spec.onGlobe (degrees p.1, degrees p.2)) fit.normal) := by
    intro p hp hp'
    rw [D2, mul_one, mul_one] at hp hp'
    rw [onGlobe_degrees, ← hn]
    exact shell_width h1 h1' h2 h2' hp hp'
  refine ⟨fit, _, curveDegrees cu, curveDegrees cl, hfit, hsh, ?_, ⟨?_, ?_⟩, ⟨?_, ?_⟩, ?_, ?_⟩
  · simp only [ErrorShell.cartopyGirdle, hu, hl, bind, Except.bind]
  · rw [eu]
    simp only [curveDegrees, List.length_map, angles_length, Option.getD_none]
  · rw [eu]
    simp only [curveDegrees, Option.getD_none]
    rw [List.head?_map, List.getLast?_map, ku]
  · rw [el]
    simp only [curveDegrees, List.length_map, angles_length, Option.getD_none]
  · rw [el]
    simp only [curveDegrees, Option.getD_none]
    rw [List.head?_map, List.getLast?_map, kl]
  · intro q hq
    rw [List.mem_append] at hq
    rcases hq with hq | hq
    · obtain ⟨q', hq', rfl⟩ := List.mem_map.1 hq
      obtain ⟨p, rfl, hp, hp'⟩ := hu' q' hq'
      exact ⟨_, rfl, key p hp hp'⟩
    · obtain ⟨q', hq', rfl⟩ := List.mem_map.1 hq
      obtain ⟨p, rfl, hp, hp'⟩ := hl' q' hq'
      exact ⟨_, rfl, key p hp hp'⟩
  · intro q hq q' hq'
    obtain ⟨x, hx, rfl⟩ := List.mem_map.1 hq
    obtain ⟨y, hy, rfl⟩ := List.mem_map.1 hq'
    obtain ⟨p, p', rfl, rfl, hlt⟩ := hopp x hx y hy
    refine ⟨_, _, rfl, rfl, ?_⟩
    rw [onGlobe_degrees, onGlobe_degrees, ← hn]
    exact hlt

example := C261_girdle 30 60 45 10 20 (by norm_num) (by norm_num) (by norm_num) (by norm_num)
  (by norm_num) (by norm_num)

/-- The polygon of the normal: a closed ring of poles of planes tangent to the error cone, on
the side of the normal and at angles from it between half the smaller error and the larger; the
plane is not changed. -/
theorem C261_normal (s d r e₁ e₂ : ℝ) (hd0 : 0 ≤ d) (hd1 : d ≤ 90) (h1 : 0 < e₁)
    (h1' : e₁ < 180) (h2 : 0 < e₂) (h2' : e₂ < 180) :
    ∃ fit shell c, Reconstructed.reconstruct s d r [e₁, e₂] = some fit ∧
      ofPlane fit = some shell ∧ shell.cartopyNormal = .ok (c, shell) ∧ Spec.ClosedRing c ∧
      ∀ q ∈ c, ∃ p, q = some p ∧
        Spec.betweenErrors e₁ e₂ (Spec.tilt (Spec.onGlobe p) fit.normal) ∧
        Spec.TangentNormal fit.axes (fun i => shell.covariance i i) (2 * shell.covariance 2 2)
          (Spec.onGlobe p) := by
  obtain ⟨fit, hfit, ho, hn, hfl, hsh⟩ := shell_of_plane s d r e₁ e₂ hd0 hd1 h1 h1' h2 h2'
  obtain ⟨D0, D1, D2⟩ := shellAxes_pos h1 h1' h2 h2'
  set D := shellAxes e₁ e₂ with hD
  have hN := normalErrors_eq fit.axes D (o := { traditional := false }) rfl
  rw [diag3, hfl] at hN
  have kn := curve_closed 1000 (by norm_num) (fun a =>
    normalLonLat false (toWorld (normalVec D a) fit.axes)) (by simp [normalVec])
  have hdiag : (fun i => (Matrix.diagonal D : Mat 3 3) i i) = D := by
    funext i; simp
  refine ⟨fit, _, _, hfit, hsh, by simp only [ErrorShell.cartopyNormal, hN, bind, Except.bind]; rfl,
    ⟨?_, ?_⟩, ?_⟩
  · simp only [curveDegrees, List.length_map, angles_length, Option.getD_none]
  · simp only [curveDegrees, Option.getD_none]
    rw [List.head?_map, List.getLast?_map, kn]
  · intro q hq
    obtain ⟨x, hx, rfl⟩ := List.mem_map.1 hq
    obtain ⟨a, -, rfl⟩ := List.mem_map.1 hx
    have hne := normalVec_world_ne ho D0 D1 a
    obtain ⟨p, hp, hdir⟩ := planeLonLat_dir false hne
    have hp' : normalLonLat false (toWorld (normalVec D a) fit.axes) = some p := hp
    refine ⟨(degrees p.1, degrees p.2), by rw [hp']; rfl, ?_, ?_⟩
    · rw [onGlobe_degrees, hdir, ← hn]
      obtain ⟨l, u⟩ := normalVec_tilt ho D0 D1 D2 a
      exact shell_width h1 h1' h2 h2' l u
    · rw [onGlobe_degrees, hdir, hdiag]
      show Spec.TangentNormal fit.axes D (2 * (Matrix.diagonal D : Mat 3 3) 2 2) _
      rw [Matrix.diagonal_apply_eq]
      exact normalVec_tangent ho D0 D1 (by rw [D2]; norm_num) a
        (one_div_pos.2 ((norm_pos_iff' _).2 hne))

example := C261_normal 30 60 45 10 20 (by norm_num) (by norm_num) (by norm_num) (by norm_num)
  (by norm_num) (by norm_num)

/-- `uncertain_pole` on the stereonet: every vertex is further from the pole of the plane than
half the smaller error and closer than the larger one. -/
theorem C261_stereonet_pole_partial (s d r e₁ e₂ : ℝ) (hd0 : 0 ≤ d) (hd1 : d ≤ 90) (h1 : 0 < e₁)
    (h1' : e₁ < 180) (h2 : 0 < e₂) (h2' : e₂ < 180) :
    ∃ fit c, Reconstructed.reconstruct s d r [e₁, e₂] = some fit ∧
      uncertainPole s d r e₁ e₂ = some (.ok (c, fit.axes)) ∧ Spec.ClosedRing c ∧
      ∀ q ∈ c, ∃ p, q = some p ∧
        Spec.betweenErrors e₁ e₂ (Spec.tilt (Reconstructed.vec p) fit.normal) := by
  obtain ⟨fit, hfit, ho, hn, hfl, hsh⟩ := shell_of_plane s d r e₁ e₂ hd0 hd1 h1 h1' h2 h2'
  obtain ⟨D0, D1, D2⟩ := shellAxes_pos h1 h1' h2 h2'
  set D := shellAxes e₁ e₂ with hD
  have hN := normalErrors_eq fit.axes D (o := {}) rfl
  rw [diag3, hfl] at hN
  have kn := curve_closed 1000 (by norm_num) (fun a =>
    normalLonLat true (toWorld (normalVec D a) fit.axes)) (by simp [normalVec])
  have hU : uncertainPole s d r e₁ e₂ = some (.ok (((angles 1000).map fun a =>
      normalLonLat true (toWorld (normalVec D a) fit.axes)).map
        (fun q => q.map fun p => (-p.1, p.2)), fit.axes)) := by
    simp only [uncertainPole, hfit, hsh, poleVertices, hN, bind, Except.bind, Option.bind_some,
      Option.getD_none]
  refine ⟨fit, _, hfit, hU, ⟨?_, ?_⟩, ?_⟩
  · simp only [List.length_map, angles_length]
  · rw [List.head?_map, List.getLast?_map, kn]
  · intro q hq
    obtain ⟨x, hx, rfl⟩ := List.mem_map.1 hq
    obtain ⟨a, -, rfl⟩ := List.mem_map.1 hx
    have hne := normalVec_world_ne ho D0 D1 a
    obtain ⟨p, hp, hdir⟩ := vec_pole hne
    refine ⟨(-p.1, p.2), by rw [hp]; rfl, ?_⟩
    rw [hdir, ← hn]
    obtain ⟨l, u⟩ := normalVec_tilt ho D0 D1 D2 a
    exact shell_width h1 h1' h2 h2' l u

example := C261_stereonet_pole_partial 30 60 45 10 20 (by norm_num) (by norm_num) (by norm_num)
  (by norm_num) (by norm_num) (by norm_num)

/-- `uncertain_pole` on the polar plot: the same. -/
theorem C261_polar_pole_partial (s d r e₁ e₂ : ℝ) (hd0 : 0 ≤ d) (hd1 : d ≤ 90) (h1 : 0 < e₁)
    (h1' : e₁ < 180) (h2 : 0 < e₂) (h2' : e₂ < 180) :
    ∃ fit c, Reconstructed.reconstruct s d r [e₁, e₂] = some fit ∧
      polarUncertainPole s d r e₁ e₂ = some (c, fit.axes) ∧ Spec.ClosedRing c ∧
      ∀ q ∈ c, ∃ p, q = some p ∧
        Spec.betweenErrors e₁ e₂ (Spec.tilt (Spec.polarDirection p) fit.normal) := by
  obtain ⟨fit, hfit, ho, hn, hfl, hsh⟩ := shell_of_plane s d r e₁ e₂ hd0 hd1 h1 h1' h2 h2'
  obtain ⟨D0, D1, D2⟩ := shellAxes_pos h1 h1' h2 h2'
  set D := shellAxes e₁ e₂ with hD
  have kn := curve_closed 1000 (by norm_num) (fun a =>
    Display.polarPoint (toWorld (normalVec D a) fit.axes)) (by simp [normalVec])
  refine ⟨fit, (angles 1000).map fun a => Display.polarPoint (toWorld (normalVec D a) fit.axes),
    hfit, ?_, ⟨?_, kn⟩, ?_⟩
  · simp only [polarUncertainPole, hfit, hsh, bind, Option.bind_some, polarPoleError_eq, hfl]
  · simp only [List.length_map, angles_length]
  · intro q hq
    obtain ⟨a, -, rfl⟩ := List.mem_map.1 hq
    have hne := normalVec_world_ne ho D0 D1 a
    obtain ⟨p, hp, hdir, -, -⟩ := polarPoint_dir hne
    refine ⟨p, hp, ?_⟩
    rw [hdir, ← hn]
    obtain ⟨l, u⟩ := normalVec_tilt ho D0 D1 D2 a
    exact shell_width h1 h1' h2 h2' l u

example := C261_polar_pole_partial 30 60 45 10 20 (by norm_num) (by norm_num) (by norm_num)
  (by norm_num) (by norm_num) (by norm_num)

/-- With equal errors `e` no vertex of the pole's error is at the angle `e` or `e/2` from it. -/
theorem C261_pole_false (s d r e : ℝ) (hd0 : 0 ≤ d) (hd1 : d ≤ 90) (h : 0 < e) (h' : e < 180) :
    ∃ fit c c', Reconstructed.reconstruct s d r [e, e] = some fit ∧
      uncertainPole s d r e e = some (.ok (c, fit.axes)) ∧
      polarUncertainPole s d r e e = some (c', fit.axes) ∧
      (∀ q ∈ c, ∃ p, q = some p ∧ Spec.tilt (Reconstructed.vec p) fit.normal ≠ radians e / 2 ∧
        Spec.tilt (Reconstructed.vec p) fit.normal ≠ radians e) ∧
      (∀ q ∈ c', ∃ p, q = some p ∧ Spec.tilt (Spec.polarDirection p) fit.normal ≠ radians e / 2 ∧
        Spec.tilt (Spec.polarDirection p) fit.normal ≠ radians e) := by
  obtain ⟨fit, c, h1, h2, -, h3⟩ := C261_stereonet_pole_partial s d r e e hd0 hd1 h h' h h'
  obtain ⟨fit', c', h1', h2', -, h3'⟩ := C261_polar_pole_partial s d r e e hd0 hd1 h h' h h'
  rw [h1] at h1'
  cases h1'
  refine ⟨fit, c, c', h1, h2, h2', fun q hq => ?_, fun q hq => ?_⟩
  · obtain ⟨p, hp, l, u⟩ := h3 q hq
    rw [min_self] at l
    rw [max_self] at u
    exact ⟨p, hp, l.ne', u.ne⟩
  · obtain ⟨p, hp, l, u⟩ := h3' q hq
    rw [min_self] at l
    rw [max_self] at u
    exact ⟨p, hp, l.ne', u.ne⟩

example := C261_pole_false 40 30 20 10 (by norm_num) (by norm_num) (by norm_num) (by norm_num)

/-- The directions on the exterior ring are those of the function `cartopy_girdle` of
display/cartopy.py for the same axes, vertex by vertex, each in its own layout. -/
theorem C261_same_directions (axes : Mat 3 3) (ho : Spec.OrthonormalRows axes) (d : Vec 3)
    (h0 : 0 < d 0) (h1 : 0 < d 1) :
    ∃ up low up' low', ErrorShell.cartopyGirdle ⟨axes, Matrix.diagonal d⟩ = .ok (up, low) ∧
      Display.cartopyGirdle axes d = .ok (up', low'.reverse) ∧
      List.Forall₂ (fun q q' => ∃ p p' : ℝ × ℝ, q = some p ∧ q' = some p' ∧
        Spec.onGlobe p = Spec.direction true (radians p'.1, radians p'.2))
        (up ++ low) (up' ++ low') := by
  have hu := planeErrors_eq axes d "upper" (o := {}) rfl
  have hl := planeErrors_eq axes d "lower" (o := {}) rfl
  have nu := planeErrors_eq axes d "upper" (o := { traditional := false }) rfl
  have nl := planeErrors_eq axes d "lower" (o := { traditional := false }) rfl
  rw [diag3] at hu hl nu nl
  have key : ∀ k : ℝ, List.Forall₂ (fun q q' => ∃ p p' : ℝ × ℝ, q = some p ∧ q' = some p' ∧
      Spec.onGlobe p = Spec.direction true (radians p'.1, radians p'.2))
      (curveDegrees ((angles 1000).map fun a => planeLonLat false (toWorld (girdleVec d k a) axes)))
      (curveDegrees ((angles 1000).map fun a => planeLonLat true (toWorld (girdleVec d k a) axes))) := by
    intro k
    simp only [curveDegrees, List.map_map]
    rw [List.forall₂_map_left_iff, List.forall₂_map_right_iff, List.forall₂_same]
    intro a _
    obtain ⟨p, hp, hd, -⟩ := girdle_point ho h0 h1 false k a
    obtain ⟨p', hp', hd', -⟩ := girdle_point ho h0 h1 true k a
    refine ⟨(degrees p.1, degrees p.2), (degrees p'.1, degrees p'.2), ?_, ?_, ?_⟩
    · simp only [Function.comp, hp, Option.map_some]
    · simp only [Function.comp, hp', Option.map_some]
    · rw [onGlobe_degrees, hd]
      simp only [radians_degrees]
      rw [hd']
  refine ⟨_, _, _, _, by simp only [ErrorShell.cartopyGirdle, nu, nl, bind, Except.bind]; rfl,
    by simp only [Display.cartopyGirdle, hu, hl, bind, Except.bind]; rfl, ?_⟩
  exact List.rel_append (key _) (key _)

example := C261_same_directions obliqueAxes oblique_orthonormal ![3, 2, 1] (by simp) (by simp)

/-- Yet the polygons of the two functions of the same name are different: for a horizontal plane
their first vertices are not at the same latitude. -/
theorem C261_same_polygon_false :
    ∃ up low up' low', ErrorShell.cartopyGirdle ⟨1, Matrix.diagonal ![1, 1, 1]⟩ = .ok (up, low) ∧
      Display.cartopyGirdle 1 ![1, 1, 1] = .ok (up', low') ∧ up.head? ≠ up'.head? := by
  have ho : Spec.OrthonormalRows (1 : Mat 3 3) := by
    intro i j
    rw [vdot3]
    fin_cases i <;> fin_cases j <;> simp [Matrix.one_apply]
  have hu := planeErrors_eq (1 : Mat 3 3) ![1, 1, 1] "upper" (o := {}) rfl
  have hl := planeErrors_eq (1 : Mat 3 3) ![1, 1, 1] "lower" (o := {}) rfl
  have nu := planeErrors_eq (1 : Mat 3 3) ![1, 1, 1] "upper" (o := { traditional := false }) rfl
  have nl := planeErrors_eq (1 : Mat 3 3) ![1, 1, 1] "lower" (o := { traditional := false }) rfl
  rw [diag3] at hu hl nu nl
  refine ⟨_, _, _, _, by simp only [ErrorShell.cartopyGirdle, nu, nl, bind, Except.bind]; rfl,
    by simp only [Display.cartopyGirdle, hu, hl, bind, Except.bind]; rfl, ?_⟩
  have hh : height (1 : Mat 3 3) "upper" 1 = -2 := by
    unfold height; rw [if_pos rfl, if_pos (by simp)]; norm_num
  obtain ⟨p, hp, -, hd⟩ := girdle_point ho (d := ![1, 1, 1]) (by simp) (by simp) false (-2) 0
  obtain ⟨p', hp', -, hd'⟩ := girdle_point ho (d := ![1, 1, 1]) (by simp) (by simp) true (-2) 0
  have a0 : (angles 1000).head? = some 0 := by
    rw [angles, List.head?_map, List.head?_range, if_neg (by norm_num)]
    simp [linspace]
  simp only [curveDegrees, List.head?_map, Option.getD_none, a0, Option.map_some, hh, hp, hp']
  intro e
  simp only [Option.some.injEq, Prod.mk.injEq] at e
  have e2 : p.2 = p'.2 := by
    have := congrArg radians e.2
    rwa [radians_degrees, radians_degrees] at this
  have k := hd 2
  have k' := hd' 1
  have hn : 0 < norm (girdleVec ![1, 1, 1] (-2) 0) :=
    (norm_pos_iff' _).2 (girdleVec_ne (by simp) (by simp) _ _)
  have v2 : girdleVec ![1, 1, 1] (-2) 0 2 = -2 := by simp [girdleVec]
  have v1 : girdleVec ![1, 1, 1] (-2) 0 1 = 0 := by simp [girdleVec]
  rw [v2] at k
  rw [v1, zero_div] at k'
  have s2 : vdot (Spec.direction false p) ((1 : Mat 3 3) 2) = Real.sin p.2 := by
    rw [vdot3]; simp [Spec.direction, Rotations.sph2cart]
  have s1 : vdot (Spec.direction true p') ((1 : Mat 3 3) 1) = Real.sin p'.2 := by
    rw [vdot3]; simp [Spec.direction, Rotations.sph2cart]
  rw [s2, e2, ← s1, k'] at k
  have : -2 / norm (girdleVec ![1, 1, 1] (-2) 0) < 0 := div_neg_of_neg_of_pos (by norm_num) hn
  linarith

end Attitude.Props
