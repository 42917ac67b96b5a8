import Verif.Props.CurveDensity

/-!
# C254: the curve around the pole traces the poles of all planes that touch the error cone

`C66` and `C85` say that the points that are drawn are normals of planes that touch the error cone.
Here the other half, as in C249 for the girdle.
-/

namespace Attitude.Props

open Attitude Stereonet

/-- How far the points of a curve with `n` points can be apart from a pole. -/
noncomputable def Spec.poleGap (d : Vec 3) (n : ℕ) : ℝ :=
  2 * Real.pi / (n - 1) * Real.sqrt (((2 * d 2) ^ 2 + max (d 0) (d 1) ^ 2)
    / ((2 * d 2) ^ 2 + min (d 0) (d 1) ^ 2))

/-- The normal of a plane that touches the cone is on the dual cone. -/
lemma tangent_equation {axes : Mat 3 3} (ho : Spec.OrthonormalRows axes) {d : Vec 3} (h0 : 0 < d 0)
    (h1 : 0 < d 1) {h : ℝ} (hh : 0 < h) {u : Vec 3} (hu : u ≠ 0)
    (ht : Spec.TangentNormal axes d h u) :
    (vdot u (axes 0) * d 0) ^ 2 + (vdot u (axes 1) * d 1) ^ 2 = (h * vdot u (axes 2)) ^ 2 := by
  obtain ⟨⟨w, hw, hw0, huw, huniq⟩, -⟩ := ht
  set A := vdot u (axes 0) * d 0 with hA
  set B := vdot u (axes 1) * d 1 with hB
  set C := vdot u (axes 2) with hC
  set X := vdot w (axes 0) / d 0 with hX
  set Y := vdot w (axes 1) / d 1 with hY
  set Z := vdot w (axes 2) with hZ
  have hcone : (h * X) ^ 2 + (h * Y) ^ 2 = Z ^ 2 := hw
  have hdot : ∀ v : Vec 3, vdot u (toWorld v axes)
      = vdot u (axes 0) * v 0 + vdot u (axes 1) * v 1 + vdot u (axes 2) * v 2 := by
    intro v
    rw [vdot_comm', vdot_toWorld_right]
    ring
  have hwc : w = toWorld ![d 0 * X, d 1 * Y, Z] axes := by
    rw [decompose ho w]
    congr 1
    funext i
    fin_cases i
    · simp [hX]; field_simp
    · simp [hY]; field_simp
    · simp [hZ]
  have hlin : A * X + B * Y + C * Z = 0 := by
    rw [hwc, hdot] at huw
    simp only [Matrix.cons_val_zero, Matrix.cons_val_one, Matrix.cons_val] at huw
    rw [hA, hB]
    linear_combination huw
  have hZ0 : Z ≠ 0 := by
    intro hz
    rw [hz] at hcone
    have hs : X ^ 2 + Y ^ 2 = 0 := by
      have : h ^ 2 * (X ^ 2 + Y ^ 2) = 0 := by linear_combination hcone
      exact (mul_eq_zero.1 this).resolve_left (by positivity)
    have hx : X = 0 := by nlinarith [sq_nonneg X, sq_nonneg Y]
    have hy : Y = 0 := by nlinarith [sq_nonneg X, sq_nonneg Y]
    apply hw0
    rw [hwc, hx, hy, hz]
    funext j
    simp [toWorld, Fin.sum_univ_three]
  have hAB : 0 < A ^ 2 + B ^ 2 := by
    by_contra hneg
    have ha : A = 0 := by nlinarith [sq_nonneg A, sq_nonneg B]
    have hb : B = 0 := by nlinarith [sq_nonneg A, sq_nonneg B]
    have hc : C = 0 := by
      rw [ha, hb] at hlin
      have : C * Z = 0 := by linarith
      exact (mul_eq_zero.1 this).resolve_right hZ0
    apply hu
    rw [decompose ho u]
    have ha' : vdot u (axes 0) = 0 := (mul_eq_zero.1 ha).resolve_right h0.ne'
    have hb' : vdot u (axes 1) = 0 := (mul_eq_zero.1 hb).resolve_right h1.ne'
    funext j
    simp [toWorld, Fin.sum_univ_three, ha', hb', ← hC, hc]
  set k := (A * X + B * Y) / (A ^ 2 + B ^ 2) with hk
  have hkAB : k * (A ^ 2 + B ^ 2) = A * X + B * Y := by rw [hk]; field_simp
  -- the reflected line is also in the plane, so that it is the same
  obtain ⟨t, ht⟩ := huniq (toWorld ![d 0 * (2 * k * A - X), d 1 * (2 * k * B - Y), Z] axes) (by
      simp only [Spec.ErrorCone, Set.mem_ofPred_eq, toWorld_dot ho]
      simp only [Matrix.cons_val_zero, Matrix.cons_val_one, Matrix.cons_val]
      rw [mul_div_cancel_left₀ _ h0.ne', mul_div_cancel_left₀ _ h1.ne', ← hcone]
      linear_combination (4 * h ^ 2 * k) * hkAB) (by
      rw [hdot]
      simp only [Matrix.cons_val_zero, Matrix.cons_val_one, Matrix.cons_val]
      have : A * (2 * k * A - X) + B * (2 * k * B - Y) + C * Z = 0 := by
        linear_combination 2 * hkAB + hlin
      rw [hA, hB] at this
      linear_combination this)
  have hcomp : ∀ i, ![d 0 * (2 * k * A - X), d 1 * (2 * k * B - Y), Z] i
      = t * ![d 0 * X, d 1 * Y, Z] i := by
    intro i
    have h3 := congrArg (fun v => vdot v (axes i)) ht
    rw [vdot_smul_left, hwc, toWorld_dot ho, toWorld_dot ho] at h3
    exact h3
  have t1 : t = 1 := by
    have := hcomp 2
    simp only [Matrix.cons_val] at this
    have : (t - 1) * Z = 0 := by linarith
    have := (mul_eq_zero.1 this).resolve_right hZ0
    linarith
  have hXk : X = k * A := by
    have := hcomp 0
    simp only [Matrix.cons_val_zero, t1, one_mul] at this
    have := mul_left_cancel₀ h0.ne' this
    linarith
  have hYk : Y = k * B := by
    have := hcomp 1
    simp only [Matrix.cons_val_one, Matrix.cons_val_zero, t1, one_mul] at this
    have := mul_left_cancel₀ h1.ne' this
    linarith
  have hk0 : k ≠ 0 := by
    intro hk0
    rw [hXk, hYk, hk0] at hcone
    apply hZ0
    have : Z ^ 2 = 0 := by linarith
    exact pow_eq_zero_iff (two_ne_zero) |>.1 this
  rw [hXk, hYk] at hcone hlin
  have hS : h ^ 2 * k ^ 2 * (A ^ 2 + B ^ 2) = Z ^ 2 := by linear_combination hcone
  have hL : k * (A ^ 2 + B ^ 2) = -(C * Z) := by linear_combination hlin
  have : (k ^ 2 * (A ^ 2 + B ^ 2)) * (A ^ 2 + B ^ 2) = (k ^ 2 * (A ^ 2 + B ^ 2)) * (h * C) ^ 2 := by
    have h2 : (k * (A ^ 2 + B ^ 2)) ^ 2 = C ^ 2 * Z ^ 2 := by rw [hL]; ring
    rw [← hS] at h2
    linear_combination h2
  exact mul_left_cancel₀ (by positivity) this

lemma normalVec_close {d : Vec 3} (h0 : 0 < d 0) (h1 : 0 < d 1) (a b : ℝ) :
    norm (fun i => normalVec d b i - normalVec d a i)
      ≤ Real.sqrt ((2 * d 2) ^ 2 + max (d 0) (d 1) ^ 2) * |a - b| := by
  have hM : 0 < max (d 0) (d 1) := lt_max_of_lt_left h0
  apply le_of_sq_le_sq _ (by positivity)
  rw [norm_sq3, mul_pow, sq_abs, Real.sq_sqrt (by positivity)]
  have hg := girdleVec_close h0 h1 0 a b
  have hg2 := pow_le_pow_left₀ (norm_nonneg' _) hg 2
  rw [norm_sq3, mul_pow, sq_abs] at hg2
  simp only [girdleVec, normalVec, Matrix.cons_val_zero, Matrix.cons_val_one, Matrix.cons_val] at hg2 ⊢
  set p := Real.cos a * d 0
  set q := Real.sin a * d 1
  set p' := Real.cos b * d 0
  set q' := Real.sin b * d 1
  have hf := Real.sq_sqrt (show 0 ≤ p ^ 2 + q ^ 2 by positivity)
  have hf' := Real.sq_sqrt (show 0 ≤ p' ^ 2 + q' ^ 2 by positivity)
  have hprod : p * p' + q * q' ≤ Real.sqrt (p ^ 2 + q ^ 2) * Real.sqrt (p' ^ 2 + q' ^ 2) := by
    apply le_of_abs_le
    apply abs_le_of_sq_le_sq _ (by positivity)
    rw [mul_pow, hf, hf']
    nlinarith [sq_nonneg (p * q' - q * p')]
  have hc := Real.one_sub_sq_div_two_le_cos (x := a - b)
  rw [Real.cos_sub] at hc
  have ha := Real.sin_sq_add_cos_sq a
  have hb := Real.sin_sq_add_cos_sq b
  have k2 : (Real.cos b - Real.cos a) ^ 2 + (Real.sin b - Real.sin a) ^ 2 ≤ (a - b) ^ 2 := by
    nlinarith
  have k3 := mul_le_mul_of_nonneg_left k2 (sq_nonneg (2 * d 2))
  have k4 : (Real.sqrt (p' ^ 2 + q' ^ 2) - Real.sqrt (p ^ 2 + q ^ 2)) ^ 2
      ≤ (p' - p) ^ 2 + (q' - q) ^ 2 := by nlinarith
  nlinarith

lemma normalVec_ge {d : Vec 3} (h0 : 0 < d 0) (h1 : 0 < d 1) (a : ℝ) :
    Real.sqrt ((2 * d 2) ^ 2 + min (d 0) (d 1) ^ 2) ≤ norm (normalVec d a) := by
  have hm : 0 < min (d 0) (d 1) := lt_min h0 h1
  apply le_of_sq_le_sq _ (norm_nonneg' _)
  rw [norm_sq3, Real.sq_sqrt (by positivity)]
  simp only [normalVec, Matrix.cons_val_zero, Matrix.cons_val_one, Matrix.cons_val]
  rw [Real.sq_sqrt (by positivity)]
  have m0 : min (d 0) (d 1) ^ 2 ≤ d 0 ^ 2 := pow_le_pow_left₀ hm.le (min_le_left _ _) 2
  have m1 : min (d 0) (d 1) ^ 2 ≤ d 1 ^ 2 := pow_le_pow_left₀ hm.le (min_le_right _ _) 2
  have ha := Real.sin_sq_add_cos_sq a
  have k0 := mul_le_mul_of_nonneg_right m0 (sq_nonneg (Real.cos a))
  have k1 := mul_le_mul_of_nonneg_right m1 (sq_nonneg (Real.sin a))
  nlinarith

/-- The angle of a pole on the curve. -/
lemma pole_angle {d : Vec 3} (h2 : 0 < d 2) {x : Vec 3}
    (hx : vdot x x = 1) (hx2 : 0 < x 2)
    (heq : (x 0 * d 0) ^ 2 + (x 1 * d 1) ^ 2 = (2 * d 2 * x 2) ^ 2) :
    ∃ a, 0 ≤ a ∧ a ≤ 2 * Real.pi ∧ x = fun i => normalVec d a i / norm (normalVec d a) := by
  have hq : 0 < x 0 ^ 2 + x 1 ^ 2 := by
    by_contra hneg
    have ha : x 0 = 0 := by nlinarith [sq_nonneg (x 0), sq_nonneg (x 1)]
    have hb : x 1 = 0 := by nlinarith [sq_nonneg (x 0), sq_nonneg (x 1)]
    rw [ha, hb] at heq
    have : 0 < (2 * d 2 * x 2) ^ 2 := by positivity
    linarith
  set ρ := Real.sqrt (x 0 ^ 2 + x 1 ^ 2) with hρ
  have hρp : 0 < ρ := Real.sqrt_pos.2 hq
  have hρ2 : ρ ^ 2 = x 0 ^ 2 + x 1 ^ 2 := Real.sq_sqrt hq.le
  obtain ⟨a, ha0, ha1, hcos, hsin⟩ := angle_of_circle (x := -x 0 / ρ) (y := -x 1 / ρ) (by
    rw [div_pow, div_pow, neg_sq, neg_sq, ← add_div, ← hρ2]
    exact div_self (by positivity))
  refine ⟨a, ha0, ha1, ?_⟩
  apply direction_of_multiple (r := ρ / (2 * d 2)) (by positivity) hx
  intro i
  fin_cases i
  · show x 0 = ρ / (2 * d 2) * -(2 * d 2 * Real.cos a)
    rw [hcos]; field_simp
  · show x 1 = ρ / (2 * d 2) * -(2 * d 2 * Real.sin a)
    rw [hsin]; field_simp
  · show x 2 = ρ / (2 * d 2) * Real.sqrt ((Real.cos a * d 0) ^ 2 + (Real.sin a * d 1) ^ 2)
    have : (Real.cos a * d 0) ^ 2 + (Real.sin a * d 1) ^ 2 = (2 * d 2 * x 2 / ρ) ^ 2 := by
      rw [hcos, hsin, div_pow, ← heq]
      field_simp
    rw [this, Real.sqrt_sq (by positivity)]
    field_simp

lemma normalVec_ne_zero {d : Vec 3} (h2 : 0 < d 2) (a : ℝ) : normalVec d a ≠ 0 := by
  intro e
  have e0 := congrFun e 0
  have e1 := congrFun e 1
  simp [normalVec, h2.ne'] at e0 e1
  have := Real.sin_sq_add_cos_sq a
  rw [e0, e1] at this
  norm_num at this

/-- Every pole of a plane that touches the cone, on the upper side, is near to one of the
vectors of the curve. -/
lemma pole_near {axes : Mat 3 3} (ho : Spec.OrthonormalRows axes) {d : Vec 3} (h0 : 0 < d 0)
    (h1 : 0 < d 1) (h2 : 0 < d 2) {n : ℕ} (hn : 2 ≤ n) {u : Vec 3} (hu : vdot u u = 1)
    (ht : Spec.TangentNormal axes d (2 * d 2) u) (hup : 0 < vdot u (Pca.upward (axes 2))) :
    ∃ k < n, norm (fun j => ((1 / norm (toWorld (normalVec d (linspace n k)) (flipped axes)))
      • toWorld (normalVec d (linspace n k)) (flipped axes)) j - u j) ≤ Spec.poleGap d n := by
  have hfo : Spec.OrthonormalRows (flipped axes) := flipped_orth ho
  have hu0 : u ≠ 0 := by
    rintro rfl
    rw [vdot3] at hu
    simp at hu
  have heq := tangent_equation ho h0 h1 (by positivity) hu0 ht
  set x : Vec 3 := fun i => vdot u (flipped axes i) with hx
  have hvd : ∀ w : Vec 3, vdot u (-w) = -vdot u w := by intro w; simp [vdot3]; ring
  have hxu : vdot x x = 1 := by
    have := toWorld_dot_toWorld hfo x x
    rw [toWorld_components hfo u, hu] at this
    exact this.symm
  have hx2 : 0 < x 2 := by
    have e : flipped axes 2 = Pca.upward (axes 2) := by
      unfold flipped Pca.upward
      split_ifs <;> rfl
    simpa [hx, e] using hup
  have heq' : (x 0 * d 0) ^ 2 + (x 1 * d 1) ^ 2 = (2 * d 2 * x 2) ^ 2 := by
    have e : ∀ i, x i = vdot u (axes i) ∨ x i = -vdot u (axes i) := by
      intro i
      simp only [hx]
      unfold flipped
      split_ifs
      · right; exact hvd _
      · left; rfl
    have e2 : ∀ i, x i ^ 2 = vdot u (axes i) ^ 2 := by
      intro i
      rcases e i with h | h <;> rw [h]
      ring
    rw [mul_pow, mul_pow, mul_pow (2 * d 2), e2, e2, e2, ← mul_pow, ← mul_pow, ← mul_pow, heq]
  obtain ⟨a, ha0, ha1, hxa⟩ := pole_angle h2 hxu hx2 heq'
  obtain ⟨k, hk, hka⟩ := linspace_near hn ha0 ha1
  refine ⟨k, hk, ?_⟩
  set b := linspace n k
  have hn' : (0 : ℝ) < (n : ℝ) - 1 := by
    have : (2 : ℝ) ≤ n := by exact_mod_cast hn
    linarith
  have hm : 0 < min (d 0) (d 1) := lt_min h0 h1
  have ga := normalVec_ge h0 h1 a
  have pa := (norm_pos_iff' _).2 (normalVec_ne_zero h2 a)
  have pb := (norm_pos_iff' _).2 (normalVec_ne_zero h2 b)
  have hcl := directions_close pb pa
  have e : (fun j => ((1 / norm (toWorld (normalVec d b) (flipped axes)))
      • toWorld (normalVec d b) (flipped axes)) j - u j)
      = toWorld (fun i => normalVec d b i / norm (normalVec d b)
        - normalVec d a i / norm (normalVec d a)) (flipped axes) := by
    funext j
    have hxa' : ∀ i, normalVec d a i / norm (normalVec d a) = vdot u (flipped axes i) :=
      fun i => (congrFun hxa i).symm
    have huj := congrFun (toWorld_components hfo u) j
    rw [norm_toWorld hfo]
    simp only [Pi.smul_apply, smul_eq_mul, toWorld, Fin.sum_univ_three, hxa'] at huj ⊢
    linear_combination huj
  rw [e, norm_toWorld hfo]
  refine hcl.trans ?_
  have h3 := (normalVec_close h0 h1 a b).trans
    (mul_le_mul_of_nonneg_left hka (Real.sqrt_nonneg _))
  have hs : 0 < Real.sqrt ((2 * d 2) ^ 2 + min (d 0) (d 1) ^ 2) := Real.sqrt_pos.2 (by positivity)
  have h4 := div_le_div₀ (by positivity) h3 hs ga
  calc _ ≤ 2 * (Real.sqrt ((2 * d 2) ^ 2 + max (d 0) (d 1) ^ 2) * (Real.pi / (n - 1))
        / Real.sqrt ((2 * d 2) ^ 2 + min (d 0) (d 1) ^ 2)) := by linarith
    _ = Spec.poleGap d n := by
      unfold Spec.poleGap
      rw [Real.sqrt_div (by positivity)]
      field_simp

/-- Natural layout: every pole of a plane that touches the error cone, on the upper side, is within
the gap of a point of the curve. -/
theorem C254_poles_are_traced (axes : Mat 3 3) (ho : Spec.OrthonormalRows axes) (d : Vec 3)
    (h0 : 0 < d 0) (h1 : 0 < d 1) (h2 : 0 < d 2) (n : ℕ) (hn : 2 ≤ n) :
    ∃ c ax, normalErrors axes (Matrix.diagonal d) { n := some n, traditional := false } = .ok (c, ax) ∧
      c.length = n ∧
      ∀ u, vdot u u = 1 → Spec.TangentNormal axes d (2 * d 2) u → 0 < vdot u (Pca.upward (axes 2)) →
        ∃ p, some p ∈ c ∧ norm (fun j => Spec.direction false p j - u j) ≤ Spec.poleGap d n := by
  refine ⟨_, _, normalErrors_eq axes d rfl, by simp [angles_length], fun u hu ht hup => ?_⟩
  obtain ⟨k, hk, hclose⟩ := pole_near ho h0 h1 h2 hn hu ht hup
  obtain ⟨p, hp, hd⟩ := planeLonLat_dir false (toWorld_ne (flipped_orth ho) (normalVec_ne_zero h2 (linspace n k)))
  refine ⟨p, List.mem_map.2 ⟨_, mem_angles.2 ⟨k, hk, rfl⟩, hp⟩, ?_⟩
  rw [hd]
  exact hclose

/-- What is drawn: every pole of a plane that touches the error cone is within the gap of one of the
1000 vertices. -/
theorem C254_drawn (axes : Mat 3 3) (ho : Spec.OrthonormalRows axes) (d : Vec 3)
    (h0 : 0 < d 0) (h1 : 0 < d 1) (h2 : 0 < d 2) :
    ∃ c ax, poleVertices axes (Matrix.diagonal d) = .ok (c, ax) ∧
      ∀ u, vdot u u = 1 → Spec.TangentNormal axes d (2 * d 2) u → 0 < vdot u (Pca.upward (axes 2)) →
        ∃ p, some p ∈ c ∧ norm (fun j => Reconstructed.vec p j - u j) ≤ Spec.poleGap d 1000 := by
  have hN := normalErrors_eq axes d (o := {}) rfl
  rw [diag3] at hN
  refine ⟨((angles 1000).map fun a => normalLonLat true
      (toWorld (normalVec d a) (flipped axes))).map (fun q => q.map fun p => (-p.1, p.2)),
    flipped axes, ?_, fun u hu ht hup => ?_⟩
  · simp only [poleVertices, hN, bind, Except.bind]
    rfl
  obtain ⟨k, hk, hclose⟩ := pole_near ho h0 h1 h2 (n := 1000) (by norm_num) hu ht hup
  obtain ⟨p, hp, hd⟩ := vec_pole (toWorld_ne (flipped_orth ho) (normalVec_ne_zero h2 (linspace 1000 k)))
  refine ⟨(-p.1, p.2), ?_, by rw [hd]; exact hclose⟩
  simp only [List.mem_map]
  exact ⟨some p, ⟨linspace 1000 k, mem_angles.2 ⟨k, hk, rfl⟩, hp⟩, rfl⟩

/-- There are such poles: those of the curve. -/
example : ∃ c ax p, poleVertices dippingAxes (Matrix.diagonal ![3, 2, 1]) = .ok (c, ax) ∧
    some p ∈ c ∧ Spec.TangentNormal dippingAxes ![3, 2, 1] 2 (Reconstructed.vec p) := by
  obtain ⟨g, c, ax, -, hc, -, hlen, -, ht⟩ := C85_drawn_curves_dual dippingAxes dipping_orthonormal
    ![3, 2, 1] (by simp) (by simp) (by simp)
  have hne : c ≠ [] := by intro h; rw [h] at hlen; simp at hlen
  obtain ⟨p, hp, hpt⟩ := ht (c.head hne) (List.head_mem hne)
  exact ⟨c, ax, p, hc, hp ▸ List.head_mem hne, by simpa using hpt⟩

/-- The gap of the dipping plane is less than 0.01. -/
example : ∃ c ax, poleVertices dippingAxes (Matrix.diagonal ![3, 2, 1]) = .ok (c, ax) ∧
    ∀ u, vdot u u = 1 → Spec.TangentNormal dippingAxes ![3, 2, 1] 2 u → 0 < vdot u (dippingAxes 2) →
      ∃ p, some p ∈ c ∧ norm (fun j => Reconstructed.vec p j - u j) ≤ 1 / 100 := by
  obtain ⟨c, ax, h, hc⟩ := C254_drawn dippingAxes dipping_orthonormal ![3, 2, 1] (by simp) (by simp) (by simp)
  refine ⟨c, ax, h, fun u hu ht hup => ?_⟩
  obtain ⟨p, hp, hclose⟩ := hc u hu (by simpa using ht) (by
    rw [Pca.upward, if_neg (by simp [dippingAxes]; norm_num)]; exact hup)
  refine ⟨p, hp, hclose.trans ?_⟩
  unfold Spec.poleGap
  have e1 : max (3 : ℝ) 2 = 3 := by norm_num
  have e2 : min (3 : ℝ) 2 = 2 := by norm_num
  simp only [Matrix.cons_val_zero, Matrix.cons_val_one, Matrix.cons_val, e1, e2]
  have hs : Real.sqrt (((2 * 1) ^ 2 + 3 ^ 2) / ((2 * 1) ^ 2 + 2 ^ 2)) ≤ 3 / 2 := by
    rw [Real.sqrt_le_left (by norm_num)]
    norm_num
  have hp2 := Real.pi_lt_d2
  calc _ ≤ 2 * Real.pi / ((1000 : ℕ) - 1) * (3 / 2) :=
        mul_le_mul_of_nonneg_left hs (by have := Real.pi_pos; norm_num; positivity)
    _ ≤ 1 / 100 := by norm_num; linarith

/-- The gap goes to zero. -/
theorem C254_gap (d : Vec 3) : Filter.Tendsto (Spec.poleGap d) Filter.atTop (nhds 0) := by
  set K := Real.sqrt (((2 * d 2) ^ 2 + max (d 0) (d 1) ^ 2) / ((2 * d 2) ^ 2 + min (d 0) (d 1) ^ 2)) with hK
  have h : Spec.poleGap d = fun n : ℕ => (2 * Real.pi * K) * ((n : ℝ) - 1)⁻¹ := by
    funext n; unfold Spec.poleGap; rw [← hK]; ring
  rw [h, ← mul_zero (2 * Real.pi * K)]
  refine Filter.Tendsto.const_mul _ (Filter.Tendsto.comp tendsto_inv_atTop_zero ?_)
  exact Filter.tendsto_atTop_add_const_right _ _ tendsto_natCast_atTop_atTop

/-- The curve is closed: it ends where it began. -/
theorem C254_closed (axes cov : Mat 3 3) (t : Bool) (n : ℕ) (hn : 2 ≤ n) :
    ∃ c ax, normalErrors axes cov { n := some n, traditional := t } = .ok (c, ax) ∧
      c.head? = c.getLast? ∧ c.length = n := by
  have hne : n ≠ 1 := by omega
  have hn' : (n : ℝ) - 1 ≠ 0 := by
    have : (2 : ℝ) ≤ n := by exact_mod_cast hn
    intro h; linarith
  have hrun : ∃ f : ℝ → ℝ → Option (ℝ × ℝ), ∃ ax, normalErrors axes cov
      { n := some n, traditional := t }
      = .ok ((angles n).map fun a => f (Real.cos a) (Real.sin a), ax) :=
    ⟨fun x y => normalLonLat t (toWorld ![-x * cov 2 2 * 2, -y * cov 2 2 * 2,
      norm ![x * cov 0 0, y * cov 1 1]] (flipped axes)), _, rfl⟩
  obtain ⟨f, ax, hf⟩ := hrun
  refine ⟨_, ax, hf, ?_, by simp [angles_length]⟩
  have l0 : linspace n 0 = 0 := by simp [linspace]
  have l1 : linspace n (n - 1) = 2 * Real.pi := by
    rw [linspace, if_neg hne, Nat.cast_sub (by omega), Nat.cast_one, mul_div_assoc, div_self hn',
      mul_one]
  have hh : (angles n).head? = some 0 := by
    rw [angles, List.head?_map, List.head?_range, if_neg (by omega), Option.map_some, l0]
  have hl : (angles n).getLast? = some (2 * Real.pi) := by
    rw [angles, List.getLast?_map, List.getLast?_range, if_neg (by omega), Option.map_some, l1]
  rw [List.head?_map, List.getLast?_map, hh, hl]
  simp

example : ∃ c ax, normalErrors obliqueAxes (Matrix.diagonal ![3, 2, 1]) { n := some 100, traditional := true }
    = .ok (c, ax) ∧ c.head? = c.getLast? ∧ c.length = 100 :=
  C254_closed obliqueAxes _ true 100 (by norm_num)

end Attitude.Props
