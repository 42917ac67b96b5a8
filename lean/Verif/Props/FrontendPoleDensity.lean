import Verif.Props.FrontendDensity
import Verif.Props.PoleDensity
import Verif.Props.DrawnBand

/-!
# C259: the pole curves of the frontend trace the poles of all planes that touch the error cone
-/

namespace Attitude.Props

open Attitude Frontend

/-- How far the points of a pole curve of the frontend can be apart from a pole. -/
noncomputable def Spec.rootPoleGap (d : Vec 3) (n : ℕ) : ℝ :=
  (max (d 0) (d 1) / min (d 0) (d 1)) ^ 2 * (Real.pi * Real.sqrt (2 / n))

/-- The vector behind a pole at an angle. -/
noncomputable def poleAt (cov : Vec 3) (k σ a : ℝ) : Vec 3 :=
  poleVec cov k σ (Real.sqrt (cov 1) * Real.cos a) (Real.sqrt (cov 0) * Real.sin a)

lemma lengths_close (p q p' q' : ℝ) :
    (Real.sqrt (p' ^ 2 + q' ^ 2) - Real.sqrt (p ^ 2 + q ^ 2)) ^ 2 ≤ (p' - p) ^ 2 + (q' - q) ^ 2 := by
  have hf := Real.sq_sqrt (show 0 ≤ p ^ 2 + q ^ 2 by positivity)
  have hf' := Real.sq_sqrt (show 0 ≤ p' ^ 2 + q' ^ 2 by positivity)
  have hprod : p * p' + q * q' ≤ Real.sqrt (p ^ 2 + q ^ 2) * Real.sqrt (p' ^ 2 + q' ^ 2) := by
    apply le_of_sq_le_sq' _ (by positivity)
    rw [mul_pow, hf, hf']
    nlinarith [sq_nonneg (p * q' - q * p')]
  nlinarith

/-- Vectors at close angles are close. -/
lemma poleAt_close {cov : Vec 3} (h0 : 0 < cov 0) (h1 : 0 < cov 1) {m M : ℝ} (hm : 0 < m)
    (hm0 : m ≤ Real.sqrt (cov 0)) (hm1 : m ≤ Real.sqrt (cov 1)) (hM0 : Real.sqrt (cov 0) ≤ M)
    (hM1 : Real.sqrt (cov 1) ≤ M) (k : ℝ) {σ : ℝ} (hσ : σ ^ 2 = 1) (a b : ℝ) :
    Attitude.norm (fun i => poleAt cov k σ b i - poleAt cov k σ a i)
      ≤ M / m * Real.sqrt (M ^ 2 + (k * Real.sqrt (cov 2)) ^ 2) * |a - b| := by
  have hs0 : 0 < Real.sqrt (cov 0) := Real.sqrt_pos.2 h0
  have hs1 : 0 < Real.sqrt (cov 1) := Real.sqrt_pos.2 h1
  have hM : 0 < M := hs0.trans_le hM0
  apply le_of_sq_le_sq' _ (by positivity)
  rw [Stereonet.norm_sq3, mul_pow, mul_pow, sq_abs, Real.sq_sqrt (by positivity)]
  simp only [poleAt, poleVec, Matrix.cons_val_zero, Matrix.cons_val_one, Matrix.cons_val]
  obtain ⟨A, hA⟩ : ∃ A, A = k * Real.sqrt (cov 2) := ⟨_, rfl⟩
  rw [← hA]
  set d0 := Real.sqrt (cov 0)
  set d1 := Real.sqrt (cov 1)
  set ca := Real.cos a with hca
  set sa := Real.sin a with hsa
  set cb := Real.cos b with hcb
  set sb := Real.sin b with hsb
  have k2 : (cb - ca) ^ 2 + (sb - sa) ^ 2 ≤ (a - b) ^ 2 := by
    have hc := Real.one_sub_sq_div_two_le_cos (x := a - b)
    rw [Real.cos_sub] at hc
    have ha := Real.sin_sq_add_cos_sq a
    have hb := Real.sin_sq_add_cos_sq b
    nlinarith
  have r0 : d1 / d0 ≤ M / m := div_le_div₀ hM.le hM1 hm hm0
  have r1 : d0 / d1 ≤ M / m := div_le_div₀ hM.le hM0 hm hm1
  have R1 : 1 ≤ M / m := (one_le_div hm).2 (hm0.trans hM0)
  have q0 : (d1 / d0) ^ 2 ≤ (M / m) ^ 2 := pow_le_pow_left₀ (by positivity) r0 2
  have q1 : (d0 / d1) ^ 2 ≤ (M / m) ^ 2 := pow_le_pow_left₀ (by positivity) r1 2
  have q2 : 1 ≤ (M / m) ^ 2 := by nlinarith
  have e0 : (-(d1 * cb) * k * Real.sqrt (cov 2) / d0 - -(d1 * ca) * k * Real.sqrt (cov 2) / d0) ^ 2
      = (d1 / d0) ^ 2 * (A ^ 2 * (cb - ca) ^ 2) := by rw [hA]; field_simp; ring
  have e1 : (-(d0 * sb) * k * Real.sqrt (cov 2) / d1 - -(d0 * sa) * k * Real.sqrt (cov 2) / d1) ^ 2
      = (d0 / d1) ^ 2 * (A ^ 2 * (sb - sa) ^ 2) := by rw [hA]; field_simp; ring
  rw [e0, e1]
  set p := d1 * ca
  set q := d0 * sa
  set p' := d1 * cb with hp'
  set q' := d0 * sb with hq'
  have e2 : (Real.sqrt (p' ^ 2 + q' ^ 2) * σ - Real.sqrt (p ^ 2 + q ^ 2) * σ) ^ 2
      = (Real.sqrt (p' ^ 2 + q' ^ 2) - Real.sqrt (p ^ 2 + q ^ 2)) ^ 2 := by
    rw [← sub_mul, mul_pow, hσ, mul_one]
  rw [e2]
  have k4 := lengths_close p q p' q'
  have k5 : (p' - p) ^ 2 + (q' - q) ^ 2 ≤ M ^ 2 * ((cb - ca) ^ 2 + (sb - sa) ^ 2) := by
    have a1 : (p' - p) ^ 2 = d1 ^ 2 * (cb - ca) ^ 2 := by rw [hp']; ring
    have a2 : (q' - q) ^ 2 = d0 ^ 2 * (sb - sa) ^ 2 := by rw [hq']; ring
    rw [a1, a2, mul_add]
    exact add_le_add (mul_le_mul_of_nonneg_right (pow_le_pow_left₀ hs1.le hM1 2) (sq_nonneg _))
      (mul_le_mul_of_nonneg_right (pow_le_pow_left₀ hs0.le hM0 2) (sq_nonneg _))
  set D := (cb - ca) ^ 2 + (sb - sa) ^ 2 with hD
  have hD0 : 0 ≤ D := by positivity
  have t0 := mul_le_mul_of_nonneg_right q0 (show 0 ≤ A ^ 2 * (cb - ca) ^ 2 by positivity)
  have t1 := mul_le_mul_of_nonneg_right q1 (show 0 ≤ A ^ 2 * (sb - sa) ^ 2 by positivity)
  have t2 := mul_le_mul_of_nonneg_right q2 (show 0 ≤ M ^ 2 * D by positivity)
  have t3 := mul_le_mul_of_nonneg_left k2 (show 0 ≤ (M / m) ^ 2 * (M ^ 2 + A ^ 2) by positivity)
  calc _ ≤ (M / m) ^ 2 * (A ^ 2 * (cb - ca) ^ 2) + (M / m) ^ 2 * (A ^ 2 * (sb - sa) ^ 2)
        + (M / m) ^ 2 * (M ^ 2 * D) := by linarith
    _ = (M / m) ^ 2 * (M ^ 2 + A ^ 2) * D := by rw [hD]; ring
    _ ≤ _ := t3

lemma poleAt_ge {cov : Vec 3} (h0 : 0 < cov 0) (h1 : 0 < cov 1) {m M : ℝ} (hm : 0 < m)
    (hm0 : m ≤ Real.sqrt (cov 0)) (hm1 : m ≤ Real.sqrt (cov 1)) (hM0 : Real.sqrt (cov 0) ≤ M)
    (hM1 : Real.sqrt (cov 1) ≤ M) (k : ℝ) {σ : ℝ} (hσ : σ ^ 2 = 1) (a : ℝ) :
    m / M * Real.sqrt (M ^ 2 + (k * Real.sqrt (cov 2)) ^ 2) ≤ Attitude.norm (poleAt cov k σ a) := by
  have hs0 : 0 < Real.sqrt (cov 0) := Real.sqrt_pos.2 h0
  have hs1 : 0 < Real.sqrt (cov 1) := Real.sqrt_pos.2 h1
  have hM : 0 < M := hs0.trans_le hM0
  apply le_of_sq_le_sq' _ (norm_nonneg' _)
  rw [Stereonet.norm_sq3, mul_pow, Real.sq_sqrt (by positivity)]
  simp only [poleAt, poleVec, Matrix.cons_val_zero, Matrix.cons_val_one, Matrix.cons_val]
  rw [mul_pow _ σ, hσ, mul_one, Real.sq_sqrt (by positivity)]
  obtain ⟨A, hA⟩ : ∃ A, A = k * Real.sqrt (cov 2) := ⟨_, rfl⟩
  rw [← hA]
  set d0 := Real.sqrt (cov 0)
  set d1 := Real.sqrt (cov 1)
  have r0 : m / M ≤ d1 / d0 := div_le_div₀ hs1.le hm1 hs0 hM0
  have r1 : m / M ≤ d0 / d1 := div_le_div₀ hs0.le hm0 hs1 hM1
  have q0 : (m / M) ^ 2 ≤ (d1 / d0) ^ 2 := pow_le_pow_left₀ (by positivity) r0 2
  have q1 : (m / M) ^ 2 ≤ (d0 / d1) ^ 2 := pow_le_pow_left₀ (by positivity) r1 2
  have e0 : (-(d1 * Real.cos a) * k * Real.sqrt (cov 2) / d0) ^ 2
      = (d1 / d0) ^ 2 * (A ^ 2 * Real.cos a ^ 2) := by rw [hA]; field_simp
  have e1 : (-(d0 * Real.sin a) * k * Real.sqrt (cov 2) / d1) ^ 2
      = (d0 / d1) ^ 2 * (A ^ 2 * Real.sin a ^ 2) := by rw [hA]; field_simp
  rw [e0, e1]
  have t0 := mul_le_mul_of_nonneg_right q0 (show 0 ≤ A ^ 2 * Real.cos a ^ 2 by positivity)
  have t1 := mul_le_mul_of_nonneg_right q1 (show 0 ≤ A ^ 2 * Real.sin a ^ 2 by positivity)
  have u0 := mul_le_mul_of_nonneg_right (pow_le_pow_left₀ hm.le hm1 2) (sq_nonneg (Real.cos a))
  have u1 := mul_le_mul_of_nonneg_right (pow_le_pow_left₀ hm.le hm0 2) (sq_nonneg (Real.sin a))
  have ha := Real.sin_sq_add_cos_sq a
  have e : (m / M) ^ 2 * (M ^ 2 + A ^ 2) = (m / M) ^ 2 * (A ^ 2 * Real.cos a ^ 2)
      + (m / M) ^ 2 * (A ^ 2 * Real.sin a ^ 2) + (m ^ 2 * Real.cos a ^ 2 + m ^ 2 * Real.sin a ^ 2) := by
    field_simp
    linear_combination (-(M ^ 2) - A ^ 2) * ha
  rw [e, mul_pow d1, mul_pow d0]
  linarith

/-- Every unit normal of a plane that touches the cone has an angle. -/
lemma pole_at_angle {cov : Vec 3} (h0 : 0 < cov 0) (h1 : 0 < cov 1) (h2 : 0 < cov 2) {k σ L : ℝ}
    (hσ : σ ^ 2 = 1) (hL : 0 < L) (hk : k ^ 2 = L ^ 2) {x : Vec 3} (hx2 : 0 < σ * x 2)
    (heq : (x 0 * Real.sqrt (cov 0)) ^ 2 + (x 1 * Real.sqrt (cov 1)) ^ 2
      = (L * Real.sqrt (cov 2) * x 2) ^ 2) :
    ∃ r a, 0 < r ∧ -(Real.pi / 2) ≤ a ∧ a < -(Real.pi / 2) + 2 * Real.pi ∧
      ∀ i, x i = r * poleAt cov k σ a i := by
  have hs0 : 0 < Real.sqrt (cov 0) := Real.sqrt_pos.2 h0
  have hs1 : 0 < Real.sqrt (cov 1) := Real.sqrt_pos.2 h1
  have hs2 : 0 < Real.sqrt (cov 2) := Real.sqrt_pos.2 h2
  have hk0 : k ≠ 0 := by
    rintro rfl
    have : 0 < L ^ 2 := by positivity
    rw [← hk] at this; norm_num at this
  have hx20 : x 2 ≠ 0 := by rintro h; rw [h, mul_zero] at hx2; exact lt_irrefl _ hx2
  set d0 := Real.sqrt (cov 0)
  set d1 := Real.sqrt (cov 1)
  set d2 := Real.sqrt (cov 2)
  have hsum : 0 < (x 0 * d0) ^ 2 + (x 1 * d1) ^ 2 := by rw [heq]; positivity
  obtain ⟨R, a, hR, ha, ha', hs, hc⟩ := angle_of_vector (x := -(d1 * x 1) / (d0 * (k * d2)))
    (y := -(d0 * x 0) / (d1 * (k * d2))) (by
      rw [neg_div, neg_div, neg_sq, neg_sq]
      rcases eq_or_ne (x 0) 0 with h | h
      · have : x 1 ≠ 0 := by
          rintro h'
          rw [h, h'] at hsum; norm_num at hsum
        positivity
      · positivity)
  refine ⟨R, a, hR, ha, ha', ?_⟩
  have c0 : x 0 = R * (-(d1 * Real.cos a) * k * d2 / d0) := by
    rw [show R * (-(d1 * Real.cos a) * k * d2 / d0) = -(d1 * k * d2 / d0) * (R * Real.cos a) by ring, hc]
    field_simp
  have c1 : x 1 = R * (-(d0 * Real.sin a) * k * d2 / d1) := by
    rw [show R * (-(d0 * Real.sin a) * k * d2 / d1) = -(d0 * k * d2 / d1) * (R * Real.sin a) by ring, hs]
    field_simp
  intro i
  fin_cases i
  · exact c0
  · exact c1
  · show x 2 = R * (Real.sqrt ((d1 * Real.cos a) ^ 2 + (d0 * Real.sin a) ^ 2) * σ)
    have e : (d1 * Real.cos a) ^ 2 + (d0 * Real.sin a) ^ 2 = (σ * x 2 / R) ^ 2 := by
      have h3 : (x 0 * d0) ^ 2 + (x 1 * d1) ^ 2
          = (R * k * d2) ^ 2 * ((d1 * Real.cos a) ^ 2 + (d0 * Real.sin a) ^ 2) := by
        rw [c0, c1]; field_simp
      rw [h3, show (R * k * d2) ^ 2 = R ^ 2 * k ^ 2 * d2 ^ 2 by ring, hk] at heq
      rw [div_pow, mul_pow σ, hσ, eq_div_iff (by positivity)]
      have h4 : L ^ 2 * d2 ^ 2 ≠ 0 := by positivity
      apply mul_left_cancel₀ h4
      linear_combination heq
    rw [e, Real.sqrt_sq (by positivity)]
    field_simp
    linear_combination -hσ

/-- Every unit normal, on the side of a sheet, of a plane that touches the error cone of a level is
near to a position of the curve of poles of that sheet and level. -/
theorem C259_poles_are_traced (cov : Vec 3) (axes : Mat 3 3) (ho : Spec.OrthonormalRows axes)
    (h0 : 0 < cov 0) (h1 : 0 < cov 1) (h2 : 0 < cov 2) (o : Opts)
    (hu : o.upperHemisphere ≠ some false) (hl : 0 < o.level.getD 1) (hn : 3 ≤ o.n.getD 100) (σ : ℝ)
    (hσ : (o.sheet = none ∨ o.sheet = some "upper") ∧ σ = 1 ∨ o.sheet = some "lower" ∧ σ = -1) :
    ∃ c o', Frontend.normalErrors cov (some axes) o = some (c, o') ∧
      ∀ u, vdot u u = 1 → 0 < σ * vdot u (axes 2) →
        Spec.TangentNormal axes (fun i => Real.sqrt (cov i)) (o.level.getD 1 * Real.sqrt (cov 2)) u →
        ∃ p, some p ∈ c ∧ Attitude.norm (fun j =>
          Spec.shown (o.degrees.getD false) (o.traditionalLayout.getD true) p j - u j)
            ≤ Spec.rootPoleGap (fun i => Real.sqrt (cov i)) (o.n.getD 100) := by
  obtain ⟨hv, hσ2⟩ := pole_scale hσ
  have hN := Frontend.normalErrors_eq axes h0 h1 h2.le hv
  rw [sqrtNum_of_nonneg h0.le, sqrtNum_of_nonneg h1.le, ellipse_angles (by omega), List.map_map] at hN
  refine ⟨_, _, hN, fun u huu hside ht => ?_⟩
  have d0 := Real.sqrt_pos.2 h0
  have d1 := Real.sqrt_pos.2 h1
  have d2 := Real.sqrt_pos.2 h2
  set n := o.n.getD 100 with hn'
  set dir := Spec.shown (o.degrees.getD false) (o.traditionalLayout.getD true) with hdir
  set L := o.level.getD 1 with hL
  set k := σ * hemi o * L with hk
  have hk2 : k ^ 2 = L ^ 2 := by rw [hk, mul_pow, mul_pow, hσ2, hemi_sq]; ring
  have hu0 : u ≠ 0 := by
    rintro rfl
    rw [vdot3] at huu
    simp at huu
  have heq := tangent_equation ho (d := fun i => Real.sqrt (cov i)) d0 d1 (mul_pos hl d2) hu0 ht
  obtain ⟨r, φ, hr, hφ, hφ', hx⟩ := pole_at_angle (x := fun i => vdot u (axes i)) h0 h1 h2 hσ2 hl hk2
    hside heq
  obtain ⟨j, a, hj, hsin, hcos, hclose⟩ := ringAngle_near hn hφ hφ'
  obtain ⟨p, ρ, f, hp, hρ, -, -, hnorm, hd, hρ', -⟩ := pole_position (cov := cov) ho h0 h1 hu
    (Real.cos_sq_add_sin_sq (ringAngle n j)) k hσ2
  refine ⟨p, ?_, ?_⟩
  · simp only [List.mem_map, List.mem_range]
    exact ⟨j, hj, hp⟩
  have hpa : poleVec cov k σ (Real.sqrt (cov 1) * Real.cos (ringAngle n j))
      (Real.sqrt (cov 0) * Real.sin (ringAngle n j)) = poleAt cov k σ a := by
    rw [poleAt, hsin, hcos]
  rw [hpa] at hd hρ'
  have huu' : vdot (fun i => vdot u (axes i)) (fun i => vdot u (axes i)) = 1 := by
    have := Stereonet.toWorld_dot_toWorld ho (fun i => vdot u (axes i)) (fun i => vdot u (axes i))
    rw [toWorld_components ho u, huu] at this
    exact this.symm
  have hxu := direction_of_multiple hr huu' hx
  set m := min (Real.sqrt (cov 0)) (Real.sqrt (cov 1)) with hm'
  set M := max (Real.sqrt (cov 0)) (Real.sqrt (cov 1)) with hM'
  have hm : 0 < m := lt_min d0 d1
  have hM : 0 < M := lt_max_of_lt_left d0
  set S := Real.sqrt (M ^ 2 + (k * Real.sqrt (cov 2)) ^ 2) with hS
  have hS0 : 0 < S := Real.sqrt_pos.2 (by positivity)
  have ga := poleAt_ge h0 h1 hm (min_le_left _ _) (min_le_right _ _) (le_max_left _ _)
    (le_max_right _ _) k hσ2 φ
  have gb := poleAt_ge h0 h1 hm (min_le_left _ _) (min_le_right _ _) (le_max_left _ _)
    (le_max_right _ _) k hσ2 a
  have gpos : 0 < m / M * S := by positivity
  have hcl := directions_close (v := poleAt cov k σ a) (w := poleAt cov k σ φ)
    (gpos.trans_le gb) (gpos.trans_le ga)
  have e : (fun j' => dir p j' - u j')
      = Stereonet.toWorld (fun i => poleAt cov k σ a i / Attitude.norm (poleAt cov k σ a)
        - poleAt cov k σ φ i / Attitude.norm (poleAt cov k σ φ)) axes := by
    funext j'
    have hxa : ∀ i, poleAt cov k σ φ i / Attitude.norm (poleAt cov k σ φ) = vdot u (axes i) :=
      fun i => (congrFun hxu i).symm
    have huj := congrFun (toWorld_components ho u) j'
    rw [show dir p = _ from hd, hρ']
    simp only [Pi.smul_apply, smul_eq_mul, Stereonet.toWorld, Fin.sum_univ_three, hxa] at huj ⊢
    linear_combination huj
  rw [e, Stereonet.norm_toWorld ho]
  refine hcl.trans ?_
  have h3 := (poleAt_close h0 h1 hm (min_le_left _ _) (min_le_right _ _) (le_max_left _ _)
    (le_max_right _ _) k hσ2 φ a).trans (mul_le_mul_of_nonneg_left hclose (by positivity))
  have h4 := div_le_div₀ (by positivity) h3 gpos ga
  calc _ ≤ 2 * (M / m * S * (Real.pi * Real.sqrt (2 / n) / 2) / (m / M * S)) := by linarith
    _ = Spec.rootPoleGap (fun i => Real.sqrt (cov i)) n := by
      unfold Spec.rootPoleGap
      rw [← hm', ← hM']
      field_simp

/-- A dipping plane at a level of 2: the poles of the curve themselves are such normals. -/
example : ∃ c o', Frontend.normalErrors ![9, 4, 1] (some dippingAxes) { level := some 2 } = some (c, o') ∧
    ∃ u : Vec 3, vdot u u = 1 ∧ 0 < 1 * vdot u (dippingAxes 2) ∧
      Spec.TangentNormal dippingAxes (fun i => Real.sqrt ((![9, 4, 1] : Vec 3) i))
        (2 * Real.sqrt ((![9, 4, 1] : Vec 3) 2)) u := by
  obtain ⟨c, o', h, hlen, hc⟩ := C107_poles ![9, 4, 1] dippingAxes dipping_orthonormal (by simp) (by simp)
    (by simp) { level := some 2 } (by simp) (by simp) (by simp) 1 (Or.inl ⟨Or.inl rfl, rfl⟩)
  have hne : c ≠ [] := by intro k; rw [k] at hlen; simp at hlen
  obtain ⟨p, -, hn, hs, ht⟩ := hc (c.head hne) (List.head_mem hne)
  refine ⟨c, o', h, _, ?_, hs, ht⟩
  rw [norm3] at hn
  have := congrArg (· ^ 2) hn
  simp only [one_pow] at this
  rw [Real.sq_sqrt (by positivity)] at this
  rw [vdot3]; linarith

/-- The distance goes to zero. -/
theorem C259_gap (d : Vec 3) : Filter.Tendsto (Spec.rootPoleGap d) Filter.atTop (nhds 0) := by
  have h : Filter.Tendsto (fun n : ℕ => Real.sqrt (2 / (n : ℝ))) Filter.atTop (nhds (Real.sqrt 0)) := by
    refine Filter.Tendsto.sqrt ?_
    exact Filter.Tendsto.const_div_atTop tendsto_natCast_atTop_atTop 2
  rw [Real.sqrt_zero] at h
  have := (h.const_mul Real.pi).const_mul ((max (d 0) (d 1) / min (d 0) (d 1)) ^ 2)
  rw [mul_zero, mul_zero] at this
  exact this

/-- The curves with more and more points come arbitrarily near to every normal of a plane that touches the
error cone. -/
theorem C259_limit (cov : Vec 3) (axes : Mat 3 3) (ho : Spec.OrthonormalRows axes)
    (h0 : 0 < cov 0) (h1 : 0 < cov 1) (h2 : 0 < cov 2) (o : Opts)
    (hu : o.upperHemisphere ≠ some false) (hl : 0 < o.level.getD 1) (σ : ℝ)
    (hσ : (o.sheet = none ∨ o.sheet = some "upper") ∧ σ = 1 ∨ o.sheet = some "lower" ∧ σ = -1)
    (u : Vec 3) (huu : vdot u u = 1) (hside : 0 < σ * vdot u (axes 2))
    (ht : Spec.TangentNormal axes (fun i => Real.sqrt (cov i)) (o.level.getD 1 * Real.sqrt (cov 2)) u)
    (ε : ℝ) (hε : 0 < ε) :
    ∃ N, ∀ n ≥ N, ∃ c o', Frontend.normalErrors cov (some axes) { o with n := some n } = some (c, o') ∧
      ∃ p, some p ∈ c ∧ Attitude.norm (fun j =>
        Spec.shown (o.degrees.getD false) (o.traditionalLayout.getD true) p j - u j) < ε := by
  have hg := C259_gap (fun i => Real.sqrt (cov i))
  obtain ⟨N, hN⟩ := Filter.eventually_atTop.1 (hg.eventually (gt_mem_nhds hε))
  refine ⟨max N 3, fun n hn => ?_⟩
  obtain ⟨c, o', h, hc⟩ := C259_poles_are_traced cov axes ho h0 h1 h2 { o with n := some n } hu hl
    (by simpa using (le_max_right N 3).trans hn) σ hσ
  obtain ⟨p, hp, hd⟩ := hc u huu hside ht
  exact ⟨c, o', h, p, hp, hd.trans_lt (hN n ((le_max_left N 3).trans hn))⟩

/-- The planes that touch the error cone of a dipping plane, as above. -/
example : ∃ u : Vec 3, ∀ ε : ℝ, 0 < ε → ∃ N, ∀ n ≥ N, ∃ c o',
    Frontend.normalErrors ![9, 4, 1] (some dippingAxes) { level := some 2, n := some n } = some (c, o') ∧
      ∃ p, some p ∈ c ∧ Attitude.norm (fun j => Spec.shown false true p j - u j) < ε := by
  obtain ⟨c, o', h, hlen, hc⟩ := C107_poles ![9, 4, 1] dippingAxes dipping_orthonormal (by simp) (by simp)
    (by simp) { level := some 2 } (by simp) (by simp) (by simp) 1 (Or.inl ⟨Or.inl rfl, rfl⟩)
  have hne : c ≠ [] := by intro k; rw [k] at hlen; simp at hlen
  obtain ⟨p, -, hn, hs, ht⟩ := hc (c.head hne) (List.head_mem hne)
  refine ⟨_, fun ε hε => C259_limit ![9, 4, 1] dippingAxes dipping_orthonormal (by simp) (by simp)
    (by simp) { level := some 2 } (by simp) (by simp) 1 (Or.inl ⟨Or.inl rfl, rfl⟩) _ ?_ hs ht ε hε⟩
  rw [norm3] at hn
  have := congrArg (· ^ 2) hn
  simp only [one_pow] at this
  rw [Real.sq_sqrt (by positivity)] at this
  rw [vdot3]; linarith

end Attitude.Props
