import Verif.Props.OpenCurves

/-!
# C257: how densely the frontend draws its curves

The points of `ellipse` of math.ts L27-61 have equally spaced sines, not equally spaced angles.
-/

namespace Attitude.Props

open Attitude Frontend

/-- How far the points of a curve of the frontend can be apart from the cone: it falls with the root
of the number of points. -/
noncomputable def Spec.rootGap (d : Vec 3) (n : ℕ) : ℝ :=
  max (d 0) (d 1) / min (d 0) (d 1) * (Real.pi * Real.sqrt (2 / n))

/-- Angles of close sines. -/
lemma angle_step {a b δ : ℝ} (ha : -(Real.pi / 2) ≤ a) (hab : a ≤ b) (hb : b ≤ Real.pi / 2)
    (h : Real.sin b - Real.sin a ≤ 2 * δ) : b - a ≤ Real.pi * Real.sqrt δ := by
  have hp := Real.pi_pos
  set x := b - a with hx
  have hx0 : 0 ≤ x := by linarith
  have hs0 : 0 ≤ Real.sin (x / 2) := Real.sin_nonneg_of_nonneg_of_le_pi (by linarith) (by linarith)
  have hcos : Real.sin (x / 2) ≤ Real.cos ((a + b) / 2) := by
    rw [← Real.cos_pi_div_two_sub]
    rcases le_total 0 ((a + b) / 2) with k | k
    · exact Real.cos_le_cos_of_nonneg_of_le_pi k (by linarith) (by linarith)
    · rw [← Real.cos_neg ((a + b) / 2)]
      exact Real.cos_le_cos_of_nonneg_of_le_pi (by linarith) (by linarith) (by linarith)
  have hdiff : Real.sin b - Real.sin a = 2 * Real.sin (x / 2) * Real.cos ((a + b) / 2) := by
    rw [Real.sin_sub_sin, add_comm b a, hx]
  have h1 : Real.sin (x / 2) ^ 2 ≤ δ := by nlinarith
  have h2 : 2 / Real.pi * (x / 2) ≤ Real.sin (x / 2) := Real.mul_le_sin (by linarith) (by linarith)
  have h3 : x / Real.pi ≤ Real.sin (x / 2) := by
    have : 2 / Real.pi * (x / 2) = x / Real.pi := by field_simp
    linarith
  have h4 : x / Real.pi ≤ Real.sqrt δ :=
    Real.le_sqrt_of_sq_le ((pow_le_pow_left₀ (by positivity) h3 2).trans h1)
  rw [div_le_iff₀ hp] at h4
  linarith

/-- Steps between neighbours. -/
lemma ringAngle_short {n : ℕ} (hn : 3 ≤ n) {j : ℕ} (hj : j + 1 < 2 * ((n + 1) / 2)) :
    ringAngle n (j + 1) - ringAngle n j ≤ Real.pi * Real.sqrt (2 / n) := by
  have hnp : (0 : ℝ) < n := by exact_mod_cast (by omega : 0 < n)
  have hst : 2 / ((n : ℝ) / 2) = 4 / n := by field_simp; ring
  have hsin : ∀ i, i < (n + 1) / 2 → Real.sin (Real.arcsin (-1 + (i : ℝ) * (2 / ((n : ℝ) / 2))))
      = -1 + (i : ℝ) * (4 / n) := by
    intro i hi
    rw [Real.sin_arcsin (ring_sine hi).1 (ring_sine hi).2.le, hst]
  have hlow : ∀ i, i + 1 < (n + 1) / 2 →
      Real.arcsin (-1 + ((i + 1 : ℕ) : ℝ) * (2 / ((n : ℝ) / 2)))
        - Real.arcsin (-1 + (i : ℝ) * (2 / ((n : ℝ) / 2))) ≤ Real.pi * Real.sqrt (2 / n) := by
    intro i hi
    refine angle_step (Real.neg_pi_div_two_le_arcsin _) (Real.monotone_arcsin ?_)
      (Real.arcsin_le_pi_div_two _) ?_
    · push_cast
      have : 0 ≤ 2 / ((n : ℝ) / 2) := by positivity
      nlinarith
    · rw [hsin _ hi, hsin _ (by omega)]
      push_cast
      have : 4 / (n : ℝ) = 2 * (2 / n) := by ring
      linarith
  have htop : ∀ i, i + 1 = (n + 1) / 2 →
      Real.pi / 2 - Real.arcsin (-1 + (i : ℝ) * (2 / ((n : ℝ) / 2))) ≤ Real.pi * Real.sqrt (2 / n) := by
    intro i hi
    refine angle_step (Real.neg_pi_div_two_le_arcsin _) (Real.arcsin_le_pi_div_two _) le_rfl ?_
    rw [hsin _ (by omega), Real.sin_pi_div_two]
    have h1 : n ≤ 2 * i + 2 := by omega
    have h2 : (n : ℝ) ≤ 2 * i + 2 := by exact_mod_cast h1
    have h3 : 1 - (-1 + (i : ℝ) * (4 / n)) = (2 * n - 4 * i) / n := by field_simp; ring
    rw [h3, div_le_iff₀ hnp]
    have : 2 * (2 / (n : ℝ)) * n = 4 := by field_simp; ring
    linarith
  unfold ringAngle
  rcases lt_trichotomy (j + 1) ((n + 1) / 2) with h | h | h
  · rw [if_pos (by omega : j < (n + 1) / 2), if_pos h]
    exact hlow j h
  · rw [if_pos (by omega : j < (n + 1) / 2), if_neg (by omega), if_pos h]
    exact htop j h
  · rw [if_neg (by omega : ¬ j + 1 < (n + 1) / 2), if_neg (by omega : j + 1 ≠ (n + 1) / 2)]
    rcases Nat.lt_or_ge ((n + 1) / 2) j with k | k
    · rw [if_neg (by omega : ¬ j < (n + 1) / 2), if_neg (by omega : j ≠ (n + 1) / 2)]
      have := hlow (2 * ((n + 1) / 2) - (j + 1)) (by omega)
      rw [show 2 * ((n + 1) / 2) - (j + 1) + 1 = 2 * ((n + 1) / 2) - j by omega] at this
      linarith
    · have hjK : j = (n + 1) / 2 := by omega
      rw [if_neg (by omega : ¬ j < (n + 1) / 2), if_pos hjK]
      have := htop (2 * ((n + 1) / 2) - (j + 1)) (by omega)
      linarith

/-- The step from the last point to the first. -/
lemma ringAngle_wrap {n : ℕ} (hn : 3 ≤ n) :
    -(Real.pi / 2) + 2 * Real.pi - ringAngle n (2 * ((n + 1) / 2) - 1) ≤ Real.pi * Real.sqrt (2 / n) := by
  have hnp : (0 : ℝ) < n := by exact_mod_cast (by omega : 0 < n)
  have hst : 2 / ((n : ℝ) / 2) = 4 / n := by field_simp; ring
  have hb := ring_sine (n := n) (j := 1) (by omega)
  rw [Nat.cast_one, one_mul] at hb
  have := angle_step (a := -(Real.pi / 2)) (b := Real.arcsin (-1 + 2 / ((n : ℝ) / 2))) (δ := 2 / n) le_rfl
    (Real.neg_pi_div_two_le_arcsin _) (Real.arcsin_le_pi_div_two _) (by
      rw [Real.sin_arcsin hb.1 hb.2.le, Real.sin_neg, Real.sin_pi_div_two, hst]
      have : 4 / (n : ℝ) = 2 * (2 / n) := by ring
      linarith)
  rw [ringAngle_last hn]
  linarith

/-- Every angle has a point within half of the longest step, up to full turns. -/
lemma ringAngle_near {n : ℕ} (hn : 3 ≤ n) {φ : ℝ} (h0 : -(Real.pi / 2) ≤ φ)
    (h1 : φ < -(Real.pi / 2) + 2 * Real.pi) :
    ∃ j a, j < 2 * ((n + 1) / 2) ∧ Real.sin a = Real.sin (ringAngle n j) ∧
      Real.cos a = Real.cos (ringAngle n j) ∧ |φ - a| ≤ Real.pi * Real.sqrt (2 / n) / 2 := by
  rcases le_or_gt φ (ringAngle n (2 * ((n + 1) / 2) - 1)) with h | h
  · obtain ⟨j, hj, k0, k1⟩ := (ringAngle_between hn h0).2 h
    have hs := ringAngle_short hn hj
    rcases le_total (φ - ringAngle n j) (ringAngle n (j + 1) - φ) with k | k
    · refine ⟨j, _, by omega, rfl, rfl, ?_⟩
      rw [abs_of_nonneg (by linarith)]; linarith
    · refine ⟨j + 1, _, hj, rfl, rfl, ?_⟩
      rw [abs_of_nonpos (by linarith)]; linarith
  · have hs := ringAngle_wrap hn
    rcases le_total (φ - ringAngle n (2 * ((n + 1) / 2) - 1)) (-(Real.pi / 2) + 2 * Real.pi - φ) with k | k
    · refine ⟨2 * ((n + 1) / 2) - 1, _, by omega, rfl, rfl, ?_⟩
      rw [abs_of_nonneg (by linarith)]; linarith
    · refine ⟨0, -(Real.pi / 2) + 2 * Real.pi, by omega, ?_, ?_, ?_⟩
      · rw [ringAngle_zero (by omega), Real.sin_add_two_pi]
      · rw [ringAngle_zero (by omega), Real.cos_add_two_pi]
      · rw [abs_of_nonpos (by linarith)]; linarith

/-- Unit vectors with the components of the curve at some angle are near to a point that is drawn. -/
lemma frontend_near {cov : Vec 3} {axes : Mat 3 3} (ho : Spec.OrthonormalRows axes)
    (h0 : 0 < cov 0) (h1 : 0 < cov 1) {o : Opts} (hu : o.upperHemisphere ≠ some false)
    (hn : 3 ≤ o.n.getD 100) {u : Vec 3} (huu : vdot u u = 1) {r : ℝ} (hr : 0 < r)
    (h2 : vdot u (axes 2) = r * (Real.sqrt (cov 2) * side o (sheetOf o) axes))
    (hcirc : (vdot u (axes 0) / (r * Real.sqrt (cov 0))) ^ 2
      + (vdot u (axes 1) / (r * Real.sqrt (cov 1))) ^ 2 = 1) :
    ∃ p, some p ∈ (Frontend.planeErrors cov (some axes) o).1 ∧
      Attitude.norm (fun j => Spec.shown (o.degrees.getD false) (o.traditionalLayout.getD true) p j - u j)
        ≤ Spec.rootGap (fun i => Real.sqrt (cov i)) (o.n.getD 100) := by
  obtain ⟨P, ρ, hc, hP⟩ := girdle_at ho h0 h1 hu (by omega)
  rw [hc]
  set n := o.n.getD 100 with hn'
  set dir := Spec.shown (o.degrees.getD false) (o.traditionalLayout.getD true) with hdir
  set d : Vec 3 := fun i => Real.sqrt (cov i) with hd
  set z := side o (sheetOf o) axes with hz
  have d0 : 0 < d 0 := Real.sqrt_pos.2 h0
  have d1 : 0 < d 1 := Real.sqrt_pos.2 h1
  have hm : 0 < min (d 0) (d 1) := lt_min d0 d1
  have hM : 0 < max (d 0) (d 1) := lt_max_of_lt_left d0
  obtain ⟨R, φ, hR, hφ, hφ', hX, hY⟩ := angle_of_vector (x := vdot u (axes 0) / (r * d 0))
    (y := vdot u (axes 1) / (r * d 1)) (by rw [hcirc]; norm_num)
  have hR1 : R = 1 := by
    have hcirc' : (vdot u (axes 0) / (r * d 0)) ^ 2 + (vdot u (axes 1) / (r * d 1)) ^ 2 = 1 := hcirc
    rw [← hX, ← hY] at hcirc'
    have := Real.sin_sq_add_cos_sq φ
    have hR2 : R ^ 2 = 1 := by linear_combination hcirc' - R ^ 2 * this
    nlinarith
  rw [hR1, one_mul] at hX hY
  obtain ⟨j, a, hj, hsin, hcos, hclose⟩ := ringAngle_near hn hφ hφ'
  refine ⟨P j, List.mem_map.2 ⟨j, List.mem_range.2 hj, rfl⟩, ?_⟩
  obtain ⟨hρ, hnorm, e0, e1, e2⟩ := hP j
  have huu' : ∀ v : Vec 3, vdot v v = vdot (fun i => vdot v (axes i)) (fun i => vdot v (axes i)) := by
    intro v
    have := Stereonet.toWorld_dot_toWorld ho (fun i => vdot v (axes i)) (fun i => vdot v (axes i))
    rwa [toWorld_components ho v] at this
  have hx : (fun i => vdot u (axes i)) = fun i => Stereonet.girdleVec d z (Real.pi / 2 - φ) i
      / Attitude.norm (Stereonet.girdleVec d z (Real.pi / 2 - φ)) := by
    apply direction_of_multiple hr (by rw [← huu', huu])
    intro i
    fin_cases i
    · show vdot u (axes 0) = r * (Real.cos (Real.pi / 2 - φ) * d 0)
      rw [Real.cos_pi_div_two_sub, hX]; field_simp
    · show vdot u (axes 1) = r * (Real.sin (Real.pi / 2 - φ) * d 1)
      rw [Real.sin_pi_div_two_sub, hY]; field_simp
    · show vdot u (axes 2) = r * (z * d 2)
      rw [h2]; simp only [hd]; ring
  have hy : (fun i => vdot (dir (P j)) (axes i)) = fun i => Stereonet.girdleVec d z (Real.pi / 2 - a) i
      / Attitude.norm (Stereonet.girdleVec d z (Real.pi / 2 - a)) := by
    apply direction_of_multiple hρ
    · rw [← huu']
      rw [norm3] at hnorm
      have := congrArg (· ^ 2) hnorm
      simp only [one_pow] at this
      rw [Real.sq_sqrt (by positivity)] at this
      rw [vdot3]; linarith
    · intro i
      fin_cases i
      · show vdot (dir (P j)) (axes 0) = ρ j * (Real.cos (Real.pi / 2 - a) * d 0)
        rw [Real.cos_pi_div_two_sub, hsin, e0]; simp only [hd]; ring
      · show vdot (dir (P j)) (axes 1) = ρ j * (Real.sin (Real.pi / 2 - a) * d 1)
        rw [Real.sin_pi_div_two_sub, hcos, e1]; simp only [hd]; ring
      · show vdot (dir (P j)) (axes 2) = ρ j * (z * d 2)
        rw [e2]; simp only [hd]; ring
  have ga := girdleVec_ge d0 d1 z (Real.pi / 2 - φ)
  have gb := girdleVec_ge d0 d1 z (Real.pi / 2 - a)
  have hcl := directions_close (v := Stereonet.girdleVec d z (Real.pi / 2 - a))
    (w := Stereonet.girdleVec d z (Real.pi / 2 - φ)) (hm.trans_le gb) (hm.trans_le ga)
  have e : (fun j' => dir (P j) j' - u j')
      = Stereonet.toWorld (fun i => vdot (dir (P j)) (axes i) - vdot u (axes i)) axes := by
    conv_lhs =>
      rw [← toWorld_components ho (dir (P j)), ← toWorld_components ho u]
    funext j'
    simp only [Stereonet.toWorld, Fin.sum_univ_three]
    ring
  rw [e, Stereonet.norm_toWorld ho]
  have e' : (fun i => vdot (dir (P j)) (axes i) - vdot u (axes i))
      = fun i => Stereonet.girdleVec d z (Real.pi / 2 - a) i
          / Attitude.norm (Stereonet.girdleVec d z (Real.pi / 2 - a))
        - Stereonet.girdleVec d z (Real.pi / 2 - φ) i
          / Attitude.norm (Stereonet.girdleVec d z (Real.pi / 2 - φ)) := by
    funext i
    rw [← congrFun hy i, ← congrFun hx i]
  rw [e']
  refine hcl.trans ?_
  have h3 := (girdleVec_close d0 d1 z (Real.pi / 2 - φ) (Real.pi / 2 - a)).trans
    (mul_le_mul_of_nonneg_left (show |Real.pi / 2 - φ - (Real.pi / 2 - a)|
      ≤ Real.pi * Real.sqrt (2 / n) / 2 by
        rw [show Real.pi / 2 - φ - (Real.pi / 2 - a) = -(φ - a) by ring, abs_neg]; exact hclose) hM.le)
  have hp := Real.pi_pos
  have h4 := div_le_div₀ (by positivity) h3 hm ga
  calc _ ≤ 2 * (max (d 0) (d 1) * (Real.pi * Real.sqrt (2 / n) / 2) / min (d 0) (d 1)) := by linarith
    _ = Spec.rootGap d n := by unfold Spec.rootGap; field_simp

/-- Every direction of the error cone on the side of a sheet is near to a point that is drawn. -/
theorem C257_cone_is_traced (cov : Vec 3) (axes : Mat 3 3) (ho : Spec.OrthonormalRows axes)
    (h0 : 0 < cov 0) (h1 : 0 < cov 1) (h2 : 0 < cov 2) (o : Opts)
    (hu : o.upperHemisphere ≠ some false) (hn : 3 ≤ o.n.getD 100) (σ : ℝ)
    (hσ : o.sheet = some "upper" ∧ σ = (if axes 2 2 < 0 then 1 else -1) ∨
      o.sheet = some "lower" ∧ σ = (if axes 2 2 < 0 then -1 else 1)) (u : Vec 3) (huu : vdot u u = 1)
    (hcone : u ∈ Spec.HalfCone axes (fun i => Real.sqrt (cov i)) (Real.sqrt (cov 2)) σ) :
    ∃ p, some p ∈ (Frontend.planeErrors cov (some axes) o).1 ∧
      Attitude.norm (fun j => Spec.shown (o.degrees.getD false) (o.traditionalLayout.getD true) p j - u j)
        ≤ Spec.rootGap (fun i => Real.sqrt (cov i)) (o.n.getD 100) := by
  have hside : side o (sheetOf o) axes = σ ∧ σ ^ 2 = 1 := by
    have hu' := upper_getD hu
    rcases hσ with ⟨h, rfl⟩ | ⟨h, rfl⟩
    · rw [sheet_upper h]
      simp only [side, planeScale, hu', if_true, Option.getD_some]
      by_cases k : axes 2 2 < 0 <;> simp [k]
    · rw [sheet_lower h]
      simp only [side, planeScale, hu', if_true]
      by_cases k : axes 2 2 < 0 <;> simp [k]
  obtain ⟨hside, hσ2⟩ := hside
  have d0 := Real.sqrt_pos.2 h0
  have d1 := Real.sqrt_pos.2 h1
  have d2 := Real.sqrt_pos.2 h2
  obtain ⟨hc, hpos⟩ := hcone
  simp only [Spec.ErrorCone, Set.mem_ofPred_eq] at hc
  set x0 := vdot u (axes 0)
  set x1 := vdot u (axes 1)
  set x2 := vdot u (axes 2)
  have hr : 0 < σ * x2 / Real.sqrt (cov 2) := div_pos hpos d2
  refine frontend_near ho h0 h1 hu hn huu hr ?_ ?_
  · rw [hside]
    field_simp
    rw [hσ2, one_mul]
  · set a := Real.sqrt (cov 0)
    set b := Real.sqrt (cov 1)
    set c := Real.sqrt (cov 2)
    have hx2 : x2 ^ 2 ≠ 0 := by
      intro h
      rw [sq_eq_zero_iff] at h
      rw [h, mul_zero] at hpos
      exact lt_irrefl _ hpos
    have e0 : x0 / (σ * x2 / c * a) = (c * (x0 / a)) / (σ * x2) := by field_simp
    have e1 : x1 / (σ * x2 / c * b) = (c * (x1 / b)) / (σ * x2) := by field_simp
    show (x0 / (σ * x2 / c * a)) ^ 2 + (x1 / (σ * x2 / c * b)) ^ 2 = 1
    rw [e0, e1, div_pow, div_pow, ← add_div, hc, mul_pow, hσ2, one_mul, div_self hx2]

/-- A direction of the cone of a dipping plane, on the side of the sheet called upper. -/
example : ∃ u : Vec 3, vdot u u = 1 ∧ u ∈ Spec.HalfCone dippingAxes
    (fun i => Real.sqrt ((![9, 4, 1] : Vec 3) i)) (Real.sqrt ((![9, 4, 1] : Vec 3) 2))
    (if dippingAxes 2 2 < 0 then 1 else -1) := by
  have h9 : Real.sqrt 9 = 3 := by rw [show (9 : ℝ) = 3 ^ 2 by norm_num, Real.sqrt_sq (by norm_num)]
  have h10 : Real.sqrt 10 ^ 2 = 10 := Real.sq_sqrt (by norm_num)
  have hp : 0 < Real.sqrt 10 := Real.sqrt_pos.2 (by norm_num)
  obtain ⟨σ, hσ, h1⟩ : ∃ σ : ℝ, (if dippingAxes 2 2 < 0 then (1 : ℝ) else -1) = σ ∧ σ ^ 2 = 1 := by
    refine ⟨_, rfl, ?_⟩
    split_ifs <;> norm_num
  rw [hσ]
  set e : Vec 3 := ![3 / Real.sqrt 10, 0, σ / Real.sqrt 10] with he
  have hc : ∀ i, vdot (Stereonet.toWorld e dippingAxes) (dippingAxes i) = e i :=
    Stereonet.toWorld_dot dipping_orthonormal e
  refine ⟨Stereonet.toWorld e dippingAxes, ?_, ?_, ?_⟩
  · rw [Stereonet.toWorld_dot_toWorld dipping_orthonormal, vdot3, he]
    simp only [Matrix.cons_val_zero, Matrix.cons_val_one, Matrix.cons_val]
    field_simp
    rw [h10, h1]; norm_num
  · simp only [Spec.ErrorCone, Set.mem_ofPred_eq]
    rw [hc 0, hc 1, hc 2, he]
    simp only [Matrix.cons_val_zero, Matrix.cons_val_one, Matrix.cons_val, Real.sqrt_one, h9]
    field_simp
    rw [h1]; norm_num
  · rw [hc, he]
    simp only [Matrix.cons_val]
    rw [← mul_div_assoc, ← sq, h1]
    positivity

/-- A dipping plane with 1000 points: the distance is at most 0.22. -/
example : Spec.OrthonormalRows dippingAxes ∧
    Spec.rootGap (fun i => Real.sqrt ((![9, 4, 1] : Vec 3) i)) 1000 ≤ 0.22 := by
  refine ⟨dipping_orthonormal, ?_⟩
  have h9 : Real.sqrt 9 = 3 := by rw [show (9 : ℝ) = 3 ^ 2 by norm_num, Real.sqrt_sq (by norm_num)]
  have h4 : Real.sqrt 4 = 2 := by rw [show (4 : ℝ) = 2 ^ 2 by norm_num, Real.sqrt_sq (by norm_num)]
  have hs : Real.sqrt (2 / 1000) ≤ 0.0448 := Real.sqrt_le_iff.2 ⟨by norm_num, by norm_num⟩
  have hp := Real.pi_lt_d2
  have hp0 := Real.pi_pos
  have m1 : max (3 : ℝ) 2 = 3 := by norm_num
  have m2 : min (3 : ℝ) 2 = 2 := by norm_num
  simp only [Spec.rootGap, Matrix.cons_val_zero, Matrix.cons_val_one, h9, h4, m1, m2, Nat.cast_ofNat]
  nlinarith [Real.sqrt_nonneg (2 / 1000 : ℝ)]

/-- Every direction of the plane is near to a point of the nominal curve. -/
theorem C257_plane_is_traced (cov : Vec 3) (axes : Mat 3 3) (ho : Spec.OrthonormalRows axes)
    (h0 : 0 < cov 0) (h1 : 0 < cov 1) (o : Opts) (hu : o.upperHemisphere ≠ some false)
    (hs : o.sheet = none ∨ o.sheet = some "nominal") (hn : 3 ≤ o.n.getD 100) (u : Vec 3)
    (huu : vdot u u = 1) (hz : vdot u (axes 2) = 0) :
    ∃ p, some p ∈ (Frontend.planeErrors cov (some axes) o).1 ∧
      Attitude.norm (fun j => Spec.shown (o.degrees.getD false) (o.traditionalLayout.getD true) p j - u j)
        ≤ Spec.rootGap (fun i => Real.sqrt (cov i)) (o.n.getD 100) := by
  have d0 := Real.sqrt_pos.2 h0
  have d1 := Real.sqrt_pos.2 h1
  have hu1 : vdot u (axes 0) ^ 2 + vdot u (axes 1) ^ 2 = 1 := by
    have := Stereonet.toWorld_dot_toWorld ho (fun i => vdot u (axes i)) (fun i => vdot u (axes i))
    rw [toWorld_components ho u, huu, vdot3, hz] at this
    linarith
  have hpos : 0 < (vdot u (axes 0) / Real.sqrt (cov 0)) ^ 2 + (vdot u (axes 1) / Real.sqrt (cov 1)) ^ 2 := by
    rcases eq_or_ne (vdot u (axes 0)) 0 with k | k
    · rw [k] at hu1 ⊢
      have : vdot u (axes 1) ≠ 0 := by intro k'; rw [k'] at hu1; norm_num at hu1
      positivity
    · positivity
  have hr := Real.sqrt_pos.2 hpos
  refine frontend_near ho h0 h1 hu hn huu hr ?_ ?_
  · rw [hz, sheet_nominal hs]
    simp [side, planeScale]
  · set r := Real.sqrt ((vdot u (axes 0) / Real.sqrt (cov 0)) ^ 2 + (vdot u (axes 1) / Real.sqrt (cov 1)) ^ 2)
      with hr'
    have hsq : r ^ 2 = (vdot u (axes 0) / Real.sqrt (cov 0)) ^ 2 + (vdot u (axes 1) / Real.sqrt (cov 1)) ^ 2 :=
      Real.sq_sqrt hpos.le
    have e0 : vdot u (axes 0) / (r * Real.sqrt (cov 0)) = vdot u (axes 0) / Real.sqrt (cov 0) / r := by field_simp
    have e1 : vdot u (axes 1) / (r * Real.sqrt (cov 1)) = vdot u (axes 1) / Real.sqrt (cov 1) / r := by field_simp
    rw [e0, e1, div_pow _ r, div_pow _ r, ← add_div, ← hsq, div_self (by positivity)]

/-- The first axis of a dipping plane. -/
example : ∃ u : Vec 3, vdot u u = 1 ∧ vdot u (dippingAxes 2) = 0 := by
  refine ⟨dippingAxes 0, ?_, ?_⟩
  · rw [dipping_orthonormal 0 0]; simp
  · rw [dipping_orthonormal 0 2]; simp

/-- The distance goes to zero. -/
theorem C257_gap (d : Vec 3) : Filter.Tendsto (Spec.rootGap d) Filter.atTop (nhds 0) := by
  have h : Filter.Tendsto (fun n : ℕ => Real.sqrt (2 / (n : ℝ))) Filter.atTop (nhds (Real.sqrt 0)) := by
    refine Filter.Tendsto.sqrt ?_
    exact Filter.Tendsto.const_div_atTop tendsto_natCast_atTop_atTop 2
  rw [Real.sqrt_zero] at h
  have := (h.const_mul Real.pi).const_mul (max (d 0) (d 1) / min (d 0) (d 1))
  rw [mul_zero, mul_zero] at this
  exact this

/-- The distance is not better: with equal errors in the plane there are directions of the plane that are
further than `√(2/n)` from all points (the curves of Python come within `2π/(n-1)`, `C249_plane_is_traced`). -/
theorem C257_coarse_false (cov : Vec 3) (axes : Mat 3 3) (ho : Spec.OrthonormalRows axes)
    (h0 : 0 < cov 0) (h1 : cov 1 = cov 0) (o : Opts) (hu : o.upperHemisphere ≠ some false)
    (hs : o.sheet = none ∨ o.sheet = some "nominal") (hn : 3 ≤ o.n.getD 100) :
    ∃ u, vdot u u = 1 ∧ vdot u (axes 2) = 0 ∧ ∀ p, some p ∈ (Frontend.planeErrors cov (some axes) o).1 →
      Real.sqrt (2 / (o.n.getD 100 : ℝ)) ≤ Attitude.norm (fun j =>
        Spec.shown (o.degrees.getD false) (o.traditionalLayout.getD true) p j - u j) := by
  obtain ⟨P, ρ, hc, hP⟩ := girdle_at ho h0 (h1 ▸ h0) hu (by omega)
  rw [hc]
  set n := o.n.getD 100 with hn'
  set dir := Spec.shown (o.degrees.getD false) (o.traditionalLayout.getD true) with hdir
  have hnp : (0 : ℝ) < n := by exact_mod_cast (by omega : 0 < n)
  have hp := Real.pi_pos
  obtain ⟨e0, e1⟩ := ringAngle_end hn
  set x := -(Real.pi / 2) + 2 * Real.pi - ringAngle n (2 * ((n + 1) / 2) - 1) with hx
  have hx0 : 0 < x := by linarith
  have hcosx : Real.cos x = 1 - 4 / n := by
    have hb := ring_sine (n := n) (j := 1) (by omega)
    rw [Nat.cast_one, one_mul] at hb
    rw [hx, ringAngle_last hn, show -(Real.pi / 2) + 2 * Real.pi - (Real.pi - Real.arcsin (-1 + 2 / ((n : ℝ) / 2)))
      = Real.arcsin (-1 + 2 / ((n : ℝ) / 2)) + Real.pi / 2 by ring, Real.cos_add_pi_div_two,
      Real.sin_arcsin hb.1 hb.2.le]
    field_simp; ring
  set φ := -(Real.pi / 2) - x / 2 with hφ
  set e : Vec 3 := ![Real.sin φ, Real.cos φ, 0] with he
  have hcomp : ∀ i, vdot (Stereonet.toWorld e axes) (axes i) = e i := Stereonet.toWorld_dot ho e
  have hee : vdot e e = 1 := by
    rw [vdot3, he]
    simp only [Matrix.cons_val_zero, Matrix.cons_val_one, Matrix.cons_val]
    have := Real.sin_sq_add_cos_sq φ
    linarith
  refine ⟨Stereonet.toWorld e axes, by rw [Stereonet.toWorld_dot_toWorld ho, hee], by rw [hcomp]; simp [he],
    fun p hmem => ?_⟩
  simp only [List.mem_map, List.mem_range, Option.some.injEq] at hmem
  obtain ⟨j, hj, rfl⟩ := hmem
  obtain ⟨hρ, hnorm, c0, c1, c2⟩ := hP j
  have hpp : vdot (dir (P j)) (dir (P j)) = 1 := by
    rw [norm3] at hnorm
    have := congrArg (· ^ 2) hnorm
    simp only [one_pow] at this
    rw [Real.sq_sqrt (by positivity)] at this
    rw [vdot3]; linarith
  have hz : vdot (dir (P j)) (axes 2) = 0 := by
    rw [c2, sheet_nominal hs]
    simp [side, planeScale]
  have huu' := Stereonet.toWorld_dot_toWorld ho (fun i => vdot (dir (P j)) (axes i))
    (fun i => vdot (dir (P j)) (axes i))
  rw [toWorld_components ho (dir (P j)), hpp, vdot3, hz, c0, c1, h1] at huu'
  have hs0 := Real.sqrt_pos.2 h0
  have hone : ρ j * Real.sqrt (cov 0) = 1 := by
    have := Real.sin_sq_add_cos_sq (ringAngle n j)
    have h2 : (ρ j * Real.sqrt (cov 0)) ^ 2 = 1 := by
      linear_combination -huu' - (ρ j * Real.sqrt (cov 0)) ^ 2 * this
    have := mul_pos hρ hs0
    nlinarith
  have hdot : vdot (dir (P j)) (Stereonet.toWorld e axes) = Real.cos (ringAngle n j - φ) := by
    have h3 := Stereonet.toWorld_dot_toWorld ho (fun i => vdot (dir (P j)) (axes i)) e
    rw [toWorld_components ho (dir (P j)), vdot3 (fun i => vdot (dir (P j)) (axes i)), hz, c0, c1, h1] at h3
    rw [h3, Real.cos_sub, he]
    simp only [Matrix.cons_val_zero, Matrix.cons_val_one, Matrix.cons_val]
    linear_combination (Real.sin (ringAngle n j) * Real.sin φ + Real.cos (ringAngle n j) * Real.cos φ) * hone
  have hcos : Real.cos (ringAngle n j - φ) ≤ Real.cos (x / 2) := by
    have hlow : -(Real.pi / 2) ≤ ringAngle n j := by
      rw [← ringAngle_zero (n := n) (by omega)]
      exact ringAngle_le hn (by omega) hj
    have hhigh : ringAngle n j ≤ ringAngle n (2 * ((n + 1) / 2) - 1) := ringAngle_le hn (by omega) (by omega)
    rcases le_total (ringAngle n j - φ) Real.pi with k | k
    · exact Real.cos_le_cos_of_nonneg_of_le_pi (by linarith) k (by linarith)
    · rw [← Real.cos_two_pi_sub]
      exact Real.cos_le_cos_of_nonneg_of_le_pi (by linarith) (by linarith) (by linarith)
  have hhalf : Real.sin (x / 2) ^ 2 = 2 / n := by
    have := Real.cos_two_mul (x / 2)
    rw [mul_div_cancel₀ x two_ne_zero] at this
    have h4 := Real.sin_sq_add_cos_sq (x / 2)
    rw [hcosx] at this
    have h5 : 4 / (n : ℝ) = 2 * (2 / n) := by ring
    linarith
  have hcospos : 0 ≤ Real.cos (x / 2) := Real.cos_nonneg_of_mem_Icc ⟨by linarith, by linarith⟩
  apply Real.sqrt_le_iff.2
  refine ⟨by rw [norm3]; positivity, ?_⟩
  have hsq : Attitude.norm (fun j' => dir (P j) j' - Stereonet.toWorld e axes j') ^ 2
      = 2 - 2 * Real.cos (ringAngle n j - φ) := by
    have hw : vdot (Stereonet.toWorld e axes) (Stereonet.toWorld e axes) = 1 := by
      rw [Stereonet.toWorld_dot_toWorld ho, hee]
    rw [norm3, Real.sq_sqrt (by positivity)]
    rw [vdot3] at hpp hdot hw
    linear_combination hpp + hw - 2 * hdot
  rw [hsq, ← hhalf]
  have h6 := Real.sin_sq_add_cos_sq (x / 2)
  nlinarith [Real.cos_le_one (x / 2)]

/-- With the default of 100 points a direction of the plane is more than 0.14 (8°) from all points. -/
example : ∃ u, vdot u u = 1 ∧ vdot u (dippingAxes 2) = 0 ∧
    ∀ p, some p ∈ (Frontend.planeErrors ![4, 4, 1] (some dippingAxes) {}).1 →
      0.14 ≤ Attitude.norm (fun j => Spec.shown false true p j - u j) := by
  obtain ⟨u, h1, h2, h3⟩ := C257_coarse_false ![4, 4, 1] dippingAxes dipping_orthonormal (by simp) (by simp) {}
    (by simp) (Or.inl rfl) (by simp)
  refine ⟨u, h1, h2, fun p hp => le_trans ?_ (h3 p hp)⟩
  apply Real.le_sqrt_of_sq_le
  norm_num

end Attitude.Props
