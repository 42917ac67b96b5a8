import Verif.Props.StereonetDual
import Verif.Props.RoundedFit

/-!
# C249: the curves of errors trace the whole error cone

`C67_on_cone` says that the points that are drawn are on the error cone.  Here the other half: no
part of the cone is left out, and with more points the drawing comes arbitrarily close to it.
-/

namespace Attitude.Props

open Attitude Stereonet

/-- How far the points of a curve with `n` points can be apart from the cone. -/
noncomputable def Spec.gap (d : Vec 3) (n : ℕ) : ℝ :=
  2 * Real.pi * max (d 0) (d 1) / (min (d 0) (d 1) * (n - 1))

/-- Some sample of `linspace` is within half a step. -/
lemma linspace_near {n : ℕ} (hn : 2 ≤ n) {a : ℝ} (h0 : 0 ≤ a) (h1 : a ≤ 2 * Real.pi) :
    ∃ k < n, |a - linspace n k| ≤ Real.pi / (n - 1) := by
  have hpi := Real.pi_pos
  have hm : (0 : ℝ) < (n : ℝ) - 1 := by
    have : (2 : ℝ) ≤ n := by exact_mod_cast hn
    linarith
  set x := a * (n - 1) / (2 * Real.pi) with hx
  have hx0 : 0 ≤ x := by positivity
  have hx1 : x ≤ n - 1 := by
    rw [hx, div_le_iff₀ (by positivity)]
    nlinarith
  have hf1 := Nat.floor_le (show (0 : ℝ) ≤ x + 1 / 2 by linarith)
  have hf2 := Nat.lt_floor_add_one (x + 1 / 2)
  refine ⟨⌊x + 1 / 2⌋₊, ?_, ?_⟩
  · have : (⌊x + 1 / 2⌋₊ : ℝ) < n := by linarith
    exact_mod_cast this
  · have hne : n ≠ 1 := by omega
    have e : a - linspace n ⌊x + 1 / 2⌋₊ = (x - ⌊x + 1 / 2⌋₊) * (2 * Real.pi / (n - 1)) := by
      rw [linspace, if_neg hne, hx]
      field_simp
    rw [e, abs_mul, abs_of_pos (show (0 : ℝ) < 2 * Real.pi / (n - 1) by positivity)]
    have : |x - ⌊x + 1 / 2⌋₊| ≤ 1 / 2 := by
      rw [abs_le]; constructor <;> linarith
    calc _ ≤ 1 / 2 * (2 * Real.pi / (n - 1)) := mul_le_mul_of_nonneg_right this (by positivity)
      _ = _ := by ring

/-- An angle for a point of the unit circle. -/
lemma angle_of_circle {x y : ℝ} (h : x ^ 2 + y ^ 2 = 1) :
    ∃ a, 0 ≤ a ∧ a ≤ 2 * Real.pi ∧ Real.cos a = x ∧ Real.sin a = y := by
  have hc := sqrt_mul_cos_arctan2 y x
  have hs := sqrt_mul_sin_arctan2 y x
  rw [h, Real.sqrt_one, one_mul] at hc hs
  have l1 := arctan2_le_pi y x
  have l2 := neg_pi_lt_arctan2 y x
  rcases le_total 0 (arctan2 y x) with h | h
  · exact ⟨_, h, by linarith, hc, hs⟩
  · exact ⟨arctan2 y x + 2 * Real.pi, by linarith, by linarith, by rw [Real.cos_add_two_pi, hc],
      by rw [Real.sin_add_two_pi, hs]⟩

lemma girdleVec_close {d : Vec 3} (h0 : 0 < d 0) (h1 : 0 < d 1) (c a b : ℝ) :
    norm (fun i => girdleVec d c b i - girdleVec d c a i) ≤ max (d 0) (d 1) * |a - b| := by
  have hM : 0 < max (d 0) (d 1) := lt_max_of_lt_left h0
  apply le_of_sq_le_sq _ (by positivity)
  rw [norm_sq3, mul_pow, sq_abs]
  simp only [girdleVec, Matrix.cons_val_zero, Matrix.cons_val_one, Matrix.cons_val]
  have hc := Real.one_sub_sq_div_two_le_cos (x := a - b)
  rw [Real.cos_sub] at hc
  have m0 : d 0 ^ 2 ≤ max (d 0) (d 1) ^ 2 := pow_le_pow_left₀ h0.le (le_max_left _ _) 2
  have m1 : d 1 ^ 2 ≤ max (d 0) (d 1) ^ 2 := pow_le_pow_left₀ h1.le (le_max_right _ _) 2
  have ha := Real.sin_sq_add_cos_sq a
  have hb := Real.sin_sq_add_cos_sq b
  have k0 := mul_le_mul_of_nonneg_right m0 (sq_nonneg (Real.cos b - Real.cos a))
  have k1 := mul_le_mul_of_nonneg_right m1 (sq_nonneg (Real.sin b - Real.sin a))
  have k2 : (Real.cos b - Real.cos a) ^ 2 + (Real.sin b - Real.sin a) ^ 2 ≤ (a - b) ^ 2 := by
    nlinarith
  have k3 := mul_le_mul_of_nonneg_left k2 (sq_nonneg (max (d 0) (d 1)))
  nlinarith

lemma girdleVec_ge {d : Vec 3} (h0 : 0 < d 0) (h1 : 0 < d 1) (c a : ℝ) :
    min (d 0) (d 1) ≤ norm (girdleVec d c a) := by
  have hm : 0 < min (d 0) (d 1) := lt_min h0 h1
  apply le_of_sq_le_sq _ (norm_nonneg' _)
  rw [norm_sq3]
  simp only [girdleVec, Matrix.cons_val_zero, Matrix.cons_val_one, Matrix.cons_val]
  have m0 : min (d 0) (d 1) ^ 2 ≤ d 0 ^ 2 := pow_le_pow_left₀ hm.le (min_le_left _ _) 2
  have m1 : min (d 0) (d 1) ^ 2 ≤ d 1 ^ 2 := pow_le_pow_left₀ hm.le (min_le_right _ _) 2
  have ha := Real.sin_sq_add_cos_sq a
  have k0 := mul_le_mul_of_nonneg_right m0 (sq_nonneg (Real.cos a))
  have k1 := mul_le_mul_of_nonneg_right m1 (sq_nonneg (Real.sin a))
  nlinarith [sq_nonneg (c * d 2)]

lemma norm_div_self {v : Vec 3} (hv : 0 < norm v) : norm (fun i => v i / norm v) = 1 := by
  have : (fun i => v i / norm v) = fun i => (1 / norm v) * v i := by funext i; ring
  rw [this, norm_smul', abs_of_pos (by positivity)]
  field_simp

/-- Directions of close vectors are close. -/
lemma directions_close {v w : Vec 3} (hv : 0 < norm v) (hw : 0 < norm w) :
    norm (fun i => v i / norm v - w i / norm w) ≤ 2 * (norm (fun i => v i - w i) / norm w) := by
  set η := norm (fun i => v i - w i) / norm w with hη
  have hs : norm (fun i => v i / norm w - w i / norm w) = η := by
    have : (fun i => v i / norm w - w i / norm w) = fun i => (1 / norm w) * (v i - w i) := by
      funext i; ring
    rw [this, norm_smul', abs_of_pos (by positivity), hη]
    ring
  rcases lt_or_ge η 1 with h | h
  · have hnv : norm (fun i => v i / norm w) = norm v / norm w := by
      have : (fun i => v i / norm w) = fun i => (1 / norm w) * v i := by funext i; ring
      rw [this, norm_smul', abs_of_pos (by positivity)]
      ring
    have := (unit_close (norm_div_self hw) hs.le h).2
    have e : (fun i => v i / norm w / norm (fun i => v i / norm w) - w i / norm w)
        = fun i => v i / norm v - w i / norm w := by
      funext i
      rw [hnv, div_div_div_cancel_right₀ hw.ne']
    rwa [e] at this
  · have := norm_add_le' (fun i => v i / norm v) (fun i => -(w i / norm w))
    have e : norm (fun i => -(w i / norm w)) = norm (fun i => w i / norm w) := by
      unfold norm; simp only [neg_sq]
    rw [e, norm_div_self hv, norm_div_self hw] at this
    have e2 : (fun i => v i / norm v + -(w i / norm w)) = fun i => v i / norm v - w i / norm w := by
      funext i; ring
    rw [e2] at this
    linarith

/-- A direction over the angle `a` is near to one of the samples. -/
lemma sample_near {axes : Mat 3 3} (ho : Spec.OrthonormalRows axes) {d : Vec 3} (h0 : 0 < d 0)
    (h1 : 0 < d 1) (t : Bool) (c : ℝ) {n : ℕ} (hn : 2 ≤ n) {a : ℝ} (ha0 : 0 ≤ a)
    (ha1 : a ≤ 2 * Real.pi) :
    ∃ p, some p ∈ (angles n).map (fun a => planeLonLat t (toWorld (girdleVec d c a) axes)) ∧
      norm (fun j => Spec.direction t p j
        - toWorld (fun i => girdleVec d c a i / norm (girdleVec d c a)) axes j) ≤ Spec.gap d n := by
  obtain ⟨k, hk, hka⟩ := linspace_near hn ha0 ha1
  obtain ⟨p, hp, hdir, -⟩ := girdle_point ho h0 h1 t c (linspace n k)
  refine ⟨p, List.mem_map.2 ⟨_, mem_angles.2 ⟨k, hk, rfl⟩, hp⟩, ?_⟩
  have hm : 0 < min (d 0) (d 1) := lt_min h0 h1
  have hM : 0 < max (d 0) (d 1) := lt_max_of_lt_left h0
  have hn' : (0 : ℝ) < (n : ℝ) - 1 := by
    have : (2 : ℝ) ≤ n := by exact_mod_cast hn
    linarith
  have ga := girdleVec_ge h0 h1 c a
  have gb := girdleVec_ge h0 h1 c (linspace n k)
  have hcl := directions_close (v := girdleVec d c (linspace n k)) (w := girdleVec d c a)
    (hm.trans_le gb) (hm.trans_le ga)
  have e : (fun j => Spec.direction t p j
      - toWorld (fun i => girdleVec d c a i / norm (girdleVec d c a)) axes j)
      = toWorld (fun i => girdleVec d c (linspace n k) i / norm (girdleVec d c (linspace n k))
        - girdleVec d c a i / norm (girdleVec d c a)) axes := by
    funext j
    rw [hdir]
    simp only [Pi.smul_apply, smul_eq_mul, toWorld, Fin.sum_univ_three]
    ring
  rw [e, norm_toWorld ho]
  refine hcl.trans ?_
  have h3 := (girdleVec_close h0 h1 c a (linspace n k)).trans
    (mul_le_mul_of_nonneg_left hka hM.le)
  have h4 : norm (fun i => girdleVec d c (linspace n k) i - girdleVec d c a i)
      / norm (girdleVec d c a) ≤ max (d 0) (d 1) * (Real.pi / (n - 1)) / min (d 0) (d 1) :=
    div_le_div₀ (by positivity) h3 hm ga
  calc _ ≤ 2 * (max (d 0) (d 1) * (Real.pi / (n - 1)) / min (d 0) (d 1)) := by linarith
    _ = Spec.gap d n := by unfold Spec.gap; field_simp

/-- Vectors from their components along orthonormal axes. -/
lemma toWorld_components {axes : Mat 3 3} (ho : Spec.OrthonormalRows axes) (u : Vec 3) :
    toWorld (fun i => vdot u (axes i)) axes = u := (decompose ho u).symm

/-- A unit vector is the direction of its multiples. -/
lemma direction_of_multiple {u v : Vec 3} {r : ℝ} (hr : 0 < r) (hu : vdot u u = 1)
    (h : ∀ i, u i = r * v i) : u = fun i => v i / norm v := by
  have hn : norm u = 1 := by
    rw [norm3]
    rw [vdot3] at hu
    rw [show u 0 ^ 2 + u 1 ^ 2 + u 2 ^ 2 = 1 by linarith, Real.sqrt_one]
  have e : u = fun i => r * v i := funext h
  rw [e, norm_smul', abs_of_pos hr] at hn
  funext i
  have hv : norm v ≠ 0 := by intro h; rw [h] at hn; norm_num at hn
  rw [h i, eq_div_iff hv]
  linear_combination v i * hn

/-- Every direction of the error cone on the side of a sheet (the sheet called upper is the lower
one, C87) is within the gap of a point that is drawn. -/
theorem C249_cone_is_traced (axes : Mat 3 3) (ho : Spec.OrthonormalRows axes) (hv : axes 2 2 ≠ 0)
    (d : Vec 3) (h0 : 0 < d 0) (h1 : 0 < d 1) (h2 : 0 < d 2) (level : ℝ) (hl : 0 < level)
    (t : Bool) (n : ℕ) (hn : 2 ≤ n) (sheet : String) (hs : sheet = "upper" ∨ sheet = "lower") :
    ∃ c, planeErrors axes (Matrix.diagonal d) sheet { level, traditional := t, n := some n } = .ok c ∧
      c.length = n ∧
      ∀ u, vdot u u = 1 → u ∈ Spec.ErrorCone axes d (2 * level * d 2) →
        (if sheet = "upper" then vdot u (Pca.upward (axes 2)) < 0
          else 0 < vdot u (Pca.upward (axes 2))) →
        ∃ p, some p ∈ c ∧ norm (fun j => Spec.direction t p j - u j) ≤ Spec.gap d n := by
  refine ⟨_, planeErrors_eq axes d sheet rfl, by simp [angles_length], fun u hu hcone hside => ?_⟩
  simp only [Option.getD_some]
  set x : Vec 3 := fun i => vdot u (axes i) with hx
  have hxu : vdot x x = 1 := by
    have := toWorld_dot_toWorld ho x x
    rw [toWorld_components ho u, hu] at this
    exact this.symm
  simp only [Spec.ErrorCone, Set.mem_ofPred_eq] at hcone
  -- the sign of the third component is that of the height
  have hsign : ∃ r, 0 < r ∧ x 2 = r * (height axes sheet level * d 2) := by
    have hpos : 0 < x 2 * (height axes sheet level * d 2) := by
      have hvd : ∀ w : Vec 3, vdot u (-w) = -vdot u w := by intro w; simp [vdot3]; ring
      have key : 0 < x 2 * height axes sheet level := by
        rcases hs with rfl | rfl
        · rw [if_pos rfl] at hside
          rcases lt_or_gt_of_ne hv with h | h
          · rw [Pca.upward, if_pos h, hvd] at hside
            rw [height, if_pos rfl, if_neg (not_lt.2 h.le)]
            exact mul_pos (by simpa [hx] using hside) (by linarith)
          · rw [Pca.upward, if_neg (not_lt.2 (le_of_lt h))] at hside
            rw [height, if_pos rfl, if_pos h]
            exact mul_pos_of_neg_of_neg hside (by linarith)
        · rw [if_neg (by decide)] at hside
          rcases lt_or_gt_of_ne hv with h | h
          · rw [Pca.upward, if_pos h, hvd] at hside
            rw [height, if_neg (by decide), if_pos rfl, if_neg (not_lt.2 h.le)]
            exact mul_pos_of_neg_of_neg (by simpa [hx] using hside) (by linarith)
          · rw [Pca.upward, if_neg (not_lt.2 (le_of_lt h))] at hside
            rw [height, if_neg (by decide), if_pos rfl, if_pos h]
            exact mul_pos hside (by linarith)
      rw [← mul_assoc]
      exact mul_pos key h2
    have hne : height axes sheet level * d 2 ≠ 0 := by
      intro h; rw [h, mul_zero] at hpos; exact lt_irrefl _ hpos
    refine ⟨x 2 / (height axes sheet level * d 2), ?_, by rw [div_mul_cancel₀ _ hne]⟩
    rw [← mul_div_mul_right _ _ hne]
    exact div_pos hpos (mul_self_pos.2 hne)
  obtain ⟨r, hr, hr2⟩ := hsign
  have hh : height axes sheet level ^ 2 = (level * 2) ^ 2 := by
    rcases hs with rfl | rfl <;> unfold height <;> simp
  have hcirc : (x 0 / (r * d 0)) ^ 2 + (x 1 / (r * d 1)) ^ 2 = 1 := by
    have hc : (2 * level * d 2 * (x 0 / d 0)) ^ 2 + (2 * level * d 2 * (x 1 / d 1)) ^ 2
        = x 2 ^ 2 := hcone
    have h4 : (2 * level * d 2) ^ 2 * ((x 0 / d 0) ^ 2 + (x 1 / d 1) ^ 2)
        = (2 * level * d 2) ^ 2 * r ^ 2 := by
      rw [hr2] at hc
      linear_combination hc + r ^ 2 * d 2 ^ 2 * hh
    have h5 := mul_left_cancel₀ (by positivity) h4
    have e0 : x 0 / (r * d 0) = x 0 / d 0 / r := by field_simp
    have e1 : x 1 / (r * d 1) = x 1 / d 1 / r := by field_simp
    rw [e0, e1, div_pow (x 0 / d 0), div_pow (x 1 / d 1), ← add_div, h5]
    exact div_self (by positivity)
  obtain ⟨a, ha0, ha1, hcos, hsin⟩ := angle_of_circle hcirc
  obtain ⟨p, hp, hclose⟩ := sample_near ho h0 h1 t (height axes sheet level) hn ha0 ha1
  refine ⟨p, hp, ?_⟩
  have hdir : x = fun i => girdleVec d (height axes sheet level) a i
      / norm (girdleVec d (height axes sheet level) a) := by
    apply direction_of_multiple hr hxu
    intro i
    fin_cases i
    · show x 0 = r * (Real.cos a * d 0)
      rw [hcos]; field_simp
    · show x 1 = r * (Real.sin a * d 1)
      rw [hsin]; field_simp
    · exact hr2
  rw [← hdir, hx, toWorld_components ho u] at hclose
  exact hclose

/-- A dipping plane: within 0.1 of every direction of the cone there is one of the 100 points. -/
example : ∃ c, planeErrors obliqueAxes (Matrix.diagonal ![3, 2, 1]) "upper"
      { level := 1, traditional := true, n := some 100 } = .ok c ∧
    ∀ u, vdot u u = 1 → u ∈ Spec.ErrorCone obliqueAxes ![3, 2, 1] 2 →
      vdot u (obliqueAxes 2) < 0 →
      ∃ p, some p ∈ c ∧ norm (fun j => Spec.direction true p j - u j) ≤ 1 / 10 := by
  obtain ⟨c, h, -, hc⟩ := C249_cone_is_traced obliqueAxes oblique_orthonormal (by simp [obliqueAxes])
    ![3, 2, 1] (by simp) (by simp) (by simp) 1 one_pos true 100 (by norm_num) "upper" (.inl rfl)
  refine ⟨c, h, fun u hu hcone hside => ?_⟩
  obtain ⟨p, hp, hclose⟩ := hc u hu (by simpa using hcone) (by
    rw [if_pos rfl, Pca.upward, if_neg (by simp [obliqueAxes]; norm_num)]; exact hside)
  refine ⟨p, hp, hclose.trans ?_⟩
  unfold Spec.gap
  have : max (3 : ℝ) 2 = 3 := by norm_num
  have : min (3 : ℝ) 2 = 2 := by norm_num
  simp [*]
  rw [div_le_iff₀ (by norm_num)]
  linarith [Real.pi_lt_d2]

/-- The gap goes to zero. -/
theorem C249_gap (d : Vec 3) : Filter.Tendsto (Spec.gap d) Filter.atTop (nhds 0) := by
  have h : Spec.gap d = fun n : ℕ => (2 * Real.pi * max (d 0) (d 1) / min (d 0) (d 1))
      * ((n : ℝ) - 1)⁻¹ := by
    funext n; unfold Spec.gap; rw [← div_div, div_eq_mul_inv]
  rw [h, ← mul_zero (2 * Real.pi * max (d 0) (d 1) / min (d 0) (d 1))]
  refine Filter.Tendsto.const_mul _ (Filter.Tendsto.comp tendsto_inv_atTop_zero ?_)
  exact Filter.tendsto_atTop_add_const_right _ _ tendsto_natCast_atTop_atTop

/-- The nominal curve comes within the gap of every direction of the plane. -/
theorem C249_plane_is_traced (axes : Mat 3 3) (ho : Spec.OrthonormalRows axes)
    (d : Vec 3) (h0 : 0 < d 0) (h1 : 0 < d 1) (level : ℝ) (t : Bool) (n : ℕ) (hn : 2 ≤ n) :
    ∃ c, planeErrors axes (Matrix.diagonal d) "nominal" { level, traditional := t, n := some n } = .ok c ∧
      c.length = n ∧
      ∀ u, vdot u u = 1 → vdot u (axes 2) = 0 →
        ∃ p, some p ∈ c ∧ norm (fun j => Spec.direction t p j - u j) ≤ Spec.gap d n := by
  refine ⟨_, planeErrors_eq axes d "nominal" rfl, by simp [angles_length], fun u hu hz => ?_⟩
  simp only [Option.getD_some]
  set x : Vec 3 := fun i => vdot u (axes i) with hx
  have hxu : vdot x x = 1 := by
    have := toWorld_dot_toWorld ho x x
    rw [toWorld_components ho u, hu] at this
    exact this.symm
  have hx2 : x 2 = 0 := hz
  have hsum : x 0 ^ 2 + x 1 ^ 2 = 1 := by
    rw [vdot3, hx2] at hxu
    linarith
  have hq : 0 < (x 0 / d 0) ^ 2 + (x 1 / d 1) ^ 2 := by
    rcases eq_or_ne (x 0) 0 with h | h
    · have : x 1 ≠ 0 := by intro h'; rw [h, h'] at hsum; norm_num at hsum
      positivity
    · positivity
  set r := Real.sqrt ((x 0 / d 0) ^ 2 + (x 1 / d 1) ^ 2) with hr
  have hrp : 0 < r := Real.sqrt_pos.2 hq
  have hr2 : r ^ 2 = (x 0 / d 0) ^ 2 + (x 1 / d 1) ^ 2 := Real.sq_sqrt hq.le
  have hcirc : (x 0 / (r * d 0)) ^ 2 + (x 1 / (r * d 1)) ^ 2 = 1 := by
    have e0 : x 0 / (r * d 0) = x 0 / d 0 / r := by field_simp
    have e1 : x 1 / (r * d 1) = x 1 / d 1 / r := by field_simp
    rw [e0, e1, div_pow (x 0 / d 0), div_pow (x 1 / d 1), ← add_div, ← hr2]
    exact div_self (by positivity)
  obtain ⟨a, ha0, ha1, hcos, hsin⟩ := angle_of_circle hcirc
  obtain ⟨p, hp, hclose⟩ := sample_near ho h0 h1 t (height axes "nominal" level) hn ha0 ha1
  refine ⟨p, hp, ?_⟩
  have hdir : x = fun i => girdleVec d (height axes "nominal" level) a i
      / norm (girdleVec d (height axes "nominal" level) a) := by
    apply direction_of_multiple hrp hxu
    intro i
    fin_cases i
    · show x 0 = r * (Real.cos a * d 0)
      rw [hcos]; field_simp
    · show x 1 = r * (Real.sin a * d 1)
      rw [hsin]; field_simp
    · show x 2 = r * (height axes "nominal" level * d 2)
      rw [hx2]; simp [height]
  rw [← hdir, hx, toWorld_components ho u] at hclose
  exact hclose

example : ∃ c, planeErrors obliqueAxes (Matrix.diagonal ![3, 2, 1]) "nominal"
      { level := 1, traditional := true, n := some 100 } = .ok c ∧
    ∃ p, some p ∈ c ∧ norm (fun j => Spec.direction true p j - ![0, 4/5, -3/5] j)
      ≤ Spec.gap ![3, 2, 1] 100 := by
  obtain ⟨c, h, -, hc⟩ := C249_plane_is_traced obliqueAxes oblique_orthonormal
    ![3, 2, 1] (by simp) (by simp) 1 true 100 (by norm_num)
  exact ⟨c, h, hc ![0, 4/5, -3/5] (by rw [vdot3]; simp; norm_num)
    (by rw [vdot3]; simp [obliqueAxes]; norm_num)⟩

/-- The curves are closed: they end where they began. -/
theorem C249_closed (axes cov : Mat 3 3) (sheet : String) (level : ℝ) (t : Bool) (n : ℕ)
    (hn : 2 ≤ n) : ∃ c, planeErrors axes cov sheet { level, traditional := t, n := some n } = .ok c ∧
      c.head? = c.getLast? ∧ c ≠ [] := by
  have hne : n ≠ 1 := by omega
  have hn' : (n : ℝ) - 1 ≠ 0 := by
    have : (2 : ℝ) ≤ n := by exact_mod_cast hn
    intro h; linarith
  have hrun : ∃ f : ℝ → ℝ → Option (ℝ × ℝ), planeErrors axes cov sheet
      { level, traditional := t, n := some n }
      = .ok ((angles n).map fun a => f (Real.cos a) (Real.sin a)) :=
    ⟨fun x y =>
      let res : Vec 3 := fun j => cov 2 j * level * 2
      let res := if axes 2 2 > 0 then -res else res
      let bundle : Vec 3 := fun j => x * cov 0 j + y * cov 1 j
      let bundle := if sheet = "upper" then bundle + res
        else if sheet = "lower" then bundle - res
        else bundle
      planeLonLat t (toWorld bundle axes), rfl⟩
  obtain ⟨f, hf⟩ := hrun
  refine ⟨_, hf, ?_, ?_⟩
  · have l0 : linspace n 0 = 0 := by simp [linspace]
    have l1 : linspace n (n - 1) = 2 * Real.pi := by
      rw [linspace, if_neg hne, Nat.cast_sub (by omega), Nat.cast_one, mul_div_assoc, div_self hn',
        mul_one]
    have hh : (angles n).head? = some 0 := by
      rw [angles, List.head?_map, List.head?_range, if_neg (by omega), Option.map_some, l0]
    have hl : (angles n).getLast? = some (2 * Real.pi) := by
      rw [angles, List.getLast?_map, List.getLast?_range, if_neg (by omega), Option.map_some, l1]
    rw [List.head?_map, List.getLast?_map, hh, hl]
    simp
  · intro h
    have := congrArg List.length h
    simp [angles_length] at this
    omega

example : ∃ c, planeErrors obliqueAxes (Matrix.diagonal ![3, 2, 1]) "upper"
      { level := 1, traditional := true, n := some 100 } = .ok c ∧ c.head? = c.getLast? ∧ c ≠ [] :=
  C249_closed obliqueAxes _ "upper" 1 true 100 (by norm_num)

end Attitude.Props
