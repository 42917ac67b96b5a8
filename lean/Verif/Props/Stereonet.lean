import Verif.Lemmas.Stereonet
import Verif.Props.Reconstructed

/-! # Error curves on the stereonet: C64 - C67, C70 -/

namespace Attitude.Props

open Attitude Stereonet Rotations

namespace Spec

/-- The direction (east, north, up) shown at a position of `plane_errors`.  In the
traditional layout the coordinates are (up, east, north), otherwise
(south, east, up). -/
noncomputable def direction (traditional : Bool) (p : ℝ × ℝ) : Vec 3 :=
  if traditional then ![(sph2cart p.1 p.2).2.1, (sph2cart p.1 p.2).2.2, (sph2cart p.1 p.2).1]
  else ![(sph2cart p.1 p.2).2.1, -(sph2cart p.1 p.2).1, (sph2cart p.1 p.2).2.2]

/-- The double cone of directions that deviate from the plane by the error: over
the unit ellipse with semiaxes `d 0, d 1` it rises by `h`. -/
def ErrorCone (axes : Mat 3 3) (d : Vec 3) (h : ℝ) : Set (Vec 3) :=
  {w | (h * (vdot w (axes 0) / d 0)) ^ 2 + (h * (vdot w (axes 1) / d 1)) ^ 2
    = vdot w (axes 2) ^ 2}

/-- Angular distance of a unit vector from the plane with unit normal `m`. -/
noncomputable def elevation (w m : Vec 3) : ℝ := Real.arcsin |vdot w m|

end Spec

/-! ## C64 -/

/-- The height used by `iterative_plane_errors`. -/
noncomputable def iheight (axes : Mat 3 3) (s : ℝ) : ℝ :=
  if axes 2 2 < 0 then s * 2 else -(s * 2)

lemma iterativePlaneErrors_eq (axes : Mat 3 3) (d : Vec 3) (sheet : String) (o : Options) :
    iterativePlaneErrors axes (diag3 d) sheet o = (scales sheet).map fun s =>
      (angles (o.n.getD 100)).map fun a =>
        planeLonLat true (toWorld (girdleVec d (iheight axes s) a) axes) := by
  unfold iterativePlaneErrors
  cases hs : scales sheet with
  | error e => rfl
  | ok s =>
    simp only [bind, Except.bind, Except.map]
    congr 1
    apply List.map_congr_left
    intro a _
    unfold iheight planeLonLat
    simp only [if_true]
    have : ∀ c : ℝ, (![Real.cos a * diag3 d 0 0, Real.sin a * diag3 d 1 1, c * diag3 d 2 2] : Vec 3)
        = girdleVec d c a := by
      intro c; simp [girdleVec, diag3]
    rw [this]
    split_ifs with h
    · rw [show s * 2 * -1 * -1 = s * 2 by ring]; rfl
    · rw [show s * 2 * -1 = -(s * 2) by ring]; rfl

/-- The two functions agree for every non-vertical plane, every diagonal
covariance, each of the three sheets and every number of points, at level 1 in
the traditional layout. -/
theorem C64_curves_agree_partial (axes : Mat 3 3) (d : Vec 3) (sheet : String) (n : ℕ)
    (hs : sheet = "upper" ∨ sheet = "lower" ∨ sheet = "nominal") (hv : axes 2 2 ≠ 0)
    (adaptive : Bool) :
    ∃ c, planeErrors axes (Matrix.diagonal d) sheet { n := some n, adaptive } = .ok c ∧
      iterativePlaneErrors axes (Matrix.diagonal d) sheet { n := some n, adaptive } = .ok c ∧
      c.length = n := by
  refine ⟨_, planeErrors_eq axes d sheet rfl, ?_, by simp [angles_length]⟩
  have h := iterativePlaneErrors_eq axes d sheet { n := some n, adaptive }
  rw [diag3] at h
  rw [h]
  have key : ∃ s, scales sheet = .ok s ∧ iheight axes s = height axes sheet 1 := by
    rcases lt_or_gt_of_ne hv with hlt | hlt
    · have h' : ¬ 0 < axes 2 2 := not_lt.2 hlt.le
      rcases hs with rfl | rfl | rfl
      · exact ⟨1, rfl, by simp only [iheight, height, gt_iff_lt, if_pos hlt, if_neg h', if_true]⟩
      · exact ⟨-1, rfl, by simp only [iheight, height, gt_iff_lt, if_pos hlt, if_neg h', if_true]; simp⟩
      · exact ⟨0, rfl, by simp [iheight, height]⟩
    · have h' : ¬ axes 2 2 < 0 := not_lt.2 hlt.le
      rcases hs with rfl | rfl | rfl
      · exact ⟨1, rfl, by simp only [iheight, height, gt_iff_lt, if_pos hlt, if_neg h', if_true]⟩
      · exact ⟨-1, rfl, by simp only [iheight, height, gt_iff_lt, if_pos hlt, if_neg h', if_true]; simp⟩
      · exact ⟨0, rfl, by simp [iheight, height]⟩
  obtain ⟨s, h1, h2⟩ := key
  rw [h1, Except.map, h2]
  rfl

/-- Non-vacuity: the axes of a dipping plane. -/
noncomputable def obliqueAxes : Mat 3 3 := !![1, 0, 0; 0, 4/5, -3/5; 0, 3/5, 4/5]

lemma oblique_orthonormal : Spec.OrthonormalRows obliqueAxes := by
  intro i j
  rw [vdot3]
  fin_cases i <;> fin_cases j <;> simp [obliqueAxes] <;> norm_num

example : ∃ c, planeErrors obliqueAxes (Matrix.diagonal ![3, 2, 1]) "upper" { n := some 10 } = .ok c ∧
    iterativePlaneErrors obliqueAxes (Matrix.diagonal ![3, 2, 1]) "upper" { n := some 10 } = .ok c ∧
    c.length = 10 :=
  C64_curves_agree_partial obliqueAxes ![3, 2, 1] "upper" 10 (by simp) (by simp [obliqueAxes]) true

/-- For a vertical plane they swap the upper and the lower sheet. -/
theorem C64_vertical_swapped_false (axes : Mat 3 3) (d : Vec 3) (n : ℕ) (hv : axes 2 2 = 0) :
    planeErrors axes (Matrix.diagonal d) "upper" { n := some n }
      = iterativePlaneErrors axes (Matrix.diagonal d) "lower" { n := some n } ∧
    planeErrors axes (Matrix.diagonal d) "lower" { n := some n }
      = iterativePlaneErrors axes (Matrix.diagonal d) "upper" { n := some n } := by
  have h := fun s => iterativePlaneErrors_eq axes d s { n := some n }
  have g := fun s => planeErrors_eq axes d s (o := { n := some n }) rfl
  simp only [diag3] at h g
  constructor
  · rw [h, g]
    simp [scales, Except.map, height, iheight, hv]
  · rw [h, g]
    simp [scales, Except.map, height, iheight, hv]

example : planeErrors !![1, 0, 0; 0, 0, 1; 0, -1, 0] (Matrix.diagonal ![3, 2, 1]) "upper" { n := some 10 }
    = iterativePlaneErrors !![1, 0, 0; 0, 0, 1; 0, -1, 0] (Matrix.diagonal ![3, 2, 1]) "lower"
      { n := some 10 } :=
  (C64_vertical_swapped_false _ ![3, 2, 1] 10 (by simp)).1

lemma cart2sph_some {x y z : ℝ} (h : ¬ (x = 0 ∧ y = 0 ∧ z = 0)) :
    cart2sph x y z = some (arctan2 y x, Real.arcsin (z / Real.sqrt (x ^ 2 + y ^ 2 + z ^ 2))) := by
  have h0 : Real.sqrt (x ^ 2 + y ^ 2 + z ^ 2) ≠ 0 := by
    apply ne_of_gt
    apply Real.sqrt_pos.2
    by_contra hc
    apply h
    refine ⟨?_, ?_, ?_⟩ <;> nlinarith [sq_nonneg x, sq_nonneg y, sq_nonneg z]
  simp [cart2sph, fdiv, h0]

/-- A vertical plane: the plane spanned by north and up. -/
def verticalAxes : Mat 3 3 := !![0, 1, 0; 0, 0, 1; 1, 0, 0]

/-- So the functions differ for a vertical plane with errors, ... -/
theorem C64_vertical_false :
    planeErrors verticalAxes (Matrix.diagonal ![2, 1, 1]) "upper" { n := some 1 }
      ≠ iterativePlaneErrors verticalAxes (Matrix.diagonal ![2, 1, 1]) "upper" { n := some 1 } := by
  rw [← (C64_vertical_swapped_false verticalAxes ![2, 1, 1] 1 (by simp [verticalAxes])).2]
  have g := fun s => planeErrors_eq verticalAxes ![2, 1, 1] s (o := { n := some 1 }) rfl
  simp only [diag3] at g
  rw [g, g]
  simp [angles, List.range_succ, linspace, height, verticalAxes, planeLonLat, toWorld, girdleVec,
    Fin.sum_univ_three]
  rw [cart2sph_some (by norm_num), cart2sph_some (by norm_num)]
  intro h
  have h1 := congrArg (fun o : Option (ℝ × ℝ) => (o.getD 0).1) h
  simp only [Option.getD_some] at h1
  have e1 : arctan2 2 0 = Real.pi / 2 := arctan2_pos_zero (by norm_num)
  have e2 : arctan2 (-2) 0 = -(Real.pi / 2) := by
    have := arctan2_of_polar (r := 2) (θ := -(Real.pi / 2)) (by norm_num)
      (by linarith [Real.pi_pos]) (by linarith [Real.pi_pos])
    simpa using this
  rw [e1, e2] at h1
  linarith [Real.pi_pos]

/-- ... for any level other than the default (which only one of them uses) and for
the default number of points, and an unknown sheet is an error for only one. -/
theorem C64_options_false (axes : Mat 3 3) (d : Vec 3) (o : Options) :
    iterativePlaneErrors axes (Matrix.diagonal d) "upper" o
      = iterativePlaneErrors axes (Matrix.diagonal d) "upper" { n := o.n } ∧
    planeErrors axes (Matrix.diagonal d) ≠ iterativePlaneErrors axes (Matrix.diagonal d) ∧
    (∃ c, planeErrors axes (Matrix.diagonal d) "uper" = .ok c) ∧
    iterativePlaneErrors axes (Matrix.diagonal d) "uper" = .error .keyError := by
  have h := fun s o => iterativePlaneErrors_eq axes d s o
  have g := fun s => planeErrors_eq axes d s (o := {}) rfl
  simp only [diag3] at h g
  refine ⟨by rw [h, h], ?_, ⟨_, g _⟩, by rw [h]; rfl⟩
  intro e
  rw [g, h] at e
  simp only [scales, if_true, Except.map] at e
  have := congrArg (fun r : Except PyErr Curve => (r.toOption.getD []).length) e
  simp [Except.toOption, angles_length] at this

/-! ## C65 -/

/-- `normal_errors` and `iterative_normal_errors` agree for all axes, all
covariances and both layouts, also in their effect on the caller's axes. -/
theorem C65_curves_agree (axes cov : Mat 3 3) (n : ℕ) (level level' : ℝ)
    (adaptive traditional : Bool) :
    normalErrors axes cov { n := some n, adaptive, traditional, level }
      = .ok (iterativeNormalErrors axes cov { n := some n, adaptive, traditional, level := level' })
      := by
  simp only [normalErrors, ellipse, bind, Except.bind, iterativeNormalErrors, ne_eq,
    not_true_eq_false, if_false, Option.getD_some]
  congr 2
  apply List.map_congr_left
  intro a _
  unfold normalLonLat
  have : (![-Real.cos a * cov 2 2 * 2, -Real.sin a * cov 2 2 * 2,
      norm ![Real.cos a * cov 0 0, Real.sin a * cov 1 1]] : Vec 3)
      = ![-2 * cov 2 2 * Real.cos a, -2 * cov 2 2 * Real.sin a,
      norm ![Real.cos a * cov 0 0, Real.sin a * cov 1 1]] := by
    funext i
    fin_cases i <;> simp <;> ring
  rw [this]
  rfl

/-! ## Directions -/

lemma planeLonLat_dir (t : Bool) {v : Vec 3} (hv : v ≠ 0) :
    ∃ p, planeLonLat t v = some p ∧ Spec.direction t p = (1 / norm v) • v := by
  have hn : 0 < norm v := (norm_pos_iff' v).2 hv
  have h2 := norm_sq3 v
  cases t
  · obtain ⟨p, h1, h3⟩ := cart2sph_dir (x := -v 1) (y := v 0) (z := v 2) hn (by rw [h2]; ring)
    refine ⟨p, by simpa [planeLonLat] using h1, ?_⟩
    funext i
    simp only [Spec.direction, h3, Pi.smul_apply, smul_eq_mul]
    fin_cases i <;> simp <;> ring
  · obtain ⟨p, h1, h3⟩ := cart2sph_dir (x := v 2) (y := v 0) (z := v 1) hn (by rw [h2]; ring)
    refine ⟨p, by simpa [planeLonLat] using h1, ?_⟩
    funext i
    simp only [Spec.direction, h3, Pi.smul_apply, smul_eq_mul]
    fin_cases i <;> simp <;> ring

lemma cone_smul {axes : Mat 3 3} {d : Vec 3} {h : ℝ} {v : Vec 3} (t : ℝ)
    (hv : v ∈ Spec.ErrorCone axes d h) : t • v ∈ Spec.ErrorCone axes d h := by
  have e : ∀ m : Vec 3, vdot (t • v) m = t * vdot v m := by
    intro m; rw [vdot3, vdot3]; simp; ring
  simp only [Spec.ErrorCone, Set.mem_ofPred_eq, e] at hv ⊢
  linear_combination t ^ 2 * hv

lemma vdot_smul_left {n : ℕ} (t : ℝ) (v w : Vec n) : vdot (t • v) w = t * vdot v w := by
  simp [vdot, Finset.mul_sum, mul_assoc]

lemma vdot_smul_right {n : ℕ} (t : ℝ) (v w : Vec n) : vdot v (t • w) = t * vdot v w := by
  simp only [vdot, Finset.mul_sum, Pi.smul_apply, smul_eq_mul]
  exact Finset.sum_congr rfl fun i _ => by ring

lemma girdleVec_ne {d : Vec 3} (h0 : 0 < d 0) (h1 : 0 < d 1) (c a : ℝ) : girdleVec d c a ≠ 0 := by
  intro h
  have e0 := congrFun h 0
  have e1 := congrFun h 1
  simp [girdleVec, h0.ne', h1.ne'] at e0 e1
  have := Real.sin_sq_add_cos_sq a
  rw [e0, e1] at this
  norm_num at this

lemma toWorld_ne {axes : Mat 3 3} (ho : Spec.OrthonormalRows axes) {e : Vec 3} (he : e ≠ 0) :
    toWorld e axes ≠ 0 := by
  intro h
  apply he
  rw [← norm_eq_zero_iff, ← norm_toWorld ho, h]
  exact (norm_eq_zero_iff _).2 rfl

/-- Everything about one point of a plane error curve. -/
lemma girdle_point {axes : Mat 3 3} (ho : Spec.OrthonormalRows axes) {d : Vec 3} (h0 : 0 < d 0)
    (h1 : 0 < d 1) (t : Bool) (c a : ℝ) :
    ∃ p, planeLonLat t (toWorld (girdleVec d c a) axes) = some p ∧
      Spec.direction t p = (1 / norm (girdleVec d c a)) • toWorld (girdleVec d c a) axes ∧
      ∀ i, vdot (Spec.direction t p) (axes i) = girdleVec d c a i / norm (girdleVec d c a) := by
  obtain ⟨p, h2, h3⟩ := planeLonLat_dir t (toWorld_ne ho (girdleVec_ne h0 h1 c a))
  rw [norm_toWorld ho] at h3
  refine ⟨p, h2, h3, fun i => ?_⟩
  rw [h3, vdot_smul_left, toWorld_dot ho]
  ring

/-! ## C67 -/

/-- The nominal curve consists of directions in the plane. -/
theorem C67_nominal_in_plane (axes : Mat 3 3) (ho : Spec.OrthonormalRows axes) (d : Vec 3)
    (h0 : 0 < d 0) (h1 : 0 < d 1) (o : Options) (hoth : o.other = []) :
    ∃ c, planeErrors axes (Matrix.diagonal d) "nominal" o = .ok c ∧
      c.length = o.n.getD 1000 ∧
      ∀ q ∈ c, ∃ p, q = some p ∧ vdot (Spec.direction o.traditional p) (axes 2) = 0 := by
  refine ⟨_, planeErrors_eq axes d "nominal" hoth, by simp [angles_length], ?_⟩
  intro q hq
  obtain ⟨a, -, rfl⟩ := List.mem_map.1 hq
  obtain ⟨p, hp, -, hd⟩ := girdle_point ho h0 h1 o.traditional (height axes "nominal" o.level) a
  refine ⟨p, hp, ?_⟩
  rw [hd 2]
  simp [girdleVec, height]

example : ∃ c, planeErrors obliqueAxes (Matrix.diagonal ![3, 2, 1]) "nominal" { n := some 10 } = .ok c ∧
    c.length = 10 := by
  obtain ⟨c, h, h', _⟩ := C67_nominal_in_plane obliqueAxes oblique_orthonormal ![3, 2, 1] (by simp)
    (by simp) { n := some 10 } rfl
  exact ⟨c, h, h'⟩

lemma linspace_of_ne {n : ℕ} (h : n ≠ 1) (k : ℕ) :
    linspace n k = 2 * Real.pi * k / (n - 1) := by simp [linspace, h]

lemma girdle_opposite (d : Vec 3) (c a : ℝ) : girdleVec d (-c) a = -girdleVec d c (a + Real.pi) := by
  funext i
  fin_cases i <;> simp [girdleVec]

lemma girdle_period (d : Vec 3) (c a : ℝ) : girdleVec d c (a + 2 * Real.pi) = girdleVec d c a := by
  simp [girdleVec]

lemma norm_neg' {n : ℕ} (v : Vec n) : norm (-v) = norm v := by simp [norm]

lemma antipode {axes : Mat 3 3} (ho : Spec.OrthonormalRows axes) {d : Vec 3} (h0 : 0 < d 0)
    (h1 : 0 < d 1) (t : Bool) {c c' a b : ℝ} (h : girdleVec d c a = -girdleVec d c' b) :
    ∃ p p', planeLonLat t (toWorld (girdleVec d c a) axes) = some p ∧
      planeLonLat t (toWorld (girdleVec d c' b) axes) = some p' ∧
      Spec.direction t p' = -Spec.direction t p := by
  obtain ⟨p, hp, hd, -⟩ := girdle_point ho h0 h1 t c a
  obtain ⟨p', hp', hd', -⟩ := girdle_point ho h0 h1 t c' b
  refine ⟨p, p', hp, hp', ?_⟩
  have e : toWorld (-girdleVec d c' b) axes = -toWorld (girdleVec d c' b) axes := by
    funext j; simp [toWorld]
  rw [hd, hd', h, norm_neg', e]
  simp

lemma height_lower (axes : Mat 3 3) (l : ℝ) : height axes "lower" l = -height axes "upper" l := by
  unfold height
  split_ifs <;> simp_all

/-- Half a turn is hit when sampling with `2n - 1` points. -/
lemma half_turn_double {n k : ℕ} (hn : 2 ≤ n) (hk : k < n) :
    ∃ k' < 2 * n - 1, linspace (2 * n - 1) k' = linspace n k + Real.pi ∨
      linspace (2 * n - 1) k' + 2 * Real.pi = linspace n k + Real.pi := by
  obtain ⟨m, rfl⟩ : ∃ m, n = m + 2 := ⟨n - 2, by omega⟩
  have e : 2 * (m + 2) - 1 = 2 * m + 3 := by omega
  rw [e]
  rw [linspace_of_ne (by omega) k]
  by_cases h : 2 * k ≤ m + 1
  · refine ⟨2 * k + (m + 1), by omega, Or.inl ?_⟩
    rw [linspace_of_ne (by omega)]
    push_cast
    have : (m : ℝ) + 1 ≠ 0 := by positivity
    have h2 : (2 * (m : ℝ) + 3 - 1) ≠ 0 := by
      have : (0 : ℝ) ≤ m := Nat.cast_nonneg m
      linarith
    have h3 : ((m : ℝ) + 2 - 1) ≠ 0 := by
      have : (0 : ℝ) ≤ m := Nat.cast_nonneg m
      linarith
    field_simp
    ring
  · obtain ⟨j, hj⟩ : ∃ j, 2 * k = j + (m + 1) := ⟨2 * k - (m + 1), by omega⟩
    refine ⟨j, by omega, Or.inr ?_⟩
    rw [linspace_of_ne (by omega)]
    push_cast
    have hk' : (k : ℝ) = ((j : ℝ) + (m + 1)) / 2 := by
      have : (2 : ℝ) * k = j + (m + 1) := by exact_mod_cast hj
      linarith
    have h2 : (2 * (m : ℝ) + 3 - 1) ≠ 0 := by
      have : (0 : ℝ) ≤ m := Nat.cast_nonneg m
      linarith
    have h3 : ((m : ℝ) + 2 - 1) ≠ 0 := by
      have : (0 : ℝ) ≤ m := Nat.cast_nonneg m
      linarith
    rw [hk']
    field_simp
    ring

/-- Half a turn is hit when sampling with an odd number of points. -/
lemma half_turn_odd {m k : ℕ} (hm : 1 ≤ m) (hk : k < 2 * m + 1) :
    ∃ k' < 2 * m + 1, linspace (2 * m + 1) k' = linspace (2 * m + 1) k + Real.pi ∨
      linspace (2 * m + 1) k' + 2 * Real.pi = linspace (2 * m + 1) k + Real.pi := by
  have hm' : (m : ℝ) ≠ 0 := by
    have : (1 : ℝ) ≤ m := by exact_mod_cast hm
    linarith
  rw [linspace_of_ne (by omega) k]
  by_cases h : k ≤ m
  · refine ⟨k + m, by omega, Or.inl ?_⟩
    rw [linspace_of_ne (by omega)]
    push_cast
    rw [add_sub_cancel_right]
    field_simp
  · obtain ⟨j, rfl⟩ : ∃ j, k = j + m := ⟨k - m, by omega⟩
    refine ⟨j, by omega, Or.inr ?_⟩
    rw [linspace_of_ne (by omega)]
    push_cast
    rw [add_sub_cancel_right]
    field_simp
    ring

lemma antipodal_curves {axes : Mat 3 3} (ho : Spec.OrthonormalRows axes) {d : Vec 3}
    (h0 : 0 < d 0) (h1 : 0 < d 1) (t : Bool) (c : ℝ) {n m : ℕ}
    (hhalf : ∀ k < n, ∃ k' < m, linspace m k' = linspace n k + Real.pi ∨
      linspace m k' + 2 * Real.pi = linspace n k + Real.pi) :
    ∀ q ∈ (angles n).map (fun a => planeLonLat t (toWorld (girdleVec d (-c) a) axes)),
      ∃ p, q = some p ∧ ∃ p', some p' ∈ (angles m).map
        (fun a => planeLonLat t (toWorld (girdleVec d c a) axes)) ∧
        Spec.direction t p' = -Spec.direction t p := by
  intro q hq
  obtain ⟨a, ha, rfl⟩ := List.mem_map.1 hq
  obtain ⟨k, hk, rfl⟩ := mem_angles.1 ha
  obtain ⟨k', hk', hor⟩ := hhalf k hk
  have hg : girdleVec d (-c) (linspace n k) = -girdleVec d c (linspace m k') := by
    rw [girdle_opposite]
    rcases hor with h | h
    · rw [h]
    · rw [← h, girdle_period]
  obtain ⟨p, p', hp, hp', hd⟩ := antipode ho h0 h1 t hg
  refine ⟨p, hp, p', ?_, hd⟩
  rw [← hp']
  exact List.mem_map.2 ⟨_, mem_angles.2 ⟨k', hk', rfl⟩, rfl⟩

/-- The two sheets are antipodal: with an odd number of samples the antipodes of
the lower samples are upper samples and vice versa; with any number `n` of
samples they are among the `2n - 1` samples. -/
theorem C67_antipodal (axes : Mat 3 3) (ho : Spec.OrthonormalRows axes) (d : Vec 3)
    (h0 : 0 < d 0) (h1 : 0 < d 1) (level : ℝ) (t : Bool) (n m : ℕ) (hn : 2 ≤ n)
    (hm : m = 2 * n - 1 ∨ (m = n ∧ n % 2 = 1)) (s s' : String)
    (hs : (s = "upper" ∧ s' = "lower") ∨ (s = "lower" ∧ s' = "upper")) :
    ∃ c c', planeErrors axes (Matrix.diagonal d) s { level, traditional := t, n := some n } = .ok c ∧
      planeErrors axes (Matrix.diagonal d) s' { level, traditional := t, n := some m } = .ok c' ∧
      ∀ q ∈ c, ∃ p, q = some p ∧ ∃ p', some p' ∈ c' ∧
        Spec.direction t p' = -Spec.direction t p := by
  refine ⟨_, _, planeErrors_eq axes d s rfl, planeErrors_eq axes d s' rfl, ?_⟩
  have hh : height axes s level = -height axes s' level := by
    rcases hs with ⟨rfl, rfl⟩ | ⟨rfl, rfl⟩
    · rw [height_lower, neg_neg]
    · rw [height_lower]
  simp only [Option.getD_some]
  rw [hh]
  apply antipodal_curves ho h0 h1
  intro k hk
  rcases hm with rfl | ⟨rfl, hodd⟩
  · exact half_turn_double hn hk
  · obtain ⟨j, rfl⟩ : ∃ j, m = 2 * j + 1 := ⟨m / 2, by omega⟩
    exact half_turn_odd (by omega) hk

example : ∃ c c', planeErrors obliqueAxes (Matrix.diagonal ![3, 2, 1]) "upper"
      { level := 2, traditional := true, n := some 10 } = .ok c ∧
    planeErrors obliqueAxes (Matrix.diagonal ![3, 2, 1]) "lower"
      { level := 2, traditional := true, n := some 19 } = .ok c' := by
  obtain ⟨c, c', h, h', _⟩ := C67_antipodal obliqueAxes oblique_orthonormal ![3, 2, 1] (by simp)
    (by simp) 2 true 10 19 (by norm_num) (.inl rfl) "upper" "lower" (.inl ⟨rfl, rfl⟩)
  exact ⟨c, c', h, h'⟩

/-- Points of both sheets lie on the error cone. -/
theorem C67_on_cone (axes : Mat 3 3) (ho : Spec.OrthonormalRows axes) (d : Vec 3)
    (h0 : 0 < d 0) (h1 : 0 < d 1) (o : Options) (hoth : o.other = []) (sheet : String)
    (hs : sheet = "upper" ∨ sheet = "lower") :
    ∃ c, planeErrors axes (Matrix.diagonal d) sheet o = .ok c ∧
      ∀ q ∈ c, ∃ p, q = some p ∧ vdot (Spec.direction o.traditional p)
        (Spec.direction o.traditional p) = 1 ∧
        Spec.direction o.traditional p ∈ Spec.ErrorCone axes d (2 * o.level * d 2) := by
  refine ⟨_, planeErrors_eq axes d sheet hoth, ?_⟩
  intro q hq
  obtain ⟨a, -, rfl⟩ := List.mem_map.1 hq
  obtain ⟨p, hp, hdir, hd⟩ := girdle_point ho h0 h1 o.traditional (height axes sheet o.level) a
  have hne := (norm_pos_iff' _).2 (girdleVec_ne h0 h1 (height axes sheet o.level) a)
  refine ⟨p, hp, ?_, ?_⟩
  · rw [hdir, vdot_smul_left, vdot_smul_right, toWorld_dot_toWorld ho]
    have : vdot (girdleVec d (height axes sheet o.level) a)
        (girdleVec d (height axes sheet o.level) a)
        = norm (girdleVec d (height axes sheet o.level) a) ^ 2 := by
      rw [norm_sq3, vdot3]; ring
    rw [this]
    field_simp
  · simp only [Spec.ErrorCone, Set.mem_ofPred_eq, hd]
    have hh : height axes sheet o.level ^ 2 = (o.level * 2) ^ 2 := by
      rcases hs with rfl | rfl <;> unfold height <;> simp
    have hcs := Real.sin_sq_add_cos_sq a
    simp only [girdleVec, Matrix.cons_val_zero, Matrix.cons_val_one, Matrix.cons_val]
    set N := norm ![Real.cos a * d 0, Real.sin a * d 1, height axes sheet o.level * d 2]
    have hN : N ≠ 0 := hne.ne'
    field_simp
    linear_combination (4 * o.level ^ 2 * d 2 ^ 2) * hcs - d 2 ^ 2 * hh

example : ∃ c, planeErrors obliqueAxes (Matrix.diagonal ![3, 2, 1]) "upper" { n := some 10 } = .ok c := by
  obtain ⟨c, h, _⟩ := C67_on_cone obliqueAxes oblique_orthonormal ![3, 2, 1] (by simp)
    (by simp) { n := some 10 } rfl "upper" (by simp)
  exact ⟨c, h⟩

/-- The angular distance from the plane is between the errors along the two axes. -/
theorem C67_elevation_bounds (axes : Mat 3 3) (ho : Spec.OrthonormalRows axes) (d : Vec 3)
    (h0 : 0 < d 0) (h1 : 0 < d 1) (h2 : 0 < d 2) (o : Options) (hoth : o.other = [])
    (hl : 0 < o.level) (sheet : String) (hs : sheet = "upper" ∨ sheet = "lower") :
    ∃ c, planeErrors axes (Matrix.diagonal d) sheet o = .ok c ∧
      ∀ q ∈ c, ∃ p, q = some p ∧
        Real.arctan (2 * o.level * d 2 / max (d 0) (d 1)) ≤
          Spec.elevation (Spec.direction o.traditional p) (axes 2) ∧
        Spec.elevation (Spec.direction o.traditional p) (axes 2) ≤
          Real.arctan (2 * o.level * d 2 / min (d 0) (d 1)) := by
  refine ⟨_, planeErrors_eq axes d sheet hoth, ?_⟩
  intro q hq
  obtain ⟨a, -, rfl⟩ := List.mem_map.1 hq
  obtain ⟨p, hp, -, hd⟩ := girdle_point ho h0 h1 o.traditional (height axes sheet o.level) a
  have hcs := Real.sin_sq_add_cos_sq a
  refine ⟨p, hp, ?_⟩
  set c := height axes sheet o.level with hc
  have hcabs : |c| = o.level * 2 := by
    rw [hc]
    rcases hs with rfl | rfl <;> unfold height <;> simp <;> split_ifs <;>
      simp [abs_of_pos hl]
  set R := Real.sqrt ((Real.cos a * d 0) ^ 2 + (Real.sin a * d 1) ^ 2) with hR
  have hsq : ∀ x y : ℝ, 0 < x → x ≤ y → x ^ 2 ≤ y ^ 2 := fun x y hx hxy => by nlinarith
  have hmin : 0 < min (d 0) (d 1) := lt_min h0 h1
  have hR1 : min (d 0) (d 1) ≤ R := by
    rw [hR]
    apply Real.le_sqrt_of_sq_le
    have k0 := hsq _ _ hmin (min_le_left (d 0) (d 1))
    have k1 := hsq _ _ hmin (min_le_right (d 0) (d 1))
    nlinarith [mul_le_mul_of_nonneg_left k0 (sq_nonneg (Real.cos a)),
      mul_le_mul_of_nonneg_left k1 (sq_nonneg (Real.sin a))]
  have hR0 : R ≤ max (d 0) (d 1) := by
    rw [hR]
    apply Real.sqrt_le_iff.2
    refine ⟨h0.le.trans (le_max_left _ _), ?_⟩
    have k0 := hsq _ _ h0 (le_max_left (d 0) (d 1))
    have k1 := hsq _ _ h1 (le_max_right (d 0) (d 1))
    nlinarith [mul_le_mul_of_nonneg_left k0 (sq_nonneg (Real.cos a)),
      mul_le_mul_of_nonneg_left k1 (sq_nonneg (Real.sin a))]
  have hRpos : 0 < R := lt_of_lt_of_le hmin hR1
  have hRsq : R ^ 2 = (Real.cos a * d 0) ^ 2 + (Real.sin a * d 1) ^ 2 :=
    Real.sq_sqrt (by positivity)
  set H := 2 * o.level * d 2 with hH
  have hHpos : 0 < H := by positivity
  have hnorm : norm (girdleVec d c a) = Real.sqrt (R ^ 2 + H ^ 2) := by
    rw [norm3]
    congr 1
    simp only [girdleVec, Matrix.cons_val_zero, Matrix.cons_val_one, Matrix.cons_val]
    rw [hRsq, mul_pow c, ← sq_abs c, hcabs, hH]; ring
  have hval : Spec.elevation (Spec.direction o.traditional p) (axes 2) = Real.arctan (H / R) := by
    rw [Spec.elevation, hd 2, abs_div, hnorm, abs_of_pos (Real.sqrt_pos.2 (by positivity))]
    have : |girdleVec d c a 2| = H := by
      simp only [girdleVec, Matrix.cons_val]
      rw [abs_mul, hcabs, abs_of_pos h2, hH]; ring
    rw [this]
    have hs' : Real.sqrt (R ^ 2 + H ^ 2) ^ 2 = R ^ 2 + H ^ 2 := Real.sq_sqrt (by positivity)
    have hsp : 0 < Real.sqrt (R ^ 2 + H ^ 2) := Real.sqrt_pos.2 (by positivity)
    have hlt : H / Real.sqrt (R ^ 2 + H ^ 2) ∈ Set.Ioo (-1 : ℝ) 1 := by
      constructor
      · have : 0 < H / Real.sqrt (R ^ 2 + H ^ 2) := by positivity
        linarith
      · rw [div_lt_one hsp]
        apply Real.lt_sqrt_of_sq_lt
        nlinarith
    rw [Real.arcsin_eq_arctan hlt]
    congr 1
    have : 1 - (H / Real.sqrt (R ^ 2 + H ^ 2)) ^ 2 = (R / Real.sqrt (R ^ 2 + H ^ 2)) ^ 2 := by
      rw [div_pow, div_pow, hs']
      field_simp
      ring
    rw [this, Real.sqrt_sq (by positivity)]
    field_simp
  rw [hval]
  exact ⟨Real.arctan_strictMono.monotone (by gcongr), Real.arctan_strictMono.monotone (by gcongr)⟩

example : ∃ c, planeErrors obliqueAxes (Matrix.diagonal ![3, 2, 1]) "lower" { n := some 10 } = .ok c := by
  obtain ⟨c, h, _⟩ := C67_elevation_bounds obliqueAxes oblique_orthonormal ![3, 2, 1] (by simp)
    (by simp) (by simp) { n := some 10 } rfl (by simp) "lower" (by simp)
  exact ⟨c, h⟩

/-! ## C70 -/

/-- `plane_errors`: at corresponding points a larger level is strictly further
from the plane. -/
theorem C70_plane_partial (axes : Mat 3 3) (ho : Spec.OrthonormalRows axes) (d : Vec 3)
    (h0 : 0 < d 0) (h1 : 0 < d 1) (h2 : 0 < d 2) (n : Option ℕ) (t : Bool) (l l' : ℝ)
    (hl : 0 ≤ l) (hll : l < l') (sheet : String) (hs : sheet = "upper" ∨ sheet = "lower") :
    ∃ c c', planeErrors axes (Matrix.diagonal d) sheet { level := l, n, traditional := t } = .ok c ∧
      planeErrors axes (Matrix.diagonal d) sheet { level := l', n, traditional := t } = .ok c' ∧
      List.Forall₂ (fun q q' => ∃ p p', q = some p ∧ q' = some p' ∧
        Spec.elevation (Spec.direction t p) (axes 2)
          < Spec.elevation (Spec.direction t p') (axes 2)) c c' := by
  refine ⟨_, _, planeErrors_eq axes d sheet rfl, planeErrors_eq axes d sheet rfl, ?_⟩
  rw [List.forall₂_map_left_iff, List.forall₂_map_right_iff, List.forall₂_same]
  intro a _
  obtain ⟨p, hp, -, hd⟩ := girdle_point ho h0 h1 t (height axes sheet l) a
  obtain ⟨p', hp', -, hd'⟩ := girdle_point ho h0 h1 t (height axes sheet l') a
  refine ⟨p, p', hp, hp', ?_⟩
  have habs : ∀ x, 0 ≤ x → |height axes sheet x| = x * 2 := by
    intro x hx
    rcases hs with rfl | rfl <;> unfold height <;> simp <;> split_ifs <;> simp [abs_of_nonneg hx]
  have hR : 0 < (Real.cos a * d 0) ^ 2 + (Real.sin a * d 1) ^ 2 := by
    have hcs := Real.sin_sq_add_cos_sq a
    by_contra hneg
    have e0 : (Real.cos a * d 0) ^ 2 = 0 := by nlinarith [sq_nonneg (Real.cos a * d 0), sq_nonneg (Real.sin a * d 1)]
    have e1 : (Real.sin a * d 1) ^ 2 = 0 := by nlinarith [sq_nonneg (Real.cos a * d 0), sq_nonneg (Real.sin a * d 1)]
    simp [h0.ne', h1.ne'] at e0 e1
    rw [e0, e1] at hcs
    norm_num at hcs
  have hn : ∀ x, norm (girdleVec d (height axes sheet x) a)
      = Real.sqrt (((Real.cos a * d 0) ^ 2 + (Real.sin a * d 1) ^ 2)
        + (|height axes sheet x| * d 2) ^ 2) := by
    intro x
    rw [norm3]
    simp [girdleVec, mul_pow, sq_abs]
  have hval : ∀ x, 0 ≤ x → |girdleVec d (height axes sheet x) a 2
      / norm (girdleVec d (height axes sheet x) a)|
      = x * 2 * d 2 / Real.sqrt (((Real.cos a * d 0) ^ 2 + (Real.sin a * d 1) ^ 2)
        + (x * 2 * d 2) ^ 2) := by
    intro x hx
    rw [abs_div, hn, habs x hx, abs_of_nonneg (Real.sqrt_nonneg _)]
    congr 1
    simp only [girdleVec, Matrix.cons_val]
    rw [abs_mul, habs x hx, abs_of_pos h2]
  have hl' : 0 ≤ l' := hl.trans hll.le
  set Q := (Real.cos a * d 0) ^ 2 + (Real.sin a * d 1) ^ 2
  rw [Spec.elevation, Spec.elevation, hd 2, hd' 2, hval l hl, hval l' hl']
  have hb : ∀ x : ℝ, 0 ≤ x → 0 ≤ x / Real.sqrt (Q + x ^ 2) ∧ x / Real.sqrt (Q + x ^ 2) ≤ 1 := by
    intro x hx
    have : 0 < Real.sqrt (Q + x ^ 2) := Real.sqrt_pos.2 (by positivity)
    refine ⟨by positivity, ?_⟩
    rw [div_le_one this]
    apply Real.le_sqrt_of_sq_le
    linarith
  have b1 := hb (l * 2 * d 2) (by positivity)
  have b2 := hb (l' * 2 * d 2) (by positivity)
  apply Real.arcsin_lt_arcsin (by linarith) _ b2.2
  have hxy : l * 2 * d 2 < l' * 2 * d 2 := by nlinarith
  have hx0 : 0 ≤ l * 2 * d 2 := by positivity
  generalize l * 2 * d 2 = x at *
  generalize l' * 2 * d 2 = y at *
  have s1 : 0 < Real.sqrt (Q + x ^ 2) := Real.sqrt_pos.2 (by positivity)
  have s2 : 0 < Real.sqrt (Q + y ^ 2) := Real.sqrt_pos.2 (by positivity)
  rw [div_lt_div_iff₀ s1 s2]
  apply lt_of_pow_lt_pow_left₀ 2 (by have : 0 < y := lt_of_le_of_lt hx0 hxy; positivity)
  rw [mul_pow, mul_pow, Real.sq_sqrt (by positivity), Real.sq_sqrt (by positivity)]
  have hsq : x ^ 2 < y ^ 2 := by nlinarith
  nlinarith [mul_pos hR (sub_pos.2 hsq)]

example : ∃ c c', planeErrors obliqueAxes (Matrix.diagonal ![3, 2, 1]) "lower"
      { level := 1, n := some 10, traditional := true } = .ok c ∧
    planeErrors obliqueAxes (Matrix.diagonal ![3, 2, 1]) "lower"
      { level := 2, n := some 10, traditional := true } = .ok c' := by
  obtain ⟨c, c', h, h', _⟩ := C70_plane_partial obliqueAxes oblique_orthonormal ![3, 2, 1] (by simp)
    (by simp) (by simp) (some 10) true 1 2 (by norm_num) (by norm_num) "lower" (by simp)
  exact ⟨c, c', h, h'⟩

/-- The other three functions ignore the level. -/
theorem C70_level_ignored_false (axes cov : Mat 3 3) (o : Options) (l : ℝ) (sheet : String) :
    normalErrors axes cov { o with level := l } = normalErrors axes cov o ∧
    iterativeNormalErrors axes cov { o with level := l } = iterativeNormalErrors axes cov o ∧
    iterativePlaneErrors axes cov sheet { o with level := l }
      = iterativePlaneErrors axes cov sheet o ∧
    errorEllipse axes cov { o with level := l } = errorEllipse axes cov o :=
  ⟨rfl, rfl, rfl, rfl⟩

/-- A horizontal plane meets the hypotheses. -/
lemma identity_orthonormal : Spec.OrthonormalRows (1 : Mat 3 3) := by
  intro i j
  rw [vdot3]
  fin_cases i <;> fin_cases j <;> simp [Matrix.one_apply]

example : ∃ c, planeErrors (1 : Mat 3 3) (Matrix.diagonal ![3, 2, 1]) "nominal" = .ok c ∧
    c.length = 1000 ∧
    ∀ q ∈ c, ∃ p, q = some p ∧ vdot (Spec.direction true p) ((1 : Mat 3 3) 2) = 0 :=
  C67_nominal_in_plane 1 identity_orthonormal ![3, 2, 1] (by simp) (by simp) {} rfl

end Attitude.Props
