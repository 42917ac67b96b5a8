import Verif.Lemmas.Frontend

/-!
# Properties of the error curves drawn by the frontend

Statements about `planeErrors`, `normalErrors` and `combinedErrors` of math.ts.
-/

namespace Attitude.Props

open Attitude Frontend

namespace Spec

/-- The direction (east, north, up) shown at a position of the frontend, in
radians or degrees. -/
noncomputable def shown (deg traditional : Bool) (p : ℝ × ℝ) : Vec 3 :=
  direction traditional (if deg then (radians p.1, radians p.2) else p)

/-- The half of the error cone on one side (`σ = ±1`) of the plane. -/
def HalfCone (axes : Mat 3 3) (d : Vec 3) (h σ : ℝ) : Set (Vec 3) :=
  {w | w ∈ ErrorCone axes d h ∧ 0 < σ * vdot w (axes 2)}

end Spec

/-! ## Positions and directions -/

lemma norm_smul_nonneg {r : ℝ} (hr : 0 ≤ r) (v : Vec 3) :
    Attitude.norm (r • v) = r * Attitude.norm v := by
  rw [norm_three, norm_three, ← Real.sqrt_sq hr, ← Real.sqrt_mul (sq_nonneg _), Real.sqrt_sq hr]
  congr 1
  simp only [Pi.smul_apply, smul_eq_mul]
  ring

lemma jsPosition {o : Opts} (h : o.upperHemisphere.getD true = true) {v : Vec 3} (hv : v ≠ 0) :
    ∃ p, Frontend.cart2sph o v = some p ∧
      Spec.shown (o.degrees.getD false) (o.traditionalLayout.getD false) p = (1 / Attitude.norm v) • v := by
  obtain ⟨p, h1, h2⟩ := planeLonLat_dir (o.traditionalLayout.getD false) hv
  refine ⟨(unit o * p.1, unit o * p.2), by rw [cart2sph_upper h, h1]; rfl, ?_⟩
  rw [← h2]
  unfold Spec.shown
  congr 1
  unfold unit
  split_ifs
  · have := Real.pi_pos.ne'
    simp only [radians]
    ext <;> simp <;> field_simp
  · simp

/-- Normals of tangent planes, by their components. -/
lemma tangent_of_components {axes : Mat 3 3} (ho : Spec.OrthonormalRows axes) {d : Vec 3} {h : ℝ}
    (h0 : 0 < d 0) (h1 : 0 < d 1) (hh : 0 < h) {e : Vec 3} (he : 0 < e 2)
    (heq : (d 0 * e 0) ^ 2 + (d 1 * e 1) ^ 2 = (h * e 2) ^ 2) :
    Spec.TangentNormal axes d h (Stereonet.toWorld e axes) := by
  set z : ℂ := ⟨-e 0, -e 1⟩ with hz
  set R := ‖z‖ with hR
  set a := Complex.arg z with ha
  have hc : R * Real.cos a = -e 0 := Complex.norm_mul_cos_arg z
  have hs : R * Real.sin a = -e 1 := Complex.norm_mul_sin_arg z
  have hRpos : 0 < R := by
    rcases (norm_nonneg z).lt_or_eq with k | k
    · exact k
    · exfalso
      rw [← hR] at k
      rw [← k] at hc hs
      have e0 : e 0 = 0 := by linarith
      have e1 : e 1 = 0 := by linarith
      rw [e0, e1] at heq
      have : 0 < (h * e 2) ^ 2 := by positivity
      nlinarith
  have key := normalVec_tangent (d := ![d 0, d 1, h / 2]) ho (by simpa using h0) (by simpa using h1)
    (by simpa using hh) a (r := R / h) (by positivity)
  have hvec : (R / h) • Stereonet.toWorld (Stereonet.normalVec ![d 0, d 1, h / 2] a) axes
      = Stereonet.toWorld e axes := by
    have e2 : R / h * Real.sqrt ((Real.cos a * d 0) ^ 2 + (Real.sin a * d 1) ^ 2) = e 2 := by
      have : (Real.cos a * d 0) ^ 2 + (Real.sin a * d 1) ^ 2 = (h * e 2 / R) ^ 2 := by
        field_simp
        linear_combination heq + (d 0 ^ 2 * (R * Real.cos a - e 0)) * hc
          + (d 1 ^ 2 * (R * Real.sin a - e 1)) * hs
      rw [this, Real.sqrt_sq (by positivity)]
      field_simp
    funext j
    simp only [Pi.smul_apply, smul_eq_mul, Stereonet.toWorld, Fin.sum_univ_three,
      Stereonet.normalVec, Matrix.cons_val_zero, Matrix.cons_val_one, Matrix.cons_val]
    have hne := hh.ne'
    field_simp at e2 ⊢
    linear_combination (-(h * axes 0 j)) * hc + (-(h * axes 1 j)) * hs + (axes 2 j) * e2
  rw [hvec] at key
  have h2 : 2 * (![d 0, d 1, h / 2] : Vec 3) 2 = h := by simp; ring
  rw [h2] at key
  exact key

lemma tangent_neg {axes : Mat 3 3} {d : Vec 3} {h : ℝ} {m : Vec 3}
    (ht : Spec.TangentNormal axes d h m) : Spec.TangentNormal axes d h (-m) := by
  have hn : ∀ w, vdot (-m) w = -vdot m w := by intro w; simp [vdot3]; ring
  obtain ⟨⟨w, hw, hw0, hmw, hu⟩, s, hs, hpos⟩ := ht
  refine ⟨⟨w, hw, hw0, by rw [hn, hmw, neg_zero], fun w' h1 h2 => hu w' h1 ?_⟩, -s, ?_, ?_⟩
  · rw [hn] at h2; linarith
  · rcases hs with rfl | rfl <;> simp
  · intro w hw h1
    have hw' : -w ∈ Spec.ErrorCone axes d h := by
      have e : ∀ i, vdot (-w) (axes i) = -vdot w (axes i) := by intro i; simp [vdot3]; ring
      simp only [Spec.ErrorCone, Set.mem_ofPred_eq, e] at hw ⊢
      rw [← neg_sq (vdot w (axes 2))] at hw
      rw [← hw]; ring
    have h2 := hpos (-w) hw' (by simp only [vdot3, Pi.neg_apply] at h1 ⊢; linarith)
    rw [hn]
    simp only [vdot3, Pi.neg_apply] at h2 ⊢; linarith

lemma tangent_smul {axes : Mat 3 3} {d : Vec 3} {h r : ℝ} (hr : 0 < r) {m : Vec 3}
    (ht : Spec.TangentNormal axes d h m) : Spec.TangentNormal axes d h (r • m) := by
  obtain ⟨⟨w, hw, hw0, hmw, hu⟩, s, hs, hpos⟩ := ht
  refine ⟨⟨w, hw, hw0, by rw [vdot_smul_left, hmw, mul_zero], fun w' h1 h2 => hu w' h1 ?_⟩,
    s, hs, fun w hw h1 => ?_⟩
  · rw [vdot_smul_left] at h2
    exact (mul_eq_zero.1 h2).resolve_left hr.ne'
  · rw [vdot_smul_left]
    exact mul_nonneg hr.le (hpos w hw h1)

/-! ## C106 -/

lemma sheet_nominal {o : Opts} (h : o.sheet = none ∨ o.sheet = some "nominal") :
    sheetOf o = "nominal" := by
  rcases h with h | h <;> simp [sheetOf, h]

lemma sheet_upper {o : Opts} (h : o.sheet = some "upper") : sheetOf o = "upper" := by
  simp [sheetOf, h]

lemma sheet_lower {o : Opts} (h : o.sheet = some "lower") : sheetOf o = "lower" := by
  simp [sheetOf, h]

lemma upper_getD {o : Opts} (h : o.upperHemisphere ≠ some false) :
    o.upperHemisphere.getD true = true := by
  cases hu : o.upperHemisphere with
  | none => rfl
  | some b => cases b <;> simp_all

/-- What the position of a vector shows. -/
lemma shown_position {axes : Mat 3 3} (ho : Spec.OrthonormalRows axes) {e : Vec 3} (hne : e ≠ 0)
    {o : Opts} (hu : o.upperHemisphere.getD true = true) :
    ∃ p r, Frontend.cart2sph o (Stereonet.toWorld e axes) = some p ∧ 0 < r ∧
      Attitude.norm (Spec.shown (o.degrees.getD false) (o.traditionalLayout.getD false) p) = 1 ∧
      Spec.shown (o.degrees.getD false) (o.traditionalLayout.getD false) p
        = r • Stereonet.toWorld e axes ∧ r = 1 / Attitude.norm e ∧
      ∀ i, vdot (Spec.shown (o.degrees.getD false) (o.traditionalLayout.getD false) p) (axes i)
        = r * e i := by
  have hw : Stereonet.toWorld e axes ≠ 0 := toWorld_ne ho hne
  obtain ⟨p, hp, hd⟩ := jsPosition hu hw
  have hn : 0 < Attitude.norm (Stereonet.toWorld e axes) := (norm_pos_iff' _).2 hw
  refine ⟨p, 1 / Attitude.norm (Stereonet.toWorld e axes), hp, by positivity, ?_, hd, ?_, ?_⟩
  · rw [hd, norm_smul_nonneg (by positivity)]; field_simp
  · rw [Stereonet.norm_toWorld ho]
  · intro i
    rw [hd, vdot_smul_left, Stereonet.toWorld_dot ho]

/-- What one position of a curve shows. -/
lemma girdle_position {cov : Vec 3} {axes : Mat 3 3} (ho : Spec.OrthonormalRows axes)
    (h0 : 0 < cov 0) (h1 : 0 < cov 1) {o : Opts} (hu : o.upperHemisphere ≠ some false)
    {c s : ℝ} (hcs : c ^ 2 + s ^ 2 = 1) (z : ℝ) :
    ∃ p r, Frontend.cart2sph o.defaults (Stereonet.toWorld
        ![Real.sqrt (cov 0) * s, Real.sqrt (cov 1) * c, z] axes) = some p ∧ (0 : ℝ) < r ∧
      Attitude.norm (Spec.shown (o.degrees.getD false) (o.traditionalLayout.getD true) p) = 1 ∧
      vdot (Spec.shown (o.degrees.getD false) (o.traditionalLayout.getD true) p) (axes 0)
        = r * (Real.sqrt (cov 0) * s) ∧
      vdot (Spec.shown (o.degrees.getD false) (o.traditionalLayout.getD true) p) (axes 1)
        = r * (Real.sqrt (cov 1) * c) ∧
      vdot (Spec.shown (o.degrees.getD false) (o.traditionalLayout.getD true) p) (axes 2)
        = r * z := by
  have hs0 : 0 < Real.sqrt (cov 0) := Real.sqrt_pos.2 h0
  have hs1 : 0 < Real.sqrt (cov 1) := Real.sqrt_pos.2 h1
  have hne : (![Real.sqrt (cov 0) * s, Real.sqrt (cov 1) * c, z] : Vec 3) ≠ 0 := by
    intro h
    have a0 := congrFun h 0
    have a1 := congrFun h 1
    simp only [Matrix.cons_val_zero, Matrix.cons_val_one, Pi.zero_apply,
      mul_eq_zero, hs0.ne', hs1.ne', false_or] at a0 a1
    rw [a0, a1] at hcs; norm_num at hcs
  obtain ⟨p, r, hp, hr, hn, -, -, hi⟩ := shown_position (o := o.defaults) ho hne
    (show (some (o.upperHemisphere.getD true)).getD true = true from upper_getD hu)
  exact ⟨p, r, hp, hr, hn, hi 0, hi 1, hi 2⟩

/-- What every position of a curve shows. -/
lemma girdle_points {cov : Vec 3} {axes : Mat 3 3} (ho : Spec.OrthonormalRows axes)
    (h0 : 0 < cov 0) (h1 : 0 < cov 1) {o : Opts} (hu : o.upperHemisphere ≠ some false)
    {q : Option (ℝ × ℝ)} (hq : q ∈ (Frontend.planeErrors cov (some axes) o).1) :
    ∃ p c s r, q = some p ∧ c ^ 2 + s ^ 2 = (1 : ℝ) ∧ 0 < r ∧
      Attitude.norm (Spec.shown (o.degrees.getD false) (o.traditionalLayout.getD true) p) = 1 ∧
      vdot (Spec.shown (o.degrees.getD false) (o.traditionalLayout.getD true) p) (axes 0)
        = r * (Real.sqrt (cov 0) * s) ∧
      vdot (Spec.shown (o.degrees.getD false) (o.traditionalLayout.getD true) p) (axes 1)
        = r * (Real.sqrt (cov 1) * c) ∧
      vdot (Spec.shown (o.degrees.getD false) (o.traditionalLayout.getD true) p) (axes 2)
        = r * (Real.sqrt (cov 2) * side o (sheetOf o) axes) := by
  rw [Frontend.planeErrors_eq, List.mem_map] at hq
  obtain ⟨x, hx, rfl⟩ := hq
  obtain ⟨c, s, hcs, h2, h3, -, -⟩ := mem_ellipse hx
  rw [sqrtNum_getD] at h2 h3
  rw [h2, h3]
  obtain ⟨p, r, hp, hr, hn, e0, e1, e2⟩ := girdle_position ho h0 h1 hu hcs
    (Real.sqrt (cov 2) * side o (sheetOf o) axes)
  exact ⟨p, c, s, r, hp, hcs, hr, hn, e0, e1, e2⟩

/-- The nominal curve: `2⌈n/2⌉` positions, all in the plane. -/
theorem C106_nominal (cov : Vec 3) (axes : Mat 3 3) (ho : Spec.OrthonormalRows axes)
    (h0 : 0 < cov 0) (h1 : 0 < cov 1) (o : Opts) (hu : o.upperHemisphere ≠ some false)
    (hs : o.sheet = none ∨ o.sheet = some "nominal") (hn : o.n ≠ some 0) :
    (Frontend.planeErrors cov (some axes) o).1.length = 2 * ((o.n.getD 100 + 1) / 2) ∧
    ∀ q ∈ (Frontend.planeErrors cov (some axes) o).1, ∃ p, q = some p ∧
      Attitude.norm (Spec.shown (o.degrees.getD false) (o.traditionalLayout.getD true) p) = 1 ∧
      vdot (Spec.shown (o.degrees.getD false) (o.traditionalLayout.getD true) p) (axes 2) = 0 := by
  constructor
  · rw [Frontend.planeErrors_eq, List.length_map, ellipse_length, if_neg, add_zero]
    cases h : o.n with
    | none => simp
    | some k => simp only [Option.getD_some]; rintro rfl; exact hn h
  · intro q hq
    obtain ⟨p, c, s, r, hp, -, -, hnorm, -, -, h⟩ := girdle_points ho h0 h1 hu hq
    refine ⟨p, hp, hnorm, ?_⟩
    rw [h, sheet_nominal hs]
    simp [side, planeScale]

example : (Frontend.planeErrors ![9, 4, 1] (some dippingAxes) {}).1.length = 100 :=
  (C106_nominal ![9, 4, 1] dippingAxes dipping_orthonormal (by simp) (by simp) {} (by simp)
    (.inl rfl) (by simp)).1

/-- The curves of the upper and lower error: every position is on the error cone
that rises by the standard deviation along the normal over the ellipse of those in
the plane, on one side of the plane: if the third axis points upwards (or is
horizontal), the upper curve is below and the lower curve above the plane. -/
theorem C106_sheets (cov : Vec 3) (axes : Mat 3 3) (ho : Spec.OrthonormalRows axes)
    (h0 : 0 < cov 0) (h1 : 0 < cov 1) (h2 : 0 < cov 2) (o : Opts)
    (hu : o.upperHemisphere ≠ some false) (σ : ℝ)
    (hσ : o.sheet = some "upper" ∧ σ = (if axes 2 2 < 0 then 1 else -1) ∨
      o.sheet = some "lower" ∧ σ = (if axes 2 2 < 0 then -1 else 1)) :
    ∀ q ∈ (Frontend.planeErrors cov (some axes) o).1, ∃ p, q = some p ∧
      Attitude.norm (Spec.shown (o.degrees.getD false) (o.traditionalLayout.getD true) p) = 1 ∧
      Spec.shown (o.degrees.getD false) (o.traditionalLayout.getD true) p ∈
        Spec.HalfCone axes (fun i => Real.sqrt (cov i)) (Real.sqrt (cov 2)) σ := by
  intro q hq
  obtain ⟨p, c, s, r, hp, hcs, hr, hnorm, e0, e1, e2⟩ := girdle_points ho h0 h1 hu hq
  refine ⟨p, hp, hnorm, ?_⟩
  have hside : side o (sheetOf o) axes = σ ∧ σ ^ 2 = 1 := by
    rcases hσ with ⟨h, rfl⟩ | ⟨h, rfl⟩
    · rw [sheet_upper h]
      simp only [side, planeScale, upper_getD hu]
      split_ifs <;> simp
    · rw [sheet_lower h]
      simp only [side, planeScale, upper_getD hu]
      split_ifs <;> simp_all
  have hs0 : 0 < Real.sqrt (cov 0) := Real.sqrt_pos.2 h0
  have hs1 : 0 < Real.sqrt (cov 1) := Real.sqrt_pos.2 h1
  have hs2 : 0 < Real.sqrt (cov 2) := Real.sqrt_pos.2 h2
  rw [hside.1] at e2
  constructor
  · simp only [Spec.ErrorCone, Set.mem_ofPred_eq, e0, e1, e2]
    field_simp
    rw [hside.2, add_comm, hcs]
  · rw [e2]
    have : σ * (r * (Real.sqrt (cov 2) * σ)) = σ ^ 2 * (r * Real.sqrt (cov 2)) := by ring
    rw [this, hside.2]
    positivity

/-- The hypotheses are met by a dipping plane with errors. -/
example : Spec.OrthonormalRows dippingAxes ∧
    ∃ p, some p ∈ (Frontend.planeErrors ![9, 4, 1] (some dippingAxes) { sheet := some "upper" }).1 ∧
      Spec.shown false true p ∈
        Spec.HalfCone dippingAxes (fun i => Real.sqrt ((![9, 4, 1] : Vec 3) i)) 1 (-1) := by
  refine ⟨dipping_orthonormal, ?_⟩
  have h := C106_sheets ![9, 4, 1] dippingAxes dipping_orthonormal (by simp) (by simp) (by simp)
    { sheet := some "upper" } (by simp) (-1) (Or.inl ⟨rfl, by simp [dippingAxes]; norm_num⟩)
  have hlen : 0 < (Frontend.planeErrors ![9, 4, 1] (some dippingAxes)
      { sheet := some "upper" }).1.length := by
    rw [Frontend.planeErrors_eq, List.length_map, ellipse_length]; simp
  obtain ⟨q, hq⟩ := List.exists_mem_of_length_pos hlen
  obtain ⟨p, rfl, -, h3⟩ := h q hq
  refine ⟨p, hq, ?_⟩
  simpa using h3

end Attitude.Props
