import Verif.Props.FrontendGirdle

/-!
# Properties of the poles drawn by the frontend, and comparison with Python
-/

namespace Attitude.Props

open Attitude Frontend

/-! ## C107 -/

/-- The sign of a sheet of `normalErrors`. -/
lemma pole_scale {o : Opts} {σ : ℝ}
    (hσ : (o.sheet = none ∨ o.sheet = some "upper") ∧ σ = 1 ∨ o.sheet = some "lower" ∧ σ = -1) :
    normalScale (o.sheet.getD "upper") = some σ ∧ σ ^ 2 = 1 := by
  rcases hσ with ⟨h | h, rfl⟩ | ⟨h, rfl⟩ <;> simp [h, normalScale]

/-- What one position of a curve of poles shows. -/
lemma pole_position {cov : Vec 3} {axes : Mat 3 3} (ho : Spec.OrthonormalRows axes)
    (h0 : 0 < cov 0) (h1 : 0 < cov 1) {o : Opts} (hu : o.upperHemisphere ≠ some false)
    {c s : ℝ} (hcs : c ^ 2 + s ^ 2 = 1) (k : ℝ) {σ : ℝ} (hσ : σ ^ 2 = 1) :
    ∃ p r f, Frontend.cart2sph o.normalDefaults (Stereonet.toWorld
        (poleVec cov k σ (Real.sqrt (cov 1) * c) (Real.sqrt (cov 0) * s)) axes) = some p ∧
      (0 : ℝ) < r ∧ 0 < f ∧ f ^ 2 = (Real.sqrt (cov 1) * c) ^ 2 + (Real.sqrt (cov 0) * s) ^ 2 ∧
      Attitude.norm (Spec.shown (o.degrees.getD false) (o.traditionalLayout.getD true) p) = 1 ∧
      Spec.shown (o.degrees.getD false) (o.traditionalLayout.getD true) p
        = r • Stereonet.toWorld (poleVec cov k σ (Real.sqrt (cov 1) * c) (Real.sqrt (cov 0) * s)) axes ∧
      r = 1 / Attitude.norm (poleVec cov k σ (Real.sqrt (cov 1) * c) (Real.sqrt (cov 0) * s)) ∧
      poleVec cov k σ (Real.sqrt (cov 1) * c) (Real.sqrt (cov 0) * s) 2 = f * σ := by
  have hs0 : 0 < Real.sqrt (cov 0) := Real.sqrt_pos.2 h0
  have hs1 : 0 < Real.sqrt (cov 1) := Real.sqrt_pos.2 h1
  have hpos : 0 < (Real.sqrt (cov 1) * c) ^ 2 + (Real.sqrt (cov 0) * s) ^ 2 := by
    rcases eq_or_ne c 0 with rfl | hc
    · have : s ≠ 0 := by rintro rfl; norm_num at hcs
      positivity
    · positivity
  have hf := Real.sqrt_pos.2 hpos
  have hσ0 : σ ≠ 0 := by rintro rfl; norm_num at hσ
  have hne : poleVec cov k σ (Real.sqrt (cov 1) * c) (Real.sqrt (cov 0) * s) ≠ 0 := by
    intro h
    have a2 := congrFun h 2
    simp only [poleVec, Matrix.cons_val, Pi.zero_apply, mul_eq_zero, hf.ne', hσ0, or_self] at a2
  obtain ⟨p, r, hp, hr, hn, hd, he, -⟩ := shown_position (o := o.normalDefaults) ho hne
    (show (some (o.upperHemisphere.getD true)).getD true = true from upper_getD hu)
  exact ⟨p, r, _, hp, hr, hf, Real.sq_sqrt hpos.le, hn, hd, he, by simp [poleVec]⟩

/-- Every pole drawn by `normalErrors` is the normal of a plane that touches the
error cone (scaled by the level) along one line; the upper and the lower curve are
on the two sides of the plane. -/
theorem C107_poles (cov : Vec 3) (axes : Mat 3 3) (ho : Spec.OrthonormalRows axes)
    (h0 : 0 < cov 0) (h1 : 0 < cov 1) (h2 : 0 < cov 2) (o : Opts)
    (hu : o.upperHemisphere ≠ some false) (hl : 0 < o.level.getD 1) (hn : o.n ≠ some 0) (σ : ℝ)
    (hσ : (o.sheet = none ∨ o.sheet = some "upper") ∧ σ = 1 ∨ o.sheet = some "lower" ∧ σ = -1) :
    ∃ c o', Frontend.normalErrors cov (some axes) o = some (c, o') ∧
      c.length = 2 * ((o.n.getD 100 + 1) / 2) ∧
      ∀ q ∈ c, ∃ p, q = some p ∧
        Attitude.norm (Spec.shown (o.degrees.getD false) (o.traditionalLayout.getD true) p) = 1 ∧
        0 < σ * vdot (Spec.shown (o.degrees.getD false) (o.traditionalLayout.getD true) p) (axes 2) ∧
        Spec.TangentNormal axes (fun i => Real.sqrt (cov i)) (o.level.getD 1 * Real.sqrt (cov 2))
          (Spec.shown (o.degrees.getD false) (o.traditionalLayout.getD true) p) := by
  obtain ⟨hv, hσ2⟩ := pole_scale hσ
  refine ⟨_, _, Frontend.normalErrors_eq axes h0 h1 h2.le hv, ?_, ?_⟩
  · rw [List.length_map, ellipse_length, if_neg, add_zero]
    cases h : o.n with
    | none => simp
    | some k => simp only [Option.getD_some]; rintro rfl; exact hn h
  · intro q hq
    obtain ⟨x, hx, rfl⟩ := List.mem_map.1 hq
    obtain ⟨c, s, hcs, hx1, hx2, -, -⟩ := mem_ellipse hx
    rw [sqrtNum_getD] at hx1 hx2
    rw [hx1, hx2]
    obtain ⟨p, r, f, hp, hr, hf, hf2, hnorm, hd, -, h22⟩ := pole_position ho h0 h1 hu hcs
      (σ * hemi o * o.level.getD 1) hσ2
    set e := poleVec cov (σ * hemi o * o.level.getD 1) σ (Real.sqrt (cov 1) * c)
      (Real.sqrt (cov 0) * s) with he
    have hs0 : 0 < Real.sqrt (cov 0) := Real.sqrt_pos.2 h0
    have hs1 : 0 < Real.sqrt (cov 1) := Real.sqrt_pos.2 h1
    have hs2 : 0 < Real.sqrt (cov 2) := Real.sqrt_pos.2 h2
    refine ⟨p, hp, hnorm, ?_, ?_⟩
    · rw [hd, vdot_smul_left, Stereonet.toWorld_dot ho, h22]
      have : σ * (r * (f * σ)) = σ ^ 2 * (r * f) := by ring
      rw [this, hσ2]; positivity
    · rw [hd]
      apply tangent_smul hr
      have heq : ∀ t : ℝ, t ^ 2 = 1 → (Real.sqrt (cov 0) * (t * e 0)) ^ 2
          + (Real.sqrt (cov 1) * (t * e 1)) ^ 2
          = (o.level.getD 1 * Real.sqrt (cov 2) * (t * e 2)) ^ 2 := by
        intro t ht
        have hh := hemi_sq o
        have e0 : Real.sqrt (cov 0) * (t * e 0) = t * σ * hemi o *
            (-(Real.sqrt (cov 1) * c) * (o.level.getD 1 * Real.sqrt (cov 2))) := by
          simp only [he, poleVec, Matrix.cons_val_zero]; field_simp
        have e1 : Real.sqrt (cov 1) * (t * e 1) = t * σ * hemi o *
            (-(Real.sqrt (cov 0) * s) * (o.level.getD 1 * Real.sqrt (cov 2))) := by
          simp only [he, poleVec, Matrix.cons_val_one, Matrix.cons_val_zero]; field_simp
        have hq : (t * σ * hemi o) ^ 2 = 1 := by
          rw [mul_pow, mul_pow, ht, hσ2, hh]; norm_num
        rw [e0, e1, h22, mul_pow (t * σ * hemi o), mul_pow (t * σ * hemi o), hq]
        have : (o.level.getD 1 * Real.sqrt (cov 2) * (t * (f * σ))) ^ 2
            = t ^ 2 * σ ^ 2 * f ^ 2 * (o.level.getD 1 * Real.sqrt (cov 2)) ^ 2 := by ring
        rw [this, ht, hσ2, hf2]; ring
      rcases (show σ = 1 ∨ σ = -1 from by rcases hσ with ⟨-, h⟩ | ⟨-, h⟩ <;> simp [h]) with rfl | rfl
      · exact tangent_of_components (d := fun i => Real.sqrt (cov i)) ho hs0 hs1 (by positivity)
          (by rw [h22]; linarith) (by simpa using heq 1 (by norm_num))
      · have k := tangent_of_components (d := fun i => Real.sqrt (cov i)) (e := -e)
          (h := o.level.getD 1 * Real.sqrt (cov 2)) ho hs0 hs1 (by positivity)
          (by rw [Pi.neg_apply, h22]; linarith) (by simpa using heq (-1) (by norm_num))
        have := tangent_neg k
        have hneg : -Stereonet.toWorld (-e) axes = Stereonet.toWorld e axes := by
          funext j; simp [Stereonet.toWorld]
        rwa [hneg] at this

/-- At level zero every position is the normal itself. -/
theorem C107_level_zero (cov : Vec 3) (axes : Mat 3 3) (ho : Spec.OrthonormalRows axes)
    (h0 : 0 < cov 0) (h1 : 0 < cov 1) (h2 : 0 ≤ cov 2) (o : Opts)
    (hu : o.upperHemisphere ≠ some false) (hl : o.level = some 0 ∨ cov 2 = 0) (σ : ℝ)
    (hσ : (o.sheet = none ∨ o.sheet = some "upper") ∧ σ = 1 ∨ o.sheet = some "lower" ∧ σ = -1) :
    ∃ c o', Frontend.normalErrors cov (some axes) o = some (c, o') ∧ c ≠ [] ∧
      ∀ q ∈ c, ∃ p, q = some p ∧
        Spec.shown (o.degrees.getD false) (o.traditionalLayout.getD true) p = σ • axes 2 := by
  obtain ⟨hv, hσ2⟩ := pole_scale hσ
  refine ⟨_, _, Frontend.normalErrors_eq axes h0 h1 h2 hv, ?_, ?_⟩
  · simp [ellipse]
  · intro q hq
    obtain ⟨x, hx, rfl⟩ := List.mem_map.1 hq
    obtain ⟨c, s, hcs, hx1, hx2, -, -⟩ := mem_ellipse hx
    rw [sqrtNum_getD] at hx1 hx2
    rw [hx1, hx2]
    obtain ⟨p, r, f, hp, hr, hf, hf2, hnorm, hd, hrn, h22⟩ := pole_position ho h0 h1 hu hcs
      (σ * hemi o * o.level.getD 1) hσ2
    refine ⟨p, hp, ?_⟩
    have hz : σ * hemi o * o.level.getD 1 * Real.sqrt (cov 2) = 0 := by
      rcases hl with hl | hl <;> simp [hl]
    have he : poleVec cov (σ * hemi o * o.level.getD 1) σ (Real.sqrt (cov 1) * c)
        (Real.sqrt (cov 0) * s) = ![0, 0, f * σ] := by
      funext i
      fin_cases i
      · have : -(Real.sqrt (cov 1) * c) * (σ * hemi o * o.level.getD 1) * Real.sqrt (cov 2)
            / Real.sqrt (cov 0) = 0 := by rw [mul_assoc, hz]; simp
        simpa [poleVec] using this
      · have : -(Real.sqrt (cov 0) * s) * (σ * hemi o * o.level.getD 1) * Real.sqrt (cov 2)
            / Real.sqrt (cov 1) = 0 := by rw [mul_assoc, hz]; simp
        simpa [poleVec] using this
      · simpa using h22
    rw [he] at hrn hd
    have hr' : r = 1 / f := by
      rw [hrn, norm_three]
      simp only [Matrix.cons_val_zero, Matrix.cons_val_one, Matrix.cons_val]
      rw [show (0 : ℝ) ^ 2 + 0 ^ 2 + (f * σ) ^ 2 = f ^ 2 by rw [mul_pow, hσ2]; ring,
        Real.sqrt_sq hf.le]
    rw [hd, hr']
    funext j
    simp [Stereonet.toWorld, Fin.sum_univ_three]
    field_simp

example : ∃ c o', Frontend.normalErrors ![9, 4, 1] (some dippingAxes) { level := some 0 }
    = some (c, o') ∧ c ≠ [] := by
  obtain ⟨c, o', h, h', _⟩ := C107_level_zero ![9, 4, 1] dippingAxes dipping_orthonormal (by simp)
    (by simp) (by simp) { level := some 0 } (by simp) (.inl rfl) 1 (.inl ⟨.inl rfl, rfl⟩)
  exact ⟨c, o', h, h'⟩

/-- The two curves are antipodal, position by position. -/
theorem C107_antipodal (cov : Vec 3) (axes : Mat 3 3) (ho : Spec.OrthonormalRows axes)
    (h0 : 0 < cov 0) (h1 : 0 < cov 1) (h2 : 0 ≤ cov 2) (o : Opts)
    (hu : o.upperHemisphere ≠ some false) :
    ∃ c c' o₁ o₂, Frontend.normalErrors cov (some axes) { o with sheet := some "upper" }
        = some (c, o₁) ∧
      Frontend.normalErrors cov (some axes) { o with sheet := some "lower" } = some (c', o₂) ∧
      List.Forall₂ (fun q q' => ∃ p p', q = some p ∧ q' = some p' ∧
        Spec.shown (o.degrees.getD false) (o.traditionalLayout.getD true) p'
          = -Spec.shown (o.degrees.getD false) (o.traditionalLayout.getD true) p) c c' := by
  refine ⟨_, _, _, _, Frontend.normalErrors_eq (v := 1) axes h0 h1 h2 (by simp [normalScale]),
    Frontend.normalErrors_eq (v := -1) axes h0 h1 h2 (by simp [normalScale]), ?_⟩
  rw [List.forall₂_map_left_iff, List.forall₂_map_right_iff]
  simp only
  rw [List.forall₂_same]
  intro x hx
  obtain ⟨c, s, hcs, hx1, hx2, -, -⟩ := mem_ellipse hx
  rw [sqrtNum_getD] at hx1 hx2
  rw [hx1, hx2]
  have hh : ∀ t, hemi { o with sheet := t } = hemi o := fun _ => rfl
  rw [hh, hh]
  obtain ⟨p, r, f, hp, hr, hf, hf2, hnorm, hd, hrn, h22⟩ :=
    pole_position (o := { o with sheet := some "upper" }) ho h0 h1 hu hcs
      (1 * hemi o * o.level.getD 1) (σ := 1) (by norm_num)
  obtain ⟨p', r', f', hp', hr', hf', hf2', hnorm', hd', hrn', h22'⟩ :=
    pole_position (o := { o with sheet := some "lower" }) ho h0 h1 hu hcs
      (-1 * hemi o * o.level.getD 1) (σ := -1) (by norm_num)
  refine ⟨p, p', hp, hp', ?_⟩
  have hneg : poleVec cov (-1 * hemi o * o.level.getD 1) (-1) (Real.sqrt (cov 1) * c)
      (Real.sqrt (cov 0) * s) = -poleVec cov (1 * hemi o * o.level.getD 1) 1
      (Real.sqrt (cov 1) * c) (Real.sqrt (cov 0) * s) := by
    funext i
    fin_cases i <;> simp [poleVec] <;> ring
  have hr : r' = r := by
    rw [hrn, hrn', hneg, norm_three, norm_three]
    simp
  simp only at hd hd'
  rw [hd, hd', hneg, hr]
  funext j
  simp [Stereonet.toWorld]

/-- The hypotheses are met by a dipping plane with errors, at level 2. -/
example : ∃ c o', Frontend.normalErrors ![9, 4, 1] (some dippingAxes) { level := some 2 }
      = some (c, o') ∧ c.length = 100 ∧
    ∀ q ∈ c, ∃ p, q = some p ∧ Spec.TangentNormal dippingAxes
      (fun i => Real.sqrt ((![9, 4, 1] : Vec 3) i)) (2 * Real.sqrt 1) (Spec.shown false true p) := by
  obtain ⟨c, o', h, hl, hc⟩ := C107_poles ![9, 4, 1] dippingAxes dipping_orthonormal (by simp)
    (by simp) (by simp) { level := some 2 } (by simp) (by simp) (by simp) 1 (by simp)
  refine ⟨c, o', h, by simpa using hl, fun q hq => ?_⟩
  obtain ⟨p, hp, -, -, ht⟩ := hc q hq
  exact ⟨p, hp, by simpa using ht⟩

end Attitude.Props
