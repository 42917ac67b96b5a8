import Verif.Props.FrontendShapes

/-!
# Properties of error ellipses, reconstructed errors, options and centroids

Statements about functions.ts, reconstruct.ts and util.ts.
-/

namespace Attitude.Props

open Attitude Frontend

/-! ## C113 -/

/-- The polygon of an error ellipse covers at most a hemisphere: reversing a ring that
covers more yields its complement. -/
theorem C113_small {α : Type} (area : List α → ℝ) (c : List α)
    (ha : area c.reverse = 4 * Real.pi - area c) :
    (windEllipse area c).2 ≤ 2 * Real.pi ∧ (windEllipse area c).2 = area (windEllipse area c).1 ∧
      ((windEllipse area c).1 = c ∨ (windEllipse area c).1 = c.reverse) := by
  unfold windEllipse
  simp only
  split_ifs with h
  · exact ⟨by rw [ha]; linarith, rfl, Or.inr rfl⟩
  · exact ⟨not_lt.1 h, rfl, Or.inl rfl⟩

example : ∃ area : List Bool → ℝ, area [true, false].reverse = 4 * Real.pi - area [true, false] ∧
    2 * Real.pi < area [true, false] :=
  ⟨fun l => if l.headD false then 3 * Real.pi else Real.pi, by simp; ring, by
    simp
    nlinarith [Real.pi_pos]⟩

lemma normalErrors_normal (cov : Vec 3) (axes : Option (Mat 3 3)) (o : Opts) :
    Frontend.normalErrors cov axes o = Frontend.normalErrors cov axes o.normalDefaults := rfl

lemma normalErrors_opts {cov : Vec 3} {axes : Option (Mat 3 3)} {o o' : Opts}
    {c : List (Option (ℝ × ℝ))} (h : Frontend.normalErrors cov axes o = some (c, o')) :
    o' = o.normalDefaults := by
  unfold Frontend.normalErrors at h
  simp only at h
  split_ifs at h <;>
  (simp only [Option.some.injEq, Prod.mk.injEq] at h
   exact h.2.symm)

/-- The options that matter to `errorEllipse`. -/
def SameEllipse (o o' : Opts) : Prop :=
  { o with sheet := some "upper" }.normalDefaults = { o' with sheet := some "upper" }.normalDefaults

lemma errorEllipse_congr (rot : Orientation → Mat 3 3) (area : List (Option (ℝ × ℝ)) → ℝ)
    {o o' : Opts} (h : SameEllipse o o') (p : PlaneProps) :
    errorEllipse rot area o p = errorEllipse rot area o' p := by
  unfold errorEllipse
  cases constructAxes rot p with
  | error e => rfl
  | ok v =>
    obtain ⟨⟨hyp, axes⟩, p'⟩ := v
    simp only [bind, Except.bind]
    cases hyp with
    | none => rfl
    | some cov =>
      simp only
      rw [normalErrors_normal cov (some axes) { o with sheet := some "upper" },
        normalErrors_normal cov (some axes) { o' with sheet := some "upper" }]
      unfold SameEllipse at h
      rw [h]

/-- The options after drawing an ellipse (unchanged in what matters if drawing
fails). -/
noncomputable def afterEllipse (rot : Orientation → Mat 3 3) (area : List (Option (ℝ × ℝ)) → ℝ)
    (o : Opts) (p : PlaneProps) : Opts :=
  match errorEllipse rot area o p with
  | .ok (some (_, o')) => o'
  | _ => o

lemma sameEllipse_after (rot : Orientation → Mat 3 3) (area : List (Option (ℝ × ℝ)) → ℝ)
    (o : Opts) (p : PlaneProps) : SameEllipse (afterEllipse rot area o p) o := by
  unfold afterEllipse errorEllipse
  cases constructAxes rot p with
  | error e => rfl
  | ok v =>
    obtain ⟨⟨hyp, axes⟩, p'⟩ := v
    simp only [bind, Except.bind]
    cases hyp with
    | none => rfl
    | some cov =>
      simp only
      cases h1 : Frontend.normalErrors cov (some axes) { o with sheet := some "upper" } with
      | none => rfl
      | some r1 =>
        obtain ⟨c1, o1⟩ := r1
        simp only [Option.bind]
        cases h2 : Frontend.normalErrors cov (some axes) { o1 with sheet := some "lower" } with
        | none => rfl
        | some r2 =>
          obtain ⟨c2, o2⟩ := r2
          simp only
          rw [normalErrors_opts h2, normalErrors_opts h1]
          rfl

/-- The ellipses drawn for a plane do not depend on those drawn before with the same
function. -/
theorem C113_history (rot : Orientation → Mat 3 3) (area : List (Option (ℝ × ℝ)) → ℝ) (o : Opts)
    (ps : List PlaneProps) (p : PlaneProps) :
    errorEllipse rot area (ps.foldl (afterEllipse rot area) o) p = errorEllipse rot area o p := by
  apply errorEllipse_congr
  induction ps generalizing o with
  | nil => rfl
  | cons q qs ih => exact (ih (afterEllipse rot area o q)).trans (sameEllipse_after rot area o q)

/-- The two polygons are the curves of poles (at the level of the options, or 1), up to
direction; and the level reported is that level. -/
theorem C113_polygons (rot : Orientation → Mat 3 3) (area : List (Option (ℝ × ℝ)) → ℝ) (o : Opts)
    (cov : Vec 3) (axes : Mat 3 3) (h0 : 0 < cov 0) (h1 : 0 < cov 1) (h2 : 0 ≤ cov 2) :
    ∃ c c' o₁ o₂ s a l o', Frontend.normalErrors cov (some (flipAxes axes))
        { o with sheet := some "upper" } = some (c, o₁) ∧
      Frontend.normalErrors cov (some (flipAxes axes)) { o with sheet := some "lower" }
        = some (c', o₂) ∧
      errorEllipse rot area o { hyperbolicAxes := some cov, axes := some axes }
        = .ok (some ((s, a, l), o')) ∧
      l = some (o.level.getD 1) ∧ a = area (s.headD []) ∧
      ∃ r r', s = [r, r'] ∧ (r = c ∨ r = c.reverse) ∧ (r' = c' ∨ r' = c'.reverse) := by
  have e1 := Frontend.normalErrors_eq (cov := cov) (o := { o with sheet := some "upper" }) (v := 1)
    (flipAxes axes) h0 h1 h2 (by simp [normalScale])
  have e2 := Frontend.normalErrors_eq (cov := cov) (o := { o with sheet := some "lower" }) (v := -1)
    (flipAxes axes) h0 h1 h2 (by simp [normalScale])
  obtain ⟨c, e1⟩ : ∃ c, Frontend.normalErrors cov (some (flipAxes axes))
      { o with sheet := some "upper" } = some (c, { o with sheet := some "upper" }.normalDefaults) :=
    ⟨_, e1⟩
  obtain ⟨c', e2⟩ : ∃ c, Frontend.normalErrors cov (some (flipAxes axes))
      { o with sheet := some "lower" } = some (c, { o with sheet := some "lower" }.normalDefaults) :=
    ⟨_, e2⟩
  have e3 : Frontend.normalErrors cov (some (flipAxes axes))
      { { o with sheet := some "upper" }.normalDefaults with sheet := some "lower" }
      = Frontend.normalErrors cov (some (flipAxes axes)) { o with sheet := some "lower" } := rfl
  rw [e2] at e3
  have hw : ∀ c : List (Option (ℝ × ℝ)), (windEllipse area c).2 = area (windEllipse area c).1 ∧
      ((windEllipse area c).1 = c ∨ (windEllipse area c).1 = c.reverse) := by
    intro c
    unfold windEllipse
    simp only
    split_ifs <;> simp
  refine ⟨c, c', _, _, [(windEllipse area c).1, (windEllipse area c').1], (windEllipse area c).2,
    some (o.level.getD 1), { o with sheet := some "lower" }.normalDefaults, e1, e2, ?_, rfl,
    (hw c).1, _, _, rfl, (hw c).2, (hw c').2⟩
  unfold errorEllipse
  simp only [constructAxes, Option.orElse, bind, Except.bind]
  rw [e1]
  simp only [Option.bind]
  rw [e3]
  rfl

example (rot : Orientation → Mat 3 3) (area : List (Option (ℝ × ℝ)) → ℝ) : ∃ s a l o',
    errorEllipse rot area {} { hyperbolicAxes := some ![9, 4, 1], axes := some dippingAxes }
      = .ok (some ((s, a, l), o')) ∧ l = some 1 := by
  obtain ⟨_, _, _, _, s, a, l, o', _, _, h, h', _⟩ :=
    C113_polygons rot area {} ![9, 4, 1] dippingAxes (by simp) (by simp) (by simp)
  exact ⟨s, a, l, o', h, h'⟩

lemma cart2sph_radians {o : Opts} (hd : o.degrees.getD false = false) {d : Vec 3} {p : ℝ × ℝ}
    (h : Frontend.cart2sph o d = some p) : |p.1| ≤ Real.pi ∧ |p.2| ≤ Real.pi / 2 := by
  unfold Frontend.cart2sph at h
  simp only [hd, Bool.false_eq_true, if_false, one_mul] at h
  have hb : ∀ y x z : ℝ, p = (arctan2 y x, Real.arcsin z) →
      |p.1| ≤ Real.pi ∧ |p.2| ≤ Real.pi / 2 := by
    intro y x z hp
    rw [hp, abs_le, abs_le]
    exact ⟨⟨(neg_pi_lt_arctan2 _ _).le, arctan2_le_pi _ _⟩,
      Real.neg_pi_div_two_le_arcsin _, Real.arcsin_le_pi_div_two _⟩
  split_ifs at h <;> exact hb _ _ _ (Option.some.inj h).symm

/-- Without the option `degrees` the coordinates are in radians, so that every polygon
is within a few degrees of the origin of the map, whatever the orientation. -/
theorem C113_radians_false (cov : Vec 3) (axes : Option (Mat 3 3)) (o : Opts)
    (hd : o.degrees = none) (c : List (Option (ℝ × ℝ))) (o' : Opts)
    (h : Frontend.normalErrors cov axes o = some (c, o')) :
    ∀ q ∈ c, ∀ p, q = some p → |p.1| ≤ Real.pi ∧ |p.2| ≤ Real.pi / 2 := by
  intro q hq p hp
  have ho := normalErrors_opts h
  unfold Frontend.normalErrors at h
  simp only at h
  have hdeg : o.normalDefaults.degrees.getD false = false := by
    simp [Opts.normalDefaults, Opts.defaults, hd]
  split_ifs at h <;>
  (simp only [Option.some.injEq, Prod.mk.injEq] at h
   rw [← h.1, List.mem_map] at hq
   obtain ⟨v, -, hv⟩ := hq
   rw [hp] at hv
   exact cart2sph_radians (o := o.normalDefaults) hdeg hv)

example : ∃ c o', Frontend.normalErrors ![9, 4, 1] (some dippingAxes) {} = some (c, o') := by
  obtain ⟨c, _, o₁, _, _, _, _, _, h, _⟩ := C113_polygons (fun _ => 1) (fun _ => 0)
    { sheet := some "upper" } ![9, 4, 1] dippingAxes (by simp) (by simp) (by simp)
  obtain ⟨c, o', h, _⟩ := C107_poles ![9, 4, 1] dippingAxes dipping_orthonormal (by simp) (by simp)
    (by simp) {} (by simp) (by simp) (by simp) 1 (.inl ⟨.inl rfl, rfl⟩)
  exact ⟨c, o', h⟩

/-! ## C114 -/

/-- Squared components of a unit vector. -/
lemma components_sq {axes : Mat 3 3} (ho : Spec.OrthonormalRows axes) {w : Vec 3}
    (hw : Attitude.norm w = 1) :
    vdot w (axes 0) ^ 2 + vdot w (axes 1) ^ 2 + vdot w (axes 2) ^ 2 = 1 := by
  have h := decompose ho w
  have h1 : Attitude.norm (fun i => vdot w (axes i)) = 1 := by
    rw [← hw]
    conv_rhs => rw [h]
    rw [Stereonet.norm_toWorld ho]
  have := Stereonet.norm_sq3 (fun i => vdot w (axes i))
  rw [h1] at this
  linarith

lemma half_angle {d : ℝ} (h0 : 0 < d) (h1 : d < 180) :
    0 < d / 2 * Real.pi / 180 ∧ d / 2 * Real.pi / 180 < Real.pi / 2 := by
  have := Real.pi_pos
  constructor
  · positivity
  · have : d / 2 * Real.pi / 180 = d * (Real.pi / 360) := by ring
    rw [this]
    have h2 : d * (Real.pi / 360) < 180 * (Real.pi / 360) :=
      mul_lt_mul_of_pos_right h1 (by positivity)
    linarith

lemma cot_sq {t : ℝ} (h0 : 0 < t) (h1 : t < Real.pi / 2) :
    1 + 1 / Real.tan t ^ 2 = 1 / Real.sin t ^ 2 := by
  have hs : 0 < Real.sin t := Real.sin_pos_of_pos_of_lt_pi h0 (by linarith [Real.pi_pos])
  have hc : 0 < Real.cos t := Real.cos_pos_of_mem_Ioo ⟨by linarith, h1⟩
  rw [Real.tan_eq_sin_div_cos]
  field_simp
  have := Real.sin_sq_add_cos_sq t
  linarith

/-- Elevation of a direction by the squared component along the normal. -/
lemma elevation_of_sq {w m : Vec 3} {t : ℝ} (h0 : 0 ≤ t) (h1 : t ≤ Real.pi / 2)
    (h : vdot w m ^ 2 = Real.sin t ^ 2) : Spec.elevation w m = t := by
  unfold Spec.elevation
  have hs : 0 ≤ Real.sin t := Real.sin_nonneg_of_nonneg_of_le_pi h0 (by linarith [Real.pi_pos])
  have : |vdot w m| = Real.sin t := by
    rw [← Real.sqrt_sq_eq_abs, h, Real.sqrt_sq hs]
  rw [this]
  exact Real.arcsin_sin (by linarith [Real.pi_pos]) h1

lemma elevation_bounds {w m : Vec 3} {t u : ℝ} (h0 : 0 ≤ t) (htu : t ≤ u) (h1 : u ≤ Real.pi / 2)
    (hl : Real.sin t ^ 2 ≤ vdot w m ^ 2) (hr : vdot w m ^ 2 ≤ Real.sin u ^ 2) :
    t ≤ Spec.elevation w m ∧ Spec.elevation w m ≤ u := by
  unfold Spec.elevation
  have hp := Real.pi_pos
  have hst : 0 ≤ Real.sin t := Real.sin_nonneg_of_nonneg_of_le_pi h0 (by linarith)
  have hsu : 0 ≤ Real.sin u := Real.sin_nonneg_of_nonneg_of_le_pi (by linarith) (by linarith)
  have a1 : Real.sin t ≤ |vdot w m| := by
    rw [← Real.sqrt_sq_eq_abs, ← Real.sqrt_sq hst]
    exact Real.sqrt_le_sqrt hl
  have a2 : |vdot w m| ≤ Real.sin u := by
    rw [← Real.sqrt_sq_eq_abs, ← Real.sqrt_sq hsu]
    exact Real.sqrt_le_sqrt hr
  constructor
  · rw [← Real.arcsin_sin (by linarith : -(Real.pi / 2) ≤ t) (by linarith)]
    exact Real.monotone_arcsin a1
  · rw [← Real.arcsin_sin (by linarith : -(Real.pi / 2) ≤ u) h1]
    exact Real.monotone_arcsin a2

/-- The elevation of the positions of a reconstructed plane. -/
lemma reconstructed_component {q : Orientation} (hmin : 0 < q.minError) (hmax : 0 < q.maxError)
    (hmin' : q.minError < 180) (hmax' : q.maxError < 180) {axes : Mat 3 3}
    (ho : Spec.OrthonormalRows axes) {w : Vec 3} {r c s σ : ℝ} (hcs : c ^ 2 + s ^ 2 = 1)
    (hσ : σ ^ 2 = 1) (hw : Attitude.norm w = 1)
    (e0 : vdot w (axes 0) = r * (Real.sqrt (reconstructedLengths q 0) * s))
    (e1 : vdot w (axes 1) = r * (Real.sqrt (reconstructedLengths q 1) * c))
    (e2 : vdot w (axes 2) = r * (Real.sqrt (reconstructedLengths q 2) * σ)) :
    vdot w (axes 2) ^ 2 * (s ^ 2 / Real.sin (q.minError / 2 * Real.pi / 180) ^ 2
      + c ^ 2 / Real.sin (q.maxError / 2 * Real.pi / 180) ^ 2) = 1 := by
  obtain ⟨a0, a1⟩ := half_angle hmin hmin'
  obtain ⟨b0, b1⟩ := half_angle hmax hmax'
  have h := components_sq ho hw
  have l0 : reconstructedLengths q 0 = 1 / Real.tan (q.minError / 2 * Real.pi / 180) ^ 2 := by
    simp [reconstructedLengths]
  have l1 : reconstructedLengths q 1 = 1 / Real.tan (q.maxError / 2 * Real.pi / 180) ^ 2 := by
    simp [reconstructedLengths]
  have l2 : reconstructedLengths q 2 = 1 := by simp [reconstructedLengths]
  have ca := cot_sq a0 a1
  have cb := cot_sq b0 b1
  rw [← l0] at ca
  rw [← l1] at cb
  have e2' : vdot w (axes 2) ^ 2 = r ^ 2 := by rw [e2, l2]; simp [mul_pow, hσ]
  have p0 : (0 : ℝ) ≤ reconstructedLengths q 0 := by rw [l0]; positivity
  have p1 : (0 : ℝ) ≤ reconstructedLengths q 1 := by rw [l1]; positivity
  rw [e2', e0, e1, mul_pow, mul_pow, mul_pow, mul_pow, Real.sq_sqrt p0, Real.sq_sqrt p1] at h
  rw [e2', div_eq_mul_one_div, div_eq_mul_one_div (c ^ 2), ← ca, ← cb]
  linear_combination h + r ^ 2 * hcs

/-- The error curves of a plane given by strike, dip and two angular errors: the
positions deviate from the plane by between half of the smaller and half of the
larger error. -/
theorem C114_widths (q : Orientation) (hmin : 0 < q.minError) (hle : q.minError ≤ q.maxError)
    (hmax : q.maxError < 180) (rot : Orientation → Mat 3 3) (ho : Spec.OrthonormalRows (rot q))
    (o : Opts) (hu : o.upperHemisphere ≠ some false)
    (hs : o.sheet = some "upper" ∨ o.sheet = some "lower") :
    ∀ x ∈ (Frontend.planeErrors (reconstructErrors rot q).1 (some (reconstructErrors rot q).2) o).1,
      ∃ p, x = some p ∧
        radians (q.minError / 2) ≤ Spec.elevation
          (Spec.shown (o.degrees.getD false) (o.traditionalLayout.getD true) p) (rot q 2) ∧
        Spec.elevation (Spec.shown (o.degrees.getD false) (o.traditionalLayout.getD true) p)
          (rot q 2) ≤ radians (q.maxError / 2) := by
  obtain ⟨a0, a1⟩ := half_angle hmin (by linarith)
  obtain ⟨b0, b1⟩ := half_angle (by linarith : 0 < q.maxError) hmax
  have l0 : 0 < reconstructedLengths q 0 := by
    have := Real.tan_pos_of_pos_of_lt_pi_div_two a0 a1
    simp only [reconstructedLengths, Matrix.cons_val_zero]; positivity
  have l1 : 0 < reconstructedLengths q 1 := by
    have := Real.tan_pos_of_pos_of_lt_pi_div_two b0 b1
    simp only [reconstructedLengths, Matrix.cons_val_one, Matrix.cons_val_zero]; positivity
  intro x hx
  obtain ⟨p, c, s, r, hp, hcs, hr, hw, e0, e1, e2⟩ := girdle_points (cov := reconstructedLengths q)
    ho l0 l1 hu hx
  refine ⟨p, hp, ?_⟩
  have hσ : side o (sheetOf o) (rot q) ^ 2 = 1 := by
    rcases hs with h | h
    · rw [sheet_upper h]; simp only [side, planeScale]; split_ifs <;> simp
    · rw [sheet_lower h]; simp only [side, planeScale]; split_ifs <;> simp_all
  have key := reconstructed_component hmin (by linarith) (by linarith) hmax ho hcs hσ hw e0 e1 e2
  set z := vdot (Spec.shown (o.degrees.getD false) (o.traditionalLayout.getD true) p) (rot q 2) with hz
  set t := q.minError / 2 * Real.pi / 180 with ht
  set u := q.maxError / 2 * Real.pi / 180 with hu'
  have hst : 0 < Real.sin t := Real.sin_pos_of_pos_of_lt_pi a0 (by linarith [Real.pi_pos])
  have hsu : 0 < Real.sin u := Real.sin_pos_of_pos_of_lt_pi b0 (by linarith [Real.pi_pos])
  have htu : t ≤ u := by
    rw [ht, hu']
    have := Real.pi_pos
    have : q.minError / 2 * Real.pi ≤ q.maxError / 2 * Real.pi :=
      mul_le_mul_of_nonneg_right (by linarith) this.le
    linarith
  have hsin : Real.sin t ≤ Real.sin u :=
    Real.sin_le_sin_of_le_of_le_pi_div_two (by linarith [Real.pi_pos]) b1.le htu
  have hsq : Real.sin t ^ 2 ≤ Real.sin u ^ 2 := pow_le_pow_left₀ hst.le hsin 2
  have e : radians (q.minError / 2) = t ∧ radians (q.maxError / 2) = u := ⟨rfl, rfl⟩
  rw [e.1, e.2]
  have i1 : 1 / Real.sin u ^ 2 ≤ 1 / Real.sin t ^ 2 :=
    one_div_le_one_div_of_le (by positivity) hsq
  have k1 : s ^ 2 / Real.sin t ^ 2 + c ^ 2 / Real.sin u ^ 2 ≤ 1 / Real.sin t ^ 2 := by
    have : c ^ 2 * (1 / Real.sin u ^ 2) ≤ c ^ 2 * (1 / Real.sin t ^ 2) :=
      mul_le_mul_of_nonneg_left i1 (sq_nonneg c)
    calc s ^ 2 / Real.sin t ^ 2 + c ^ 2 / Real.sin u ^ 2
        = s ^ 2 * (1 / Real.sin t ^ 2) + c ^ 2 * (1 / Real.sin u ^ 2) := by ring
      _ ≤ s ^ 2 * (1 / Real.sin t ^ 2) + c ^ 2 * (1 / Real.sin t ^ 2) := by linarith
      _ = (c ^ 2 + s ^ 2) * (1 / Real.sin t ^ 2) := by ring
      _ = 1 / Real.sin t ^ 2 := by rw [hcs, one_mul]
  have k2 : 1 / Real.sin u ^ 2 ≤ s ^ 2 / Real.sin t ^ 2 + c ^ 2 / Real.sin u ^ 2 := by
    have : s ^ 2 * (1 / Real.sin u ^ 2) ≤ s ^ 2 * (1 / Real.sin t ^ 2) :=
      mul_le_mul_of_nonneg_left i1 (sq_nonneg s)
    calc 1 / Real.sin u ^ 2 = (c ^ 2 + s ^ 2) * (1 / Real.sin u ^ 2) := by rw [hcs, one_mul]
      _ = s ^ 2 * (1 / Real.sin u ^ 2) + c ^ 2 * (1 / Real.sin u ^ 2) := by ring
      _ ≤ s ^ 2 * (1 / Real.sin t ^ 2) + c ^ 2 * (1 / Real.sin u ^ 2) := by linarith
      _ = s ^ 2 / Real.sin t ^ 2 + c ^ 2 / Real.sin u ^ 2 := by ring
  apply elevation_bounds a0.le htu b1.le
  · have h1 : (1 : ℝ) ≤ z ^ 2 * (1 / Real.sin t ^ 2) := by
      exact key.symm.trans_le (mul_le_mul_of_nonneg_left k1 (sq_nonneg z))
    rw [mul_one_div, le_div_iff₀ (by positivity)] at h1
    linarith
  · have h1 : z ^ 2 * (1 / Real.sin u ^ 2) ≤ 1 := by
      exact (mul_le_mul_of_nonneg_left k2 (sq_nonneg z)).trans_eq key
    rw [mul_one_div, div_le_iff₀ (by positivity)] at h1
    linarith

/-- Half of the smaller error is attained (along the first axis), and half of the larger
one (along the second axis) if the number of positions is a multiple of four, like the
default. -/
theorem C114_attained (q : Orientation) (hmin : 0 < q.minError) (hmin' : q.minError < 180)
    (hmax : 0 < q.maxError) (hmax' : q.maxError < 180)
    (rot : Orientation → Mat 3 3) (ho : Spec.OrthonormalRows (rot q))
    (o : Opts) (hu : o.upperHemisphere ≠ some false)
    (hs : o.sheet = some "upper" ∨ o.sheet = some "lower") :
    (∃ p, some p ∈ (Frontend.planeErrors (reconstructErrors rot q).1
        (some (reconstructErrors rot q).2) o).1 ∧
      vdot (Spec.shown (o.degrees.getD false) (o.traditionalLayout.getD true) p) (rot q 1) = 0 ∧
      Spec.elevation (Spec.shown (o.degrees.getD false) (o.traditionalLayout.getD true) p) (rot q 2)
        = radians (q.minError / 2)) ∧
    (4 ∣ o.n.getD 100 → o.n ≠ some 0 → ∃ p, some p ∈ (Frontend.planeErrors (reconstructErrors rot q).1
        (some (reconstructErrors rot q).2) o).1 ∧
      vdot (Spec.shown (o.degrees.getD false) (o.traditionalLayout.getD true) p) (rot q 0) = 0 ∧
      Spec.elevation (Spec.shown (o.degrees.getD false) (o.traditionalLayout.getD true) p) (rot q 2)
        = radians (q.maxError / 2)) := by
  obtain ⟨a0, a1⟩ := half_angle hmin hmin'
  obtain ⟨b0, b1⟩ := half_angle hmax hmax'
  have l0 : 0 < reconstructedLengths q 0 := by
    have := Real.tan_pos_of_pos_of_lt_pi_div_two a0 a1
    simp only [reconstructedLengths, Matrix.cons_val_zero]; positivity
  have l1 : 0 < reconstructedLengths q 1 := by
    have := Real.tan_pos_of_pos_of_lt_pi_div_two b0 b1
    simp only [reconstructedLengths, Matrix.cons_val_one, Matrix.cons_val_zero]; positivity
  have hσ : side o (sheetOf o) (rot q) ^ 2 = 1 := by
    rcases hs with h | h
    · rw [sheet_upper h]; simp only [side, planeScale]; split_ifs <;> simp
    · rw [sheet_lower h]; simp only [side, planeScale]; split_ifs <;> simp_all
  have use : ∀ c s : ℝ, c ^ 2 + s ^ 2 = 1 →
      (∃ x ∈ ellipse (o.n.getD 100) (sqrtNum (reconstructedLengths q 0))
          (sqrtNum (reconstructedLengths q 1)),
        x.1.getD 0 = Real.sqrt (reconstructedLengths q 1) * c ∧
        x.2.getD 0 = Real.sqrt (reconstructedLengths q 0) * s) →
      ∃ p r, some p ∈ (Frontend.planeErrors (reconstructErrors rot q).1
        (some (reconstructErrors rot q).2) o).1 ∧
      vdot (Spec.shown (o.degrees.getD false) (o.traditionalLayout.getD true) p) (rot q 0)
        = r * (Real.sqrt (reconstructedLengths q 0) * s) ∧
      vdot (Spec.shown (o.degrees.getD false) (o.traditionalLayout.getD true) p) (rot q 1)
        = r * (Real.sqrt (reconstructedLengths q 1) * c) ∧
      vdot (Spec.shown (o.degrees.getD false) (o.traditionalLayout.getD true) p) (rot q 2) ^ 2 *
        (s ^ 2 / Real.sin (q.minError / 2 * Real.pi / 180) ^ 2
          + c ^ 2 / Real.sin (q.maxError / 2 * Real.pi / 180) ^ 2) = 1 := by
    rintro c s hcs ⟨x, hx, hx1, hx2⟩
    obtain ⟨p, r, hp, hr, hw, e0, e1, e2⟩ := girdle_position (cov := reconstructedLengths q) (o := o)
      ho l0 l1 hu hcs (Real.sqrt (reconstructedLengths q 2) * side o (sheetOf o) (rot q))
    refine ⟨p, r, ?_, e0, e1, reconstructed_component hmin hmax hmin' hmax' ho hcs hσ hw e0 e1 e2⟩
    change some p ∈ (Frontend.planeErrors (reconstructedLengths q) (some (rot q)) o).1
    rw [Frontend.planeErrors_eq, List.mem_map]
    exact ⟨x, hx, by rw [hx1, hx2, hp]⟩
  constructor
  · obtain ⟨p, r, hp, e0, e1, e2⟩ := use 0 1 (by norm_num)
      ⟨(some 0, sqrtNum (reconstructedLengths q 0)), by simp [ellipse], by simp,
        by simp [sqrtNum_getD]⟩
    refine ⟨p, hp, by rw [e1]; ring, ?_⟩
    have hst : 0 < Real.sin (q.minError / 2 * Real.pi / 180) :=
      Real.sin_pos_of_pos_of_lt_pi a0 (by linarith [Real.pi_pos])
    refine elevation_of_sq a0.le a1.le ?_
    rw [zero_pow two_ne_zero, zero_div, add_zero, one_pow, mul_one_div,
      div_eq_one_iff_eq (by positivity)] at e2
    exact e2
  · rintro ⟨k, hk⟩ hn0
    have hkpos : 0 < k := by
      rcases Nat.eq_zero_or_pos k with rfl | h
      · exfalso
        cases hn : o.n with
        | none => rw [hn] at hk; simp at hk
        | some m => rw [hn] at hk; simp at hk; subst hk; exact hn0 hn
      · exact h
    have hmem : (0 : ℝ) ∈ sinAngles (o.n.getD 100) := by
      simp only [sinAngles, List.mem_map, List.mem_range]
      refine ⟨k, by omega, ?_⟩
      rw [hk]
      have : (k : ℝ) ≠ 0 := by exact_mod_cast hkpos.ne'
      push_cast
      field_simp
      norm_num
    obtain ⟨p, r, hp, e0, e1, e2⟩ := use 1 0 (by norm_num)
      ⟨(Num.mul (sqrtNum (reconstructedLengths q 1)) (some (Real.cos (Real.arcsin 0))),
        Num.mul (sqrtNum (reconstructedLengths q 0)) (some 0)), by
          simp only [ellipse, List.mem_append, List.mem_map]
          exact Or.inl (Or.inl ⟨0, hmem, rfl⟩),
        by rw [Num.mul_getD_some, sqrtNum_getD]; simp, by rw [Num.mul_getD_some, sqrtNum_getD]⟩
    refine ⟨p, hp, by rw [e0]; ring, ?_⟩
    have hsu : 0 < Real.sin (q.maxError / 2 * Real.pi / 180) :=
      Real.sin_pos_of_pos_of_lt_pi b0 (by linarith [Real.pi_pos])
    refine elevation_of_sq b0.le b1.le ?_
    rw [zero_pow two_ne_zero, zero_div, zero_add, one_pow, mul_one_div,
      div_eq_one_iff_eq (by positivity)] at e2
    exact e2

/-- An orientation with errors of 4 and 10 degrees. -/
example : let q : Orientation := ⟨45, 30, 0, 10, 4⟩
    0 < q.minError ∧ q.minError ≤ q.maxError ∧ q.maxError < 180 ∧
      Spec.OrthonormalRows dippingAxes := by
  refine ⟨by norm_num, by norm_num, by norm_num, dipping_orthonormal⟩

/-! ## C115 -/

/-- Copies of options have the keys of the original and its values, except for
those that are replaced by something true. -/
theorem C115_clone_partial {V : Type} (truthy : V → Bool) (obj new : List (String × V)) :
    (cloneOptions truthy obj new).map Prod.fst = obj.map Prod.fst ∧
    ∀ k v, obj.lookup k = some v → (cloneOptions truthy obj new).lookup k
      = some (match new.lookup k with
        | some w => if truthy w then w else v
        | none => v) := by
  constructor
  · simp [cloneOptions]
  · intro k v h
    induction obj with
    | nil => simp at h
    | cons a l ih =>
      obtain ⟨a1, a2⟩ := a
      by_cases hk : k = a1
      · subst hk
        simp only [List.lookup_cons_self, Option.some.injEq] at h
        subst h
        simp only [cloneOptions, List.map_cons, List.lookup_cons_self]
        cases new.lookup k <;> rfl
      · have hk' : (k == a1) = false := by simpa using hk
        rw [List.lookup_cons, hk'] at h
        have := ih h
        simp only [cloneOptions, List.map_cons, List.lookup_cons, hk'] at this ⊢
        exact this

/-- A new option that the original lacks is lost, and one that is false (like a level
of zero) does not replace the original. -/
theorem C115_clone_false {V : Type} (truthy : V → Bool) (v w : V) (hw : truthy w = false) :
    (cloneOptions truthy [("n", v)] [("level", w)]).lookup "level" = none ∧
    (cloneOptions truthy [("level", v)] [("level", w)]).lookup "level" = some v := by
  simp [cloneOptions, hw]

example : (cloneOptions (fun n : ℕ => n != 0) [("level", 2)] [("level", 0)]).lookup "level" = some 2 :=
  (C115_clone_false (fun n : ℕ => n != 0) 2 0 rfl).2

/-- `errorEllipse` makes one function for each level of an array, in order, if none of
them is zero; and a single function for a single level. -/
theorem C115_levels_partial (ls : List ℝ) (h : ∀ l ∈ ls, l ≠ 0) (x : ℝ) :
    ellipseLevels (some (.arr ls)) = .inl (ls.map .num) ∧
    ellipseLevels (some (.num x)) = .inr (.num x) ∧ ellipseLevels none = .inr (.num 1) := by
  refine ⟨?_, ?_, ?_⟩
  · unfold ellipseLevels
    simp only [Option.getD_some, Sum.inl.injEq]
    apply List.map_congr_left
    intro l hl
    simp [cloneOptions, Level.truthy, h l hl]
  · unfold ellipseLevels
    by_cases hx : x = 0 <;> simp [cloneOptions, Level.truthy, hx]
  · unfold ellipseLevels
    simp [cloneOptions, Level.truthy]

example : ellipseLevels (some (.arr [1, 2])) = .inl [.num 1, .num 2] :=
  (C115_levels_partial [1, 2] (by simp) 0).1

/-- The function for a level of zero gets the whole array as its level. -/
theorem C115_levels_false : ellipseLevels (some (.arr [0, 1]))
    = .inl [.arr [0, 1], .num 1] := by
  unfold ellipseLevels
  simp [cloneOptions, Level.truthy]

/-! ## C116 -/

/-- `computeCentroidAverage` fails for all planes. -/
theorem C116_average_false (planes : List PlaneCenter) :
    ∀ c, centroidAverage planes ≠ .ok c := by
  intro c h; cases h

lemma extrema_fold {α : Type} (f : α → ℝ) (l : List α) (x : α) :
    ∃ lo hi, (x :: l).foldl (fun e p => extrema e (f p)) none = some (lo, hi) ∧
      (∃ y ∈ x :: l, f y = lo) ∧ (∃ y ∈ x :: l, f y = hi) ∧
      ∀ y ∈ x :: l, lo ≤ f y ∧ f y ≤ hi := by
  have gen : ∀ (m : List α) (seen : List α) (lo hi : ℝ), (∃ y ∈ seen, f y = lo) →
      (∃ y ∈ seen, f y = hi) → (∀ y ∈ seen, lo ≤ f y ∧ f y ≤ hi) →
      ∃ lo' hi', m.foldl (fun e p => extrema e (f p)) (some (lo, hi)) = some (lo', hi') ∧
        (∃ y ∈ seen ++ m, f y = lo') ∧ (∃ y ∈ seen ++ m, f y = hi') ∧
        ∀ y ∈ seen ++ m, lo' ≤ f y ∧ f y ≤ hi' := by
    intro m
    induction m with
    | nil =>
      intro seen lo hi h1 h2 h3
      exact ⟨lo, hi, rfl, by simpa using h1, by simpa using h2, by simpa using h3⟩
    | cons a m ih =>
      intro seen lo hi h1 h2 h3
      have step := ih (seen ++ [a]) (if f a < lo then f a else lo) (if f a > hi then f a else hi)
      have e : (seen ++ [a]) ++ m = seen ++ a :: m := by simp
      rw [e] at step
      apply step
      · split_ifs
        · exact ⟨a, by simp, rfl⟩
        · obtain ⟨y, hy, rfl⟩ := h1; exact ⟨y, by simp [hy], rfl⟩
      · split_ifs
        · exact ⟨a, by simp, rfl⟩
        · obtain ⟨y, hy, rfl⟩ := h2; exact ⟨y, by simp [hy], rfl⟩
      · intro y hy
        rw [List.mem_append, List.mem_singleton] at hy
        rcases hy with hy | rfl
        · obtain ⟨k1, k2⟩ := h3 y hy
          constructor <;> split_ifs <;> linarith
        · constructor <;> split_ifs <;> linarith
  have h := gen l [x] (f x) (f x) ⟨x, by simp, rfl⟩ ⟨x, by simp, rfl⟩ (by simp)
  simpa [extrema] using h

/-- `computeCentroidExtrema` returns the middle of the smallest box around the
centers ... -/
theorem C116_extrema (planes : List PlaneCenter) (h : planes ≠ []) :
    ∃ c, centroidExtrema planes = .ok c ∧ ∀ i, ∃ p ∈ planes, ∃ q ∈ planes,
      (∀ r ∈ planes, p.center i ≤ r.center i ∧ r.center i ≤ q.center i) ∧
      c i = (p.center i + q.center i) / 2 := by
  cases planes with
  | nil => exact absurd rfl h
  | cons x l =>
    have e := fun i => extrema_fold (fun p : PlaneCenter => p.center i) l x
    choose lo hi h1 h2 h3 h4 using e
    refine ⟨fun i => (lo i + hi i) / 2, ?_, fun i => ?_⟩
    · unfold centroidExtrema
      simp only [h1]
      congr 1
      funext i
      fin_cases i <;> rfl
    · obtain ⟨p, hp, hp'⟩ := h2 i
      obtain ⟨q, hq, hq'⟩ := h3 i
      refine ⟨p, hp, q, hq, ?_, ?_⟩
      · intro r hr
        rw [hp', hq']
        exact h4 i r hr
      · rw [hp', hq']

example : ∃ c, centroidExtrema [⟨![1, 2, 3], some 4⟩, ⟨![5, 1, 0], none⟩] = .ok c := by
  obtain ⟨c, h, _⟩ := C116_extrema [⟨![1, 2, 3], some 4⟩, ⟨![5, 1, 0], none⟩] (by simp)
  exact ⟨c, h⟩

/-- ... and fails without any. -/
theorem C116_extrema_empty : centroidExtrema [] = .error .typeError := rfl

/-- Two planes. -/
example : ∃ c, centroidExtrema [⟨![0, 1, 2], none⟩, ⟨![4, 1, 0], some 3⟩] = .ok c ∧ c 0 = 2 := by
  refine ⟨![2, 1, 1], ?_, rfl⟩
  simp [centroidExtrema, extrema]
  norm_num

end Attitude.Props
