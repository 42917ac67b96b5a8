import Verif.Props.EndToEnd
import Verif.Props.Versor
import Verif.Props.FrontendSigns

/-! # Numbers of a fit copied to the frontend: C264 -/

namespace Attitude.Props

open Attitude Frontend Pca ErrorAxes

/-- The orientation with the numbers that a fit reports, its angular errors (radians) multiplied by `k`: the
first error belongs to the first axis and is the smaller one. -/
noncomputable def Spec.reported (s d r : ℝ) (e : ℝ × ℝ) (k : ℝ) : Orientation :=
  ⟨s, d, r, k * degrees e.2, k * degrees e.1⟩

/-! ## Scale of the lengths -/

lemma cart2sph_scale (o : Opts) {c : ℝ} (hc : 0 < c) (v : Vec 3) :
    Frontend.cart2sph o (fun j => c * v j) = Frontend.cart2sph o v := by
  have hn : Attitude.norm (fun j => c * v j) = c * Attitude.norm v := by
    rw [norm3, norm3, show (c * v 0) ^ 2 + (c * v 1) ^ 2 + (c * v 2) ^ 2
      = c ^ 2 * (v 0 ^ 2 + v 1 ^ 2 + v 2 ^ 2) by ring, Real.sqrt_mul (by positivity), Real.sqrt_sq hc.le]
  have ha : ∀ x y : ℝ, arctan2 (c * y) (c * x) = arctan2 y x := by
    intro x y
    exact arctan2_smul hc y x
  unfold Frontend.cart2sph
  simp only [hn]
  by_cases h : Attitude.norm v = 0
  · simp [h]
  · have h' : c * Attitude.norm v ≠ 0 := mul_ne_zero hc.ne' h
    rw [if_neg h, if_neg h']
    cases o.traditionalLayout.getD false <;> cases o.upperHemisphere.getD true <;>
      simp only [Bool.false_eq_true, if_true, if_false, ha, mul_assoc] <;>
      rw [mul_div_mul_left _ _ hc.ne']

lemma sqrtNum_scale {k x : ℝ} (hk : 0 < k) : sqrtNum (k * x) = Num.mul (some (Real.sqrt k)) (sqrtNum x) := by
  unfold sqrtNum
  by_cases h : x < 0
  · rw [if_pos h, if_pos (mul_neg_of_pos_of_neg hk h)]; rfl
  · rw [if_neg h, if_neg (not_lt.2 (mul_nonneg hk.le (not_lt.1 h))), Real.sqrt_mul hk.le]; rfl

lemma ellipse_scale (n : ℕ) (c : ℝ) (a b : Num) :
    (ellipse n (Num.mul (some c) a) (Num.mul (some c) b)).map (fun p => (p.1.getD 0, p.2.getD 0))
      = (ellipse n a b).map fun p => (c * p.1.getD 0, c * p.2.getD 0) := by
  have g : ∀ (x : Num) (t : ℝ), (Num.mul (Num.mul (some c) x) (some t)).getD 0
      = c * (Num.mul x (some t)).getD 0 := by
    intro x t
    cases x
    · simp
    · simp; ring
  have g' : ∀ (x : Num) (t : ℝ), (Option.map (fun x => -x) (Num.mul (Num.mul (some c) x) (some t))).getD 0
      = c * (Option.map (fun x => -x) (Num.mul x (some t))).getD 0 := by
    intro x t
    cases x
    · simp
    · simp; ring
  have g2 : (Num.mul (some c) a).getD 0 = c * a.getD 0 := by cases a <;> simp
  simp only [ellipse, List.map_append, List.map_map, List.map_reverse, List.map_drop, List.map_cons,
    List.map_nil, Function.comp_def, g, g', g2, Option.getD_some, mul_zero]

/-- The curves depend on the ratios of the lengths only. -/
lemma planeErrors_scale {k : ℝ} (hk : 0 < k) (cov : Vec 3) (axes : Mat 3 3) (o : Opts) :
    (planeErrors (fun i => k * cov i) (some axes) o).1 = (planeErrors cov (some axes) o).1 := by
  rw [Frontend.planeErrors_eq, Frontend.planeErrors_eq, sqrtNum_scale hk, sqrtNum_scale hk]
  have e := ellipse_scale (o.n.getD 100) (Real.sqrt k) (sqrtNum (cov 0)) (sqrtNum (cov 1))
  set l := ellipse (o.n.getD 100) (Num.mul (some (Real.sqrt k)) (sqrtNum (cov 0)))
    (Num.mul (some (Real.sqrt k)) (sqrtNum (cov 1)))
  set l' := ellipse (o.n.getD 100) (sqrtNum (cov 0)) (sqrtNum (cov 1))
  have e' := congrArg (List.map fun t : ℝ × ℝ => Frontend.cart2sph o.defaults (Stereonet.toWorld ![t.2, t.1,
    Real.sqrt (k * cov 2) * side o (sheetOf o) axes] axes)) e
  simp only [List.map_map, Function.comp_def] at e'
  rw [e']
  apply List.map_congr_left
  intro p _
  refine Eq.trans ?_ (cart2sph_scale o.defaults (Real.sqrt_pos.2 hk) _)
  congr 1
  funext j
  simp only [Stereonet.toWorld, Fin.sum_univ_three, Real.sqrt_mul hk.le, Matrix.cons_val_zero,
    Matrix.cons_val_one, Matrix.cons_val]
  ring

/-- Doubled errors give back the lengths, up to their scale. -/
lemma reported_lengths {h : Vec 3} (h0 : 0 < h 0) (h1 : 0 < h 1) (h2 : 0 < h 2) (s d r : ℝ) :
    reconstructedLengths (Spec.reported s d r (ErrorAxes.angularErrors h) 2) = fun i => (1 / h 2) * h i := by
  have s0 := Real.sqrt_pos.2 h0
  have s1 := Real.sqrt_pos.2 h1
  have s2 := Real.sqrt_pos.2 h2
  have key : ∀ x : ℝ, 0 < x → 1 / Real.tan (2 * degrees (arctan2 (Real.sqrt (h 2)) (Real.sqrt x)) / 2 * Real.pi / 180) ^ 2
      = 1 / h 2 * x := by
    intro x hx
    have e : 2 * degrees (arctan2 (Real.sqrt (h 2)) (Real.sqrt x)) / 2 * Real.pi / 180
        = arctan2 (Real.sqrt (h 2)) (Real.sqrt x) := by
      have := Real.pi_pos
      unfold degrees
      field_simp
    rw [e, arctan2_of_pos _ (Real.sqrt_pos.2 hx), Real.tan_arctan, div_pow, Real.sq_sqrt h2.le, Real.sq_sqrt hx.le]
    field_simp
  funext i
  fin_cases i
  · exact key _ h0
  · exact key _ h1
  · show (1 : ℝ) = 1 / h 2 * h 2
    field_simp

lemma angularErrors_pos_lt {h : Vec 3} (h0 : 0 < h 0) (h1 : 0 < h 1) (h2 : 0 < h 2) :
    0 < (ErrorAxes.angularErrors h).1 ∧ (ErrorAxes.angularErrors h).1 < Real.pi / 2 ∧
      0 < (ErrorAxes.angularErrors h).2 ∧ (ErrorAxes.angularErrors h).2 < Real.pi / 2 := by
  have key : ∀ x : ℝ, 0 < x → 0 < arctan2 (Real.sqrt (h 2)) (Real.sqrt x) ∧
      arctan2 (Real.sqrt (h 2)) (Real.sqrt x) < Real.pi / 2 := by
    intro x hx
    rw [arctan2_of_pos _ (Real.sqrt_pos.2 hx)]
    refine ⟨Real.arctan_pos.2 ?_, Real.arctan_lt_pi_div_two _⟩
    have := Real.sqrt_pos.2 hx
    have := Real.sqrt_pos.2 h2
    positivity
  exact ⟨(key _ h0).1, (key _ h0).2, (key _ h1).1, (key _ h1).2⟩

/-- The axes of the orientation are those of the fit, up to sign. -/
lemma reported_axes {svd : SvdFn} (hs : svd.Valid) {n : ℕ} {a : Fin n → Vec 3} {f : Fit n}
    (hf : init svd a none none = .ok (some f)) {s d r : ℝ} (hsd : strikeDip f = some (s, d)) (hr : rake f = some r)
    (hside : 0 ≤ vdot (f.V 0) (Spec.heading s) ∨ vdot (f.V 0) (Spec.plunging (s + 90) d) = 0) {h : Vec 3}
    (h0 : 0 < h 0) (h1 : 0 < h 1) (h2 : 0 < h 2) :
    ∃ σ, Spec.Signs σ ∧
      f.V = Spec.signed σ (orientationAxes true (Spec.reported s d r (ErrorAxes.angularErrors h) 2)) := by
  obtain ⟨a0, a1, b0, b1⟩ := angularErrors_pos_lt h0 h1 h2
  set q := Spec.reported s d r (ErrorAxes.angularErrors h) 2 with hq
  have rng : ∀ x : ℝ, 0 < x → x < Real.pi / 2 → 0 < 2 * degrees x ∧ 2 * degrees x < 180 := by
    intro x hx hx'
    have := Real.pi_pos
    unfold degrees
    refine ⟨by positivity, ?_⟩
    rw [← mul_div_assoc, div_lt_iff₀ this]
    nlinarith
  obtain ⟨p, l, hp, hsame, -⟩ := C169_python_frontend_partial q (rng _ a0 a1).1 (rng _ a0 a1).2 (rng _ b0 b1).1
    (rng _ b0 b1).2
  obtain ⟨p', hp', hiff⟩ := C49_axes_recovered_iff_partial svd hs a f hf s d r hsd hr [q.maxError, q.minError] 1
  rw [show Reconstructed.reconstruct s d r [q.maxError, q.minError] 1 = some p from hp] at hp'
  cases hp'
  have hsame' := hiff.2 hside
  have hσ : ∀ i, ∃ t : ℝ, (t = 1 ∨ t = -1) ∧ f.V i = fun j => t * orientationAxes true q i j := by
    intro i
    have e1 : p.axes i = orientationAxes true q i ∨ p.axes i = -orientationAxes true q i := hsame i
    rcases e1 with e1 | e1 <;> rcases hsame' i with e2 | e2
    · exact ⟨1, .inl rfl, by rw [← e2, e1]; funext j; simp⟩
    · exact ⟨-1, .inr rfl, by rw [← e1, e2]; funext j; simp⟩
    · exact ⟨-1, .inr rfl, by rw [← e2, e1]; funext j; simp⟩
    · refine ⟨1, .inl rfl, ?_⟩
      have : f.V i = orientationAxes true q i := neg_injective (by rw [← e2, e1])
      rw [this]; funext j; simp
  choose σ hσ1 hσ2 using hσ
  have hV : f.V = Spec.signed σ (orientationAxes true q) := by
    ext i j
    exact congrFun (hσ2 i) j
  exact ⟨σ, hσ1, hV⟩

/-- The poles depend on the ratios of the lengths only. -/
lemma normalErrors_scale {k : ℝ} (hk : 0 < k) {cov : Vec 3} (h0 : 0 < cov 0) (h1 : 0 < cov 1) (h2 : 0 ≤ cov 2)
    (axes : Mat 3 3) (o : Opts) (v : ℝ) (hv : normalScale (o.sheet.getD "upper") = some v) :
    normalErrors (fun i => k * cov i) (some axes) o = normalErrors cov (some axes) o := by
  rw [Frontend.normalErrors_eq axes (cov := fun i => k * cov i) (by positivity) (by positivity) (by positivity) hv,
    Frontend.normalErrors_eq axes h0 h1 h2 hv, sqrtNum_scale hk, sqrtNum_scale hk]
  have e := ellipse_scale (o.n.getD 100) (Real.sqrt k) (sqrtNum (cov 0)) (sqrtNum (cov 1))
  set l := ellipse (o.n.getD 100) (Num.mul (some (Real.sqrt k)) (sqrtNum (cov 0)))
    (Num.mul (some (Real.sqrt k)) (sqrtNum (cov 1)))
  set l' := ellipse (o.n.getD 100) (sqrtNum (cov 0)) (sqrtNum (cov 1))
  have e' := congrArg (List.map fun t : ℝ × ℝ => Frontend.cart2sph o.normalDefaults (Stereonet.toWorld
    (poleVec (fun i => k * cov i) (v * hemi o * o.level.getD 1) v t.1 t.2) axes)) e
  simp only [List.map_map, Function.comp_def] at e'
  rw [e']
  congr 2
  apply List.map_congr_left
  intro p _
  refine Eq.trans ?_ (cart2sph_scale o.normalDefaults (Real.sqrt_pos.2 hk) _)
  congr 1
  have hs := Real.sqrt_pos.2 hk
  have r0 := Real.sqrt_pos.2 h0
  have r1 := Real.sqrt_pos.2 h1
  set x := p.1.getD 0
  set y := p.2.getD 0
  set c := v * hemi o * o.level.getD 1
  have hsk : ∀ t : ℝ, Real.sqrt (k * t) = Real.sqrt k * Real.sqrt t := fun t => Real.sqrt_mul hk.le t
  have hxy : Real.sqrt ((Real.sqrt k * x) ^ 2 + (Real.sqrt k * y) ^ 2) = Real.sqrt k * Real.sqrt (x ^ 2 + y ^ 2) := by
    rw [show (Real.sqrt k * x) ^ 2 + (Real.sqrt k * y) ^ 2 = Real.sqrt k ^ 2 * (x ^ 2 + y ^ 2) by ring,
      Real.sqrt_mul (by positivity), Real.sqrt_sq hs.le]
  have hp : poleVec (fun i => k * cov i) c v (Real.sqrt k * x) (Real.sqrt k * y)
      = fun i => Real.sqrt k * poleVec cov c v x y i := by
    funext i
    fin_cases i
    · show -(Real.sqrt k * x) * c * Real.sqrt (k * cov 2) / Real.sqrt (k * cov 0)
        = Real.sqrt k * (-x * c * Real.sqrt (cov 2) / Real.sqrt (cov 0))
      rw [hsk, hsk]
      field_simp
    · show -(Real.sqrt k * y) * c * Real.sqrt (k * cov 2) / Real.sqrt (k * cov 1)
        = Real.sqrt k * (-y * c * Real.sqrt (cov 2) / Real.sqrt (cov 1))
      rw [hsk, hsk]
      field_simp
    · show Real.sqrt ((Real.sqrt k * x) ^ 2 + (Real.sqrt k * y) ^ 2) * v = Real.sqrt k * (Real.sqrt (x ^ 2 + y ^ 2) * v)
      rw [hxy]
      ring
  rw [hp]
  funext j
  simp only [Stereonet.toWorld, Finset.mul_sum]
  exact Finset.sum_congr rfl fun i _ => by ring

/-! ## C264 -/

/-- Strike, dip and rake of a fit and *twice* its angular errors, given to `reconstructErrors`: the curves have the
positions of those drawn from the axes and lengths of the fit itself.  The rake is an angle between 0 and 180
degrees, so the first axis has to lie on the side of strike (C49). -/
theorem C264_same_curves_partial (Q : Quantiles) (svd : SvdFn) (hs : svd.Valid) {n : ℕ} (a : Fin n → Vec 3)
    (f : Fit n) (hf : init svd a none none = .ok (some f)) (s d r : ℝ) (hsd : strikeDip f = some (s, d))
    (hr : rake f = some r)
    (hside : 0 ≤ vdot (f.V 0) (Spec.heading s) ∨ vdot (f.V 0) (Spec.plunging (s + 90) d) = 0)
    (sampling : Bool) (cl : ℝ) (h : Vec 3) (hh : axesAt Q f sampling cl = .ok (some h)) (h0 : 0 < h 0)
    (h1 : 0 < h 1) (h2 : 0 < h 2) (o : Opts) (heven : Even (o.n.getD 100)) (hn : o.n ≠ some 0)
    (hv : f.V 2 2 ≠ 0 ∨ o.sheet = none ∨ o.sheet = some "nominal") :
    ∃ e, errorsAt Q f sampling cl = some e ∧
      (planeErrors (reconstructErrors (orientationAxes true) (Spec.reported s d r e 2)).1
        (some (reconstructErrors (orientationAxes true) (Spec.reported s d r e 2)).2) o).1.Perm
        (planeErrors h (some f.V) o).1 := by
  obtain ⟨a0, a1, b0, b1⟩ := angularErrors_pos_lt h0 h1 h2
  refine ⟨_, by simp only [errorsAt, hh]; rfl, ?_⟩
  set q := Spec.reported s d r (ErrorAxes.angularErrors h) 2 with hq
  obtain ⟨σ, hσ1, hV⟩ := reported_axes hs hf hsd hr hside h0 h1 h2
  rw [← hq] at hV
  show (planeErrors (reconstructedLengths q) (some (orientationAxes true q)) o).1.Perm _
  rw [hq, reported_lengths h0 h1 h2, ← hq, planeErrors_scale (by positivity), hV]
  refine (C241_signs_partial h _ σ hσ1 o heven hn ?_).symm
  refine hv.imp_left fun k e => k ?_
  rw [hV]
  show σ 2 * orientationAxes true q 2 2 = 0
  rw [e, mul_zero]

/-- A fit that meets the hypotheses, used in the examples. -/
lemma tilted_reported (v : Vec 3) (p2 : 0 ≤ v 2) (p1 : v 2 ≤ v 1) (p0 : v 1 ≤ v 0) :
    ∃ (svd : SvdFn) (f : Fit 4) (s d r : ℝ), svd.Valid ∧
    init svd (Witness.points Witness.tilt v) none none = .ok (some f) ∧ f.V = Witness.tilt ∧ f.s = v ∧
    strikeDip f = some (s, d) ∧ rake f = some r ∧ 0 ≤ vdot (f.V 0) (Spec.heading s) ∧ f.V 2 2 ≠ 0 := by
  obtain ⟨svd, f, hs, hf, hV, e⟩ := Witness.exists_fit Witness.tilt Witness.tilt_orth v p2 p1 p0
  obtain ⟨U, hF⟩ := init_default hs hf
  obtain ⟨s, d, hsd, -, -, hd0, hd1, a5⟩ := strikeDipOf_spec (fit_axis_ne_zero hF 2)
  rw [hF.svd.row_norm, one_smul, hV] at a5
  have hu : upward (Witness.tilt 2) = ![4 / 5, 0, 3 / 5] := by
    have : Witness.tilt 2 = ![4 / 5, 0, 3 / 5] := by funext j; fin_cases j <;> simp [Witness.tilt]
    rw [this]
    unfold upward
    simp
    norm_num
  rw [hu] at a5
  have c0 := congrFun a5 0
  have c1 := congrFun a5 1
  simp [sdNormal] at c0 c1
  have hsin : Real.sin (radians s) = 0 := by
    rcases c1 with k | k
    · rw [k] at c0; norm_num at c0
    · exact k
  have hd : d ≠ 0 := by
    rintro rfl
    simp [radians] at c0
    norm_num at c0
  obtain ⟨w, hdr, hw, -⟩ := C16_dip_dr_partial svd hs _ f hf s d hsd hd
  have hwu : w = upDip s d := hw
  have hrake : ∃ r, rake f = some r := by
    simp only [rake, hdr, hwu, Option.bind_eq_bind, Option.bind_some, Rotations.angle, fdiv,
      norm_of_unit (upDip_unit s d), hF.svd.row_norm 0, mul_one, div_one, one_ne_zero, if_false]
    exact ⟨_, rfl⟩
  obtain ⟨r, hr⟩ := hrake
  refine ⟨svd, f, s, d, r, hs, hf, hV, e, hsd, hr, ?_, ?_⟩
  · rw [hV, vdot3]
    have : Real.sin (s * Real.pi / 180) = 0 := hsin
    simp [Witness.tilt, Spec.heading, this]
  · rw [hV]
    simp [Witness.tilt]

/-- The error axes of such a fit, for the singular values `x, 2, 1`. -/
lemma axes_of_tilted {svd : SvdFn} (hs : svd.Valid) {a : Fin 4 → Vec 3} {f : Fit 4}
    (hf : init svd a none none = .ok (some f)) {x : ℝ} (hx : x = 3 ∨ x = 2) (e : f.s = ![x, 2, 1]) :
    ∃ h, axesAt Spec.quantiles2 f false 0.2 = .ok (some h) ∧ 0 < h 0 ∧ 0 < h 1 ∧ 0 < h 2 ∧ (x = 2 → h 0 = h 1) := by
  obtain ⟨h, e1, e2, e2', e3⟩ := C21_closed_form _ Spec.quantiles2_ok svd hs _ f hf false 0.2
    (by norm_num) (by norm_num)
  have v0 : eigenvalues f 0 = x ^ 2 / 3 := by simp [eigenvalues, e]; norm_num
  have v1 : eigenvalues f 1 = 4 / 3 := by simp [eigenvalues, e]; norm_num
  have v2 : eigenvalues f 2 = 1 / 3 := by simp [eigenvalues, e]; norm_num
  have hq : Spec.quantiles2.f 0.2 2 (4 - 2) = 1 / 4 := by
    simp only [Spec.quantiles2, Spec.fisher2]
    norm_num
  have b : Real.sqrt (1 / 2) < 1 := by
    rw [Real.sqrt_lt' one_pos]; norm_num
  have b' : Real.sqrt (2 / 9) < 1 := by
    rw [Real.sqrt_lt' one_pos]; norm_num
  have hq' : Spec.quantiles2.f 0.2 2 (((4 : ℕ) : ℕ) - 2) = 1 / 4 := hq
  rw [hq'] at e2
  have w0 : h 0 = |x ^ 2 / 3 - 1 / 4 * (2 * Real.sqrt (x ^ 2 / 3 * (1 / 3) / (((4 : ℕ) : ℝ) - 2)))| := by
    rw [e2, ← v0, ← v2]; rfl
  have w1 : h 1 = |4 / 3 - 1 / 4 * (2 * Real.sqrt (4 / 3 * (1 / 3) / (((4 : ℕ) : ℝ) - 2)))| := by
    rw [e2, ← v1, ← v2]; rfl
  have p1 : 0 < h 1 := by
    rw [w1, show (4 : ℝ) / 3 * (1 / 3) / (((4 : ℕ) : ℝ) - 2) = 2 / 9 by norm_num]
    exact abs_pos.2 (by linarith)
  have p2 : 0 < h 2 := by
    rw [v2] at e3
    linarith
  rcases hx with rfl | rfl
  · refine ⟨h, e1, ?_, p1, p2, fun k => by norm_num at k⟩
    rw [w0, show (3 : ℝ) ^ 2 / 3 * (1 / 3) / (((4 : ℕ) : ℝ) - 2) = 1 / 2 by norm_num]
    exact abs_pos.2 (by linarith)
  · have : h 0 = h 1 := by
      rw [w0, w1]; norm_num
    exact ⟨h, e1, this ▸ p1, p1, p2, fun _ => this⟩

example : ∃ (svd : SvdFn) (f : Fit 4) (s d r : ℝ) (h : Vec 3) (e : ℝ × ℝ), svd.Valid ∧
    init svd Witness.tilted none none = .ok (some f) ∧ strikeDip f = some (s, d) ∧ rake f = some r ∧
    axesAt Spec.quantiles2 f false 0.2 = .ok (some h) ∧ errorsAt Spec.quantiles2 f false 0.2 = some e ∧
    (planeErrors (reconstructErrors (orientationAxes true) (Spec.reported s d r e 2)).1
      (some (reconstructErrors (orientationAxes true) (Spec.reported s d r e 2)).2) { sheet := some "upper" }).1.Perm
      (planeErrors h (some f.V) { sheet := some "upper" }).1 := by
  obtain ⟨svd, f, s, d, r, hs, hf, hV, hS, hsd, hr, hside, hv⟩ :=
    tilted_reported ![3, 2, 1] (by simp) (by simp) (by norm_num)
  obtain ⟨h, hh, h0, h1, h2, -⟩ := axes_of_tilted hs hf (.inl rfl) hS
  obtain ⟨e, he, hp⟩ := C264_same_curves_partial Spec.quantiles2 svd hs _ f hf s d r hsd hr (.inl hside) false 0.2
    h hh h0 h1 h2 { sheet := some "upper" } (by simp; decide) (by simp) (.inl hv)
  exact ⟨svd, f, s, d, r, h, e, hs, hf, hsd, hr, hh, he, hp⟩

/-- The third axis of the orientation is the upward normal of the fit. -/
lemma reported_normal {svd : SvdFn} (hs : svd.Valid) {n : ℕ} {a : Fin n → Vec 3} {f : Fit n}
    (hf : init svd a none none = .ok (some f)) {s d : ℝ} (hsd : strikeDip f = some (s, d)) (r c : ℝ) (e : ℝ × ℝ) :
    orientationAxes true (Spec.reported s d r e c) 2 = f.normal := by
  obtain ⟨U, hF⟩ := init_default hs hf
  obtain ⟨s', d', e, -, -, -, -, a5⟩ := strikeDipOf_spec (fit_axis_ne_zero hF 2)
  rw [show strikeDipOf (f.V 2) = some (s, d) from hsd] at e
  cases e
  rw [hF.svd.row_norm, one_smul] at a5
  rw [orientationAxes_rows, hF.normal, ← a5]
  rfl

/-- The poles of the same numbers are those of the fit; where the fit's third axis points down, the sheets have
each other's names. -/
theorem C264_same_poles_partial (Q : Quantiles) (svd : SvdFn) (hs : svd.Valid) {n : ℕ} (a : Fin n → Vec 3)
    (f : Fit n) (hf : init svd a none none = .ok (some f)) (s d r : ℝ) (hsd : strikeDip f = some (s, d))
    (hr : rake f = some r)
    (hside : 0 ≤ vdot (f.V 0) (Spec.heading s) ∨ vdot (f.V 0) (Spec.plunging (s + 90) d) = 0)
    (sampling : Bool) (cl : ℝ) (h : Vec 3) (hh : axesAt Q f sampling cl = .ok (some h)) (h0 : 0 < h 0)
    (h1 : 0 < h 1) (h2 : 0 < h 2) (o : Opts) (heven : Even (o.n.getD 100)) (hn : o.n ≠ some 0)
    (sheet sheet' : String)
    (hsh : f.V 2 = f.normal ∧ sheet' = sheet ∧ (sheet = "upper" ∨ sheet = "lower") ∨
      f.V 2 = -f.normal ∧ (sheet = "upper" ∧ sheet' = "lower" ∨ sheet = "lower" ∧ sheet' = "upper")) :
    ∃ e c c', errorsAt Q f sampling cl = some e ∧
      normalErrors h (some f.V) { o with sheet := some sheet } = some c ∧
      normalErrors (reconstructErrors (orientationAxes true) (Spec.reported s d r e 2)).1
        (some (reconstructErrors (orientationAxes true) (Spec.reported s d r e 2)).2)
        { o with sheet := some sheet' } = some c' ∧
      c'.1.Perm c.1 := by
  set q := Spec.reported s d r (ErrorAxes.angularErrors h) 2 with hq
  obtain ⟨σ, hσ1, hV⟩ := reported_axes hs hf hsd hr hside h0 h1 h2
  rw [← hq] at hV
  have hnorm : orientationAxes true q 2 = f.normal := reported_normal hs hf hsd r 2 _
  obtain ⟨U, hF⟩ := init_default hs hf
  have hrow : f.V 2 = fun j => σ 2 * f.normal j := by
    rw [← hnorm]
    exact congrFun hV 2
  have hne : f.normal ≠ -f.normal := by
    intro k
    have h0' : f.normal = 0 := self_eq_neg.1 k
    have := fit_axis_ne_zero hF 2
    refine this ?_
    rw [hrow, h0']
    funext j
    simp
  have hsσ : σ 2 = 1 ∧ sheet' = sheet ∧ (sheet = "upper" ∨ sheet = "lower") ∨
      σ 2 = -1 ∧ (sheet = "upper" ∧ sheet' = "lower" ∨ sheet = "lower" ∧ sheet' = "upper") := by
    rcases hsh with ⟨k, kk⟩ | ⟨k, kk⟩
    · refine .inl ⟨(hσ1 2).resolve_right fun m => hne ?_, kk⟩
      rw [k, m] at hrow
      refine hrow.trans ?_
      funext j
      simp
    · refine .inr ⟨(hσ1 2).resolve_left fun m => hne ?_, kk⟩
      rw [k, m] at hrow
      refine Eq.trans ?_ hrow.symm
      funext j
      simp
  obtain ⟨c, c', e1, e2, hp⟩ := C241_poles h h0 h1 h2.le (orientationAxes true q) σ hσ1 o heven hn sheet sheet' hsσ
  refine ⟨_, c, c', by simp only [errorsAt, hh]; rfl, by rw [hV]; exact e1, ?_, hp.symm⟩
  obtain ⟨v, hv⟩ : ∃ v : ℝ, normalScale sheet' = some v := by
    rcases hsh with ⟨-, rfl, rfl | rfl⟩ | ⟨-, ⟨-, rfl⟩ | ⟨-, rfl⟩⟩
    all_goals simp [normalScale]
  show normalErrors (reconstructedLengths q) (some (orientationAxes true q)) _ = some c'
  rw [hq, reported_lengths h0 h1 h2, ← hq, normalErrors_scale (by positivity) h0 h1 h2.le _ { o with sheet := some sheet' } v hv]
  exact e2

example : ∃ (svd : SvdFn) (f : Fit 4) (s d r : ℝ) (h : Vec 3) (e : ℝ × ℝ)
    (c c' : List (Option (ℝ × ℝ)) × Opts), svd.Valid ∧
    init svd (Witness.points Witness.tilt ![3, 2, 1]) none none = .ok (some f) ∧ strikeDip f = some (s, d) ∧
    rake f = some r ∧ axesAt Spec.quantiles2 f false 0.2 = .ok (some h) ∧ errorsAt Spec.quantiles2 f false 0.2 = some e ∧
    normalErrors h (some f.V) { sheet := some "upper" } = some c ∧
    normalErrors (reconstructErrors (orientationAxes true) (Spec.reported s d r e 2)).1
      (some (reconstructErrors (orientationAxes true) (Spec.reported s d r e 2)).2) { sheet := some "upper" } = some c' ∧
    c'.1.Perm c.1 := by
  obtain ⟨svd, f, s, d, r, hs, hf, hV, hS, hsd, hr, hside, hv⟩ :=
    tilted_reported ![3, 2, 1] (by simp) (by simp) (by norm_num)
  obtain ⟨h, hh, h0, h1, h2, -⟩ := axes_of_tilted hs hf (.inl rfl) hS
  have hup : f.V 2 = f.normal := by
    obtain ⟨U, hF⟩ := init_default hs hf
    rw [hF.normal, hV]
    unfold upward
    simp [Witness.tilt]
    intro hlt
    exact absurd hlt (by norm_num)
  obtain ⟨e, c, c', he, e1, e2, hp⟩ := C264_same_poles_partial Spec.quantiles2 svd hs _ f hf s d r hsd hr (.inl hside)
    false 0.2 h hh h0 h1 h2 { sheet := some "upper" } (by simp; decide) (by simp) "upper" "upper"
    (.inl ⟨hup, rfl, .inl rfl⟩)
  exact ⟨svd, f, s, d, r, h, e, c, c', hs, hf, hsd, hr, hh, he, e1, e2, hp⟩

/-- The numbers as Python reports them, not doubled, give narrower curves: when the larger error is less than twice
the smaller one, every vertex of the error curves drawn from the numbers is nearer to the plane than every vertex
of the curves drawn from the axes of the fit. -/
theorem C264_half_false (Q : Quantiles) (svd : SvdFn) (hs : svd.Valid) {n : ℕ} (a : Fin n → Vec 3)
    (f : Fit n) (hf : init svd a none none = .ok (some f)) (s d r : ℝ) (hsd : strikeDip f = some (s, d))
    (sampling : Bool) (cl : ℝ) (h : Vec 3) (hh : axesAt Q f sampling cl = .ok (some h)) (h0 : 0 < h 0)
    (h1 : 0 < h 1) (h2 : 0 < h 2) (e : ℝ × ℝ) (he : errorsAt Q f sampling cl = some e) (hle : e.1 ≤ e.2)
    (hlt : e.2 < 2 * e.1) (o : Opts) (hu : o.upperHemisphere ≠ some false) :
    ∀ c c', c = (combinedErrors (reconstructErrors (orientationAxes true) (Spec.reported s d r e 1)).1
        (some (reconstructErrors (orientationAxes true) (Spec.reported s d r e 1)).2) o).1 →
      c' = (combinedErrors h (some f.V) o).1 →
      ∀ x, x ∈ c.upper ∨ x ∈ c.lower → ∀ x', x' ∈ c'.upper ∨ x' ∈ c'.lower → ∃ p p', x = some p ∧ x' = some p' ∧
        Spec.elevation (Spec.shown true (o.traditionalLayout.getD true) p) f.normal
          < Spec.elevation (Spec.shown true (o.traditionalLayout.getD true) p') f.normal := by
  intro c c' hc hc' x hx x' hx'
  obtain ⟨-, -, e1, e2, k, hall⟩ := C181_errors Q svd hs a f hf sampling cl h hh h0 h1 h2 o hu
  rw [he] at k
  cases k
  rw [hc'] at hx'
  obtain ⟨p', hp', hlow, -⟩ := hall x' hx'
  have hE : angularErrors h = (e1, e2) := by
    simp only [errorsAt, hh] at he
    exact Option.some.inj he
  obtain ⟨a0, a1, b0, b1⟩ := angularErrors_pos_lt h0 h1 h2
  rw [hE] at a0 a1 b0 b1
  simp only at a0 a1 b0 b1 hle hlt
  set q := Spec.reported s d r (e1, e2) 1 with hq
  obtain ⟨U, hF⟩ := init_default hs hf
  have hnorm : orientationAxes true q 2 = f.normal := reported_normal hs hf hsd r 1 _
  have hpi := Real.pi_pos
  have m0 : 0 < q.minError := by
    show 0 < 1 * degrees e1
    unfold degrees; positivity
  have mle : q.minError ≤ q.maxError := by
    show 1 * degrees e1 ≤ 1 * degrees e2
    unfold degrees
    gcongr
  have mM : q.maxError < 180 := by
    show 1 * degrees e2 < 180
    unfold degrees
    rw [one_mul, div_lt_iff₀ hpi]
    nlinarith
  have hrad : radians (q.maxError / 2) = e2 / 2 := by
    show radians (1 * degrees e2 / 2) = e2 / 2
    unfold radians degrees
    field_simp
  have key : ∀ o' : Opts, o'.upperHemisphere ≠ some false → (o'.sheet = some "upper" ∨ o'.sheet = some "lower") →
      o'.degrees = some true → o'.traditionalLayout.getD true = o.traditionalLayout.getD true →
      x ∈ (planeErrors (reconstructErrors (orientationAxes true) q).1
        (some (reconstructErrors (orientationAxes true) q).2) o').1 →
      ∃ p, x = some p ∧ Spec.elevation (Spec.shown true (o.traditionalLayout.getD true) p) f.normal ≤ e2 / 2 := by
    intro o' hu' hs' hd' ht' hx
    obtain ⟨p, hp, -, hhi⟩ := C114_widths q m0 mle mM (orientationAxes true) (C168_axes_partial q).1 o' hu' hs' x hx
    rw [hd', ht', hnorm, hrad] at hhi
    exact ⟨p, hp, hhi⟩
  have hx2 : ∃ p, x = some p ∧
      Spec.elevation (Spec.shown true (o.traditionalLayout.getD true) p) f.normal ≤ e2 / 2 := by
    have hu' : some (o.upperHemisphere.getD true) ≠ some false := by
      cases hb : o.upperHemisphere with
      | none => simp
      | some b => cases b <;> simp_all
    rw [hc] at hx
    rcases hx with hx | hx
    · refine key { (planeErrors (reconstructErrors (orientationAxes true) q).1
          (some (reconstructErrors (orientationAxes true) q).2)
          { o with sheet := some "nominal", degrees := some true }).2
          with sheet := some "upper", degrees := some true } hu' (.inl rfl) rfl rfl hx
    · refine key { (planeErrors (reconstructErrors (orientationAxes true) q).1
          (some (reconstructErrors (orientationAxes true) q).2)
          { (planeErrors (reconstructErrors (orientationAxes true) q).1
            (some (reconstructErrors (orientationAxes true) q).2)
            { o with sheet := some "nominal", degrees := some true }).2
            with sheet := some "upper", degrees := some true }).2
          with sheet := some "lower", degrees := some true } hu' (.inr rfl) rfl rfl hx
  obtain ⟨p, hp, hhi⟩ := hx2
  refine ⟨p, p', hp, hp', lt_of_le_of_lt hhi (lt_of_lt_of_le ?_ hlow)⟩
  rw [min_eq_left hle]
  linarith

example : ∃ (svd : SvdFn) (f : Fit 4) (s d r : ℝ) (h : Vec 3) (e : ℝ × ℝ) (p p' : ℝ × ℝ), svd.Valid ∧
    init svd (Witness.points Witness.tilt ![2, 2, 1]) none none = .ok (some f) ∧ strikeDip f = some (s, d) ∧
    rake f = some r ∧ axesAt Spec.quantiles2 f false 0.2 = .ok (some h) ∧
    errorsAt Spec.quantiles2 f false 0.2 = some e ∧
    some p ∈ (combinedErrors (reconstructErrors (orientationAxes true) (Spec.reported s d r e 1)).1
        (some (reconstructErrors (orientationAxes true) (Spec.reported s d r e 1)).2) {}).1.upper ∧
    some p' ∈ (combinedErrors h (some f.V) {}).1.upper ∧
    Spec.elevation (Spec.shown true true p) f.normal < Spec.elevation (Spec.shown true true p') f.normal := by
  obtain ⟨svd, f, s, d, r, hs, hf, hV, hS, hsd, hr, hside, hv⟩ :=
    tilted_reported ![2, 2, 1] (by simp) (by simp) (by simp)
  obtain ⟨h, hh, h0, h1, h2, he⟩ := axes_of_tilted hs hf (.inr rfl) hS
  have hE : errorsAt Spec.quantiles2 f false 0.2 = some (ErrorAxes.angularErrors h) := by
    simp only [errorsAt, hh]
  have h12 : (ErrorAxes.angularErrors h).1 = (ErrorAxes.angularErrors h).2 := by
    simp only [ErrorAxes.angularErrors, he rfl]
  have hpos := (angularErrors_pos_lt h0 h1 h2).1
  have hne : ∀ (cov : Vec 3) (axes : Mat 3 3), ∃ x, x ∈ (combinedErrors cov (some axes) {}).1.upper := by
    intro cov axes
    apply List.exists_mem_of_length_pos
    simp only [combinedErrors, Frontend.planeErrors_eq, List.length_map, Frontend.ellipse_length]
    simp [planeErrors, Opts.defaults]
  obtain ⟨x, hx⟩ := hne (reconstructErrors (orientationAxes true) (Spec.reported s d r (ErrorAxes.angularErrors h) 1)).1
    (reconstructErrors (orientationAxes true) (Spec.reported s d r (ErrorAxes.angularErrors h) 1)).2
  obtain ⟨x', hx'⟩ := hne h f.V
  obtain ⟨p, p', rfl, rfl, hlt⟩ := C264_half_false Spec.quantiles2 svd hs _ f hf s d r hsd false 0.2 h hh h0 h1 h2 _ hE
    h12.le (by linarith) {} (by simp) _ _ rfl rfl x (.inl hx) x' (.inl hx')
  exact ⟨svd, f, s, d, r, h, _, p, p', hs, hf, hsd, hr, hh, hE, hx, hx', hlt⟩

end Attitude.Props
