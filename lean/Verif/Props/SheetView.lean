import Verif.Props.SheetPlot
import Mathlib.Geometry.Euclidean.Angle.Unoriented.TriangleInequality
import Mathlib.Analysis.InnerProductSpace.PiL2

/-! # Rows of the spreadsheet in the clipped stereonet: C263 -/

namespace Attitude.Props

open Attitude Webapp Frontend

/-! ## Specification -/

/-- A vertex appears within the circle of a stereonet. -/
def Spec.inCircle (net : Net) (x : Option (ℝ × ℝ)) : Prop :=
  ∃ p s, x = some p ∧ project net.rotation net.projScale (net.scale / 2) p = some s ∧
    (s.1 - net.scale / 2) ^ 2 + (s.2 - net.scale / 2) ^ 2 ≤ net.radius ^ 2

/-- The angle from the vertical up to which a stereonet with a clip angle shows directions: angles of 89
degrees and more show the hemisphere. -/
noncomputable def Spec.viewLimit (clipAngle : ℝ) : ℝ := if clipAngle < 89 then clipAngle else 90

/-- Numbers for which an error ellipse is defined, with an ordinary dip. -/
def Spec.plausible (q : Orientation) : Prop :=
  0 < q.minError ∧ q.maxError < 180 ∧ 0 ≤ q.dip ∧ q.dip ≤ 90

/-! ## C263 -/

lemma angleBetween_eq {u w : Vec 3} (hu : Attitude.norm u = 1) (hw : Attitude.norm w = 1) :
    Spec.angleBetween u w
      = InnerProductGeometry.angle (WithLp.toLp 2 u : EuclideanSpace ℝ (Fin 3)) (WithLp.toLp 2 w) := by
  have key : ∀ v : Vec 3, ‖(WithLp.toLp 2 v : EuclideanSpace ℝ (Fin 3))‖ = Attitude.norm v := by
    intro v
    rw [EuclideanSpace.norm_eq, norm3, Fin.sum_univ_three]
    simp
  rw [Spec.angleBetween, InnerProductGeometry.angle, key, key, hu, hw, mul_one, div_one]
  congr 1
  rw [vdot3, PiLp.inner_apply, Fin.sum_univ_three]
  simp only [RCLike.inner_apply, conj_trivial]
  ring

lemma angleBetween_triangle {u m w : Vec 3} (hu : Attitude.norm u = 1) (hm : Attitude.norm m = 1)
    (hw : Attitude.norm w = 1) :
    Spec.angleBetween u w ≤ Spec.angleBetween u m + Spec.angleBetween m w := by
  rw [angleBetween_eq hu hw, angleBetween_eq hu hm, angleBetween_eq hm hw]
  exact InnerProductGeometry.angle_le_angle_add_angle _ _ _

lemma angleBetween_comm (u w : Vec 3) : Spec.angleBetween u w = Spec.angleBetween w u := by
  rw [Spec.angleBetween, Spec.angleBetween, vdot3, vdot3]
  congr 1
  ring

lemma angleBetween_neg (u w : Vec 3) :
    Spec.angleBetween u (fun j => -w j) = Real.pi - Spec.angleBetween u w := by
  rw [Spec.angleBetween, Spec.angleBetween, ← Real.arccos_neg, vdot3, vdot3]
  congr 1
  ring

lemma up_of_rule {m : Vec 3} (hm : Attitude.norm m = 1) (h0 : 0 ≤ m 2) {s d : ℝ}
    (hr : Spec.RightHandRule m s d) (hd0 : 0 ≤ d) (hd : d ≤ 90) :
    Spec.angleBetween m ![0, 0, 1] = radians d := by
  obtain ⟨h1, h2⟩ := hr
  unfold Spec.InPlane at h1 h2
  simp only [Spec.heading, Spec.plunging, Matrix.cons_val] at h1 h2
  have es : Real.sin ((s + 90) * Real.pi / 180) = Real.cos (s * Real.pi / 180) := by
    rw [show (s + 90) * Real.pi / 180 = s * Real.pi / 180 + Real.pi / 2 by ring, Real.sin_add_pi_div_two]
  have ec : Real.cos ((s + 90) * Real.pi / 180) = -Real.sin (s * Real.pi / 180) := by
    rw [show (s + 90) * Real.pi / 180 = s * Real.pi / 180 + Real.pi / 2 by ring, Real.cos_add_pi_div_two]
  rw [es, ec] at h2
  have hn : m 0 ^ 2 + m 1 ^ 2 + m 2 ^ 2 = 1 := by
    have := norm3 m
    rw [hm] at this
    have h := congrArg (· ^ 2) this
    simp only [one_pow] at h
    rw [Real.sq_sqrt (by positivity)] at h
    exact h.symm
  have hds : d * Real.pi / 180 = radians d := rfl
  rw [hds] at h2
  set S := Real.sin (s * Real.pi / 180)
  set C := Real.cos (s * Real.pi / 180)
  have hSC : S ^ 2 + C ^ 2 = 1 := Real.sin_sq_add_cos_sq _
  have hdd := Real.sin_sq_add_cos_sq (radians d)
  have hr0 : 0 ≤ radians d := by unfold radians; positivity
  have hr1 : radians d ≤ Real.pi / 2 := by
    rw [← radians_90]; unfold radians
    have := mul_le_mul_of_nonneg_right hd Real.pi_pos.le
    linarith
  have hcos : 0 ≤ Real.cos (radians d) :=
    Real.cos_nonneg_of_neg_pi_div_two_le_of_le (by linarith [Real.pi_pos]) hr1
  set sd := Real.sin (radians d)
  set cd := Real.cos (radians d)
  have hk : (m 0 * C - m 1 * S) * cd = m 2 * sd := by linarith
  have hk2 : (m 0 * C - m 1 * S) ^ 2 = m 0 ^ 2 + m 1 ^ 2 := by
    have : (m 0 * C - m 1 * S) ^ 2 + (m 0 * S + m 1 * C) ^ 2 = (m 0 ^ 2 + m 1 ^ 2) * (S ^ 2 + C ^ 2) := by ring
    rw [hSC, mul_one, show m 0 * S + m 1 * C = 0 by linarith] at this
    linarith
  have hsq : m 2 ^ 2 = cd ^ 2 := by
    have h := congrArg (· ^ 2) hk
    simp only [mul_pow, hk2] at h
    rw [show m 0 ^ 2 + m 1 ^ 2 = 1 - m 2 ^ 2 by linarith] at h
    linear_combination (-1 : ℝ) * h - m 2 ^ 2 * hdd
  have : m 2 = cd := (sq_eq_sq₀ h0 hcos).1 hsq
  rw [Spec.angleBetween, vdot3]
  simp only [Matrix.cons_val, mul_zero, zero_add, mul_one, this]
  exact Real.arccos_cos hr0 (by linarith [Real.pi_pos])

lemma shown_unit (p : ℝ × ℝ) : Attitude.norm (Spec.shown true false p) = 1 := by
  rw [norm3]
  simp only [Spec.shown, Spec.direction, Rotations.sph2cart]
  rw [Real.sqrt_eq_one]
  simp
  have e1 := Real.sin_sq_add_cos_sq (radians p.1)
  have e2 := Real.sin_sq_add_cos_sq (radians p.2)
  linear_combination (Real.cos (radians p.2) ^ 2) * e1 + e2

lemma clippedNet_state (c : ℝ) : (clippedNet c).rotation = Rotation.of 0 (-90) ∧
    (clippedNet c).scale = 400 ∧ (clippedNet c).projClip = Spec.viewLimit c ∧
    (0 < c → 0 < (clippedNet c).projScale) := by
  unfold Spec.viewLimit
  by_cases h : c < 89
  · have h90 : c ≠ 90 := by linarith
    refine ⟨?_, ?_, ?_, fun hc => ?_⟩
    · simp [clippedNet, Net.run, Net.step, Net.setScale, h]
    · simp [clippedNet, Net.run, Net.step, Net.setScale, h]
    · simp [clippedNet, Net.run, Net.step, Net.setScale, h]
    · simp only [clippedNet, Net.run, Net.step, Net.setScale, h, h90, List.foldl, if_true, if_false,
        Option.getD_some, Option.getD_none]
      have hs : 0 < Real.sin (Real.pi / 180 * c) := by
        apply Real.sin_pos_of_pos_of_lt_pi
        · have := Real.pi_pos
          positivity
        · have := mul_lt_mul_of_pos_left h Real.pi_pos
          linarith [Real.pi_pos]
      have : (0 : ℝ) < 400 / 2 - 25 := by norm_num
      positivity
  · refine ⟨?_, ?_, ?_, fun hc => ?_⟩
    · simp [clippedNet, Net.run, Net.step, Net.setScale, h]
    · simp [clippedNet, Net.run, Net.step, Net.setScale, h]
    · simp [clippedNet, Net.run, Net.step, Net.setScale, h]
    · simp only [clippedNet, Net.run, Net.step, Net.setScale, h, List.foldl, if_false,
        Option.getD_some, Option.getD_none]
      split_ifs <;> norm_num

lemma facing_up : Spec.facing (Rotation.of 0 (-90)) = ![0, 0, 1] := by
  have h0 : rem360 0 = 0 := rem360_of_lt (by norm_num)
  have h1 : rem360 (-90) = -90 := rem360_of_lt (by norm_num [abs_of_neg])
  simp only [Spec.facing, Rotation.of, h0, h1, Spec.shown, Spec.direction, Rotations.sph2cart]
  funext i
  fin_cases i <;> simp [radians_90, radians_zero]

/-- What is in the circle of the clipped stereonet: directions up to the limit from the vertical. -/
theorem C263_circle (c : ℝ) (hc : 0 < c) (p : ℝ × ℝ) :
    Spec.inCircle (clippedNet c) (some p) ↔
      Spec.angleBetween (Spec.shown true false p) ![0, 0, 1] ≤ radians (Spec.viewLimit c) := by
  obtain ⟨hrot, hscale, hclip, hps⟩ := clippedNet_state c
  have hps := hps hc
  have hpi := Real.pi_pos
  have hL0 : 0 < Spec.viewLimit c := by unfold Spec.viewLimit; split_ifs <;> linarith
  have hL1 : Spec.viewLimit c ≤ 90 := by unfold Spec.viewLimit; split_ifs <;> linarith
  have r0 : 0 < radians (Spec.viewLimit c) := by unfold radians; positivity
  have r1 : radians (Spec.viewLimit c) ≤ Real.pi / 2 := by
    rw [← radians_90]; unfold radians
    have := mul_le_mul_of_nonneg_right hL1 hpi.le
    linarith
  have hfac : Spec.facing (clippedNet c).rotation = ![0, 0, 1] := by rw [hrot, facing_up]
  have a0 : 0 ≤ Spec.angleBetween (Spec.shown true false p) ![0, 0, 1] := Real.arccos_nonneg _
  have a1 : Spec.angleBetween (Spec.shown true false p) ![0, 0, 1] ≤ Real.pi := Real.arccos_le_pi _
  have hrad : ∀ s, project (clippedNet c).rotation (clippedNet c).projScale ((clippedNet c).scale / 2) p
      = some s → ((s.1 - (clippedNet c).scale / 2) ^ 2 + (s.2 - (clippedNet c).scale / 2) ^ 2
        ≤ (clippedNet c).radius ^ 2 ↔
        Spec.angleBetween (Spec.shown true false p) ![0, 0, 1] ≤ radians (Spec.viewLimit c)) := by
    intro s hs
    rw [C182_radius _ _ _ _ _ hs, hfac, angleBetween_comm, Net.radius, hclip]
    set α := Spec.angleBetween (Spec.shown true false p) ![0, 0, 1]
    set L := radians (Spec.viewLimit c)
    have sa : 0 ≤ Real.sin (α / 2) := Real.sin_nonneg_of_nonneg_of_le_pi (by linarith) (by linarith)
    have sl : 0 ≤ Real.sin (L / 2) := Real.sin_nonneg_of_nonneg_of_le_pi (by linarith) (by linarith)
    rw [sq_le_sq₀ (by positivity) (by positivity), mul_le_mul_iff_right₀ hps,
      mul_le_mul_iff_right₀ (by norm_num : (0 : ℝ) < 2)]
    rw [Real.strictMonoOn_sin.le_iff_le ⟨by linarith, by linarith⟩ ⟨by linarith, by linarith⟩]
    constructor <;> intro h <;> linarith
  constructor
  · rintro ⟨p', s, hp, hs, hle⟩
    cases hp
    exact (hrad s hs).1 hle
  · intro hle
    have hcos : Real.cos ((clippedNet c).rotation.apply p).1 * Real.cos ((clippedNet c).rotation.apply p).2
        = vdot (![0, 0, 1] : Vec 3) (Spec.shown true false p) := by
      rw [apply_cos, geoDirection_dot, ← hfac]
      rfl
    have hnn : 0 ≤ vdot (Spec.shown true false p) (![0, 0, 1] : Vec 3) := by
      rw [← Real.arccos_le_pi_div_two]
      exact hle.trans r1
    have hne : 1 + Real.cos ((clippedNet c).rotation.apply p).1
        * Real.cos ((clippedNet c).rotation.apply p).2 ≠ 0 := by
      rw [hcos]
      have : vdot (![0, 0, 1] : Vec 3) (Spec.shown true false p)
          = vdot (Spec.shown true false p) (![0, 0, 1] : Vec 3) := by rw [vdot3, vdot3]; ring
      rw [this]
      linarith
    obtain ⟨s, hs⟩ : ∃ s, project (clippedNet c).rotation (clippedNet c).projScale
        ((clippedNet c).scale / 2) p = some s := by
      simp only [project]
      rw [if_neg hne]
      exact ⟨_, rfl⟩
    exact ⟨p, s, rfl, hs, (hrad s hs).2 hle⟩

/-- The settings that hold whenever an ellipse is made. -/
structure EllipseOpts (o : Opts) : Prop where
  degrees : o.degrees = some true
  layout : o.traditionalLayout = some false
  upper : o.upperHemisphere ≠ some false
  n : o.n = some 200
  level : o.level = some 1

lemma normalErrors_opts' {cov : Vec 3} {axes : Option (Mat 3 3)} {o : Opts} {c o'}
    (h : Frontend.normalErrors cov axes o = some (c, o')) (ho : EllipseOpts o) : EllipseOpts o' := by
  obtain ⟨h1, h2, h3, h4, h5⟩ := ho
  have : o' = { o.defaults with sheet := some (o.sheet.getD "upper"), level := some (o.level.getD 1) } := by
    unfold Frontend.normalErrors at h
    simp only at h
    split_ifs at h
    all_goals
      simp only [Option.some.injEq, Prod.mk.injEq] at h
      exact h.2.symm
  subst this
  refine ⟨by simp [Opts.defaults, h1], by simp [Opts.defaults, h2], ?_, by simp [Opts.defaults, h4],
    by simp [h5]⟩
  simp only [Opts.defaults]
  cases hb : o.upperHemisphere with
  | none => simp
  | some b => cases b <;> simp_all

lemma errorEllipse_opts {rot area o p x o'} (h : errorEllipse rot area o p = .ok (some (x, o')))
    (ho : EllipseOpts o) : EllipseOpts o' := by
  have keep : ∀ (o : Opts) s, EllipseOpts o → EllipseOpts { o with sheet := s } := by
    rintro o s ⟨h1, h2, h3, h4, h5⟩
    exact ⟨h1, h2, h3, h4, h5⟩
  unfold errorEllipse at h
  cases hc : constructAxes rot p with
  | error e => rw [hc] at h; simp [bind, Except.bind] at h
  | ok r =>
    obtain ⟨⟨hyp, axes⟩, p'⟩ := r
    rw [hc] at h
    cases hyp with
    | none => simp [bind, Except.bind] at h
    | some l =>
      simp only [bind, Except.bind, Except.ok.injEq] at h
      cases h1 : Frontend.normalErrors l (some axes) { o with sheet := some "upper" } with
      | none => rw [h1] at h; simp at h
      | some r1 =>
        obtain ⟨c1, o1⟩ := r1
        rw [h1] at h
        simp only [Option.bind_some] at h
        cases h2 : Frontend.normalErrors l (some axes) { o1 with sheet := some "lower" } with
        | none => rw [h2] at h; simp at h
        | some r2 =>
          obtain ⟨c2, o2⟩ := r2
          rw [h2] at h
          simp only [Option.bind_some, Option.some.injEq, Prod.mk.injEq] at h
          rw [← h.2]
          exact normalErrors_opts' h2 (keep _ _ (normalErrors_opts' h1 (keep _ _ ho)))

/-- What is shown of the error ellipse `s` of a row with the orientation `q`: the first polygon if dip and error
are within the limit, nothing if they are beyond it, and never the second unless they reach around. -/
def Spec.seenAs (net : Net) (limit : ℝ) (q : Orientation) (s : List (List (Option (ℝ × ℝ)))) : Prop :=
  ∃ r r', s = [r, r'] ∧
    (q.dip + q.maxError / 2 ≤ limit → ∀ x ∈ r, Spec.inCircle net x) ∧
    (limit < q.dip - q.maxError / 2 → ∀ x ∈ r, ¬ Spec.inCircle net x) ∧
    (q.dip + q.maxError / 2 < 180 - limit → ∀ x ∈ r', ¬ Spec.inCircle net x)

lemma ellipses_seen (g : Value → Bool) (events : List Event) (area : List (Option (ℝ × ℝ)) → ℝ) (c : ℝ)
    (hc : 0 < c) (rows : List (List (String × Out))) :
    ∀ opts : Opts, EllipseOpts opts → (∀ o ∈ rows, o ∈ cleanedData g (run events)) →
    (∀ o ∈ rows, ∀ q, toOrientation o = some q → Spec.plausible q) →
    ∃ polys, ellipses area opts (rows.map toProps) = .ok (some polys) ∧
      List.Forall₂ (fun o s => ∃ q, toOrientation o = some q ∧
        Spec.seenAs (clippedNet c) (Spec.viewLimit c) q s) rows polys := by
  induction rows with
  | nil => intro opts _ _ _; exact ⟨[], rfl, .nil⟩
  | cons o rows ih =>
    intro opts hopts hmem hpl
    obtain ⟨q, hq, h⟩ := C262_poles_partial g events o (hmem o List.mem_cons_self)
    obtain ⟨p0, p1, p2, p3⟩ := hpl o List.mem_cons_self q hq
    obtain ⟨m, r, r', a, l, o', hm, hm2, hrule, hE, hr, hr'⟩ := h p0 p1 area opts hopts.upper
      (by rw [hopts.n]; simp) (by rw [hopts.level]; rfl)
    obtain ⟨polys, hp, hf⟩ := ih o' (errorEllipse_opts hE hopts)
      (fun x hx => hmem x (List.mem_cons_of_mem _ hx)) (fun x hx => hpl x (List.mem_cons_of_mem _ hx))
    refine ⟨[r, r'] :: polys, ?_, .cons ⟨q, hq, r, r', rfl, ?_, ?_, ?_⟩ hf⟩
    · simp only [List.map_cons, ellipses, hE, hp, Option.map_some]
    all_goals
      have hup := up_of_rule hm hm2 hrule p2 p3
      have hz : Attitude.norm (![0, 0, 1] : Vec 3) = 1 := by rw [norm3]; simp
      have rlin : ∀ x y : ℝ, radians (x + y) = radians x + radians y := by intro x y; unfold radians; ring
      have rmono : ∀ {x y : ℝ}, x ≤ y → radians x ≤ radians y := by
        intro x y h
        unfold radians
        have := mul_le_mul_of_nonneg_right h Real.pi_pos.le
        linarith
      have rmono' : ∀ {x y : ℝ}, x < y → radians x < radians y := by
        intro x y h
        unfold radians
        have := mul_lt_mul_of_pos_right h Real.pi_pos
        linarith
      simp only [hopts.degrees, hopts.layout, Option.getD_some] at hr hr'
      intro hlim x hx
    · obtain ⟨p, rfl, -, h2⟩ := hr x hx
      rw [C263_circle c hc]
      have := angleBetween_triangle (shown_unit p) hm hz
      rw [hup] at this
      have h3 := rmono hlim
      rw [rlin] at h3
      linarith
    · obtain ⟨p, rfl, -, h2⟩ := hr x hx
      rw [C263_circle c hc, not_le]
      have := angleBetween_triangle hm (shown_unit p) hz
      rw [hup, angleBetween_comm m] at this
      have h3 := rmono' hlim
      rw [sub_eq_add_neg, rlin, show radians (-(q.maxError / 2)) = -radians (q.maxError / 2) by
        unfold radians; ring] at h3
      linarith
    · obtain ⟨p, rfl, -, h2⟩ := hr' x hx
      rw [C263_circle c hc, not_le]
      have hnm : Attitude.norm (fun j => -m j) = 1 := by
        rw [← hm, norm3, norm3]; simp
      have := angleBetween_triangle hnm (shown_unit p) hz
      rw [angleBetween_comm (fun j => -m j) (![0, 0, 1]), angleBetween_neg, angleBetween_comm _ m, hup,
        angleBetween_comm (fun j => -m j)] at this
      have h3 := rmono' hlim
      rw [rlin, show radians (180 - Spec.viewLimit c) = Real.pi - radians (Spec.viewLimit c) by
        unfold radians; ring] at h3
      linarith

/-- The clipped stereonet of the web application: whatever was done to the sheet, with plausible numbers in all
plotted rows, every row has an ellipse in the same order, which is shown completely or not at all according to
its dip and error. -/
theorem C263_rows_partial (g : Value → Bool) (events : List Event)
    (hpl : ∀ o ∈ cleanedData g (run events), ∀ q, toOrientation o = some q → Spec.plausible q)
    (area : List (Option (ℝ × ℝ)) → ℝ) (c : ℝ) (hc : 0 < c) :
    ∃ polys, ellipses area stereonetOpts ((cleanedData g (run events)).map toProps) = .ok (some polys) ∧
      List.Forall₂ (fun o s => ∃ q, toOrientation o = some q ∧
        Spec.seenAs (clippedNet c) (Spec.viewLimit c) q s) (cleanedData g (run events)) polys :=
  ellipses_seen g events area c hc _ _ ⟨rfl, rfl, by simp [stereonetOpts], rfl, rfl⟩ (fun _ h => h) hpl

lemma default_orientations (g : Value → Bool) (o : List (String × Out)) (ho : o ∈ cleanedData g (run []))
    (q : Orientation) (hq : toOrientation o = some q) :
    q = ⟨10, 8, 2, 20, 8⟩ ∨ q = ⟨120, 46, 5, 45, 2⟩ := by
  obtain ⟨row, q', x, hrow, hq', -, hx, hval, -⟩ := C262_numbers g [] o ho
  rw [hq] at hq'
  cases hq'
  have hrows : row = defaultRow1 ∨ row = defaultRow2 ∨ row = emptyRow := by
    simp only [run, List.foldl_nil, defaultData, addEmptyRows] at hrow
    split_ifs at hrow
    · simp only [List.mem_cons, List.not_mem_nil, or_false] at hrow
      tauto
    · simp only [List.mem_append, List.mem_cons, List.not_mem_nil, or_false] at hrow
      rcases hrow with h | h
      · tauto
      · exact .inr (.inr (List.eq_of_mem_replicate h))
  obtain ⟨a, b, c, d, e⟩ := q
  rcases hrows with rfl | rfl | rfl
  · left
    simp [defaultRow1, Value.parseFloat] at hx
    subst hx
    simp at hval
    obtain ⟨rfl, rfl, rfl, rfl, rfl⟩ := hval
    rfl
  · right
    simp [defaultRow2, Value.parseFloat] at hx
    subst hx
    simp at hval
    obtain ⟨rfl, rfl, rfl, rfl, rfl⟩ := hval
    rfl
  · simp [emptyRow, orientationFields, List.replicate_succ, Value.parseFloat] at hx

/-- The sheet at the start: both rows have plausible numbers, so the theorem applies; with the clip angle at the
start (15 degrees) the second row, which dips 46 degrees with an error of 45, is not shown. -/
example (g : Value → Bool) : (∀ o ∈ cleanedData g (run []), ∀ q, toOrientation o = some q →
    Spec.plausible q) ∧ Spec.viewLimit 15 < (46 : ℝ) - 45 / 2 := by
  constructor
  · intro o ho q hq
    rcases default_orientations g o ho q hq with rfl | rfl <;> norm_num [Spec.plausible]
  · norm_num [Spec.viewLimit]

/-- Refutation: clip angles from 89 to 90 degrees do not hide what is further from the vertical; a horizontal
direction is shown. -/
theorem C263_limit_false (c : ℝ) (h : 89 ≤ c) (h90 : c < 90) :
    ∃ p, radians c < Spec.angleBetween (Spec.shown true false p) ![0, 0, 1] ∧
      Spec.inCircle (clippedNet c) (some p) := by
  have ha : Spec.angleBetween (Spec.shown true false (0, 0)) ![0, 0, 1] = radians 90 := by
    rw [radians_90]
    simp [Spec.angleBetween, vdot3, Spec.shown, Spec.direction, Rotations.sph2cart, radians_zero]
  refine ⟨(0, 0), ?_, ?_⟩
  · rw [ha]
    unfold radians
    have := mul_lt_mul_of_pos_right h90 Real.pi_pos
    linarith
  · rw [C263_circle c (by linarith), ha, Spec.viewLimit, if_neg (by linarith)]

example := C263_limit_false 89.5 (by norm_num) (by norm_num)

example : Spec.inCircle (clippedNet 15) (some (0, 90)) := by
  rw [C263_circle 15 (by norm_num)]
  simp [Spec.angleBetween, vdot3, Spec.shown, Spec.direction, Rotations.sph2cart, radians_90]
  norm_num [Spec.viewLimit, radians]
  positivity

end Attitude.Props
