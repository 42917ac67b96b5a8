import Verif.Model.SheetPlot
import Verif.Props.Webapp
import Verif.Props.Versor
import Verif.Props.FrontendPoleDensity
import Verif.Props.LabelsShown

/-! # From the spreadsheet to the stereonet: C262 -/

namespace Attitude.Props

open Attitude Webapp Frontend

/-- An angle (in radians) is between halves of the two errors (in degrees). -/
def Spec.withinErrors (q : Orientation) (x : ℝ) : Prop :=
  radians (q.minError / 2) ≤ x ∧ x ≤ radians (q.maxError / 2)

/-! ## C262 -/

lemma arccos_bounds {z t v : ℝ} (ht : 0 ≤ t) (htv : t ≤ v) (hv : v ≤ Real.pi / 2) (hz : 0 ≤ z)
    (h1 : z ^ 2 ≤ Real.cos t ^ 2) (h2 : Real.cos v ^ 2 ≤ z ^ 2) :
    t ≤ Real.arccos z ∧ Real.arccos z ≤ v := by
  rw [← abs_of_nonneg hz]
  have hpi := Real.pi_pos
  have ct : 0 ≤ Real.cos t := Real.cos_nonneg_of_neg_pi_div_two_le_of_le (by linarith) (by linarith)
  have cv : 0 ≤ Real.cos v := Real.cos_nonneg_of_neg_pi_div_two_le_of_le (by linarith) hv
  have a1 : |z| ≤ Real.cos t := abs_le_of_sq_le_sq h1 ct
  have a2 : Real.cos v ≤ |z| := by
    have := Real.sqrt_le_sqrt h2
    rwa [Real.sqrt_sq cv, Real.sqrt_sq_eq_abs] at this
  constructor
  · rw [← Real.arccos_cos ht (by linarith)]
    exact Real.antitone_arccos a1
  · calc Real.arccos |z| ≤ Real.arccos (Real.cos v) := Real.antitone_arccos a2
      _ = v := Real.arccos_cos (by linarith) (by linarith)

lemma sq_le_cos_of_tan {z t : ℝ} (h0 : 0 < t) (h1 : t < Real.pi / 2) :
    (z ^ 2 ≤ (1 / Real.tan t) ^ 2 * (1 - z ^ 2) → z ^ 2 ≤ Real.cos t ^ 2) ∧
      ((1 / Real.tan t) ^ 2 * (1 - z ^ 2) ≤ z ^ 2 → Real.cos t ^ 2 ≤ z ^ 2) := by
  have hs : 0 < Real.sin t := Real.sin_pos_of_pos_of_lt_pi h0 (by linarith [Real.pi_pos])
  have hc : 0 < Real.cos t := Real.cos_pos_of_mem_Ioo ⟨by linarith [Real.pi_pos], h1⟩
  have hcs := Real.sin_sq_add_cos_sq t
  have e : (1 / Real.tan t) ^ 2 = Real.cos t ^ 2 / Real.sin t ^ 2 := by
    rw [Real.tan_eq_sin_div_cos, one_div_div, div_pow]
  rw [e, div_mul_eq_mul_div]
  have hs2 : 0 < Real.sin t ^ 2 := by positivity
  constructor
  · intro h
    rw [le_div_iff₀ hs2] at h
    have : z ^ 2 * (Real.sin t ^ 2 + Real.cos t ^ 2) ≤ Real.cos t ^ 2 := by linarith
    rwa [hcs, mul_one] at this
  · intro h
    rw [div_le_iff₀ hs2] at h
    have : Real.cos t ^ 2 ≤ z ^ 2 * (Real.sin t ^ 2 + Real.cos t ^ 2) := by linarith
    rwa [hcs, mul_one] at this

lemma reconstructed_pos (q : Orientation) (hmin : 0 < q.minError) (hle : q.minError ≤ q.maxError)
    (hmax : q.maxError < 180) :
    0 < reconstructedLengths q 0 ∧ 0 < reconstructedLengths q 1 ∧ reconstructedLengths q 2 = 1 ∧
      Real.sqrt (reconstructedLengths q 0) = 1 / Real.tan (q.minError / 2 * Real.pi / 180) ∧
      Real.sqrt (reconstructedLengths q 1) = 1 / Real.tan (q.maxError / 2 * Real.pi / 180) := by
  obtain ⟨a0, a1⟩ := half_angle hmin (by linarith)
  obtain ⟨b0, b1⟩ := half_angle (by linarith : 0 < q.maxError) hmax
  have ta := Real.tan_pos_of_pos_of_lt_pi_div_two a0 a1
  have tb := Real.tan_pos_of_pos_of_lt_pi_div_two b0 b1
  have e0 : reconstructedLengths q 0 = (1 / Real.tan (q.minError / 2 * Real.pi / 180)) ^ 2 := by
    simp only [reconstructedLengths, Matrix.cons_val_zero]; rw [one_div_pow]
  have e1 : reconstructedLengths q 1 = (1 / Real.tan (q.maxError / 2 * Real.pi / 180)) ^ 2 := by
    simp only [reconstructedLengths, Matrix.cons_val_one, Matrix.cons_val_zero]; rw [one_div_pow]
  refine ⟨by rw [e0]; positivity, by rw [e1]; positivity, by simp [reconstructedLengths], ?_, ?_⟩
  · rw [e0, Real.sqrt_sq (by positivity)]
  · rw [e1, Real.sqrt_sq (by positivity)]

/-- Error ellipses of planes given by their errors: every pole drawn at the level 1 is at an angle
from the normal (its opposite for the lower sheet) between half the smaller and half the larger error. -/
theorem C262_pole_widths (q : Orientation) (hmin : 0 < q.minError) (hle : q.minError ≤ q.maxError)
    (hmax : q.maxError < 180) (axes : Mat 3 3) (ho : Spec.OrthonormalRows axes) (o : Opts)
    (hu : o.upperHemisphere ≠ some false) (hl : o.level.getD 1 = 1) (hn : o.n ≠ some 0)
    (σ : ℝ)
    (hσ : (o.sheet = none ∨ o.sheet = some "upper") ∧ σ = 1 ∨ o.sheet = some "lower" ∧ σ = -1) :
    ∃ c o', Frontend.normalErrors (reconstructedLengths q) (some axes) o = some (c, o') ∧
      ∀ x ∈ c, ∃ p, x = some p ∧ Spec.withinErrors q (Spec.angleBetween
        (Spec.shown (o.degrees.getD false) (o.traditionalLayout.getD true) p)
        (fun j => σ * axes 2 j)) := by
  obtain ⟨l0, l1, l2, s0, s1⟩ := reconstructed_pos q hmin hle hmax
  obtain ⟨a0, a1⟩ := half_angle hmin (by linarith)
  obtain ⟨b0, b1⟩ := half_angle (by linarith : 0 < q.maxError) hmax
  obtain ⟨c, o', hc, -, hp⟩ := C107_poles (reconstructedLengths q) axes ho l0 l1
    (by rw [l2]; norm_num) o hu (by rw [hl]; norm_num) hn σ hσ
  refine ⟨c, o', hc, fun x hx => ?_⟩
  obtain ⟨p, hxp, hn1, hside, ht⟩ := hp x hx
  refine ⟨p, hxp, ?_⟩
  set u := Spec.shown (o.degrees.getD false) (o.traditionalLayout.getD true) p with hu'
  have hu0 : u ≠ 0 := by
    intro e; rw [e] at hn1; simp [Attitude.norm] at hn1
  have he := tangent_equation ho (d := fun i => Real.sqrt (reconstructedLengths q i))
    (Real.sqrt_pos.2 l0) (Real.sqrt_pos.2 l1) (h := o.level.getD 1 * Real.sqrt (reconstructedLengths q 2))
    (by rw [hl, l2]; norm_num) hu0 ht
  simp only [hl, l2, Real.sqrt_one, one_mul, s0, s1] at he
  have hsum := components_sq ho hn1
  set t := q.minError / 2 * Real.pi / 180 with ht'
  set v := q.maxError / 2 * Real.pi / 180 with hv'
  set x0 := vdot u (axes 0)
  set x1 := vdot u (axes 1)
  set z := vdot u (axes 2) with hz
  have htv : t ≤ v := by
    have := Real.pi_pos
    have h2 := mul_le_mul_of_nonneg_right hle this.le
    rw [ht', hv']
    linarith
  have tt := Real.tan_pos_of_pos_of_lt_pi_div_two a0 a1
  have hmono : Real.tan t ≤ Real.tan v := by
    rcases htv.lt_or_eq with h | h
    · exact (Real.tan_lt_tan_of_nonneg_of_lt_pi_div_two a0.le b1 h).le
    · rw [h]
  have hinv : (1 / Real.tan v) ^ 2 ≤ (1 / Real.tan t) ^ 2 :=
    pow_le_pow_left₀ (by have := tt.trans_le hmono; positivity)
      (one_div_le_one_div_of_le tt hmono) 2
  have m0 := mul_le_mul_of_nonneg_left hinv (sq_nonneg x0)
  have m1 := mul_le_mul_of_nonneg_left hinv (sq_nonneg x1)
  rw [mul_pow, mul_pow] at he
  have hone : 1 - z ^ 2 = x0 ^ 2 + x1 ^ 2 := by linarith
  have k1 : z ^ 2 ≤ (1 / Real.tan t) ^ 2 * (1 - z ^ 2) := by
    rw [hone, ← he]; linarith
  have k2 : (1 / Real.tan v) ^ 2 * (1 - z ^ 2) ≤ z ^ 2 := by
    rw [hone, ← he]; linarith
  have hσ2 : σ ^ 2 = 1 := by rcases hσ with ⟨-, rfl⟩ | ⟨-, rfl⟩ <;> norm_num
  have hdot : vdot u (fun j => σ * axes 2 j) = σ * z := by
    rw [hz, vdot3, vdot3]; ring
  have hzz : (σ * z) ^ 2 = z ^ 2 := by rw [mul_pow, hσ2, one_mul]
  rw [Spec.angleBetween, hdot]
  exact arccos_bounds a0.le htv b1.le hside.le (hzz ▸ (sq_le_cos_of_tan a0 a1).1 k1)
    (hzz ▸ (sq_le_cos_of_tan b0 b1).2 k2)

example := C262_pole_widths ⟨120, 35, 70, 8, 3⟩ (by norm_num) (by norm_num) (by norm_num) dippingAxes
  dipping_orthonormal {} (by simp) rfl (by simp) 1 (.inl ⟨.inl rfl, rfl⟩)

lemma flipAxes_orthonormal {axes : Mat 3 3} (ho : Spec.OrthonormalRows axes) :
    Spec.OrthonormalRows (flipAxes axes) := by
  unfold flipAxes
  split_ifs
  · intro i j
    have := ho i j
    rw [vdot3] at this ⊢
    fin_cases i <;> fin_cases j <;> simp at this ⊢ <;> linarith
  · exact ho

lemma flipAxes_up (axes : Mat 3 3) : 0 ≤ flipAxes axes 2 2 := by
  unfold flipAxes
  split_ifs with h
  · simp; linarith
  · exact not_lt.1 h

lemma flipAxes_rule {axes : Mat 3 3} {s d : ℝ} (h : Spec.RightHandRule (axes 2) s d) :
    Spec.RightHandRule (flipAxes axes 2) s d := by
  unfold flipAxes
  split_ifs
  · obtain ⟨h1, h2⟩ := h
    unfold Spec.RightHandRule Spec.InPlane at *
    simp only [Matrix.of_apply, Matrix.cons_val]
    constructor <;> linarith
  · exact h

/-- A row that is plotted has the five numbers typed in it, with the errors in order. -/
theorem C262_numbers (g : Value → Bool) (events : List Event) (o : List (String × Out))
    (ho : o ∈ cleanedData g (run events)) :
    ∃ row q x, row ∈ run events ∧ toOrientation o = some q ∧ row.length = 6 ∧
      (row.take 5).mapM Value.parseFloat = some x ∧
      x.map (fun y : ℚ => (y : ℝ)) = [q.strike, q.dip, q.rake, q.maxError, q.minError] ∧
      q.minError ≤ q.maxError := by
  obtain ⟨row, hr, hc⟩ := (C154_rows g _ o).1 ho
  have hg := C156_invariant events
  have hw := hg.width row hr
  have hord := hg.ordered row hr
  match row, hw with
  | [c0, c1, c2, c3, c4, c5], _ =>
    obtain ⟨h0, h1, h2, h3, h4, -⟩ := C154_values g c0 c1 c2 c3 c4 c5 o hc
    have hs := (C154_plotted_iff g c0 c1 c2 c3 c4 c5).1 (by rw [hc]; rfl)
    obtain ⟨x0, e0⟩ := Option.isSome_iff_exists.1 (hs c0 (by simp))
    obtain ⟨x1, e1⟩ := Option.isSome_iff_exists.1 (hs c1 (by simp))
    obtain ⟨x2, e2⟩ := Option.isSome_iff_exists.1 (hs c2 (by simp))
    obtain ⟨x3, e3⟩ := Option.isSome_iff_exists.1 (hs c3 (by simp))
    obtain ⟨x4, e4⟩ := Option.isSome_iff_exists.1 (hs c4 (by simp))
    rw [e0] at h0
    rw [e1] at h1
    rw [e2] at h2
    rw [e3] at h3
    rw [e4] at h4
    refine ⟨_, ⟨x0, x1, x2, x3, x4⟩, [x0, x1, x2, x3, x4], hr, ?_, rfl, ?_, rfl, ?_⟩
    · simp [toOrientation, number?, h0, h1, h2, h3, h4]
    · simp [e0, e1, e2, e3, e4]
    · have := hord x3 x4 (by simpa using e3) (by simpa using e4)
      show (x4 : ℝ) ≤ (x3 : ℝ)
      exact_mod_cast this

example (g : Value → Bool) : ∃ o ∈ cleanedData g (run []), ∃ q, toOrientation o = some q := by
  have h : (constructOrientation g defaultRow1).isSome := by
    rw [defaultRow1, C154_plotted_iff]; simp [Value.parseFloat]
  obtain ⟨o, ho⟩ := Option.isSome_iff_exists.1 h
  have hm : defaultRow1 ∈ run [] := by
    simp only [run, List.foldl_nil, defaultData, addEmptyRows]
    split <;> simp
  have hmem : o ∈ cleanedData g (run []) := (C154_rows g _ o).2 ⟨defaultRow1, hm, ho⟩
  obtain ⟨_, q, _, _, hq, _⟩ := C262_numbers g [] o hmem
  exact ⟨o, hmem, q, hq⟩

lemma errorSurface_rings {α : Type} (contains : List (List α) → α → Bool) (d : Combined α)
    (hn : d.nominal ≠ []) :
    ∃ s d', errorSurface contains d = .ok (s, d') ∧ d'.nominal = d.nominal ∧
      ∀ r ∈ s, ∀ x ∈ r, x ∈ d.lower ∨ x ∈ d.upper := by
  obtain ⟨nominal, upper, lower⟩ := d
  cases nominal with
  | nil => exact absurd rfl hn
  | cons p l =>
    by_cases h : contains [lower, upper.reverse] p
    · refine ⟨[lower, upper.reverse], ⟨p :: l, upper.reverse, lower⟩, by
        simp only [errorSurface, h, if_true], rfl, ?_⟩
      intro r hr x hx
      simp only [List.mem_cons, List.not_mem_nil, or_false] at hr
      rcases hr with rfl | rfl
      · exact .inl hx
      · exact .inr (List.mem_reverse.1 hx)
    · refine ⟨[lower.reverse, upper.reverse.reverse],
        ⟨p :: l, upper.reverse.reverse, lower.reverse⟩, by
        simp only [errorSurface]; rw [if_neg h], rfl, ?_⟩
      intro r hr x hx
      simp only [List.mem_cons, List.not_mem_nil, or_false] at hr
      rcases hr with rfl | rfl
      · exact .inl (List.mem_reverse.1 hx)
      · exact .inr (by simpa using hx)

/-- Planes: whatever was typed, added or reset, each row that is plotted is drawn as the plane with its
strike and dip, and the error surface keeps to the errors typed. -/
theorem C262_planes_partial (g : Value → Bool) (events : List Event) (o : List (String × Out))
    (ho : o ∈ cleanedData g (run events)) :
    ∃ q, toOrientation o = some q ∧ (0 < q.minError → q.maxError < 180 →
      ∀ (contains : List (List (Option (ℝ × ℝ))) → Option (ℝ × ℝ) → Bool) (opts : Opts),
        opts.upperHemisphere ≠ some false → opts.n ≠ some 0 →
        ∃ m s flag nom p' o', Attitude.norm m = 1 ∧ Spec.RightHandRule m q.strike q.dip ∧
          groupedPlane (orientationAxes true) contains true (toProps o) opts
            = .ok ((s, flag, some nom), p', o') ∧
          (∀ x ∈ nom, ∃ p, x = some p ∧
            Spec.InPlane m (Spec.shown true (opts.traditionalLayout.getD true) p)) ∧
          (∀ r ∈ s, ∀ x ∈ r, ∃ p, x = some p ∧ Spec.withinErrors q
            (Spec.elevation (Spec.shown true (opts.traditionalLayout.getD true) p) m))) := by
  obtain ⟨-, q, -, -, hq, -, -, -, hle⟩ := C262_numbers g events o ho
  refine ⟨q, hq, fun hmin hmax contains opts hu hn => ?_⟩
  obtain ⟨horth, -, hr, -, -⟩ := C168_axes_partial q
  set A := orientationAxes true q with hA
  obtain ⟨l0, l1, l2, -, -⟩ := reconstructed_pos q hmin hle hmax
  set e := (combinedErrors (reconstructedLengths q) (some A) opts).1 with he
  have hd : ∀ oo : Opts, oo.defaults.upperHemisphere ≠ some false ↔ oo.upperHemisphere ≠ some false := by
    intro oo
    simp only [Opts.defaults]
    cases hb : oo.upperHemisphere with
    | none => simp
    | some b => cases b <;> simp
  have hnom : e.nominal = (Frontend.planeErrors (reconstructedLengths q) (some A)
      { opts with sheet := some "nominal", degrees := some true }).1 := rfl
  have hne : e.nominal ≠ [] := by
    rw [hnom]
    simp only [Frontend.planeErrors_eq, ne_eq, List.map_eq_nil_iff]
    simp [ellipse]
  obtain ⟨s, d', hs, hd', hrings⟩ := errorSurface_rings contains e hne
  have hcur := C112_curves (reconstructedLengths q) A opts
  refine ⟨A 2, s, decide (reconstructedLengths q 2 > reconstructedLengths q 1), e.nominal, toProps o,
    (combinedErrors (reconstructedLengths q) (some (flipAxes A)) opts).2,
    norm_of_unit (by simpa using horth 2 2), hr, ?_, ?_, ?_⟩
  · simp only [groupedPlane, constructAxes, toProps, hq, reconstructErrors, Option.orElse, bind,
      Except.bind, ← hA]
    rw [hcur, ← he, hs]
    simp only [if_true, hd']
  · intro x hx
    rw [hnom] at hx
    obtain ⟨p, hp, -, h2⟩ := (C106_nominal (reconstructedLengths q) A horth l0 l1
      { opts with sheet := some "nominal", degrees := some true } hu (.inr rfl) hn).2 x hx
    refine ⟨p, hp, ?_⟩
    have h2 : vdot (Spec.shown true (opts.traditionalLayout.getD true) p) (A 2) = 0 := h2
    rw [vdot3] at h2
    unfold Spec.InPlane
    linarith
  · intro r hr' x hx
    rcases hrings r hr' x hx with h | h
    · obtain ⟨p, hp, h1, h2⟩ := C114_widths q hmin hle hmax (orientationAxes true) horth
        { (Frontend.planeErrors (reconstructedLengths q) (some A)
            { (Frontend.planeErrors (reconstructedLengths q) (some A)
                { opts with sheet := some "nominal", degrees := some true }).2
              with sheet := some "upper", degrees := some true }).2
          with sheet := some "lower", degrees := some true }
        (by
          simp only [Frontend.planeErrors_opts]
          rw [hd]
          show (Opts.defaults { opts with sheet := some "nominal", degrees := some true }).upperHemisphere
            ≠ some false
          rw [hd]
          exact hu) (.inr rfl) x h
      exact ⟨p, hp, h1, h2⟩
    · obtain ⟨p, hp, h1, h2⟩ := C114_widths q hmin hle hmax (orientationAxes true) horth
        { (Frontend.planeErrors (reconstructedLengths q) (some A)
            { opts with sheet := some "nominal", degrees := some true }).2
          with sheet := some "upper", degrees := some true }
        (by
          simp only [Frontend.planeErrors_opts]
          rw [hd]
          exact hu) (.inl rfl) x h
      exact ⟨p, hp, h1, h2⟩

/-- Poles: each row that is plotted has an error ellipse of two polygons, the first around the upward normal
of the plane with its strike and dip and the second around the opposite direction, and they keep to the errors
typed. -/
theorem C262_poles_partial (g : Value → Bool) (events : List Event) (o : List (String × Out))
    (ho : o ∈ cleanedData g (run events)) :
    ∃ q, toOrientation o = some q ∧ (0 < q.minError → q.maxError < 180 →
      ∀ (area : List (Option (ℝ × ℝ)) → ℝ) (opts : Opts),
        opts.upperHemisphere ≠ some false → opts.n ≠ some 0 → opts.level.getD 1 = 1 →
        ∃ m r r' a l o', Attitude.norm m = 1 ∧ 0 ≤ m 2 ∧ Spec.RightHandRule m q.strike q.dip ∧
          errorEllipse (orientationAxes true) area opts (toProps o) = .ok (some (([r, r'], a, l), o')) ∧
          (∀ x ∈ r, ∃ p, x = some p ∧ Spec.withinErrors q (Spec.angleBetween
            (Spec.shown (opts.degrees.getD false) (opts.traditionalLayout.getD true) p) m)) ∧
          (∀ x ∈ r', ∃ p, x = some p ∧ Spec.withinErrors q (Spec.angleBetween
            (Spec.shown (opts.degrees.getD false) (opts.traditionalLayout.getD true) p)
            (fun j => -m j)))) := by
  obtain ⟨-, q, -, -, hq, -, -, -, hle⟩ := C262_numbers g events o ho
  refine ⟨q, hq, fun hmin hmax area opts hu hn hl => ?_⟩
  obtain ⟨horth, -, hr, -, -⟩ := C168_axes_partial q
  set A := orientationAxes true q with hA
  obtain ⟨l0, l1, l2, -, -⟩ := reconstructed_pos q hmin hle hmax
  obtain ⟨c, c', o₁, o₂, s, a, l, o', hc, hc', hE, -, -, r, r', rfl, hr1, hr2⟩ :=
    C113_polygons (orientationAxes true) area opts (reconstructedLengths q) A l0 l1
      (by rw [l2]; norm_num)
  have hE' : errorEllipse (orientationAxes true) area opts (toProps o)
      = errorEllipse (orientationAxes true) area opts
        { hyperbolicAxes := some (reconstructedLengths q), axes := some A } := by
    simp only [errorEllipse, constructAxes, toProps, hq, reconstructErrors, Option.orElse, bind,
      Except.bind, ← hA]
  have hfo := flipAxes_orthonormal horth
  refine ⟨flipAxes A 2, r, r', a, l, o', norm_of_unit (by simpa using hfo 2 2), flipAxes_up A,
    flipAxes_rule hr, by rw [hE', hE], ?_, ?_⟩
  · obtain ⟨c₁, _, hc₁, hw₁⟩ := C262_pole_widths q hmin hle hmax (flipAxes A) hfo
      { opts with sheet := some "upper" } hu hl hn 1 (.inl ⟨.inr rfl, rfl⟩)
    rw [hc] at hc₁
    cases hc₁
    intro x h
    have hxc : x ∈ c := by
      rcases hr1 with rfl | rfl
      · exact h
      · exact List.mem_reverse.1 h
    obtain ⟨p, hp, hb⟩ := hw₁ x hxc
    simp only [one_mul] at hb
    exact ⟨p, hp, hb⟩
  · obtain ⟨c₂, _, hc₂, hw₂⟩ := C262_pole_widths q hmin hle hmax (flipAxes A) hfo
      { opts with sheet := some "lower" } hu hl hn (-1) (.inr ⟨rfl, rfl⟩)
    rw [hc'] at hc₂
    cases hc₂
    intro x h
    have hxc : x ∈ c' := by
      rcases hr2 with rfl | rfl
      · exact h
      · exact List.mem_reverse.1 h
    obtain ⟨p, hp, hb⟩ := hw₂ x hxc
    simp only [neg_one_mul] at hb
    exact ⟨p, hp, hb⟩

/-- The first row of the sheet at the start, with errors of 20 and 8 degrees, meets the hypotheses of the
two theorems. -/
example (g : Value → Bool) : ∃ o ∈ cleanedData g (run []), ∃ q, toOrientation o = some q ∧
    0 < q.minError ∧ q.maxError < 180 := by
  have h : (constructOrientation g defaultRow1).isSome := by
    rw [defaultRow1, C154_plotted_iff]; simp [Value.parseFloat]
  obtain ⟨o, ho⟩ := Option.isSome_iff_exists.1 h
  have hm : defaultRow1 ∈ run [] := by
    simp only [run, List.foldl_nil, defaultData, addEmptyRows]
    split <;> simp
  have hmem : o ∈ cleanedData g (run []) := (C154_rows g _ o).2 ⟨defaultRow1, hm, ho⟩
  obtain ⟨h0, h1, h2, h3, h4, -⟩ := C154_values g _ _ _ _ _ _ o ho
  refine ⟨o, hmem, ⟨10, 8, 2, 20, 8⟩, ?_, by norm_num, by norm_num⟩
  simp [toOrientation, number?, h0, h1, h2, h3, h4, Value.parseFloat]

end Attitude.Props
