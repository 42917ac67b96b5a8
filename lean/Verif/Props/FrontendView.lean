import Verif.Model.FrontendView
import Verif.Model.Pca
import Verif.Lemmas.Trig
import Verif.Lemmas.Arctan2

/-!
# Properties of planes in vertical sections

Statements about hyperbola.ts.  Azimuths are clockwise from north in radians; the
first coordinate is east, the second north, the third up.
-/

namespace Attitude.Props

open Attitude Frontend

/-! ## C117 -/

lemma fixAbove_spec (a : ℝ) : fixAbove a ≤ Real.pi ∧ (∃ k : ℕ, fixAbove a = a - k * (2 * Real.pi)) ∧
    (a ≤ Real.pi → fixAbove a = a) ∧ (-Real.pi ≤ a → -Real.pi ≤ fixAbove a) := by
  induction a using fixAbove.induct with
  | case1 a h ih =>
    rw [fixAbove, if_pos h]
    obtain ⟨i1, ⟨k, hk⟩, -, i4⟩ := ih
    refine ⟨i1, ⟨k + 1, ?_⟩, fun h' => absurd h (not_lt.2 h'), fun _ => i4 (by linarith)⟩
    rw [hk]; push_cast; ring
  | case2 a h =>
    rw [fixAbove, if_neg h]
    exact ⟨not_lt.1 h, ⟨0, by simp⟩, fun _ => rfl, fun h => h⟩

lemma fixBelow_spec (a : ℝ) : -Real.pi ≤ fixBelow a ∧ (∃ k : ℕ, fixBelow a = a + k * (2 * Real.pi)) ∧
    (-Real.pi ≤ a → fixBelow a = a) ∧ (a ≤ Real.pi → fixBelow a ≤ Real.pi) := by
  induction a using fixBelow.induct with
  | case1 a h ih =>
    rw [fixBelow, if_pos h]
    obtain ⟨i1, ⟨k, hk⟩, -, i4⟩ := ih
    refine ⟨i1, ⟨k + 1, ?_⟩, fun h' => absurd h (not_lt.2 h'), fun _ => i4 (by linarith)⟩
    rw [hk]; push_cast; ring
  | case2 a h =>
    rw [fixBelow, if_neg h]
    exact ⟨not_lt.1 h, ⟨0, by simp⟩, fun _ => rfl, fun h => h⟩

/-- `fixAngle` returns the same direction as an angle in [-π, π], and leaves angles in
that range alone. -/
theorem C117_fix_angle (a : ℝ) : fixAngle a ∈ Set.Icc (-Real.pi) Real.pi ∧
    (∃ k : ℤ, fixAngle a = a + k * (2 * Real.pi)) ∧
    (a ∈ Set.Icc (-Real.pi) Real.pi → fixAngle a = a) := by
  obtain ⟨h1, ⟨k, hk⟩, h3, -⟩ := fixAbove_spec a
  obtain ⟨g1, ⟨l, hl⟩, g3, g4⟩ := fixBelow_spec (fixAbove a)
  refine ⟨⟨g1, g4 h1⟩, ⟨l - k, ?_⟩, fun h => ?_⟩
  · unfold fixAngle; rw [hl, hk]; push_cast; ring
  · unfold fixAngle; rw [h3 h.2] at g3 ⊢; exact g3 h.1

lemma fixAngle_arctan2 (y x : ℝ) : fixAngle (arctan2 y x) = arctan2 y x :=
  (C117_fix_angle _).2.2 ⟨(neg_pi_lt_arctan2 _ _).le, arctan2_le_pi _ _⟩

lemma cos_bounds {n : Vec 3} (hn : n ≠ 0) : |n 2 / Attitude.norm n| ≤ 1 := by
  have hr := (norm_pos_iff' n).2 hn
  rw [abs_div, abs_of_pos hr, div_le_one hr, norm3, ← Real.sqrt_sq_eq_abs]
  exact Real.sqrt_le_sqrt (by nlinarith [sq_nonneg (n 0), sq_nonneg (n 1)])

lemma sin_arccos_norm {n : Vec 3} (hn : n ≠ 0) :
    Attitude.norm n * Real.sin (Real.arccos (n 2 / Attitude.norm n))
      = Real.sqrt (n 1 ^ 2 + n 0 ^ 2) := by
  have hr := (norm_pos_iff' n).2 hn
  have hsq : Attitude.norm n ^ 2 = n 0 ^ 2 + n 1 ^ 2 + n 2 ^ 2 := by
    rw [norm_sq', Fin.sum_univ_three]
  rw [Real.sin_arccos]
  conv_lhs => rw [← Real.sqrt_sq hr.le]
  rw [← Real.sqrt_mul (sq_nonneg _), Real.sqrt_sq hr.le]
  congr 1
  field_simp
  linarith

/-- The angles of `dip` are the polar angles of the normal: inclination from
vertical and azimuth. -/
theorem C117_dip (n : Vec 3) (hn : n ≠ 0) : ∃ d r, Frontend.dip n = some (d, r) ∧
    0 ≤ d ∧ d ≤ Real.pi ∧ r ∈ Set.Icc (-Real.pi) Real.pi ∧
    n = Attitude.norm n • ![Real.sin d * Real.sin r, Real.sin d * Real.cos r, Real.cos d] := by
  have hr := (norm_pos_iff' n).2 hn
  refine ⟨Real.arccos (n 2 / Attitude.norm n), arctan2 (n 0) (n 1), ?_, Real.arccos_nonneg _,
    Real.arccos_le_pi _, ⟨(neg_pi_lt_arctan2 _ _).le, arctan2_le_pi _ _⟩, ?_⟩
  · simp [Frontend.dip, fdiv, hr.ne', fixAngle_arctan2]
  · have hb := abs_le.1 (cos_bounds hn)
    have hs := sin_arccos_norm hn
    funext i
    fin_cases i
    · simp only [Fin.zero_eta, Pi.smul_apply, smul_eq_mul, Matrix.cons_val_zero]
      rw [← mul_assoc, hs, sqrt_mul_sin_arctan2]
    · simp only [Fin.mk_one, Pi.smul_apply, smul_eq_mul, Matrix.cons_val_one, Matrix.cons_val_zero]
      rw [← mul_assoc, hs, sqrt_mul_cos_arctan2]
    · simp only [Fin.reduceFinMk, Pi.smul_apply, smul_eq_mul, Matrix.cons_val]
      rw [Real.cos_arccos hb.1 hb.2]
      field_simp

example : ∃ d r, Frontend.dip ![1, 2, -2] = some (d, r) ∧ d ≤ Real.pi := by
  obtain ⟨d, r, h, _, h', _⟩ := C117_dip ![1, 2, -2] (fun h => by simpa using congrFun h 0)
  exact ⟨d, r, h, h'⟩

/-- For a normal that does not point down, the dip is the one of the Python
package, and the azimuth is its dip direction. -/
theorem C117_python_partial (n : Vec 3) (hn : n ≠ 0) (h2 : 0 ≤ n 2) :
    ∃ s d r, Pca.strikeDipOf n = some (s, d) ∧ Frontend.dip n = some (radians d, r) ∧
      ∃ k : ℤ, r = radians (s + 90) + k * (2 * Real.pi) := by
  have hr := (norm_pos_iff' n).2 hn
  have hpi := Real.pi_pos
  have hd : ¬ degrees (Real.arccos (n 2 / Attitude.norm n)) > 90 := by
    have h1 : Real.arccos (n 2 / Attitude.norm n) ≤ Real.pi / 2 :=
      Real.arccos_le_pi_div_two.2 (by positivity)
    have : degrees (Real.pi / 2) = 90 := by unfold degrees; field_simp; norm_num
    rw [gt_iff_lt, not_lt, ← this, degrees_le]
    exact h1
  have hdip : Frontend.dip n
      = some (radians (degrees (Real.arccos (n 2 / Attitude.norm n))), arctan2 (n 0) (n 1)) := by
    simp [Frontend.dip, fdiv, hr.ne', fixAngle_arctan2, radians_degrees]
  by_cases hs : degrees (arctan2 (n 0) (n 1)) - 90 < 0
  · refine ⟨degrees (arctan2 (n 0) (n 1)) - 90 + 360, _, _, ?_, hdip, -1, ?_⟩
    · simp [Pca.strikeDipOf, fdiv, hr.ne', hd, hs]
    · unfold radians degrees; push_cast; field_simp; ring
  · refine ⟨degrees (arctan2 (n 0) (n 1)) - 90, _, _, ?_, hdip, 0, ?_⟩
    · simp [Pca.strikeDipOf, fdiv, hr.ne', hd, hs]
    · unfold radians degrees; push_cast; field_simp; ring

example : ∃ s d r, Pca.strikeDipOf ![1, 2, 2] = some (s, d) ∧
    Frontend.dip ![1, 2, 2] = some (radians d, r) := by
  obtain ⟨s, d, r, h, h', _⟩ := C117_python_partial ![1, 2, 2]
    (fun h => by simpa using congrFun h 0) (by simp)
  exact ⟨s, d, r, h, h'⟩

/-- For any normal that points down the dips differ: the frontend's one exceeds 90
degrees. -/
theorem C117_python_false (n : Vec 3) (h2 : n 2 < 0) :
    ∃ s d d' r, Pca.strikeDipOf n = some (s, d) ∧ Frontend.dip n = some (d', r) ∧
      d < 90 ∧ Real.pi / 2 < d' := by
  have hn : n ≠ 0 := by rintro rfl; simp at h2
  have hr := (norm_pos_iff' n).2 hn
  have h1 : Real.pi / 2 < Real.arccos (n 2 / Attitude.norm n) := by
    rw [← not_le, Real.arccos_le_pi_div_two, not_le]
    exact div_neg_of_neg_of_pos h2 hr
  have h90 : degrees (Real.pi / 2) = 90 := by unfold degrees; field_simp; norm_num
  have hd : degrees (Real.arccos (n 2 / Attitude.norm n)) > 90 := by
    rw [gt_iff_lt, ← h90, degrees_lt]; exact h1
  have hdip : Frontend.dip n = some (Real.arccos (n 2 / Attitude.norm n), arctan2 (n 0) (n 1)) := by
    simp [Frontend.dip, fdiv, hr.ne', fixAngle_arctan2]
  have hsd : ∃ s, Pca.strikeDipOf n
      = some (s, 180 - degrees (Real.arccos (n 2 / Attitude.norm n))) := by
    simp only [Pca.strikeDipOf, fdiv, hr.ne', if_false, Option.bind_eq_bind, Option.bind_some,
      if_pos hd]
    exact ⟨_, rfl⟩
  obtain ⟨s, hs⟩ := hsd
  exact ⟨s, _, _, _, hs, hdip, by linarith, h1⟩

example : ∃ s d d' r, Pca.strikeDipOf ![1, 2, -2] = some (s, d) ∧
    Frontend.dip ![1, 2, -2] = some (d', r) ∧ d < 90 ∧ Real.pi / 2 < d' :=
  C117_python_false ![1, 2, -2] (by simp)

/-! ## C118 -/

lemma apparentDip_eq {n : Vec 3} (h2 : n 2 ≠ 0) (az : ℝ) :
    Frontend.apparentDip n az
      = some (Real.arctan ((n 0 * Real.sin az + n 1 * Real.cos az) / n 2)) := by
  have hn : n ≠ 0 := by rintro rfl; simp at h2
  have hr := (norm_pos_iff' n).2 hn
  have hs := sin_arccos_norm hn
  have hb := abs_le.1 (cos_bounds hn)
  have hsign : ∀ a : ℝ, -Real.pi / 2 < a ∨ Real.pi / 2 > a := by
    intro a
    by_contra h
    push Not at h
    linarith [Real.pi_pos]
  have key : Real.tan (Real.arccos (n 2 / Attitude.norm n))
      * Real.cos (az - arctan2 (n 0) (n 1)) = (n 0 * Real.sin az + n 1 * Real.cos az) / n 2 := by
    rw [Real.tan_eq_sin_div_cos, Real.cos_arccos hb.1 hb.2, Real.cos_sub]
    have e1 := sqrt_mul_cos_arctan2 (n 0) (n 1)
    have e2 := sqrt_mul_sin_arctan2 (n 0) (n 1)
    rw [← hs] at e1 e2
    have e3 : Real.sin (Real.arccos (n 2 / Attitude.norm n)) / (n 2 / Attitude.norm n)
        = Attitude.norm n * Real.sin (Real.arccos (n 2 / Attitude.norm n)) / n 2 := by
      field_simp
    rw [e3, div_mul_eq_mul_div]
    congr 1
    linear_combination Real.cos az * e1 + Real.sin az * e2
  simp only [Frontend.apparentDip, Frontend.dip, fdiv, hr.ne', if_false, Option.bind_eq_bind,
    Option.bind_some, if_neg h2, if_pos (hsign _), one_mul, key]

/-- The apparent dip is the angle by which the line of the plane along the azimuth
descends. -/
theorem C118_apparent_dip (n : Vec 3) (h2 : n 2 ≠ 0) (az : ℝ) :
    ∃ δ, Frontend.apparentDip n az = some δ ∧ δ ∈ Set.Ioo (-(Real.pi / 2)) (Real.pi / 2) ∧
      vdot n ![Real.sin az, Real.cos az, -Real.tan δ] = 0 ∧
      ∀ δ' ∈ Set.Ioo (-(Real.pi / 2)) (Real.pi / 2),
        vdot n ![Real.sin az, Real.cos az, -Real.tan δ'] = 0 → δ' = δ := by
  refine ⟨_, apparentDip_eq h2 az, ⟨Real.neg_pi_div_two_lt_arctan _, Real.arctan_lt_pi_div_two _⟩,
    ?_, fun δ' hδ h => ?_⟩
  · rw [vdot3, Real.tan_arctan]
    simp only [Matrix.cons_val_zero, Matrix.cons_val_one, Matrix.cons_val]
    field_simp
    ring
  · rw [vdot3] at h
    simp only [Matrix.cons_val_zero, Matrix.cons_val_one, Matrix.cons_val] at h
    rw [← Real.arctan_tan hδ.1 hδ.2]
    congr 1
    field_simp
    linarith

example : ∃ δ, Frontend.apparentDip ![1, 2, -2] 0.3 = some δ := by
  obtain ⟨δ, h, _⟩ := C118_apparent_dip ![1, 2, -2] (by simp) 0.3
  exact ⟨δ, h⟩

/-- It does not depend on which of the two normals is given. -/
theorem C118_reversal (n : Vec 3) (az : ℝ) :
    Frontend.apparentDip (-n) az = Frontend.apparentDip n az := by
  by_cases h2 : n 2 = 0
  · unfold Frontend.apparentDip Frontend.dip
    have : Attitude.norm (-n) = Attitude.norm n := by simp [Attitude.norm]
    simp only [this, Pi.neg_apply, h2, neg_zero, if_true]
    by_cases hr : Attitude.norm n = 0 <;> simp [fdiv, hr]
  · have h2' : (-n) 2 ≠ 0 := by simpa using h2
    rw [apparentDip_eq h2, apparentDip_eq h2']
    congr 2
    simp only [Pi.neg_apply]
    field_simp
    ring

/-- It is at most the dip, which it attains in the dip direction. -/
theorem C118_maximal (n : Vec 3) (h2 : 0 < n 2) : ∃ d r, Frontend.dip n = some (d, r) ∧
    Frontend.apparentDip n r = some d ∧
    ∀ az, ∃ δ, Frontend.apparentDip n az = some δ ∧ |δ| ≤ d := by
  have hn : n ≠ 0 := by rintro rfl; simp at h2
  have hr := (norm_pos_iff' n).2 hn
  have hs := sin_arccos_norm hn
  have hb := abs_le.1 (cos_bounds hn)
  set d := Real.arccos (n 2 / Attitude.norm n) with hd
  have hd2 : d < Real.pi / 2 := Real.arccos_lt_pi_div_two.2 (by positivity)
  have hd0 : 0 ≤ d := Real.arccos_nonneg _
  have htan : Real.tan d = Real.sqrt (n 1 ^ 2 + n 0 ^ 2) / n 2 := by
    rw [Real.tan_eq_sin_div_cos, hd, Real.cos_arccos hb.1 hb.2, ← hs, ← hd]
    field_simp
  have hat : Real.arctan (Real.tan d) = d := Real.arctan_tan (by linarith [Real.pi_pos]) hd2
  refine ⟨d, arctan2 (n 0) (n 1), by simp [Frontend.dip, fdiv, hr.ne', fixAngle_arctan2, hd], ?_,
    fun az => ⟨_, apparentDip_eq h2.ne' az, ?_⟩⟩
  · rw [apparentDip_eq h2.ne', ← hat, htan]
    congr 3
    have e1 := sqrt_mul_cos_arctan2 (n 0) (n 1)
    have e2 := sqrt_mul_sin_arctan2 (n 0) (n 1)
    have hq : Real.sqrt (n 1 ^ 2 + n 0 ^ 2) ^ 2 = n 1 ^ 2 + n 0 ^ 2 := Real.sq_sqrt (by positivity)
    have hcs := Real.sin_sq_add_cos_sq (arctan2 (n 0) (n 1))
    set q := Real.sqrt (n 1 ^ 2 + n 0 ^ 2)
    set t := arctan2 (n 0) (n 1)
    calc n 0 * Real.sin t + n 1 * Real.cos t = q * Real.sin t * Real.sin t + q * Real.cos t * Real.cos t := by
          rw [e1, e2]
      _ = q := by linear_combination q * hcs
  · have hle : |(n 0 * Real.sin az + n 1 * Real.cos az) / n 2| ≤ Real.tan d := by
      rw [htan, abs_div, abs_of_pos h2]
      apply div_le_div_of_nonneg_right _ h2.le
      apply Real.abs_le_sqrt
      nlinarith [Real.sin_sq_add_cos_sq az, sq_nonneg (n 0 * Real.cos az - n 1 * Real.sin az),
        mul_self_nonneg (n 0), mul_self_nonneg (n 1)]
    rw [abs_le] at hle ⊢
    rw [← hat]
    constructor
    · rw [← Real.arctan_neg]; exact Real.arctan_strictMono.monotone hle.1
    · exact Real.arctan_strictMono.monotone hle.2

/-- A plane that dips. -/
example : (![1, 2, 2] : Vec 3) 2 ≠ 0 ∧ 0 < (![1, 2, 2] : Vec 3) 2 := by simp

/-! ## C119 -/

/-- Points of the plane with normal `n` through `c` in the vertical section through `c`
along the direction `v` (counterclockwise from east). -/
def Spec.sectionLine (n c : Vec 3) (v : ℝ) : Set (Vec 3) :=
  {P | vdot n (P - c) = 0 ∧ ∃ t z, P = c + ![t * Real.cos v, t * Real.sin v, z]}

/-- Position of a point in a drawing of the section along `v`. -/
noncomputable def Spec.onScreen (v : ℝ) (xs ys : ℝ → ℝ) (P : Vec 3) : ℝ × ℝ :=
  (xs (P 0 * Real.cos v + P 1 * Real.sin v), ys (P 2))

/-- Where SVG draws the point `q` of an element with the attribute `translate(x,y)
rotate(angle)`. -/
noncomputable def Spec.placed (p : Placement) (q : ℝ × ℝ) : ℝ × ℝ :=
  (p.x + (q.1 * Real.cos (radians p.angle) - q.2 * Real.sin (radians p.angle)),
    p.y + (q.1 * Real.sin (radians p.angle) + q.2 * Real.cos (radians p.angle)))

/-- A linear scale that is not constant. -/
def Spec.LinearScale (s : ℝ → ℝ) : Prop := ∃ k ≠ 0, ∀ t, s t = s 0 + k * t

lemma LinearScale.ratio {s : ℝ → ℝ} (h : Spec.LinearScale s) :
    scaleRatio s ≠ 0 ∧ ∀ t, s t = s 0 + scaleRatio s * t := by
  obtain ⟨k, hk, h⟩ := h
  have : scaleRatio s = k := by unfold scaleRatio; rw [h 1]; ring
  rw [this]
  exact ⟨hk, h⟩

/-- The direction of the rotated line on the screen. -/
lemma screenAngle_spec {n : Vec 3} (h2 : n 2 ≠ 0) (v : ℝ) {xs ys : ℝ → ℝ}
    (hx : Spec.LinearScale xs) (hy : Spec.LinearScale ys) :
    ∃ a h, screenAngle n v xs ys = some a ∧ h ≠ 0 ∧
      scaleRatio xs = h * Real.cos (radians a) ∧
      scaleRatio ys * (-(n 0 * Real.cos v + n 1 * Real.sin v) / n 2) = h * Real.sin (radians a) := by
  obtain ⟨kx, -⟩ := LinearScale.ratio hx
  obtain ⟨ky, -⟩ := LinearScale.ratio hy
  have hap := apparentDip_eq h2 (-v + Real.pi / 2)
  set T := (n 0 * Real.sin (-v + Real.pi / 2) + n 1 * Real.cos (-v + Real.pi / 2)) / n 2 with hT
  have hT' : T = (n 0 * Real.cos v + n 1 * Real.sin v) / n 2 := by
    rw [hT, neg_add_eq_sub, Real.sin_pi_div_two_sub, Real.cos_pi_div_two_sub]
  set ρ := scaleRatio xs / scaleRatio ys with hρ
  have e1 := sqrt_mul_cos_arctan2 T ρ
  have e2 := sqrt_mul_sin_arctan2 T ρ
  have hρ0 : ρ ≠ 0 := div_ne_zero kx ky
  have hq : 0 < Real.sqrt (ρ ^ 2 + T ^ 2) := Real.sqrt_pos.2 (by positivity)
  have hrad : radians (-arctan2 T ρ * 180 / Real.pi) = -arctan2 T ρ := by
    unfold radians; field_simp
  refine ⟨-arctan2 T ρ * 180 / Real.pi, scaleRatio ys * Real.sqrt (ρ ^ 2 + T ^ 2), ?_,
    mul_ne_zero ky hq.ne', ?_, ?_⟩
  · simp only [screenAngle, hap, screenRatio, fdiv, ky, if_false, Option.bind_eq_bind,
      Option.bind_some, Real.tan_arctan]
    rfl
  · rw [hrad, Real.cos_neg, mul_assoc, e1, hρ]
    field_simp
  · rw [hrad, Real.sin_neg, mul_neg, mul_assoc, e2, hT']
    ring

lemma vecMul_rotZ (P : Vec 3) (v : ℝ) : Matrix.vecMul P (rotZ v)
    = ![P 0 * Real.cos v + P 1 * Real.sin v, -P 0 * Real.sin v + P 1 * Real.cos v, P 2] := by
  funext i
  fin_cases i <;> simp [Matrix.vecMul, dotProduct, Fin.sum_univ_three, rotZ]

lemma vecMul_mapDown (P : Vec 3) : Matrix.vecMul P mapDown = ![P 0, P 2] := by
  funext i
  fin_cases i <;> simp [Matrix.vecMul, dotProduct, Fin.sum_univ_three, mapDown]

/-- The line drawn with the transform of a plane is the section of the plane. -/
theorem C119_section_line (n c : Vec 3) (h2 : n 2 ≠ 0) (v : ℝ) (xs ys : ℝ → ℝ)
    (hx : Spec.LinearScale xs) (hy : Spec.LinearScale ys) :
    ∃ p, transform v xs ys n c = some p ∧
      {q | ∃ t, q = Spec.placed p (t, 0)} = Spec.onScreen v xs ys '' Spec.sectionLine n c v := by
  obtain ⟨a, h, ha, hh, e1, e2⟩ := screenAngle_spec h2 v hx hy
  obtain ⟨kx, lx⟩ := LinearScale.ratio hx
  obtain ⟨ky, ly⟩ := LinearScale.ratio hy
  refine ⟨⟨xs (c 0 * Real.cos v + c 1 * Real.sin v), ys (c 2), a⟩, ?_, ?_⟩
  · simp [transform, ha, vecMul_rotZ, vecMul_mapDown]
  have hcs := Real.sin_sq_add_cos_sq v
  ext ⟨q1, q2⟩
  simp only [Set.mem_ofPred_eq, Set.mem_image, Spec.placed, zero_mul, sub_zero, add_zero]
  have slope : ∀ t : ℝ, vdot n ![t * Real.cos v, t * Real.sin v,
      t * (-(n 0 * Real.cos v + n 1 * Real.sin v) / n 2)] = 0 := by
    intro t
    rw [vdot3]
    simp only [Matrix.cons_val_zero, Matrix.cons_val_one, Matrix.cons_val]
    field_simp
    ring
  constructor
  · rintro ⟨t, ht⟩
    set w := -(n 0 * Real.cos v + n 1 * Real.sin v) / n 2
    refine ⟨c + ![t / h * Real.cos v, t / h * Real.sin v, t / h * w], ⟨?_, _, _, rfl⟩, ?_⟩
    · rw [add_sub_cancel_left]; exact slope _
    · rw [ht]
      simp only [Spec.onScreen, Pi.add_apply, Matrix.cons_val_zero, Matrix.cons_val_one,
        Matrix.cons_val, Prod.mk.injEq]
      constructor
      · rw [lx, lx (c 0 * _ + _)]
        have : scaleRatio xs * (t / h) = t * Real.cos (radians a) := by
          rw [e1]; field_simp
        linear_combination this + scaleRatio xs * (t / h) * hcs
      · rw [ly, ly (c 2)]
        have : scaleRatio ys * w * (t / h) = t * Real.sin (radians a) := by
          rw [e2]; field_simp
        linear_combination this
  · rintro ⟨P, ⟨hP, t, z, rfl⟩, hq⟩
    rw [add_sub_cancel_left, vdot3] at hP
    simp only [Matrix.cons_val_zero, Matrix.cons_val_one, Matrix.cons_val] at hP
    have hz : z = t * (-(n 0 * Real.cos v + n 1 * Real.sin v) / n 2) := by
      field_simp; linarith
    refine ⟨t * h, ?_⟩
    rw [← hq]
    simp only [Spec.onScreen, Pi.add_apply, Matrix.cons_val_zero, Matrix.cons_val_one,
      Matrix.cons_val, Prod.mk.injEq]
    constructor
    · rw [lx, lx (c 0 * _ + _)]
      linear_combination t * e1 + scaleRatio xs * t * hcs
    · rw [ly, ly (c 2), hz]
      linear_combination t * e2

example : ∃ p, transform 0.3 (fun t => 100 + 10 * t) (fun t => 300 + -5 * t) ![1, 2, 2] ![4, 5, 6]
    = some p := by
  obtain ⟨p, h, _⟩ := C119_section_line ![1, 2, 2] ![4, 5, 6] (by simp) 0.3
    (fun t => 100 + 10 * t) (fun t => 300 + -5 * t) ⟨10, by norm_num, by simp⟩
    ⟨-5, by norm_num, by simp⟩
  exact ⟨p, h⟩

/-- Vertical planes have no transform. -/
theorem C119_vertical (n c : Vec 3) (h2 : n 2 = 0) (v : ℝ) (xs ys : ℝ → ℝ) :
    transform v xs ys n c = none := by
  have : Frontend.apparentDip n (-v + Real.pi / 2) = none := by
    unfold Frontend.apparentDip Frontend.dip
    by_cases hr : Attitude.norm n = 0 <;> simp [fdiv, hr, h2]
  simp [transform, screenAngle, this]

/-- Scales in use: 10 pixels per unit to the right, 5 pixels per unit upwards. -/
example : Spec.LinearScale (fun t => 100 + 10 * t) ∧ Spec.LinearScale (fun t => 300 + -5 * t) :=
  ⟨⟨10, by norm_num, by simp⟩, ⟨-5, by norm_num, by simp⟩⟩

/-! ## C120 -/

/-- `digitizedLine` projects the points (centered points plus offset) to the section. -/
theorem C120_projection (v : ℝ) (offset : Vec 3) (centered : List (Vec 3)) :
    digitizedLine v 1 offset centered
      = centered.map fun P => ![(P + offset) 0 * Real.cos v + (P + offset) 1 * Real.sin v,
          (P + offset) 2] := by
  unfold digitizedLine
  simp only [Matrix.transpose_one, Matrix.vecMul_one, vecMul_rotZ, vecMul_mapDown]
  apply List.map_congr_left
  intro P _
  simp

/-- With other axes it does so with the components along these axes. -/
theorem C120_axes (v : ℝ) (axes : Mat 3 3) (offset : Vec 3) (centered : List (Vec 3)) :
    digitizedLine v axes offset centered
      = digitizedLine v 1 (fun i => vdot offset (axes i))
          (centered.map fun P i => vdot P (axes i)) := by
  rw [C120_projection]
  unfold digitizedLine
  simp only [List.map_map]
  apply List.map_congr_left
  intro P _
  have e : ∀ w : Vec 3, Matrix.vecMul w axes.transpose = fun i => vdot w (axes i) := fun w => rfl
  simp only [e, vecMul_rotZ, vecMul_mapDown, Function.comp]
  simp

/-- Points on a plane are drawn on the line of the plane by `apparentDip` ... -/
theorem C120_on_line (v : ℝ) (xs ys : ℝ → ℝ) (axes : Mat 3 3) (centered : List (Vec 3))
    (h : ∀ P ∈ centered, vdot P (axes 2) = 0) :
    ∀ q ∈ apparentPath v xs ys axes centered, ∃ t, q = (t, 0) := by
  intro q hq
  simp only [apparentPath, List.map_map, List.mem_map, Function.comp] at hq
  obtain ⟨P, hP, rfl⟩ := hq
  have e : ∀ w : Vec 3, Matrix.vecMul w axes.transpose = fun i => vdot w (axes i) := fun w => rfl
  simp only [e, vecMul_rotZ, vecMul_mapDown]
  simp [h P hP]

example : ∀ P ∈ [(![2, -1, 0] : Vec 3), ![2, 0, -1]], vdot P ![1, 2, 2] = 0 := by
  intro P hP
  simp only [List.mem_cons, List.not_mem_nil, or_false] at hP
  rcases hP with rfl | rfl <;> rw [vdot3] <;> simp

/-- ... but not at their positions in the section: the point (0,1,0) of a horizontal
plane, seen in a section along the first coordinate, is drawn to the side of the
center. -/
theorem C120_position_false : ∃ axes : Mat 3 3, axes * axes.transpose = 1 ∧ axes 2 = ![0, 0, 1] ∧
    ∃ p, transform 0 (fun t => t) (fun t => -t) (axes 2) 0 = some p ∧
      Spec.onScreen 0 (fun t => t) (fun t => -t) ![0, 1, 0] = (0, 0) ∧
      (apparentPath 0 (fun t => t) (fun t => -t) axes [![0, 1, 0]]).map (Spec.placed p) ≠ [(0, 0)] := by
  refine ⟨!![0, 1, 0; -1, 0, 0; 0, 0, 1], ?_, rfl, ?_⟩
  · ext i j
    fin_cases i <;> fin_cases j <;> simp [Matrix.mul_apply, Fin.sum_univ_three]
  · obtain ⟨a, h, ha, hh, e1, e2⟩ := screenAngle_spec (n := ![0, 0, 1]) (by simp) 0
      (xs := fun t => t) (ys := fun t => -t) ⟨1, by norm_num, by simp⟩ ⟨-1, by norm_num, by simp⟩
    refine ⟨⟨0, 0, a⟩, ?_, by simp [Spec.onScreen], ?_⟩
    · have e : (!![0, 1, 0; -1, 0, 0; 0, 0, 1] : Mat 3 3) 2 = ![0, 0, 1] := rfl
      rw [e]
      simp [transform, ha, vecMul_rotZ, vecMul_mapDown]
    · have e : ∀ w : Vec 3, Matrix.vecMul w (!![0, 1, 0; -1, 0, 0; 0, 0, 1] : Mat 3 3).transpose
          = ![w 1, -w 0, w 2] := by
        intro w
        funext i
        fin_cases i <;> simp [Matrix.vecMul, dotProduct, Fin.sum_univ_three]
      simp only [apparentPath, List.map_cons, List.map_nil, e, vecMul_rotZ, vecMul_mapDown]
      simp only [scaleRatio, Spec.placed] at e1 ⊢
      intro hcon
      simp at hcon e1
      rw [hcon.1] at e1
      simp at e1

/-! ## C121 -/

/-- The upper and lower error surface of a plane through the origin. -/
def Spec.ErrorSurface (axes : Mat 3 3) (l : Vec 3) : Set (Vec 3) :=
  {P | vdot P (axes 2) ^ 2 / l 2 = 1 + vdot P (axes 0) ^ 2 / l 0 + vdot P (axes 1) ^ 2 / l 1}

/-- Axes of a horizontal plane with the first axis at the angle `φ`. -/
noncomputable def Spec.horizontalAxes (φ : ℝ) : Mat 3 3 :=
  !![Real.cos φ, Real.sin φ, 0; -Real.sin φ, Real.cos φ, 0; 0, 0, 1]

lemma planeAngle_horizontal (φ v : ℝ) :
    planeAngle (Spec.horizontalAxes φ) v = some (v - Real.arccos (Real.cos φ)) := by
  have h1 : Attitude.norm (![Real.cos φ, Real.sin φ, 0] : Vec 3) = 1 := by
    rw [norm3]
    simp only [Matrix.cons_val_zero, Matrix.cons_val_one, Matrix.cons_val]
    rw [show Real.cos φ ^ 2 + Real.sin φ ^ 2 + 0 ^ 2 = 1 by
      linarith [Real.sin_sq_add_cos_sq φ], Real.sqrt_one]
  have h2 : Attitude.norm (![1, 0, 0] : Vec 3) = 1 := by
    rw [norm3]; simp
  have e : (![Spec.horizontalAxes φ 0 0, Spec.horizontalAxes φ 0 1, 0] : Vec 3)
      = ![Real.cos φ, Real.sin φ, 0] := by
    simp [Spec.horizontalAxes]
  simp only [planeAngle, e, h1, h2, fdiv, vdot3]
  simp

lemma semiAxes_eq {axes : Mat 3 3} {v a1 : ℝ} (ha : planeAngle axes v = some a1) {l : Vec 3}
    (hl : ∀ i, 0 < l i) : semiAxes v 1 axes l
      = some (1 / Real.sqrt (Real.cos a1 ^ 2 / l 0 + Real.sin a1 ^ 2 / l 1), Real.sqrt (l 2)) := by
  have hne : ¬ ∃ i, l i ≤ 0 := by rintro ⟨i, hi⟩; exact absurd (hl i) (not_lt.2 hi)
  have s := fun i => Real.sq_sqrt (hl i).le
  have sp := fun i => Real.sqrt_pos.2 (hl i)
  simp only [semiAxes, Matrix.transpose_one, one_mul, mul_one, ha, Option.bind_eq_bind,
    Option.bind_some, if_neg hne, Option.some.injEq, Prod.mk.injEq]
  constructor
  · congr 1
    unfold Attitude.norm
    rw [Fin.sum_univ_two]
    congr 1
    simp only [Matrix.cons_val_zero, Matrix.cons_val_one, mul_pow, div_pow, one_pow, s]
    ring
  · simp only [Matrix.cons_val]
    rw [abs_of_pos (by have := sp 2; positivity), one_div_one_div]

/-- The hyperbola drawn for a horizontal plane whose first axis has an angle between 0
and π is the section of the error surface. -/
theorem C121_section_partial (φ v : ℝ) (h0 : 0 ≤ φ) (hp : φ ≤ Real.pi) (l : Vec 3)
    (hl : ∀ i, 0 < l i) : ∃ a b, semiAxes v 1 (Spec.horizontalAxes φ) l = some (a, b) ∧
      0 < a ∧ 0 < b ∧ ∀ t z, ![t * Real.cos v, t * Real.sin v, z] ∈
        Spec.ErrorSurface (Spec.horizontalAxes φ) l ↔ z ^ 2 / b ^ 2 - t ^ 2 / a ^ 2 = 1 := by
  have ha : planeAngle (Spec.horizontalAxes φ) v = some (v - φ) := by
    rw [planeAngle_horizontal, Real.arccos_cos h0 hp]
  have l0 := hl 0
  have l1 := hl 1
  have l2 := hl 2
  have hpos : 0 < Real.cos (v - φ) ^ 2 / l 0 + Real.sin (v - φ) ^ 2 / l 1 := by
    rcases eq_or_ne (Real.cos (v - φ)) 0 with h | h
    · have : Real.sin (v - φ) ^ 2 = 1 := by
        have := Real.sin_sq_add_cos_sq (v - φ); rw [h] at this; linarith
      rw [h, this]; positivity
    · positivity
  refine ⟨_, _, semiAxes_eq ha hl, by positivity, by positivity, fun t z => ?_⟩
  rw [div_pow, Real.sq_sqrt hpos.le, Real.sq_sqrt l2.le, one_pow, Real.cos_sub, Real.sin_sub]
  simp only [Spec.ErrorSurface, Set.mem_ofPred_eq, vdot3, Spec.horizontalAxes]
  simp
  rw [sub_eq_iff_eq_add]
  have : t ^ 2 * ((Real.cos v * Real.cos φ + Real.sin v * Real.sin φ) ^ 2 / l 0 +
      (Real.sin v * Real.cos φ - Real.cos v * Real.sin φ) ^ 2 / l 1)
      = (t * Real.cos v * Real.cos φ + t * Real.sin v * Real.sin φ) ^ 2 / l 0 +
        (-(t * Real.cos v * Real.sin φ) + t * Real.sin v * Real.cos φ) ^ 2 / l 1 := by
    ring
  rw [this]
  constructor <;> intro h <;> linarith

example : ∃ a b, semiAxes 0.3 1 (Spec.horizontalAxes 1) ![9, 4, 1] = some (a, b) ∧ 0 < a ∧ 0 < b := by
  obtain ⟨a, b, h, ha, hb, _⟩ := C121_section_partial 1 0.3 (by norm_num)
    (by linarith [Real.two_le_pi]) ![9, 4, 1] (fun i => by fin_cases i <;> simp)
  exact ⟨a, b, h, ha, hb⟩

/-- Reversing the first axis (which describes the same plane and errors) changes the
hyperbola: the width at angle `v` becomes the one at the mirrored angle. -/
theorem C121_axis_sign_false : ∃ φ v : ℝ, ∃ l : Vec 3, (∀ i, 0 < l i) ∧
    Spec.ErrorSurface (Spec.horizontalAxes φ) l = Spec.ErrorSurface (Spec.horizontalAxes (φ - Real.pi)) l ∧
    semiAxes v 1 (Spec.horizontalAxes φ) l ≠ semiAxes v 1 (Spec.horizontalAxes (φ - Real.pi)) l := by
  refine ⟨Real.pi / 4, Real.pi / 4, ![4, 1, 1], ?_, ?_, ?_⟩
  · intro i; fin_cases i <;> simp
  · ext P
    simp only [Spec.ErrorSurface, Set.mem_ofPred_eq, vdot3, Spec.horizontalAxes, Real.cos_sub_pi,
      Real.sin_sub_pi]
    simp
    have e1 : (-(P 0 * Real.cos (Real.pi / 4)) + -(P 1 * Real.sin (Real.pi / 4))) ^ 2
        = (P 0 * Real.cos (Real.pi / 4) + P 1 * Real.sin (Real.pi / 4)) ^ 2 := by ring
    have e2 : (P 0 * Real.sin (Real.pi / 4) + -(P 1 * Real.cos (Real.pi / 4))) ^ 2
        = (-(P 0 * Real.sin (Real.pi / 4)) + P 1 * Real.cos (Real.pi / 4)) ^ 2 := by ring
    constructor <;> intro h <;> nlinarith [h, e1, e2]
  · have hp := Real.pi_pos
    have hl : ∀ i, 0 < (![4, 1, 1] : Vec 3) i := by intro i; fin_cases i <;> simp
    have a1 : planeAngle (Spec.horizontalAxes (Real.pi / 4)) (Real.pi / 4) = some 0 := by
      rw [planeAngle_horizontal, Real.arccos_cos (by linarith) (by linarith), sub_self]
    have a2 : planeAngle (Spec.horizontalAxes (Real.pi / 4 - Real.pi)) (Real.pi / 4)
        = some (-(Real.pi / 2)) := by
      rw [planeAngle_horizontal, ← Real.cos_neg, Real.arccos_cos (by linarith) (by linarith)]
      congr 1; ring
    rw [semiAxes_eq a1 hl, semiAxes_eq a2 hl]
    intro h
    simp only [Option.some.injEq, Prod.mk.injEq, and_true] at h
    simp at h

/-! ## C122 -/

/-- The point of the segment from `p` to `q` at abscissa `x`. -/
noncomputable def Spec.segmentAt (p q : ℝ × ℝ) (x : ℝ) : ℝ :=
  p.2 + (q.2 - p.2) * ((x - p.1) / (q.1 - p.1))

/-- The polygon: symmetric, with the vertex of the hyperbola; between it and the end of
the drawing its border is not inside the asymptote and is at most √2 times as high as
the hyperbola. -/
theorem C122_polygon (a b w k : ℝ) (ha : 0 < a) (hb : 0 < b) (hw : 0 < w) (hk : 0 < k) :
    ∃ L, 0 < L ∧ polygon a b w k = some [(-L, b / a * L), (0, b), (L, b / a * L),
        (L, -(b / a * L)), (0, -b), (-L, -(b / a * L))] ∧ L * k = w ∧
      ∀ x, 0 ≤ x → x ≤ L →
        b / a * x ≤ Spec.segmentAt (0, b) (L, b / a * L) x ∧
        Spec.segmentAt (0, b) (L, b / a * L) x ≤ Real.sqrt 2 * (b * Real.sqrt (1 + x ^ 2 / a ^ 2)) := by
  refine ⟨w / k, by positivity, by simp [polygon, fdiv, hk.ne'], by field_simp, fun x h0 h1 => ?_⟩
  have hL : 0 < w / k := by positivity
  set L := w / k
  have e : Spec.segmentAt (0, b) (L, b / a * L) x = b * (1 - x / L + x / a) := by
    simp only [Spec.segmentAt, sub_zero]
    field_simp
    ring
  rw [e]
  have hxL : x / L ≤ 1 := (div_le_one hL).2 h1
  have hxL0 : 0 ≤ x / L := by positivity
  constructor
  · have : b / a * x = b * (x / a) := by ring
    rw [this]
    apply mul_le_mul_of_nonneg_left _ hb.le
    linarith
  · rw [show Real.sqrt 2 * (b * Real.sqrt (1 + x ^ 2 / a ^ 2))
      = b * (Real.sqrt 2 * Real.sqrt (1 + x ^ 2 / a ^ 2)) by ring]
    apply mul_le_mul_of_nonneg_left _ hb.le
    rw [← Real.sqrt_mul (by norm_num)]
    have hxa : 0 ≤ x / a := by positivity
    apply (show 1 - x / L + x / a ≤ 1 + x / a by linarith).trans
    apply Real.le_sqrt_of_sq_le
    have : x ^ 2 / a ^ 2 = (x / a) ^ 2 := by rw [div_pow]
    rw [this]
    nlinarith [sq_nonneg (1 - x / a)]

example : ∃ L : ℝ, 0 < L ∧ L * 10 = 600 := by
  obtain ⟨L, h, _, h', _⟩ := C122_polygon 3 2 600 10 (by norm_num) (by norm_num) (by norm_num)
    (by norm_num)
  exact ⟨L, h, h'⟩

/-- The border that is drawn differs from the hyperbola: at the distance of one semi-axis
it is above (in a wide drawing), at the end of the drawing below. -/
theorem C122_polygon_false : ∃ a b w k L : ℝ, 0 < a ∧ a < L ∧
    polygon a b w k = some [(-L, b / a * L), (0, b), (L, b / a * L),
      (L, -(b / a * L)), (0, -b), (-L, -(b / a * L))] ∧
    b * Real.sqrt (1 + a ^ 2 / a ^ 2) < Spec.segmentAt (0, b) (L, b / a * L) a ∧
    Spec.segmentAt (0, b) (L, b / a * L) L < b * Real.sqrt (1 + L ^ 2 / a ^ 2) := by
  refine ⟨1, 1, 4, 1, 4, by norm_num, by norm_num, by simp [polygon, fdiv], ?_, ?_⟩
  · norm_num [Spec.segmentAt]
    rw [Real.sqrt_lt' (by norm_num)]
    norm_num
  · norm_num [Spec.segmentAt]
    rw [Real.lt_sqrt (by norm_num)]
    norm_num

/-- At the ends of the drawing it is always below the hyperbola. -/
theorem C122_polygon_ends_false (a b w k : ℝ) (ha : 0 < a) (hb : 0 < b) (hw : 0 < w) (hk : 0 < k) :
    ∃ L y, (L, y) ∈ (polygon a b w k).getD [] ∧ 0 < L ∧ y < b * Real.sqrt (1 + L ^ 2 / a ^ 2) ∧
      (-L, y) ∈ (polygon a b w k).getD [] := by
  refine ⟨w / k, b / a * (w / k), by simp [polygon, fdiv, hk.ne'], by positivity, ?_,
    by simp [polygon, fdiv, hk.ne']⟩
  have h : b / a * (w / k) = b * (w / k / a) := by ring
  rw [h]
  refine mul_lt_mul_of_pos_left ?_ hb
  rw [Real.lt_sqrt (by positivity), div_pow]
  linarith

example : ∃ L y, (L, y) ∈ (polygon 3 2 600 10).getD [] ∧ y < 2 * Real.sqrt (1 + L ^ 2 / 3 ^ 2) := by
  obtain ⟨L, y, h, _, h', _⟩ := C122_polygon_ends_false 3 2 600 10 (by norm_num) (by norm_num)
    (by norm_num) (by norm_num)
  exact ⟨L, y, h, h'⟩

/-! ## C123 -/

/-- The hyperbola is placed like the line of its plane: at the same center with the
same rotation. -/
theorem C123_same_placement (v : ℝ) (xs ys : ℝ → ℝ) (hx : Spec.LinearScale xs) (n c : Vec 3) :
    hyperbolaPlacement v 1 xs ys n c = transform v xs ys n c := by
  obtain ⟨kx, lx⟩ := LinearScale.ratio hx
  unfold hyperbolaPlacement transform
  simp only [Matrix.vecMul_one, vecMul_rotZ, vecMul_mapDown, Real.cos_add_pi, Real.sin_add_pi]
  cases screenAngle n v xs ys with
  | none => rfl
  | some a =>
    simp only [Option.bind_eq_bind, Option.bind_some, Option.some.injEq, Placement.mk.injEq, and_true]
    constructor
    · simp
      have e1 := lx (-(c 0 * Real.cos v) + -(c 1 * Real.sin v))
      have e2 := lx (c 0 * Real.cos v + c 1 * Real.sin v)
      rw [e1, e2]
      ring
    · simp

example : hyperbolaPlacement 0.3 1 (fun t => 100 + 10 * t) (fun t => 300 + -5 * t) ![1, 2, 2] ![4, 5, 6]
    = transform 0.3 (fun t => 100 + 10 * t) (fun t => 300 + -5 * t) ![1, 2, 2] ![4, 5, 6] :=
  C123_same_placement _ _ _ ⟨10, by norm_num, by simp⟩ _ _

/-- With `scaleErrorAngles` never turned off, the vertical scale is used for heights,
however often it was drawn. -/
theorem C123_scale_partial (calls : List HypCall) (h : HypCall.set false ∉ calls) (kx ky : ℝ) :
    (calls.foldl HypState.step {}).verticalScale kx ky = ky := by
  have inv : ∀ s : HypState, s = {} → calls.foldl HypState.step s = {} := by
    induction calls with
    | nil => intro s hs; exact hs
    | cons c cs ih =>
      intro s hs
      subst hs
      apply ih (fun hm => h (List.mem_cons_of_mem _ hm))
      cases c with
      | set b =>
        cases b with
        | false => exact absurd List.mem_cons_self h
        | true => rfl
      | draw => rfl
  rw [inv _ rfl]
  simp [HypState.verticalScale, HypState.step]

example : ([HypCall.set true, .draw].foldl HypState.step {}).verticalScale 10 (-5) = -5 :=
  C123_scale_partial _ (by simp) _ _

/-- Turning it off, drawing, and turning it on again does not restore the vertical
scale. -/
theorem C123_scale_false : ([HypCall.set false, .draw, .set true].foldl HypState.step {}).scaleErrorAngles
      = ({} : HypState).scaleErrorAngles ∧
    ([HypCall.set false, .draw, .set true].foldl HypState.step {}).verticalScale 10 (-5)
      ≠ ({} : HypState).verticalScale 10 (-5) := by
  refine ⟨rfl, ?_⟩
  norm_num [HypState.verticalScale, HypState.step]

/-- The value that `scaleErrorAngles` was last set to, true if never. -/
def Spec.setting (calls : List HypCall) : Bool :=
  ((calls.filterMap fun | .set b => some b | .draw => none).getLast?).getD true

lemma hypState_after (calls : List HypCall) :
    (calls.foldl HypState.step {}).scaleErrorAngles = Spec.setting calls ∧
    ((calls.foldl HypState.step {}).isotropic = true ↔
      ∃ pre post, calls = pre ++ .draw :: post ∧ Spec.setting pre = false) := by
  induction calls using List.reverseRecOn with
  | nil => simp [Spec.setting]
  | append_singleton cs c ih =>
    obtain ⟨ih1, ih2⟩ := ih
    rw [List.foldl_append, List.foldl_cons, List.foldl_nil]
    have key : (∃ pre post, cs ++ [c] = pre ++ .draw :: post ∧ Spec.setting pre = false) ↔
        (∃ pre post, cs = pre ++ .draw :: post ∧ Spec.setting pre = false) ∨
          (c = .draw ∧ Spec.setting cs = false) := by
      constructor
      · rintro ⟨pre, post, h, hs⟩
        rcases List.eq_nil_or_concat post with rfl | ⟨post', x, rfl⟩
        · obtain ⟨rfl, h'⟩ := List.append_inj' h rfl
          exact .inr ⟨by simpa using h', hs⟩
        · have h' : cs ++ [c] = (pre ++ .draw :: post') ++ [x] := by simpa using h
          exact .inl ⟨pre, post', (List.append_inj' h' rfl).1, hs⟩
      · rintro (⟨pre, post, h, hs⟩ | ⟨rfl, hs⟩)
        · exact ⟨pre, post ++ [c], by simp [h], hs⟩
        · exact ⟨cs, [], rfl, hs⟩
    cases c with
    | set b =>
      refine ⟨by simp [HypState.step, Spec.setting], ?_⟩
      rw [key]
      simpa [HypState.step] using ih2
    | draw =>
      have hset : Spec.setting (cs ++ [.draw]) = Spec.setting cs := by simp [Spec.setting]
      rw [key, hset]
      cases hb : Spec.setting cs with
      | true => simp [HypState.step, ih1, hb, ih2]
      | false => simp [HypState.step, ih1, hb]

/-- The vertical scale of a drawing is that of heights exactly if the setting was on at
every drawing up to then, this one included: one drawing with the setting off decides
about all later ones. -/
theorem C123_scale_exact (calls : List HypCall) (kx ky : ℝ) (hk : kx ≠ ky) :
    (calls.foldl HypState.step {}).verticalScale kx ky = ky ↔
      ∀ pre post, calls ++ [.draw] = pre ++ .draw :: post → Spec.setting pre = true := by
  have h := (hypState_after (calls ++ [.draw])).2
  rw [List.foldl_append, List.foldl_cons, List.foldl_nil] at h
  unfold HypState.verticalScale
  by_cases hi : ((calls.foldl HypState.step {}).step .draw).isotropic = true
  · rw [if_pos hi]
    obtain ⟨pre, post, hp, hs⟩ := h.1 hi
    refine ⟨fun e => absurd e hk, fun e => ?_⟩
    rw [e pre post hp] at hs
    exact absurd hs (by simp)
  · rw [if_neg hi]
    refine ⟨fun _ pre post hp => ?_, fun _ => rfl⟩
    by_contra hs
    exact hi (h.2 ⟨pre, post, hp, by simpa using hs⟩)

example : ([HypCall.set false, .set true, .draw].foldl HypState.step {}).verticalScale 10 (-5) = -5 := by
  norm_num [HypState.verticalScale, HypState.step]

example : ¬ ∀ pre post, [HypCall.set false, .draw, .set true] ++ [.draw] = pre ++ .draw :: post →
    Spec.setting pre = true := by
  rw [← C123_scale_exact _ 10 (-5) (by norm_num)]
  norm_num [HypState.verticalScale, HypState.step]

end Attitude.Props
