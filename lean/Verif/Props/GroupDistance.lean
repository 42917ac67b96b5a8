import Verif.Model.GroupDistance
import Verif.Props.ErrorOrder
import Verif.Props.PcaMotion

/-! # Angular error of one direction, and distances of fits from their group: C289, C290 -/

namespace Attitude.Props

open Attitude ErrorAxes GroupDistance

lemma arctan2_sub_arctan {y : ℝ} (hy : 0 < y) (x : ℝ) :
    arctan2 y x = Real.pi / 2 - Real.arctan (x / y) := by
  have hs : 0 < Real.sqrt (1 + (x / y) ^ 2) := Real.sqrt_pos.2 (by positivity)
  have h := arctan2_of_polar (mul_pos hy hs) (θ := Real.pi / 2 - Real.arctan (x / y))
    (by linarith [Real.arctan_lt_pi_div_two (x / y), Real.pi_pos])
    (by linarith [Real.neg_pi_div_two_lt_arctan (x / y)])
  rw [Real.sin_pi_div_two_sub, Real.cos_pi_div_two_sub, Real.cos_arctan, Real.sin_arctan] at h
  rw [← h]
  congr 1 <;> field_simp

/-! ## C289 -/

lemma axes_of_ratio {Q : Quantiles} (hQ : Spec.QuantilesOK Q) {svd svd' : Pca.SvdFn}
    (hs : svd.Valid) (hs' : svd'.Valid) {n : ℕ} {a b : Fin n → Vec 3} {l : ℝ} (hl : 0 < l)
    {f g : Pca.Fit n} (hf : Pca.init svd a none none = .ok (some f))
    (hg : Pca.init svd' b none none = .ok (some g)) (hsv : ∀ j, g.s j = l * f.s j) (sampling : Bool)
    (cl : ℝ) (h0 : 0 ≤ cl) (h1 : cl < 1) :
    ∃ h h', axesAt Q f sampling cl = .ok (some h) ∧ axesAt Q g sampling cl = .ok (some h') ∧
      h' 2 = l ^ 2 * h 2 := by
  obtain ⟨U, hF⟩ := Pca.init_default hs hf
  obtain ⟨U', hG⟩ := Pca.init_default hs' hg
  obtain ⟨h, e, hh, _⟩ := C21_closed_form Q hQ svd hs a f hf sampling cl h0 h1
  obtain ⟨h', e', hh', _⟩ := C21_closed_form Q hQ svd' hs' _ g hg sampling cl h0 h1
  have hev : ∀ j, Pca.eigenvalues g j = l ^ 2 * Pca.eigenvalues f j := by
    intro j
    simp only [Pca.eigenvalues, hsv]
    ring
  have hevf := eigenvalues_nonneg hF
  have hk : ∀ j, Spec.errorScale sampling n (Pca.eigenvalues g) j
      = l ^ 2 * Spec.errorScale sampling n (Pca.eigenvalues f) j := by
    intro j
    simp only [Spec.errorScale, hev]
    split_ifs
    · ring
    · rw [show l ^ 2 * Pca.eigenvalues f j * (l ^ 2 * Pca.eigenvalues f 2) / ((n : ℝ) - 2)
        = (l ^ 2) ^ 2 * (Pca.eigenvalues f j * Pca.eigenvalues f 2 / ((n : ℝ) - 2)) by ring,
        Real.sqrt_mul (by positivity), Real.sqrt_sq (by positivity)]
      ring
  refine ⟨h, h', e, e', ?_⟩
  rw [hh, hh']
  show _ + _ = _ * (_ + _)
  rw [hev, hk]; ring

lemma axes_last_pos {Q : Quantiles} (hQ : Spec.QuantilesOK Q) {svd : Pca.SvdFn} (hs : svd.Valid) {n : ℕ}
    {a : Fin n → Vec 3} {f : Pca.Fit n} (hf : Pca.init svd a none none = .ok (some f)) (h2 : 0 < f.s 2)
    {sampling : Bool} {cl : ℝ} (h0 : 0 ≤ cl) (h1 : cl < 1) {h : Vec 3}
    (e : axesAt Q f sampling cl = .ok (some h)) : 0 < h 2 := by
  obtain ⟨U, hF⟩ := Pca.init_default hs hf
  obtain ⟨h', e', -, -, hle⟩ := C21_closed_form Q hQ svd hs a f hf sampling cl h0 h1
  rw [e'] at e
  injection e with e
  injection e with e
  subst e
  refine lt_of_lt_of_le ?_ hle
  have hn : (3 : ℝ) ≤ n := by exact_mod_cast hF.size
  unfold Pca.eigenvalues
  have : (0 : ℝ) < (n : ℝ) - 1 := by linarith
  positivity

/-- For every fit of points that are not in one plane: the angular error of a direction is an angle of less than a
straight angle, less than a right angle exactly for positive lengths, and smaller for longer axes. -/
theorem C289_angle (Q : Quantiles) (hQ : Spec.QuantilesOK Q) (svd : Pca.SvdFn) (hs : svd.Valid) {n : ℕ}
    (a : Fin n → Vec 3) (f : Pca.Fit n) (hf : Pca.init svd a none none = .ok (some f)) (h2 : 0 < f.s 2)
    (sampling : Bool) (cl : ℝ) (h0 : 0 ≤ cl) (h1 : cl < 1) :
    ∃ e : ℝ → ℝ, (∀ len, angularError (axesAt Q f sampling cl) len = .ok (some (e len))) ∧
      (∀ len, 0 < e len ∧ e len < Real.pi ∧ (e len < Real.pi / 2 ↔ 0 < len)) ∧ StrictAnti e := by
  obtain ⟨h, e, -⟩ := C21_closed_form Q hQ svd hs a f hf sampling cl h0 h1
  have hp := axes_last_pos hQ hs hf h2 h0 h1 e
  refine ⟨fun len => axisAngularError h len, fun len => by rw [e]; rfl, fun len => ?_, fun x y hxy => ?_⟩
  · simp only [axisAngularError, arctan2_sub_arctan hp]
    refine ⟨by linarith [Real.arctan_lt_pi_div_two (len / h 2)],
      by linarith [Real.neg_pi_div_two_lt_arctan (len / h 2)], ?_⟩
    rw [sub_lt_self_iff, Real.arctan_pos]
    exact ⟨fun k => by
      by_contra hc
      exact absurd k (not_lt.2 (div_nonpos_of_nonpos_of_nonneg (not_lt.1 hc) hp.le)), fun k => div_pos k hp⟩
  · simp only [axisAngularError, arctan2_sub_arctan hp]
    exact sub_lt_sub_left (Real.arctan_strictMono (div_lt_div_of_pos_right hxy hp)) _

/-- The exact length for which `angular_error` gives the angular error of the first axis: the geometric mean of the
variances along the axis and the normal.  For the length of the axis itself (the root of its variance) it is right
only if the variance along the normal is one. -/
theorem C289_first_axis_iff_partial (Q : Quantiles) (hQ : Spec.QuantilesOK Q) (svd : Pca.SvdFn) (hs : svd.Valid)
    {n : ℕ} (a : Fin n → Vec 3) (f : Pca.Fit n) (hf : Pca.init svd a none none = .ok (some f)) (h2 : 0 < f.s 2)
    (sampling : Bool) (cl : ℝ) (h0 : 0 ≤ cl) (h1 : cl < 1) :
    ∃ h e, axesAt Q f sampling cl = .ok (some h) ∧ errorsAt Q f sampling cl = some e ∧
      (∀ len, angularError (axesAt Q f sampling cl) len = .ok (some e.1) ↔ len = Real.sqrt (h 0 * h 2)) ∧
      (0 < h 0 → (angularError (axesAt Q f sampling cl) (Real.sqrt (h 0)) = .ok (some e.1) ↔ h 2 = 1)) := by
  obtain ⟨h, e, -, hn, -⟩ := C21_closed_form Q hQ svd hs a f hf sampling cl h0 h1
  have hp := axes_last_pos hQ hs hf h2 h0 h1 e
  have hsp : 0 < Real.sqrt (h 2) := Real.sqrt_pos.2 hp
  have hsq : Real.sqrt (h 2) * Real.sqrt (h 2) = h 2 := Real.mul_self_sqrt hp.le
  have key : ∀ len, angularError (axesAt Q f sampling cl) len = .ok (some (angularErrors h).1) ↔
      len = Real.sqrt (h 0 * h 2) := by
    intro len
    rw [e]
    show (Except.ok (some (axisAngularError h len)) : Res ℝ) = _ ↔ _
    rw [Except.ok.injEq, Option.some.injEq, axisAngularError, angularErrors, arctan2_sub_arctan hp,
      arctan2_sub_arctan hsp, sub_right_inj, Real.arctan_inj, div_eq_div_iff hp.ne' hsp.ne',
      Real.sqrt_mul (hn 0)]
    constructor
    · intro k
      have : (len - Real.sqrt (h 0) * Real.sqrt (h 2)) * Real.sqrt (h 2) = 0 := by
        linear_combination k - Real.sqrt (h 0) * hsq
      linarith [(mul_eq_zero.1 this).resolve_right hsp.ne']
    · rintro rfl
      linear_combination Real.sqrt (h 0) * hsq
  refine ⟨h, angularErrors h, e, by simp only [errorsAt, e], key, fun hp0 => ?_⟩
  rw [key, Real.sqrt_mul (hn 0)]
  have hs0 : 0 < Real.sqrt (h 0) := Real.sqrt_pos.2 hp0
  constructor
  · intro k
    have : Real.sqrt (h 2) = 1 := by
      have : Real.sqrt (h 0) * (Real.sqrt (h 2) - 1) = 0 := by linear_combination -k
      linarith [(mul_eq_zero.1 this).resolve_left hs0.ne']
    rw [← hsq, this, one_mul]
  · intro k
    rw [k, Real.sqrt_one, mul_one]

/-- The angular error of a direction depends on the unit of length: for the same points and the same length in
another unit it is always another one, larger if the numbers are larger. -/
theorem C289_units_false (Q : Quantiles) (hQ : Spec.QuantilesOK Q) (svd svd' : Pca.SvdFn)
    (hs : svd.Valid) (hs' : svd'.Valid) {n : ℕ} (a : Fin n → Vec 3) (l : ℝ) (hl : 1 < l)
    (f g : Pca.Fit n) (hf : Pca.init svd a none none = .ok (some f))
    (hg : Pca.init svd' (fun i j => l * a i j) none none = .ok (some g)) (h2 : 0 < f.s 2) (sampling : Bool)
    (cl : ℝ) (h0 : 0 ≤ cl) (h1 : cl < 1) (len : ℝ) (hlen : 0 < len) :
    ∃ x y, angularError (axesAt Q f sampling cl) len = .ok (some x) ∧
      angularError (axesAt Q g sampling cl) (l * len) = .ok (some y) ∧ x < y := by
  have hl0 : 0 < l := by linarith
  have hm : (fun i j => l * a i j) = Spec.rigid l 1 0 a := by
    funext i j
    fin_cases j <;> simp [Spec.rigid, Matrix.one_apply]
  rw [hm] at hg
  obtain ⟨-, hsv, -⟩ := C176_rigid_motion Q hQ svd svd' hs hs' a l hl0 1 (by simp) 0 f g hf hg
  obtain ⟨h, h', e, e', hr⟩ := axes_of_ratio hQ hs hs' hl0 hf hg hsv sampling cl h0 h1
  have hp := axes_last_pos hQ hs hf h2 h0 h1 e
  refine ⟨_, _, by rw [e]; rfl, by rw [e']; rfl, ?_⟩
  simp only [axisAngularError]
  rw [hr, show l ^ 2 * h 2 = l * (l * h 2) by ring, arctan2_smul hl0,
    arctan2_sub_arctan hp, arctan2_sub_arctan (by positivity)]
  refine sub_lt_sub_left (Real.arctan_strictMono ?_) _
  exact div_lt_div_of_pos_left hlen hp (by nlinarith)

/-- A tilted plane with noise, and the same in another unit. -/
example : ∃ (svd : Pca.SvdFn) (f g : Pca.Fit 4), svd.Valid ∧
    Pca.init svd Witness.tilted none none = .ok (some f) ∧ 0 < f.s 2 ∧
    Pca.init svd (fun i j => 1000 * Witness.tilted i j) none none = .ok (some g) ∧
    ∃ x y, angularError (axesAt Spec.quantiles2 f false 0.95) 3 = .ok (some x) ∧
      angularError (axesAt Spec.quantiles2 g false 0.95) (1000 * 3) = .ok (some y) ∧ x < y := by
  obtain ⟨svd, f, hs, hf, -, hfs⟩ := Witness.exists_tilted
  obtain ⟨g, hg⟩ := Pca.init_default_exists svd (by norm_num : 3 ≤ 4) (fun i j => 1000 * Witness.tilted i j)
  have h2 : 0 < f.s 2 := by rw [hfs]; simp
  exact ⟨svd, f, g, hs, hf, h2, hg, C289_units_false _ Spec.quantiles2_ok svd svd hs hs _ 1000 (by norm_num) f g
    hf hg h2 false 0.95 (by norm_num) (by norm_num) 3 (by norm_num)⟩

/-! ## C290 -/

namespace Spec

/-- The same fit with the other sign of its normal, which is as good a result of a decomposition. -/
def withNormalReversed (c : Component) : Component := { c with axes := ![c.axes 0, c.axes 1, -c.axes 2] }

/-- The axes are unit vectors. -/
def UnitAxes (c : Component) : Prop := ∀ i, c.axes i 0 ^ 2 + c.axes i 1 ^ 2 + c.axes i 2 ^ 2 = 1

/-- The vectors are equal or opposite. -/
def SameOrOpposite (v w : Vec 3) : Prop := v = w ∨ v = -w

end Spec

lemma vdot3 (v w : Vec 3) : vdot v w = v 0 * w 0 + v 1 * w 1 + v 2 * w 2 := Fin.sum_univ_three _

lemma abs_vdot_unit {v w : Vec 3} (hv : v 0 ^ 2 + v 1 ^ 2 + v 2 ^ 2 = 1) (hw : w 0 ^ 2 + w 1 ^ 2 + w 2 ^ 2 = 1) :
    |vdot v w| ≤ 1 ∧ (|vdot v w| = 1 ↔ Spec.SameOrOpposite v w) := by
  have hsq : vdot v w ^ 2 ≤ 1 := by
    rw [vdot3]
    nlinarith [sq_nonneg (v 0 * w 1 - v 1 * w 0), sq_nonneg (v 0 * w 2 - v 2 * w 0), sq_nonneg (v 1 * w 2 - v 2 * w 1)]
  have hd : ∀ s : ℝ, s ^ 2 = 1 → vdot v w = s → v = s • w := by
    intro s hs k
    rw [vdot3] at k
    have e : (v 0 - s * w 0) ^ 2 + (v 1 - s * w 1) ^ 2 + (v 2 - s * w 2) ^ 2 = 0 := by
      linear_combination hv + s ^ 2 * hw - 2 * s * k - hs
    funext i
    fin_cases i
    · show v 0 = s * w 0
      nlinarith [sq_nonneg (v 0 - s * w 0), sq_nonneg (v 1 - s * w 1), sq_nonneg (v 2 - s * w 2)]
    · show v 1 = s * w 1
      nlinarith [sq_nonneg (v 0 - s * w 0), sq_nonneg (v 1 - s * w 1), sq_nonneg (v 2 - s * w 2)]
    · show v 2 = s * w 2
      nlinarith [sq_nonneg (v 0 - s * w 0), sq_nonneg (v 1 - s * w 1), sq_nonneg (v 2 - s * w 2)]
  refine ⟨(sq_le_one_iff_abs_le_one _).1 hsq, ⟨fun k => ?_, ?_⟩⟩
  · rcases (abs_eq one_pos.le).1 k with k | k
    · exact Or.inl (by simpa using hd 1 (by norm_num) k)
    · exact Or.inr (by simpa using hd (-1) (by norm_num) k)
  · rintro (rfl | rfl)
    · rw [vdot3, show v 0 * v 0 + v 1 * v 1 + v 2 * v 2 = 1 by linarith, abs_one]
    · rw [vdot3]
      simp only [Pi.neg_apply]
      rw [show -w 0 * w 0 + -w 1 * w 1 + -w 2 * w 2 = -1 by linarith, abs_neg, abs_one]

/-- The first number is the angle between the planes: at most 90 degrees, zero exactly for parallel planes, and the
same whichever sign the normal of the group has. -/
theorem C290_angle (f p : Component) (hf : Spec.UnitAxes f) (hp : Spec.UnitAxes p) :
    ∃ m r r', distanceFromGroup [f] p = [(m, r)] ∧ distanceFromGroup [f] (Spec.withNormalReversed p) = [(m, r')] ∧
      0 ≤ m ∧ m ≤ 90 ∧ (m = 0 ↔ Spec.SameOrOpposite (f.axes 2) (p.axes 2)) ∧
      Real.cos (radians m) = |vdot (f.axes 2) (p.axes 2)| := by
  obtain ⟨hle, hiff⟩ := abs_vdot_unit (hf 2) (hp 2)
  have hpi := Real.pi_pos
  have hm : meanAngle f (Spec.withNormalReversed p) = meanAngle f p := by
    unfold meanAngle
    congr 1
    rw [vdot3, vdot3, ← abs_neg]
    congr 1
    simp only [Spec.withNormalReversed]
    simp
    ring
  refine ⟨degrees (meanAngle f p), _, _, rfl, by rw [distanceFromGroup, List.map_cons, hm]; rfl, ?_, ?_, ?_, ?_⟩
  · have := Real.arccos_nonneg |vdot (f.axes 2) (p.axes 2)|
    unfold degrees meanAngle
    positivity
  · have := Real.arccos_le_pi_div_two.2 (abs_nonneg (vdot (f.axes 2) (p.axes 2)))
    unfold degrees meanAngle
    rw [div_le_iff₀ hpi]
    nlinarith
  · rw [← hiff]
    unfold degrees meanAngle
    rw [div_eq_zero_iff, or_iff_left hpi.ne', mul_eq_zero, or_iff_left (by norm_num : (180 : ℝ) ≠ 0),
      Real.arccos_eq_zero]
    exact ⟨fun k => le_antisymm hle k, fun k => k.ge⟩
  · have : radians (degrees (meanAngle f p)) = meanAngle f p := by
      unfold radians degrees
      field_simp
    rw [this, meanAngle, Real.cos_arccos (by linarith [abs_nonneg (vdot (f.axes 2) (p.axes 2))]) hle]

lemma cross_minus_right (v w : Vec 3) : cross v (-w) = -cross v w := by
  funext i
  fin_cases i <;> simp [cross] <;> ring

lemma cross_minus_left (v w : Vec 3) : cross (-v) w = -cross v w := by
  funext i
  fin_cases i <;> simp [cross] <;> ring

lemma norm_neg3 (v : Vec 3) : norm (-v) = norm v := by
  simp [norm]

lemma inPlaneLength_neg (v : Vec 3) (c : Component) :
    inPlaneLength (-v) c = (inPlaneLength v c).map fun l => -l := by
  simp only [inPlaneLength, vdivOpt, cross_minus_left, norm_neg3]
  split_ifs with h
  · rfl
  · simp only [Option.map_some, Option.some.injEq, vdot3, Pi.neg_apply]
    ring

lemma inPlaneLength_both (v : Vec 3) (c : Component) :
    inPlaneLength (-v) (Spec.withNormalReversed c) = inPlaneLength v c := by
  unfold inPlaneLength
  have : cross (-v) ((Spec.withNormalReversed c).axes 2) = cross v (c.axes 2) := by
    show cross (-v) (-c.axes 2) = _
    rw [cross_minus_left, cross_minus_right, neg_neg]
  rw [this]
  rfl

lemma double_cross {n m : Vec 3} (hn : n 0 ^ 2 + n 1 ^ 2 + n 2 ^ 2 = 1) :
    cross (cross n m) n = fun i => m i - vdot n m * n i := by
  funext i
  fin_cases i
  · simp [cross, vdot3]; linear_combination m 0 * hn
  · simp [cross, vdot3]; linear_combination m 1 * hn
  · simp [cross, vdot3]; linear_combination m 2 * hn

lemma norm_part {n m : Vec 3} (hn : n 0 ^ 2 + n 1 ^ 2 + n 2 ^ 2 = 1) (hm : m 0 ^ 2 + m 1 ^ 2 + m 2 ^ 2 = 1) :
    norm (fun i => m i - vdot n m * n i) = Real.sqrt (1 - vdot n m ^ 2) := by
  rw [norm, Fin.sum_univ_three]
  congr 1
  rw [vdot3]
  linear_combination hm + (n 0 * m 0 + n 1 * m 1 + n 2 * m 2) ^ 2 * hn

lemma sine_pos {n m : Vec 3} (hn : n 0 ^ 2 + n 1 ^ 2 + n 2 ^ 2 = 1) (hm : m 0 ^ 2 + m 1 ^ 2 + m 2 ^ 2 = 1)
    (h : ¬ Spec.SameOrOpposite n m) : 0 < Real.sqrt (1 - vdot n m ^ 2) := by
  obtain ⟨hle, hiff⟩ := abs_vdot_unit hn hm
  have := (sq_lt_one_iff_abs_lt_one _).2 (lt_of_le_of_ne hle fun k => h (hiff.1 k))
  exact Real.sqrt_pos.2 (by linarith)

lemma inPlaneLength_eq {c : Component} {m : Vec 3} (hc : Spec.UnitAxes c) (h02 : vdot (c.axes 2) (c.axes 0) = 0)
    (hm : m 0 ^ 2 + m 1 ^ 2 + m 2 ^ 2 = 1) (h : ¬ Spec.SameOrOpposite (c.axes 2) m) :
    inPlaneLength (cross (c.axes 2) m) c
      = some (c.s 0 * vdot m (c.axes 0) / Real.sqrt (1 - vdot (c.axes 2) m ^ 2)) := by
  have hp := sine_pos (hc 2) hm h
  simp only [inPlaneLength, double_cross (hc 2), norm_part (hc 2) hm, vdivOpt]
  rw [if_neg hp.ne', Option.map_some, Option.some.injEq, vdot3, vdot3 m (c.axes 0)]
  rw [vdot3] at h02
  field_simp
  linear_combination -(vdot (c.axes 2) m * c.s 0) * h02

/-- The second number depends on the sign of the normal of the group: reversing it replaces the error of the fit by
its supplement.  The sum stays the same only if the normal of the group is perpendicular to the first axis of the
fit, and then the error of the fit is taken to be 90 degrees, however small its errors are. -/
theorem C290_signs_false (f p : Component) (hf : Spec.UnitAxes f) (hp : Spec.UnitAxes p)
    (hf2 : vdot (f.axes 2) (f.axes 0) = 0) (hp2 : vdot (p.axes 2) (p.axes 0) = 0)
    (hne : ¬ Spec.SameOrOpposite (f.axes 2) (p.axes 2)) (hh : 0 < f.hyp 2) (hs : 0 < f.s 0) :
    ∃ m sine e₁ e₂, sine ^ 2 + vdot (f.axes 2) (p.axes 2) ^ 2 = 1 ∧ 0 < sine ∧
      e₁ = arctan2 (f.hyp 2) (f.s 0 * vdot (p.axes 2) (f.axes 0) / sine) ∧
      e₂ = arctan2 (p.hyp 2) (-(p.s 0 * vdot (f.axes 2) (p.axes 0) / sine)) ∧
      distanceFromGroup [f] p = [(m, some (degrees (e₁ + e₂)), fdiv (radians m) (e₁ + e₂))] ∧
      distanceFromGroup [f] (Spec.withNormalReversed p)
        = [(m, some (degrees (Real.pi - e₁ + e₂)), fdiv (radians m) (Real.pi - e₁ + e₂))] ∧
      (e₁ + e₂ = Real.pi - e₁ + e₂ ↔ vdot (p.axes 2) (f.axes 0) = 0) ∧
      (vdot (p.axes 2) (f.axes 0) = 0 → e₁ = Real.pi / 2) := by
  have hpos := sine_pos (hf 2) (hp 2) hne
  have hsq := Real.sq_sqrt (Real.sqrt_pos.1 hpos).le
  have hl₁ := inPlaneLength_eq hf hf2 (hp 2) hne
  have hl₂ : inPlaneLength (cross (f.axes 2) (p.axes 2)) p
      = some (-(p.s 0 * vdot (f.axes 2) (p.axes 0) / Real.sqrt (1 - vdot (f.axes 2) (p.axes 2) ^ 2))) := by
    have hcomm : vdot (p.axes 2) (f.axes 2) = vdot (f.axes 2) (p.axes 2) := by rw [vdot3, vdot3]; ring
    have hswap : cross (f.axes 2) (p.axes 2) = -cross (p.axes 2) (f.axes 2) := by
      funext i
      fin_cases i <;> simp [cross] <;> ring
    have hne' : ¬ Spec.SameOrOpposite (p.axes 2) (f.axes 2) := by
      rintro (k | k)
      · exact hne (Or.inl k.symm)
      · exact hne (Or.inr (by rw [k, neg_neg]))
    rw [hswap, inPlaneLength_neg, inPlaneLength_eq hp hp2 (hf 2) hne', hcomm]
    rfl
  set sine := Real.sqrt (1 - vdot (f.axes 2) (p.axes 2) ^ 2)
  obtain ⟨e₁, he₁⟩ : ∃ e, e = arctan2 (f.hyp 2) (f.s 0 * vdot (p.axes 2) (f.axes 0) / sine) := ⟨_, rfl⟩
  obtain ⟨e₂, he₂⟩ : ∃ e, e = arctan2 (p.hyp 2) (-(p.s 0 * vdot (f.axes 2) (p.axes 0) / sine)) := ⟨_, rfl⟩
  have hneg : arctan2 (f.hyp 2) (-(f.s 0 * vdot (p.axes 2) (f.axes 0) / sine)) = Real.pi - e₁ := by
    rw [he₁, arctan2_sub_arctan hh, arctan2_sub_arctan hh, neg_div, Real.arctan_neg]
    ring
  have hz : e₁ = Real.pi / 2 ↔ vdot (p.axes 2) (f.axes 0) = 0 := by
    rw [he₁, arctan2_sub_arctan hh, sub_eq_self, Real.arctan_eq_zero_iff,
      div_eq_zero_iff, or_iff_left hh.ne', div_eq_zero_iff, or_iff_left hpos.ne', mul_eq_zero,
      or_iff_right hs.ne']
  have h1 : stdAngle f p = some (e₁ + e₂) := by
    simp only [stdAngle, hl₁, hl₂, Option.bind_some, Option.map_some, axisAngularError, he₁, he₂]
  have h2 : stdAngle f (Spec.withNormalReversed p) = some (Real.pi - e₁ + e₂) := by
    have hc : cross (f.axes 2) ((Spec.withNormalReversed p).axes 2) = -cross (f.axes 2) (p.axes 2) := by
      show cross _ (-p.axes 2) = _
      rw [cross_minus_right]
    have hyp : (Spec.withNormalReversed p).hyp = p.hyp := rfl
    simp only [stdAngle, hc]
    rw [inPlaneLength_both, inPlaneLength_neg, hl₁, hl₂]
    simp only [Option.bind_some, Option.map_some, axisAngularError, hneg, hyp, ← he₂]
  have hr : radians (degrees (meanAngle f p)) = meanAngle f p := by
    have := Real.pi_pos
    unfold radians degrees
    field_simp
  have hm : meanAngle f (Spec.withNormalReversed p) = meanAngle f p := by
    unfold meanAngle
    congr 1
    rw [vdot3, vdot3, ← abs_neg]
    congr 1
    simp only [Spec.withNormalReversed]
    simp
    ring
  refine ⟨degrees (meanAngle f p), sine, e₁, e₂, by rw [hsq]; ring, hpos, he₁, he₂, ?_, ?_, ?_, hz.2⟩
  · simp only [distanceFromGroup, List.map_cons, List.map_nil, h1, hr, Option.map_some, Option.bind_some]
  · simp only [distanceFromGroup, List.map_cons, List.map_nil, h2, hm, hr, Option.map_some, Option.bind_some]
  · rw [← hz]
    constructor <;> intro k <;> linarith

/-- A level fit in a group that dips along the first axis of the fit. -/
example : ∃ f p : Component, Spec.UnitAxes f ∧ Spec.UnitAxes p ∧ vdot (f.axes 2) (f.axes 0) = 0 ∧
    vdot (p.axes 2) (p.axes 0) = 0 ∧ ¬ Spec.SameOrOpposite (f.axes 2) (p.axes 2) ∧ 0 < f.hyp 2 ∧ 0 < f.s 0 ∧
    vdot (p.axes 2) (f.axes 0) ≠ 0 := by
  refine ⟨⟨!![1, 0, 0; 0, 1, 0; 0, 0, 1], ![2, 1, 1], ![4, 1, 1 / 4]⟩,
    ⟨!![4 / 5, 0, -(3 / 5); 0, 1, 0; 3 / 5, 0, 4 / 5], ![3, 1, 1], ![4, 1, 1 / 4]⟩,
    ?_, ?_, by simp [vdot3], by simp [vdot3]; norm_num, ?_, by simp, by simp, by simp [vdot3]⟩
  · intro i
    fin_cases i <;> simp
  · intro i
    fin_cases i <;> simp <;> norm_num
  · rintro (k | k)
    · have := congrFun k 0
      simp at this
      norm_num at this
    · have := congrFun k 0
      simp at this

/-- For each fit of a group there is one result, in order. -/
theorem C290_each (l : List Component) (p : Component) (i : ℕ) :
    (distanceFromGroup l p).length = l.length ∧
    (distanceFromGroup l p)[i]? = (l[i]?).bind fun f => (distanceFromGroup [f] p).head? := by
  refine ⟨by simp [distanceFromGroup], ?_⟩
  simp only [distanceFromGroup, List.getElem?_map]
  cases l[i]? <;> rfl

/-- For a fit parallel to the plane of the group there is no second number. -/
theorem C290_parallel_false (f p : Component) (h : Spec.SameOrOpposite (f.axes 2) (p.axes 2)) :
    ∃ m, distanceFromGroup [f] p = [(m, none, none)] := by
  have hc : cross (f.axes 2) (p.axes 2) = 0 := by
    rcases h with h | h <;> rw [h] <;> funext i <;> fin_cases i <;> simp [cross] <;> ring
  have h0 : inPlaneLength 0 f = none := by
    have : cross 0 (f.axes 2) = 0 := by funext i; fin_cases i <;> simp [cross]
    unfold inPlaneLength vdivOpt
    rw [this]
    simp [norm]
  have : stdAngle f p = none := by simp only [stdAngle, hc, h0, Option.bind_none]
  exact ⟨degrees (meanAngle f p), by simp only [distanceFromGroup, List.map_cons, List.map_nil, this, Option.map_none, Option.bind_none]⟩

/-- A fit in a group with opposite normal. -/
example : Spec.SameOrOpposite (![0, 0, 1] : Vec 3) ![0, 0, -1] :=
  Or.inr (by funext i; fin_cases i <;> simp)

end Attitude.Props
