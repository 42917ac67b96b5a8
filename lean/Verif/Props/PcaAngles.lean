import Verif.Lemmas.StrikeDip
import Verif.Props.PcaFit

/-!
# C12 - C17: strike, dip, dip direction, rake
-/

namespace Attitude.Props

open Attitude Pca Matrix

/-! ## Specification: compass directions in (east, north, up) coordinates -/

/-- Horizontal unit vector towards azimuth `az` (degrees clockwise from north). -/
noncomputable def Spec.heading (az : ℝ) : Vec 3 :=
  ![Real.sin (az * Real.pi / 180), Real.cos (az * Real.pi / 180), 0]

/-- Unit vector towards azimuth `az`, plunging `d` degrees below horizontal. -/
noncomputable def Spec.plunging (az d : ℝ) : Vec 3 :=
  ![Real.sin (az * Real.pi / 180) * Real.cos (d * Real.pi / 180),
    Real.cos (az * Real.pi / 180) * Real.cos (d * Real.pi / 180),
    -Real.sin (d * Real.pi / 180)]

/-- A direction lies in the plane (through the origin) with normal `m`. -/
def Spec.InPlane (m v : Vec 3) : Prop := m 0 * v 0 + m 1 * v 1 + m 2 * v 2 = 0

/-- The plane with upward normal `m` has strike `s` and dip `d` under the
right-hand rule: it contains the horizontal line towards azimuth `s`, and the
line towards azimuth `s + 90` plunging `d` degrees. -/
def Spec.RightHandRule (m : Vec 3) (s d : ℝ) : Prop :=
  Spec.InPlane m (Spec.heading s) ∧ Spec.InPlane m (Spec.plunging (s + 90) d)

/-! ## Helper lemmas -/

lemma fit_axis_ne_zero {n : ℕ} {a : Fin n → Vec 3} {f : Fit n} {U : Mat n 3} (h : IsFit a f U)
    (i : Fin 3) : f.V i ≠ 0 := by
  intro e
  have := h.svd.row_norm i
  rw [e, (norm_eq_zero_iff 0).2 rfl] at this
  norm_num at this

lemma heading_eq (az : ℝ) :
    Spec.heading az = ![Real.sin (radians az), Real.cos (radians az), 0] := rfl

lemma plunging_eq (az d : ℝ) : Spec.plunging (az + 90) d =
    ![Real.cos (radians az) * Real.cos (radians d), -Real.sin (radians az) * Real.cos (radians d),
      -Real.sin (radians d)] := by
  have e : (az + 90) * Real.pi / 180 = radians az + Real.pi / 2 := by
    unfold radians; ring
  simp only [Spec.plunging, e, Real.sin_add_pi_div_two, Real.cos_add_pi_div_two]
  rfl

lemma rightHandRule_sdNormal (r s d : ℝ) : Spec.RightHandRule (r • sdNormal s d) s d := by
  constructor
  · rw [heading_eq]
    simp only [Spec.InPlane, sdNormal, Pi.smul_apply, smul_eq_mul, Matrix.cons_val_zero,
      Matrix.cons_val_one, Matrix.cons_val]
    ring
  · rw [plunging_eq]
    simp only [Spec.InPlane, sdNormal, Pi.smul_apply, smul_eq_mul, Matrix.cons_val_zero,
      Matrix.cons_val_one, Matrix.cons_val]
    have := Real.sin_sq_add_cos_sq (radians s)
    linear_combination r * Real.sin (radians d) * Real.cos (radians d) * this

/-! ## C12 -/

/-- Whatever the third principal axis (it only has to be non-zero), strike is in
`[0, 360)` and dip in `[0, 90]`. -/
theorem C12_ranges (v : Vec 3) (hv : v ≠ 0) :
    ∃ s d, strikeDipOf v = some (s, d) ∧ 0 ≤ s ∧ s < 360 ∧ 0 ≤ d ∧ d ≤ 90 := by
  obtain ⟨s, d, h, h1, h2, h3, h4, _⟩ := strikeDipOf_spec hv
  exact ⟨s, d, h, h1, h2, h3, h4⟩

example : ∃ s d, strikeDipOf ![1, 2, -3] = some (s, d) ∧ 0 ≤ s ∧ s < 360 ∧ 0 ≤ d ∧ d ≤ 90 :=
  C12_ranges _ (fun h => by simpa using congrFun h 0)

/-- Every fit reports a strike in `[0, 360)` and a dip in `[0, 90]`. -/
theorem C12_fit_ranges (svd : SvdFn) (hs : svd.Valid) {n : ℕ} (a : Fin n → Vec 3) (f : Fit n)
    (hf : init svd a none none = .ok (some f)) :
    ∃ s d, strikeDip f = some (s, d) ∧ 0 ≤ s ∧ s < 360 ∧ 0 ≤ d ∧ d ≤ 90 := by
  obtain ⟨U, h⟩ := init_default hs hf
  exact C12_ranges _ (fit_axis_ne_zero h 2)

example : ∃ (svd : SvdFn) (f : Fit 4) (s d : ℝ), svd.Valid ∧
    init svd Witness.tilted none none = .ok (some f) ∧ strikeDip f = some (s, d) ∧ s < 360 := by
  obtain ⟨svd, f, hs, hf, _⟩ := Witness.exists_tilted
  obtain ⟨s, d, h, _, h1, _⟩ := C12_fit_ranges svd hs _ f hf
  exact ⟨svd, f, s, d, hs, hf, h, h1⟩

/-- Only the zero vector has no strike and dip. -/
theorem C12_undefined_iff (v : Vec 3) : strikeDipOf v = none ↔ v = 0 := by
  constructor
  · intro h
    by_contra hv
    obtain ⟨s, d, h', _⟩ := C12_ranges v hv
    rw [h] at h'
    cases h'
  · rintro rfl
    simp [strikeDipOf, fdiv, (norm_eq_zero_iff (0 : Vec 3)).2 rfl]

/-! ## C13 -/

/-- Negating the third axis does not change strike and dip, unless the plane is
vertical or horizontal. -/
theorem C13_sign_invariance_partial (v : Vec 3) (h2 : v 2 ≠ 0) (h01 : v 0 ≠ 0 ∨ v 1 ≠ 0) :
    strikeDipOf (-v) = strikeDipOf v := by
  have hv : v ≠ 0 := fun e => h2 (by rw [e]; rfl)
  have hv' : -v ≠ 0 := neg_ne_zero.2 hv
  obtain ⟨s, d, h, a1, a2, a3, a4, a5⟩ := strikeDipOf_spec hv
  obtain ⟨s', d', h', b1, b2, b3, b4, b5⟩ := strikeDipOf_spec hv'
  have hup : upward (-v) = upward v := by
    unfold upward
    simp only [Pi.neg_apply, neg_neg]
    rcases lt_or_gt_of_ne h2 with k | k
    · rw [if_neg (by linarith), if_pos k]
    · rw [if_pos (by linarith), if_neg (by linarith)]
  rw [norm_neg', hup, ← a5] at b5
  have hp : norm v ≠ 0 := fun h => hv ((norm_eq_zero_iff v).1 h)
  have e : sdNormal s' d' = sdNormal s d := by
    funext i
    have := congrFun b5 i
    simpa [hp] using this
  obtain ⟨e1, e2⟩ := sdNormal_inj b1 b2 b3 b4 a1 a2 a3 a4 e
  have hd : d' ≠ 0 := by
    rintro hd
    rw [← e1, hd] at a5
    have u0 := congrFun a5 0
    have u1 := congrFun a5 1
    simp [sdNormal, radians] at u0 u1
    have w0 : v 0 = 0 := by
      rcases upward_eq v with k | k <;> rw [k] at u0
      · exact u0.symm
      · simpa using u0
    have w1 : v 1 = 0 := by
      rcases upward_eq v with k | k <;> rw [k] at u1
      · exact u1.symm
      · simpa using u1
    rcases h01 with q | q
    · exact q w0
    · exact q w1
  rw [h, h', e1, e2 hd]

example : strikeDipOf (-![1, 2, 2]) = strikeDipOf ![1, 2, 2] :=
  C13_sign_invariance_partial _ (by simp) (by simp)

/-- For a vertical plane the two signs of the axis give opposite strikes. -/
theorem C13_vertical_false (v : Vec 3) (hv : v ≠ 0) (h2 : v 2 = 0) :
    ∃ s s', strikeDipOf v = some (s, 90) ∧ strikeDipOf (-v) = some (s', 90) ∧
      (s' = s + 180 ∨ s' = s - 180) := by
  have hv' : -v ≠ 0 := neg_ne_zero.2 hv
  obtain ⟨s, d, h, a1, a2, a3, a4, a5⟩ := strikeDipOf_spec hv
  obtain ⟨s', d', h', b1, b2, b3, b4, b5⟩ := strikeDipOf_spec hv'
  have hp : norm v ≠ 0 := fun h => hv ((norm_eq_zero_iff v).1 h)
  have u1 : upward v = v := by simp [upward, h2]
  have u2 : upward (-v) = -v := by simp [upward, h2]
  rw [u1] at a5
  rw [u2, norm_neg'] at b5
  have c90 : Real.cos (radians 90) = 0 := by rw [radians_90, Real.cos_pi_div_two]
  have hd : d = 90 := by
    apply dip_inj a3 a4 (by norm_num) le_rfl
    have := congrFun a5 2
    simp [sdNormal, h2, hp] at this
    rw [this, c90]
  have hd' : d' = 90 := by
    apply dip_inj b3 b4 (by norm_num) le_rfl
    have := congrFun b5 2
    simp [sdNormal, h2, hp] at this
    rw [this, c90]
  subst hd hd'
  have s90 : Real.sin (radians 90) = 1 := by rw [radians_90, Real.sin_pi_div_two]
  have e0 : Real.cos (radians s') = Real.cos (radians (s + 180)) := by
    have x := congrFun a5 0
    have y := congrFun b5 0
    simp [sdNormal, s90] at x y
    rw [radians_add, radians_180, Real.cos_add_pi]
    rw [← x] at y
    have : norm v * (Real.cos (radians s') + Real.cos (radians s)) = 0 := by linarith
    rcases mul_eq_zero.1 this with q | q
    · exact absurd q hp
    · linarith
  have e1 : Real.sin (radians s') = Real.sin (radians (s + 180)) := by
    have x := congrFun a5 1
    have y := congrFun b5 1
    simp [sdNormal, s90] at x y
    rw [radians_add, radians_180, Real.sin_add_pi]
    rw [← x] at y
    have : norm v * (Real.sin (radians s') + Real.sin (radians s)) = 0 := by linarith
    rcases mul_eq_zero.1 this with q | q
    · exact absurd q hp
    · linarith
  obtain ⟨k, hk⟩ := cos_sin_mod e0 e1
  refine ⟨s, s', h, h', ?_⟩
  have k1 : (k : ℝ) < 1 := by linarith
  have k2 : (-2 : ℝ) < k := by linarith
  have k1' : k < 1 := by exact_mod_cast k1
  have k2' : -2 < k := by exact_mod_cast k2
  have : k = 0 ∨ k = -1 := by omega
  rcases this with rfl | rfl
  · left; simpa using hk
  · right; rw [hk]; push_cast; ring

example : ∃ s s', strikeDipOf ![1, 2, 0] = some (s, 90) ∧ strikeDipOf (-![1, 2, 0]) = some (s', 90) ∧
    (s' = s + 180 ∨ s' = s - 180) :=
  C13_vertical_false _ (fun h => by simpa using congrFun h 0) rfl

/-- For a horizontal plane an upward axis gives strike 270 and a downward axis
strike 90. -/
theorem C13_horizontal_false (t : ℝ) (ht : 0 < t) :
    strikeDipOf ![0, 0, t] = some (270, 0) ∧ strikeDipOf ![0, 0, -t] = some (90, 0) := by
  have n1 : norm ![0, 0, t] = t := by
    rw [norm3]; simp [Real.sqrt_sq ht.le]
  have n2 : norm ![0, 0, -t] = t := by
    rw [norm3]; simp [Real.sqrt_sq ht.le]
  constructor
  · simp [strikeDipOf, n1, fdiv, ht.ne', degrees]
    norm_num
  · simp [strikeDipOf, n2, fdiv, ht.ne', degrees]
    norm_num

/-- Non-vacuity: an oblique axis. -/
example : strikeDipOf (-![1, 2, -3]) = strikeDipOf ![1, 2, -3] :=
  C13_sign_invariance_partial _ (by simp) (by simp)

/-! ## C14 -/

/-- For every non-zero third axis the reported strike and dip describe the plane
perpendicular to that axis under the right-hand rule. -/
theorem C14_right_hand_rule (v : Vec 3) (hv : v ≠ 0) (s d : ℝ)
    (h : strikeDipOf v = some (s, d)) : Spec.RightHandRule (upward v) s d := by
  obtain ⟨s', d', h', _, _, _, _, a5⟩ := strikeDipOf_spec hv
  rw [h] at h'
  cases h'
  rw [← a5]
  exact rightHandRule_sdNormal _ _ _

example : ∃ s d, strikeDipOf ![1, 2, -3] = some (s, d) ∧ Spec.RightHandRule (upward ![1, 2, -3]) s d := by
  have h0 : (![1, 2, -3] : Vec 3) ≠ 0 := fun h => by simpa using congrFun h 0
  obtain ⟨s, d, h, _⟩ := C12_ranges _ h0
  exact ⟨s, d, h, C14_right_hand_rule _ h0 s d h⟩

/-- For every fit: strike and dip describe the fitted plane under the right-hand
rule, and determine the upward normal. -/
theorem C14_fit_right_hand_rule (svd : SvdFn) (hs : svd.Valid) {n : ℕ} (a : Fin n → Vec 3)
    (f : Fit n) (hf : init svd a none none = .ok (some f)) :
    ∃ s d, strikeDip f = some (s, d) ∧ Spec.RightHandRule f.normal s d ∧ 0 ≤ f.normal 2 ∧
      f.normal = ![Real.sin (radians d) * Real.cos (radians s),
        -(Real.sin (radians d) * Real.sin (radians s)), Real.cos (radians d)] := by
  obtain ⟨U, h⟩ := init_default hs hf
  obtain ⟨s, d, h', _, _, _, _, a5⟩ := strikeDipOf_spec (fit_axis_ne_zero h 2)
  refine ⟨s, d, h', ?_, ?_, ?_⟩
  · rw [h.normal]
    exact C14_right_hand_rule _ (fit_axis_ne_zero h 2) s d h'
  · rw [h.normal]; exact upward_nonneg _
  · rw [h.normal, ← a5, h.svd.row_norm, one_smul]
    rfl

/-- Non-vacuity: the four points around a plane that dips towards the east by `arccos (3/5)`. -/
lemma tilted_strikeDip {svd : SvdFn} (hs : svd.Valid) {f : Fit 4}
    (hf : init svd Witness.tilted none none = .ok (some f)) (hV : f.V = Witness.tilt) :
    f.normal = ![4 / 5, 0, 3 / 5] ∧ ∃ s d, strikeDip f = some (s, d) ∧ d ≠ 0 ∧ d ≠ 90 ∧ 0 < d := by
  obtain ⟨s, d, h, _, _, e⟩ := C14_fit_right_hand_rule svd hs _ f hf
  obtain ⟨s', d', h', _, _, hd, _⟩ := C12_fit_ranges svd hs _ f hf
  rw [h] at h'
  cases h'
  obtain ⟨U, hU⟩ := init_default hs hf
  have hn : f.normal = ![4 / 5, 0, 3 / 5] := by
    rw [hU.normal, hV]
    have h2 : (Witness.tilt : Mat 3 3) 2 = ![4 / 5, 0, 3 / 5] := by
      funext j; fin_cases j <;> simp [Witness.tilt]
    rw [h2, upward, if_neg (by simp; norm_num)]
  have hc : (3 / 5 : ℝ) = Real.cos (radians d) := by
    have := congrFun (hn.symm.trans e) 2
    simpa using this
  have h0 : d ≠ 0 := by
    rintro rfl
    simp [radians] at hc
    norm_num at hc
  refine ⟨hn, s, d, h, h0, ?_, lt_of_le_of_ne hd h0.symm⟩
  rintro rfl
  have e90 : radians 90 = Real.pi / 2 := by unfold radians; ring
  rw [e90, Real.cos_pi_div_two] at hc
  norm_num at hc

example : ∃ (svd : SvdFn) (f : Fit 4) (s d : ℝ), svd.Valid ∧
    init svd Witness.tilted none none = .ok (some f) ∧ strikeDip f = some (s, d) ∧
    Spec.RightHandRule f.normal s d := by
  obtain ⟨svd, f, hs, hf, _⟩ := Witness.exists_tilted
  obtain ⟨s, d, h, h1, _⟩ := C14_fit_right_hand_rule svd hs _ f hf
  exact ⟨svd, f, s, d, hs, hf, h, h1⟩

/-! ## C15 -/

/-- Walking one unit along azimuth `az`, a plane with normal `m` rises by `g`. -/
def Spec.Rises (m : Vec 3) (az g : ℝ) : Prop :=
  Spec.InPlane m ![Real.sin (az * Real.pi / 180), Real.cos (az * Real.pi / 180), g]

/-- The reported dip direction is the strike plus 90, and along it the fitted
plane (if not vertical) goes down at the tangent of the dip.  The azimuth lies
in `[90, 450)`; what is missing from the claim is reduction to `[0, 360)`. -/
theorem C15_dip_direction_partial (svd : SvdFn) (hs : svd.Valid) {n : ℕ} (a : Fin n → Vec 3)
    (f : Fit n) (hf : init svd a none none = .ok (some f)) :
    ∃ az d, dipDirection f = some (az, d) ∧ 90 ≤ az ∧ az < 450 ∧ 0 ≤ d ∧ d ≤ 90 ∧
      (d ≠ 90 → Spec.Rises f.normal az (-Real.tan (d * Real.pi / 180))) := by
  obtain ⟨s, d, h, h1, h2, h3, h4⟩ := C12_fit_ranges svd hs a f hf
  obtain ⟨s', d', h', hr, _, _⟩ := C14_fit_right_hand_rule svd hs a f hf
  rw [h] at h'
  cases h'
  refine ⟨s + 90, d, by simp [dipDirection, h], by linarith, by linarith, h3, h4, ?_⟩
  intro hne
  have hlt : d < 90 := lt_of_le_of_ne h4 hne
  have hpi := Real.pi_pos
  have hc : Real.cos (d * Real.pi / 180) ≠ 0 := by
    apply ne_of_gt
    apply Real.cos_pos_of_mem_Ioo
    constructor
    · have : 0 ≤ d * Real.pi / 180 := by positivity
      linarith
    · nlinarith
  have hp := hr.2
  unfold Spec.Rises Spec.InPlane Spec.plunging at *
  simp only [Matrix.cons_val_zero, Matrix.cons_val_one, Matrix.cons_val] at hp ⊢
  rw [Real.tan_eq_sin_div_cos]
  have e : f.normal 0 * Real.sin ((s + 90) * Real.pi / 180)
      + f.normal 1 * Real.cos ((s + 90) * Real.pi / 180)
      = f.normal 2 * Real.sin (d * Real.pi / 180) / Real.cos (d * Real.pi / 180) := by
    rw [eq_div_iff hc]; linarith
  rw [e]; ring

example : ∃ (svd : SvdFn) (f : Fit 4) (az d : ℝ), svd.Valid ∧
    init svd Witness.tilted none none = .ok (some f) ∧ dipDirection f = some (az, d) ∧ 90 ≤ az := by
  obtain ⟨svd, f, hs, hf, _⟩ := Witness.exists_tilted
  obtain ⟨az, d, h, h1, _⟩ := C15_dip_direction_partial svd hs _ f hf
  exact ⟨svd, f, az, d, hs, hf, h, h1⟩

/-- For points that lie exactly in a plane, the fitted normal is perpendicular
to all differences. -/
lemma normal_perp_of_coplanar {svd : SvdFn} (hs : svd.Valid) {n : ℕ} {a : Fin n → Vec 3}
    {f : Fit n} (hf : init svd a none none = .ok (some f)) (m : Vec 3) (d : ℝ)
    (hm : norm m = 1) (hp : ∀ i, Spec.OnPlane m d (a i)) (i i' : Fin n) :
    f.normal 0 * (a i 0 - a i' 0) + f.normal 1 * (a i 1 - a i' 1)
      + f.normal 2 * (a i 2 - a i' 2) = 0 := by
  have h0 := (C07_residuals_zero_iff_coplanar svd hs a f hf).2 ⟨m, d, hm, hp⟩
  obtain ⟨_, _, c, hc, _⟩ := C06_best_fit svd hs a f hf
  obtain ⟨_, hB, _, _⟩ := C07_residuals_are_misfits svd hs a f hf c hc
  have e1 := hB i
  have e2 := hB i'
  simp only [Spec.OnPlane, h0, sub_zero] at e1 e2
  linarith

/-- Three points of the plane `x + y + z = 0`. -/
def tiltedPoints : Fin 3 → Vec 3 := ![![0, 0, 0], ![1, 0, -1], ![0, 1, -1]]

lemma tiltedPoints_coplanar : ∃ m d, norm m = 1 ∧ ∀ i, Spec.OnPlane m d (tiltedPoints i) := by
  refine ⟨![Real.sqrt (1 / 3), Real.sqrt (1 / 3), Real.sqrt (1 / 3)], 0, ?_, ?_⟩
  · rw [norm3]
    have : Real.sqrt (1 / 3) ^ 2 = 1 / 3 := Real.sq_sqrt (by norm_num)
    simp only [Matrix.cons_val_zero, Matrix.cons_val_one, Matrix.cons_val, this]
    norm_num
  · intro i
    fin_cases i <;> simp [Spec.OnPlane, tiltedPoints]

/-- The claim that the azimuth is in `[0, 360)` is false: the plane
`x + y + z = 0`, which dips to the north-east, is reported with dip direction
405. -/
theorem C15_dip_direction_false (svd : SvdFn) (hs : svd.Valid) :
    ∃ (f : Fit 3) (d : ℝ), init svd tiltedPoints none none = .ok (some f) ∧
      dipDirection f = some (405, d) := by
  obtain ⟨f, hf⟩ := init_default_exists svd (le_refl 3) tiltedPoints
  obtain ⟨m, d0, hm, hp⟩ := tiltedPoints_coplanar
  have p1 := normal_perp_of_coplanar hs hf m d0 hm hp 1 0
  have p2 := normal_perp_of_coplanar hs hf m d0 hm hp 2 0
  simp [tiltedPoints] at p1 p2
  obtain ⟨hu, hz, _⟩ := C06_best_fit svd hs _ f hf
  obtain ⟨s, d, h, h1, h2, h3, h4⟩ := C12_fit_ranges svd hs _ f hf
  obtain ⟨s', d', h', hr, _, hn⟩ := C14_fit_right_hand_rule svd hs _ f hf
  rw [h] at h'
  cases h'
  refine ⟨f, d, hf, ?_⟩
  have hsq : f.normal 0 ^ 2 + f.normal 1 ^ 2 + f.normal 2 ^ 2 = 1 := by
    have := norm_sq' f.normal
    rw [hu, Fin.sum_univ_three] at this
    linarith
  have e0 : f.normal 0 = f.normal 2 := by linarith
  have e1 : f.normal 1 = f.normal 2 := by linarith
  have hpos : 0 < f.normal 2 := by
    rcases hz.lt_or_eq with k | k
    · exact k
    · rw [e0, e1, ← k] at hsq; norm_num at hsq
  have n0 := congrFun hn 0
  have n1 := congrFun hn 1
  simp only [Matrix.cons_val_zero, Matrix.cons_val_one] at n0 n1
  rw [e0] at n0
  rw [e1] at n1
  have hsd : Real.sin (radians d) ≠ 0 := by
    intro e; rw [e] at n0; simp at n0; linarith
  have hcs : Real.cos (radians s) = -Real.sin (radians s) := by
    have : Real.sin (radians d) * (Real.cos (radians s) + Real.sin (radians s)) = 0 := by linarith
    rcases mul_eq_zero.1 this with q | q
    · exact absurd q hsd
    · linarith
  have hsdpos : 0 < Real.sin (radians d) := by
    apply lt_of_le_of_ne _ (Ne.symm hsd)
    have hpi := Real.pi_pos
    apply Real.sin_nonneg_of_nonneg_of_le_pi
    · unfold radians; positivity
    · unfold radians; nlinarith
  have hcpos : 0 < Real.cos (radians s) := by
    by_contra hc
    have := mul_nonpos_of_nonneg_of_nonpos hsdpos.le (not_lt.1 hc)
    linarith
  have hc2 : Real.cos (radians s) = Real.sqrt 2 / 2 := by
    have h1 := Real.sin_sq_add_cos_sq (radians s)
    have h2 : Real.cos (radians s) ^ 2 = (Real.sqrt 2 / 2) ^ 2 := by
      have : Real.sqrt 2 ^ 2 = 2 := Real.sq_sqrt (by norm_num)
      have hs2 : Real.sin (radians s) = -Real.cos (radians s) := by linarith
      rw [hs2] at h1
      nlinarith
    have := Real.sqrt_pos.2 (show (0 : ℝ) < 2 by norm_num)
    exact (pow_left_inj₀ hcpos.le (by positivity) two_ne_zero).1 h2
  have hs315 : s = 315 := by
    apply cos_sin_inj h1 h2 (by norm_num) (by norm_num)
    · have : radians 315 = 2 * Real.pi - Real.pi / 4 := by unfold radians; ring
      rw [this, Real.cos_two_pi_sub, Real.cos_pi_div_four, hc2]
    · have : radians 315 = 2 * Real.pi - Real.pi / 4 := by unfold radians; ring
      rw [this, Real.sin_two_pi_sub, Real.sin_pi_div_four]
      linarith
  simp [dipDirection, h, hs315]
  norm_num

example : ∃ svd : SvdFn, svd.Valid := exists_valid_svd

/-! ## C16 -/

lemma dipDr_formula {n : ℕ} {a : Fin n → Vec 3} {f : Fit n} {U : Mat n 3} (h : IsFit a f U) :
    cross f.strikeVec f.normal
      = ![-(f.normal 0 * f.normal 2), -(f.normal 1 * f.normal 2),
          f.normal 0 ^ 2 + f.normal 1 ^ 2] := by
  rw [h.strikeVec]
  funext i
  fin_cases i <;> simp [cross, vertical] <;> ring

/-- For a plane that is not horizontal, `dip_dr` is the unit vector pointing
exactly opposite to the down-dip direction: it lies in the plane, is
perpendicular to strike and is of steepest slope, but it points up dip. -/
theorem C16_dip_dr_partial (svd : SvdFn) (hs : svd.Valid) {n : ℕ} (a : Fin n → Vec 3)
    (f : Fit n) (hf : init svd a none none = .ok (some f)) (s d : ℝ)
    (hsd : strikeDip f = some (s, d)) (hd : d ≠ 0) :
    ∃ v, f.dipDr = some v ∧ v = -Spec.plunging (s + 90) d ∧ norm v = 1 ∧
      Spec.InPlane f.normal v ∧ vdot v (Spec.heading s) = 0 ∧
      ∀ w : Vec 3, norm w = 1 → Spec.InPlane f.normal w → |w 2| ≤ |v 2| := by
  obtain ⟨s', d', h', a1, a2, a3, a4⟩ := C12_fit_ranges svd hs a f hf
  rw [hsd] at h'
  cases h'
  obtain ⟨s', d', h', hr, _, hn⟩ := C14_fit_right_hand_rule svd hs a f hf
  rw [hsd] at h'
  cases h'
  obtain ⟨U, h⟩ := init_default hs hf
  have hpi := Real.pi_pos
  have hpos : 0 < Real.sin (radians d) := by
    have hd0 : 0 < d := lt_of_le_of_ne a3 (Ne.symm hd)
    apply Real.sin_pos_of_pos_of_lt_pi
    · unfold radians; positivity
    · unfold radians; nlinarith
  have hss := Real.sin_sq_add_cos_sq (radians s)
  have hdd := Real.sin_sq_add_cos_sq (radians d)
  have n0 : f.normal 0 = Real.sin (radians d) * Real.cos (radians s) := congrFun hn 0
  have n1 : f.normal 1 = -(Real.sin (radians d) * Real.sin (radians s)) := congrFun hn 1
  have n2 : f.normal 2 = Real.cos (radians d) := congrFun hn 2
  have hcr := dipDr_formula h
  have hh : f.normal 0 ^ 2 + f.normal 1 ^ 2 = Real.sin (radians d) ^ 2 := by
    rw [n0, n1]; linear_combination Real.sin (radians d) ^ 2 * hss
  have hnorm : norm (cross f.strikeVec f.normal) = Real.sin (radians d) := by
    rw [hcr, norm3]
    simp only [Matrix.cons_val_zero, Matrix.cons_val_one, Matrix.cons_val]
    rw [hh, n0, n1, n2]
    rw [show (-(Real.sin (radians d) * Real.cos (radians s) * Real.cos (radians d))) ^ 2
      + (-(-(Real.sin (radians d) * Real.sin (radians s)) * Real.cos (radians d))) ^ 2
      + (Real.sin (radians d) ^ 2) ^ 2 = Real.sin (radians d) ^ 2 by
        linear_combination (Real.sin (radians d) ^ 2 * Real.cos (radians d) ^ 2) * hss
          + Real.sin (radians d) ^ 2 * hdd]
    exact Real.sqrt_sq hpos.le
  have hv : f.dipDr = some (-Spec.plunging (s + 90) d) := by
    rw [h.dipDr, Pca.normalize, vdivOpt, hnorm, if_neg hpos.ne', hcr]
    congr 1
    rw [plunging_eq]
    funext i
    fin_cases i
    · simp only [n0, n2]
      simp
      field_simp
    · simp only [n1, n2]
      simp
      field_simp
    · simp only [hh]
      simp
      field_simp
  refine ⟨_, hv, rfl, ?_, ?_, ?_, ?_⟩
  · rw [norm_neg', plunging_eq, norm3]
    simp only [Matrix.cons_val_zero, Matrix.cons_val_one, Matrix.cons_val]
    rw [show (Real.cos (radians s) * Real.cos (radians d)) ^ 2
      + (-Real.sin (radians s) * Real.cos (radians d)) ^ 2 + (-Real.sin (radians d)) ^ 2 = 1 by
        linear_combination Real.cos (radians d) ^ 2 * hss + hdd]
    exact Real.sqrt_one
  · have := hr.2
    unfold Spec.InPlane at this ⊢
    simp only [Pi.neg_apply]
    linarith
  · rw [plunging_eq, heading_eq, vdot3]
    simp
    ring
  · intro w hw hin
    have hw2 : w 0 ^ 2 + w 1 ^ 2 + w 2 ^ 2 = 1 := by
      have := norm_sq' w
      rw [hw, Fin.sum_univ_three] at this
      linarith
    rw [plunging_eq]
    simp only [Pi.neg_apply, Matrix.cons_val, neg_neg]
    rw [abs_of_pos hpos]
    apply abs_le_of_sq_le_sq _ hpos.le
    unfold Spec.InPlane at hin
    have e : w 2 * f.normal 2 = -(w 0 * f.normal 0 + w 1 * f.normal 1) := by linarith
    have hsum : f.normal 0 ^ 2 + f.normal 1 ^ 2 + f.normal 2 ^ 2 = 1 := by
      rw [hh, n2]; linarith
    have cs : (w 0 * f.normal 0 + w 1 * f.normal 1) ^ 2
        ≤ (w 0 ^ 2 + w 1 ^ 2) * (f.normal 0 ^ 2 + f.normal 1 ^ 2) := by
      nlinarith [sq_nonneg (w 0 * f.normal 1 - w 1 * f.normal 0)]
    have e2 : w 2 ^ 2 * f.normal 2 ^ 2 = (w 0 * f.normal 0 + w 1 * f.normal 1) ^ 2 := by
      rw [← mul_pow, e, neg_sq]
    rw [← hh]
    nlinarith

/-- Non-vacuity: the plane that dips towards the east. -/
lemma tilted_dipDr : ∃ (svd : SvdFn) (f : Fit 4) (s d : ℝ) (v : Vec 3), svd.Valid ∧
    init svd Witness.tilted none none = .ok (some f) ∧ strikeDip f = some (s, d) ∧ d ≠ 0 ∧
    f.dipDr = some v := by
  obtain ⟨svd, f, hs, hf, hV, _⟩ := Witness.exists_tilted
  obtain ⟨_, s, d, h, h0, _⟩ := tilted_strikeDip hs hf hV
  obtain ⟨v, hv, _⟩ := C16_dip_dr_partial svd hs _ f hf s d h h0
  exact ⟨svd, f, s, d, v, hs, hf, h, h0, hv⟩

example : ∃ (svd : SvdFn) (f : Fit 4) (s d : ℝ) (v : Vec 3), svd.Valid ∧
    init svd Witness.tilted none none = .ok (some f) ∧ strikeDip f = some (s, d) ∧ d ≠ 0 ∧
    f.dipDr = some v := tilted_dipDr

/-- It never points down dip: for every fit that is not horizontal its vertical
component is positive. -/
theorem C16_points_up_dip_false (svd : SvdFn) (hs : svd.Valid) {n : ℕ} (a : Fin n → Vec 3)
    (f : Fit n) (hf : init svd a none none = .ok (some f)) (v : Vec 3)
    (hv : f.dipDr = some v) : 0 < v 2 := by
  obtain ⟨U, h⟩ := init_default hs hf
  rw [h.dipDr, Pca.normalize, vdivOpt] at hv
  split_ifs at hv with h0
  cases hv
  rw [dipDr_formula h] at h0 ⊢
  have hp : 0 < norm ![-(f.normal 0 * f.normal 2), -(f.normal 1 * f.normal 2),
          f.normal 0 ^ 2 + f.normal 1 ^ 2] := lt_of_le_of_ne (norm_nonneg' _) (Ne.symm h0)
  have hne : f.normal 0 ^ 2 + f.normal 1 ^ 2 ≠ 0 := by
    intro e
    apply h0
    have e0 : f.normal 0 = 0 := by nlinarith [sq_nonneg (f.normal 0), sq_nonneg (f.normal 1)]
    have e1 : f.normal 1 = 0 := by nlinarith [sq_nonneg (f.normal 0), sq_nonneg (f.normal 1)]
    rw [norm_eq_zero_iff]
    funext i
    fin_cases i <;> simp [e0, e1]
  have hq : 0 < f.normal 0 ^ 2 + f.normal 1 ^ 2 :=
    lt_of_le_of_ne (by positivity) (Ne.symm hne)
  simp only [Matrix.cons_val]
  positivity

example : ∃ (svd : SvdFn) (f : Fit 4) (v : Vec 3), svd.Valid ∧
    init svd Witness.tilted none none = .ok (some f) ∧ f.dipDr = some v ∧ 0 < v 2 := by
  obtain ⟨svd, f, _, _, v, hs, hf, _, _, hv⟩ := tilted_dipDr
  exact ⟨svd, f, v, hs, hf, hv, C16_points_up_dip_false svd hs _ f hf v hv⟩

/-- `dip_dr` (hence the rake) is not finite exactly when the plane is
horizontal. -/
theorem C16_undefined_iff_horizontal (svd : SvdFn) (hs : svd.Valid) {n : ℕ} (a : Fin n → Vec 3)
    (f : Fit n) (hf : init svd a none none = .ok (some f)) :
    f.dipDr = none ↔ strikeDip f = some (270, 0) ∨ strikeDip f = some (90, 0) := by
  obtain ⟨s, d, hsd, a1, a2, a3, a4⟩ := C12_fit_ranges svd hs a f hf
  obtain ⟨U, h⟩ := init_default hs hf
  constructor
  · intro hnone
    rcases eq_or_ne d 0 with hd | hd
    · subst hd
      obtain ⟨s', d', h', hr, _, hn⟩ := C14_fit_right_hand_rule svd hs a f hf
      rw [hsd] at h'
      cases h'
      have r0 : radians 0 = 0 := by unfold radians; ring
      rw [r0] at hn
      simp at hn
      rw [h.normal] at hn
      unfold strikeDip
      rcases upward_eq (f.V 2) with k | k
      · rw [k] at hn
        rw [hn]
        left
        exact (C13_horizontal_false 1 one_pos).1
      · rw [k] at hn
        have : f.V 2 = ![0, 0, -1] := by
          rw [← neg_neg (f.V 2), hn]
          funext i; fin_cases i <;> simp
        rw [this]
        right
        exact (C13_horizontal_false 1 one_pos).2
    · obtain ⟨v, hv, _⟩ := C16_dip_dr_partial svd hs a f hf s d hsd hd
      rw [hnone] at hv
      cases hv
  · intro hh
    have hd : d = 0 := by
      rcases hh with k | k <;> rw [hsd] at k <;> simp at k <;> exact k.2
    obtain ⟨s', d', h', hr, _, hn⟩ := C14_fit_right_hand_rule svd hs a f hf
    rw [hsd] at h'
    cases h'
    subst hd
    have r0 : radians 0 = 0 := by unfold radians; ring
    rw [r0] at hn
    rw [h.dipDr, Pca.normalize, vdivOpt, if_pos]
    rw [norm_eq_zero_iff, dipDr_formula h]
    funext i
    fin_cases i <;> simp [hn]

example : ∃ (svd : SvdFn) (f : Fit 4), svd.Valid ∧
    init svd (Witness.points 1 ![3, 2, 1]) none none = .ok (some f) ∧ f.dipDr = none := by
  obtain ⟨svd, f, hs, hf, hV, _⟩ := Witness.exists_fit 1 (by simp) ![3, 2, 1] (by simp) (by simp)
    (by norm_num)
  refine ⟨svd, f, hs, hf, ?_⟩
  obtain ⟨U, hU⟩ := init_default hs hf
  rw [hU.dipDr, hU.strikeVec, hU.normal, hV]
  have h2 : (1 : Mat 3 3) 2 = ![0, 0, 1] := by
    funext j; fin_cases j <;> simp [Matrix.one_apply]
  rw [h2, upward, if_neg (by simp)]
  have e : cross (cross ![0, 0, 1] vertical) ![0, 0, 1] = 0 := by
    funext j; fin_cases j <;> simp [cross, vertical]
  rw [e]
  simp [Pca.normalize, vdivOpt, (norm_eq_zero_iff (0 : Vec 3)).2 rfl]

/-! ## C17 -/

/-- Whenever it is finite, the rake is in `[0, 180]`. -/
theorem C17_rake_range_partial {n : ℕ} (f : Fit n) (r : ℝ) (h : rake f = some r) :
    0 ≤ r ∧ r ≤ 180 := by
  simp only [rake, Option.bind_eq_bind, Option.bind_eq_some_iff, Option.some.injEq] at h
  obtain ⟨v, _, t, ht, rfl⟩ := h
  simp only [Rotations.angle, Option.bind_eq_bind, Option.bind_eq_some_iff,
    Option.some.injEq] at ht
  obtain ⟨q, _, rfl⟩ := ht
  constructor
  · have := degrees_le.2 (Real.arccos_nonneg q)
    have e : degrees 0 = 0 := by unfold degrees; ring
    rw [e] at this
    exact this
  · have := degrees_le.2 (Real.arccos_le_pi q)
    rw [degrees_pi] at this
    exact this

/-- The backend obtained from another by negating the first principal axis and
the first left singular vector. -/
def flipFirst (svd : SvdFn) : SvdFn := fun m A =>
  let r := svd m A
  (Matrix.of fun i j => if j = 0 then -r.1 i j else r.1 i j, r.2.1,
    Matrix.of fun i j => if i = 0 then -r.2.2 i j else r.2.2 i j)

/-- Signs used by `flipFirst`. -/
def firstFlip : Vec 3 := ![-1, 1, 1]

/-- It is as valid as the original. -/
theorem flipFirst_valid {svd : SvdFn} (hs : svd.Valid) : (flipFirst svd).Valid := by
  intro m A hm
  have h := hs m A hm
  have hU : (flipFirst svd m A).1 = (svd m A).1 * Matrix.diagonal firstFlip := by
    ext i j
    rw [Matrix.mul_diagonal]
    fin_cases j <;> simp [flipFirst, firstFlip]
  have hV : (flipFirst svd m A).2.2 = Matrix.diagonal firstFlip * (svd m A).2.2 := by
    ext i j
    rw [Matrix.diagonal_mul]
    fin_cases i <;> simp [flipFirst, firstFlip]
  have hD : Matrix.diagonal firstFlip * Matrix.diagonal firstFlip = 1 := by
    rw [Matrix.diagonal_mul_diagonal]
    ext i j
    fin_cases i <;> fin_cases j <;> simp [firstFlip]
  have hs' : (flipFirst svd m A).2.1 = (svd m A).2.1 := rfl
  refine ⟨?_, ?_, ?_, h.nonneg, h.le01, h.le12⟩
  · rw [hU, hV, hs']
    have e : (svd m A).1 * Matrix.diagonal firstFlip * Matrix.diagonal (svd m A).2.1
        * (Matrix.diagonal firstFlip * (svd m A).2.2)
        = (svd m A).1 * (Matrix.diagonal firstFlip * Matrix.diagonal (svd m A).2.1
          * Matrix.diagonal firstFlip) * (svd m A).2.2 := by
      simp only [Matrix.mul_assoc]
    rw [e]
    have e2 : Matrix.diagonal firstFlip * Matrix.diagonal (svd m A).2.1
          * Matrix.diagonal firstFlip = Matrix.diagonal (svd m A).2.1 := by
      rw [Matrix.diagonal_mul_diagonal, Matrix.diagonal_mul_diagonal]
      congr 1
      funext i
      fin_cases i <;> simp [firstFlip]
    rw [e2]
    exact h.recon
  · rw [hU, Matrix.transpose_mul, Matrix.diagonal_transpose, Matrix.mul_assoc,
      ← Matrix.mul_assoc _ _ (Matrix.diagonal firstFlip), h.orthU, Matrix.one_mul, hD]
  · rw [hV, Matrix.transpose_mul, Matrix.diagonal_transpose, Matrix.mul_assoc,
      ← Matrix.mul_assoc (svd m A).2.2, h.orthV, Matrix.one_mul, hD]

lemma angle_neg_right {n : ℕ} (v w : Vec n) :
    Rotations.angle v (-w) = (Rotations.angle v w).map (fun t => Real.pi - t) := by
  have hd : vdot v (-w) = -vdot v w := by simp [vdot]
  have hn : norm (-w) = norm w := by simp [norm]
  simp only [Rotations.angle, fdiv, hd, hn]
  split_ifs
  · rfl
  · simp [neg_div, Real.arccos_neg]

/-- Using the other sign for the first axis replaces the rake `r` by `180 - r`,
for every data set, while strike and dip stay the same. -/
theorem C17_rake_depends_on_sign (svd : SvdFn) {n : ℕ} (a : Fin n → Vec 3)
    (f g : Fit n) (hf : init svd a none none = .ok (some f))
    (hg : init (flipFirst svd) a none none = .ok (some g)) :
    rake g = (rake f).map (fun r => 180 - r) ∧ strikeDip g = strikeDip f := by
  by_cases hn : n < 3
  · simp [init, runSvd, hn, bind, Except.bind] at hf
  simp [init, runSvd, hn, bind, Except.bind] at hf hg
  subst hf hg
  constructor
  · simp only [rake, derive, flipFirst]
    set r := svd n (Matrix.of fun i j => Coordinates.centered a i j / ![1, 1, 1] j)
    have e2 : (Matrix.of fun i j => if i = (0 : Fin 3) then -r.2.2 i j else r.2.2 i j : Mat 3 3) 2
        = r.2.2 2 := by funext j; simp
    have e0 : (Matrix.of fun i j => if i = (0 : Fin 3) then -r.2.2 i j else r.2.2 i j : Mat 3 3) 0
        = -r.2.2 0 := by funext j; simp
    rw [e2, e0]
    cases Pca.normalize (cross (cross (upward (r.2.2 2)) vertical) (upward (r.2.2 2))) with
    | none => rfl
    | some v =>
      simp only [Option.bind_eq_bind, Option.bind_some, angle_neg_right]
      cases Rotations.angle v (r.2.2 0) with
      | none => rfl
      | some t =>
        simp [degrees_sub, degrees_pi]
  · simp only [strikeDip, derive, flipFirst]
    congr 1

example : ∃ (svd : SvdFn) (f g : Fit 4), init svd Witness.tilted none none = .ok (some f) ∧
    init (flipFirst svd) Witness.tilted none none = .ok (some g) ∧ strikeDip g = strikeDip f := by
  obtain ⟨svd, f, _, hf, _⟩ := Witness.exists_tilted
  obtain ⟨g, hg⟩ := init_default_exists (flipFirst svd) (by norm_num : 3 ≤ 4) Witness.tilted
  exact ⟨svd, f, g, hf, hg, (C17_rake_depends_on_sign svd _ f g hf hg).2⟩

/-- A cross of four points elongated along the dip of a plane dipping 45 degrees
to the east. -/
def dipCross : Fin 4 → Vec 3 := ![![2, 0, -2], ![-2, 0, 2], ![0, 1, 0], ![0, -1, 0]]

lemma dipCross_centered : Coordinates.centered dipCross = dipCross := by
  apply C01_centered_unique
  · intro j
    fin_cases j <;> simp [dipCross, Fin.sum_univ_four]
  · intro i i' j
    rfl

lemma dipCross_coplanar : ∃ m d, norm m = 1 ∧ ∀ i, Spec.OnPlane m d (dipCross i) := by
  refine ⟨![Real.sqrt (1 / 2), 0, Real.sqrt (1 / 2)], 0, ?_, ?_⟩
  · rw [norm3]
    have : Real.sqrt (1 / 2) ^ 2 = 1 / 2 := Real.sq_sqrt (by norm_num)
    simp only [Matrix.cons_val_zero, Matrix.cons_val_one, Matrix.cons_val, this]
    norm_num
  · intro i
    fin_cases i <;> simp [Spec.OnPlane, dipCross]

/-- So the rake is not determined by the data: for the cross of points above,
every valid backend and its sign-flipped twin report different rakes. -/
theorem C17_rake_not_determined_false (svd : SvdFn) (hs : svd.Valid) :
    (flipFirst svd).Valid ∧
    ∃ f g : Fit 4, init svd dipCross none none = .ok (some f) ∧
      init (flipFirst svd) dipCross none none = .ok (some g) ∧ rake f ≠ rake g := by
  obtain ⟨f, hf⟩ := init_default_exists svd (by norm_num : 3 ≤ 4) dipCross
  obtain ⟨g, hg⟩ := init_default_exists (flipFirst svd) (by norm_num : 3 ≤ 4) dipCross
  refine ⟨flipFirst_valid hs, f, g, hf, hg, ?_⟩
  rw [(C17_rake_depends_on_sign svd dipCross f g hf hg).1]
  obtain ⟨U, h⟩ := init_default hs hf
  obtain ⟨m, d0, hm, hp⟩ := dipCross_coplanar
  have p1 := normal_perp_of_coplanar hs hf m d0 hm hp 0 1
  have p2 := normal_perp_of_coplanar hs hf m d0 hm hp 2 3
  simp [dipCross] at p1 p2
  have q0 : f.normal 0 = f.normal 2 := by linarith
  have q1 : f.normal 1 = 0 := by linarith
  have hsq : f.normal 0 ^ 2 + f.normal 1 ^ 2 + f.normal 2 ^ 2 = 1 := by
    have := norm_sq' f.normal
    rw [normal_unit h, Fin.sum_univ_three] at this
    linarith
  have hne : f.normal 0 ≠ 0 := by
    intro e; rw [q1, ← q0, e] at hsq; norm_num at hsq
  -- `dip_dr` is finite
  have hcr := dipDr_formula h
  have hnz : norm (cross f.strikeVec f.normal) ≠ 0 := by
    intro e
    rw [norm_eq_zero_iff, hcr] at e
    have := congrFun e 2
    simp [q1] at this
    exact hne this
  have hdd : f.dipDr = some (fun i => cross f.strikeVec f.normal i
      / norm (cross f.strikeVec f.normal)) := by
    rw [h.dipDr, Pca.normalize, vdivOpt, if_neg hnz]
  intro heq
  -- equality would mean a rake of exactly 90
  have hr90 : rake f = some 90 ∨ rake f = none := by
    cases hr : rake f with
    | none => right; rfl
    | some r =>
      left
      rw [hr] at heq
      simp at heq
      congr 1
      linarith
  have hV0 : norm (f.V 0) = 1 := h.svd.row_norm 0
  set v : Vec 3 := fun i => cross f.strikeVec f.normal i / norm (cross f.strikeVec f.normal)
    with hv
  have hvn : norm v ≠ 0 := by
    intro e
    rw [norm_eq_zero_iff] at e
    apply hnz
    rw [norm_eq_zero_iff]
    funext i
    have := congrFun e i
    simp only [hv, Pi.zero_apply, div_eq_zero_iff] at this
    rcases this with k | k
    · exact k
    · exact absurd k hnz
  have hrk : rake f = some (degrees (Real.arccos (vdot v (f.V 0) / (norm v * norm (f.V 0))))) := by
    have hmn : ¬ (norm v * norm (f.V 0) = 0) := by
      rw [hV0, mul_one]; exact hvn
    simp only [rake, hdd, Option.bind_eq_bind, Option.bind_some, Rotations.angle, fdiv, hmn,
      if_false]
  have hdot : vdot v (f.V 0) = 0 := by
    rcases hr90 with k | k
    · rw [hrk] at k
      have k' := Option.some.inj k
      have h90 : (90 : ℝ) = degrees (Real.pi / 2) := by unfold degrees; field_simp; norm_num
      rw [h90] at k'
      have k2 : Real.arccos (vdot v (f.V 0) / (norm v * norm (f.V 0))) = Real.pi / 2 := by
        apply le_antisymm
        · exact degrees_le.1 k'.le
        · exact degrees_le.1 k'.ge
      rw [Real.arccos_eq_pi_div_two] at k2
      rcases div_eq_zero_iff.1 k2 with q | q
      · exact q
      · rw [hV0, mul_one] at q; exact absurd q hvn
    · rw [hrk] at k; cases k
  -- then the first axis is horizontal along strike
  have hperp : vdot (cross f.strikeVec f.normal) (f.V 0) = 0 := by
    rw [vdot3] at hdot ⊢
    simp only [hv] at hdot
    field_simp at hdot
    linarith
  rw [hcr, vdot3] at hperp
  simp [q1] at hperp
  rw [← q0] at hperp
  have hperp' : f.V 0 0 = f.V 0 2 := by
    have : f.normal 0 * f.normal 0 * (f.V 0 2 - f.V 0 0) = 0 := by linarith
    rcases mul_eq_zero.1 this with k | k
    · rcases mul_eq_zero.1 k with k | k <;> exact absurd k hne
    · linarith
  have hin := h.svd.row_dot 2 0
  rw [if_neg (by decide), vdot3] at hin
  have hin' : f.normal 0 * f.V 0 0 + f.normal 1 * f.V 0 1 + f.normal 2 * f.V 0 2 = 0 := by
    rw [h.normal]
    rcases upward_eq (f.V 2) with k | k <;> rw [k]
    · exact hin
    · simp only [Pi.neg_apply]; linarith
  rw [q1, ← q0, ← hperp'] at hin'
  have z0 : f.V 0 0 = 0 := by
    have : f.normal 0 * f.V 0 0 = 0 := by linarith
    rcases mul_eq_zero.1 this with k | k
    · exact absurd k hne
    · exact k
  have z2 : f.V 0 2 = 0 := by rw [← hperp', z0]
  have hV1 : f.V 0 1 ^ 2 = 1 := by
    have := norm_sq' (f.V 0)
    rw [hV0, Fin.sum_univ_three, z0, z2] at this
    linarith
  -- but then its variance is too small
  have hsr := h.svd.sum_sq_row 0
  have hup := h.svd.upper ![1, 0, -1]
  rw [dipCross_centered] at hsr hup
  simp [Matrix.mulVec, dotProduct, Fin.sum_univ_three, Fin.sum_univ_four, dipCross, z0, z2]
    at hsr hup
  nlinarith

/-- Non-vacuity of `C17_rake_range_partial`: one of the two rakes above is a number. -/
example : ∃ (svd : SvdFn) (f : Fit 4) (r : ℝ), init svd dipCross none none = .ok (some f) ∧
    rake f = some r ∧ 0 ≤ r ∧ r ≤ 180 := by
  obtain ⟨svd, hs⟩ := exists_valid_svd
  obtain ⟨_, f, g, hf, hg, hne⟩ := C17_rake_not_determined_false svd hs
  obtain ⟨r, hr⟩ : ∃ r, rake f = some r := by
    cases h : rake f with
    | some r => exact ⟨r, rfl⟩
    | none =>
      rw [(C17_rake_depends_on_sign svd _ f g hf hg).1, h] at hne
      exact absurd rfl hne
  exact ⟨svd, f, r, hf, hr, C17_rake_range_partial f r hr⟩

end Attitude.Props
