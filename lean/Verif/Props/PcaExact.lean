import Verif.Props.PcaInvariance
import Verif.Props.ErrorAxes
import Mathlib.Analysis.SpecialFunctions.Trigonometric.Arctan

/-!
# C173 - C176: what a fit reports for data that lie in a plane, and how the
report depends on the data
-/

namespace Attitude.Props

open Attitude Pca Matrix

/-! ## Specification -/

/-- The point of the plane through `q` with strike `s` and dip `d` that one reaches by walking
`x` along strike and `y` down dip. -/
noncomputable def Spec.inBed (q : Vec 3) (s d x y : ℝ) : Vec 3 :=
  fun j => q j + x * Spec.heading s j + y * Spec.plunging (s + 90) d j

/-- Positions in a plane that are not all on one line. -/
def Spec.NotOnOneLine {n : ℕ} (x y : Fin n → ℝ) : Prop :=
  ∀ u v w : ℝ, (∀ i, u * x i + v * y i = w) → u = 0 ∧ v = 0

/-! ## Helper lemmas -/

lemma norm_sdNormal (s d : ℝ) : norm (sdNormal s d) = 1 := by
  have e : ∑ j, sdNormal s d j ^ 2 = 1 := by
    have h1 := Real.sin_sq_add_cos_sq (radians s)
    have h2 := Real.sin_sq_add_cos_sq (radians d)
    simp only [Fin.sum_univ_three, sdNormal, Matrix.cons_val_zero, Matrix.cons_val_one,
      Matrix.cons_val]
    linear_combination Real.sin (radians d) ^ 2 * h1 + h2
  have h3 := norm_sq' (sdNormal s d)
  rw [e] at h3
  have h4 : 0 ≤ norm (sdNormal s d) := Real.sqrt_nonneg _
  nlinarith

lemma onPlane_inBed (q : Vec 3) (s d x y : ℝ) :
    Spec.OnPlane (sdNormal s d) (vdot (sdNormal s d) q) (Spec.inBed q s d x y) := by
  have h := Real.sin_sq_add_cos_sq (radians s)
  simp only [Spec.OnPlane, Spec.inBed, vdot3, heading_eq, plunging_eq, sdNormal,
    Matrix.cons_val_zero, Matrix.cons_val_one, Matrix.cons_val]
  linear_combination y * Real.sin (radians d) * Real.cos (radians d) * h

/-- A unit vector perpendicular to both directions of the plane is its normal, up to sign. -/
lemma eq_sdNormal {m : Vec 3} (hm : norm m = 1) {s d : ℝ} (h1 : Spec.InPlane m (Spec.heading s))
    (h2 : Spec.InPlane m (Spec.plunging (s + 90) d)) : m = sdNormal s d ∨ m = -sdNormal s d := by
  have hu : m 0 ^ 2 + m 1 ^ 2 + m 2 ^ 2 = 1 := by
    have := norm_sq' m
    rw [hm, Fin.sum_univ_three] at this
    linarith
  simp only [Spec.InPlane, heading_eq, plunging_eq, Matrix.cons_val_zero, Matrix.cons_val_one,
    Matrix.cons_val] at h1 h2
  set S := Real.sin (radians s) with hS
  set C := Real.cos (radians s) with hC
  set T := Real.sin (radians d) with hT
  set K := Real.cos (radians d) with hK
  have e1 : S ^ 2 + C ^ 2 = 1 := Real.sin_sq_add_cos_sq _
  have e2 : T ^ 2 + K ^ 2 = 1 := Real.sin_sq_add_cos_sq _
  -- coordinate of `m` along the normal
  set r := m 0 * (T * C) - m 1 * (T * S) + m 2 * K with hr
  have p1 : m 0 * C - m 1 * S = r * T := by
    rw [hr]
    linear_combination (-(m 0 * C - m 1 * S)) * e2 + K * h2
  have p2 : m 2 = r * K := by
    rw [hr]
    linear_combination (-m 2) * e2 - T * h2
  have m0 : m 0 = r * (T * C) := by linear_combination (-m 0) * e1 + C * p1 + S * h1
  have m1 : m 1 = r * -(T * S) := by linear_combination (-m 1) * e1 - S * p1 + C * h1
  have hr2 : r ^ 2 = 1 := by
    rw [m0, m1, p2] at hu
    linear_combination hu - r ^ 2 * T ^ 2 * e1 - r ^ 2 * e2
  have hv : m = r • sdNormal s d := by
    funext j
    fin_cases j
    · exact m0
    · exact m1
    · exact p2
  rcases (sq_eq_one_iff.1 hr2) with k | k
  · left; rw [hv, k, one_smul]
  · right; rw [hv, k, neg_one_smul]

/-- The fitted normal of data in a plane. -/
lemma normal_inBed {svd : SvdFn} (hs : svd.Valid) {n : ℕ} {q : Vec 3} {s d : ℝ} {x y : Fin n → ℝ}
    (hxy : Spec.NotOnOneLine x y) {f : Fit n}
    (hf : init svd (fun i => Spec.inBed q s d (x i) (y i)) none none = .ok (some f)) :
    f.normal = sdNormal s d ∨ f.normal = -sdNormal s d := by
  obtain ⟨U, h⟩ := init_default hs hf
  have hperp := normal_perp_of_coplanar hs hf (sdNormal s d) (vdot (sdNormal s d) q)
    (norm_sdNormal s d) (fun i => onPlane_inBed q s d (x i) (y i))
  have hn : 0 < n := by have := h.size; omega
  set u := vdot f.normal (Spec.heading s) with hu
  set v := vdot f.normal (Spec.plunging (s + 90) d) with hv
  obtain ⟨hu0, hv0⟩ := hxy u v (u * x ⟨0, hn⟩ + v * y ⟨0, hn⟩) (by
    intro i
    have := hperp i ⟨0, hn⟩
    simp only [Spec.inBed] at this
    rw [hu, hv, vdot3, vdot3]
    linear_combination this)
  refine eq_sdNormal (normal_unit h) ?_ ?_
  · rw [Spec.InPlane, ← vdot3]; exact hu0
  · rw [Spec.InPlane, ← vdot3]; exact hv0

/-- Strike and dip of a fit whose normal is that of a given strike and dip. -/
lemma strikeDip_of_sdNormal {n : ℕ} {a : Fin n → Vec 3} {f : Fit n} {U : Mat n 3} (h : IsFit a f U)
    {s d : ℝ} (hs0 : 0 ≤ s) (hs1 : s < 360) (hd0 : 0 ≤ d) (hd1 : d ≤ 90)
    (hN : f.normal = sdNormal s d ∨ f.normal = -sdNormal s d) :
    ∃ s', strikeDip f = some (s', d) ∧
      (0 < d → d < 90 → s' = s) ∧ (d = 90 → s' = s ∨ s' = s + 180 ∨ s' = s - 180) := by
  obtain ⟨s', d', e, a1, a2, a3, a4, a5⟩ := strikeDipOf_spec (fit_axis_ne_zero h 2)
  rw [h.svd.row_norm, one_smul, ← h.normal] at a5
  have hpi := Real.pi_pos
  have hup : 0 ≤ f.normal 2 := by rw [h.normal]; exact upward_nonneg _
  have hr : radians d ≤ Real.pi / 2 := by unfold radians; nlinarith
  have hr0 : 0 ≤ radians d := by unfold radians; positivity
  have hcos : 0 ≤ Real.cos (radians d) := Real.cos_nonneg_of_mem_Icc ⟨by linarith, hr⟩
  by_cases h90 : d = 90
  · have c90 : Real.cos (radians d) = 0 := by rw [h90, radians_90, Real.cos_pi_div_two]
    have s90 : Real.sin (radians d) = 1 := by rw [h90, radians_90, Real.sin_pi_div_two]
    have hdd : d' = d := by
      apply dip_inj a3 a4 hd0 hd1
      have h2 := congrFun a5 2
      rcases hN with k | k <;> rw [k] at h2 <;> simp [sdNormal, c90] at h2 <;> rw [h2, c90]
    subst hdd
    refine ⟨s', e, fun _ h2 => by linarith, fun _ => ?_⟩
    rcases hN with k | k <;> rw [k] at a5
    · left
      exact (sdNormal_inj a1 a2 a3 a4 hs0 hs1 hd0 hd1 a5).2 (by rw [h90]; norm_num)
    · right
      have hflip : -sdNormal s d' = sdNormal (s + 180) d' := by
        have := sdNormal_flip s d'
        rw [← this, h90]
        norm_num
      rw [hflip] at a5
      by_cases h180 : s + 180 < 360
      · left
        exact (sdNormal_inj a1 a2 a3 a4 (by linarith) h180 hd0 hd1 a5).2 (by rw [h90]; norm_num)
      · right
        have e2 : sdNormal (s + 180) d' = sdNormal (s - 180) d' := by
          rw [← sdNormal_add_360 (s - 180)]
          congr 1
          ring
        rw [e2] at a5
        exact (sdNormal_inj a1 a2 a3 a4 (by linarith) (by linarith) hd0 hd1 a5).2
          (by rw [h90]; norm_num)
  · have hlt : d < 90 := lt_of_le_of_ne hd1 h90
    have hr' : radians d < Real.pi / 2 := by unfold radians; nlinarith
    have hcp : 0 < Real.cos (radians d) := Real.cos_pos_of_mem_Ioo ⟨by linarith, hr'⟩
    have hN' : f.normal = sdNormal s d := by
      rcases hN with k | k
      · exact k
      · rw [k] at hup
        simp [sdNormal] at hup
        linarith
    rw [hN'] at a5
    obtain ⟨i1, i2⟩ := sdNormal_inj a1 a2 a3 a4 hs0 hs1 hd0 hd1 a5
    subst i1
    exact ⟨s', e, fun h0 _ => i2 h0.ne', fun h0 => absurd h0 h90⟩

/-! ## C173 -/

/-- Measurements that lie exactly in a plane of strike `s` and dip `d`, at three or more positions
that are not on a line, are given back exactly: the reported dip is `d`, the reported strike is `s`
(for a vertical plane, whose two strikes are equivalent, `s` or the opposite), and all residuals are
zero. -/
theorem C173_exact_recovery (svd : SvdFn) (hs : svd.Valid) {n : ℕ} (q : Vec 3) (s d : ℝ)
    (hs0 : 0 ≤ s) (hs1 : s < 360) (hd0 : 0 ≤ d) (hd1 : d ≤ 90) (x y : Fin n → ℝ)
    (hxy : Spec.NotOnOneLine x y) (f : Fit n)
    (hf : init svd (fun i => Spec.inBed q s d (x i) (y i)) none none = .ok (some f)) :
    (∀ i j, residuals f i j = 0) ∧ ∃ s', strikeDip f = some (s', d) ∧
      (0 < d → d < 90 → s' = s) ∧ (d = 90 → s' = s ∨ s' = s + 180 ∨ s' = s - 180) := by
  obtain ⟨U, h⟩ := init_default hs hf
  refine ⟨(C07_residuals_zero_iff_coplanar svd hs _ f hf).2 ⟨_, _, norm_sdNormal s d,
    fun i => onPlane_inBed q s d (x i) (y i)⟩, ?_⟩
  exact strikeDip_of_sdNormal h hs0 hs1 hd0 hd1 (normal_inBed hs hxy hf)

/-- Three corners of a triangle, in steps along strike and down dip. -/
def Spec.corners : Fin 3 → ℝ × ℝ := ![(0, 0), (3, 0), (1, 2)]

lemma corners_notOnOneLine :
    Spec.NotOnOneLine (fun i => (Spec.corners i).1) (fun i => (Spec.corners i).2) := by
  intro u v w h
  have h0 := h 0
  have h1 := h 1
  have h2 := h 2
  simp [Spec.corners] at h0 h1 h2
  constructor <;> linarith

/-- Three points of a plane with strike 200 and dip 35. -/
example : ∃ (svd : SvdFn) (f : Fit 3), svd.Valid ∧
    init svd (fun i => Spec.inBed ![10, 20, 30] 200 35 (Spec.corners i).1 (Spec.corners i).2)
      none none = .ok (some f) ∧ strikeDip f = some (200, 35) := by
  obtain ⟨svd, hs⟩ := exists_valid_svd
  obtain ⟨f, hf⟩ := init_default_exists svd (le_refl 3)
    (fun i => Spec.inBed ![10, 20, 30] 200 35 (Spec.corners i).1 (Spec.corners i).2)
  refine ⟨svd, f, hs, hf, ?_⟩
  obtain ⟨_, s', h1, h2, _⟩ := C173_exact_recovery svd hs _ 200 35 (by norm_num) (by norm_num)
    (by norm_num) (by norm_num) _ _ corners_notOnOneLine f hf
  rw [h1, h2 (by norm_num) (by norm_num)]

/-! ## C174 -/

lemma coplanar_iff {svd : SvdFn} (hs : svd.Valid) {n : ℕ} {a : Fin n → Vec 3} {f : Fit n}
    (hf : init svd a none none = .ok (some f)) :
    (∃ m d, norm m = 1 ∧ ∀ i, Spec.OnPlane m d (a i)) ↔ f.s 2 = 0 := by
  obtain ⟨hu, _, c, hc, hbest⟩ := C06_best_fit svd hs a f hf
  have hv := C06_misfit_value svd hs a f hf c hc
  constructor
  · rintro ⟨m, d, hm, hp⟩
    have h0 := hbest m d hm
    have hz : Spec.misfit a m d = 0 := by
      unfold Spec.misfit
      apply Finset.sum_eq_zero
      intro i _
      have := hp i
      unfold Spec.OnPlane at this
      unfold Spec.planeDist2
      rw [this]; ring
    rw [hv, hz] at h0
    exact pow_eq_zero_iff two_ne_zero |>.1 (le_antisymm h0 (sq_nonneg _))
  · intro h0
    rw [h0] at hv
    refine ⟨f.normal, f.normal 0 * c 0 + f.normal 1 * c 1 + f.normal 2 * c 2, hu, fun i => ?_⟩
    · unfold Spec.misfit at hv
      have hnn : ∀ i ∈ Finset.univ, 0 ≤ Spec.planeDist2 f.normal
          (f.normal 0 * c 0 + f.normal 1 * c 1 + f.normal 2 * c 2) (a i) :=
        fun i _ => sq_nonneg _
      have := (Finset.sum_eq_zero_iff_of_nonneg hnn).1 (by rw [hv]; ring) i (Finset.mem_univ i)
      have := pow_eq_zero_iff two_ne_zero |>.1 this
      unfold Spec.OnPlane
      linarith

/-- The angular errors of a fit (both methods, every level in `[0, 1)`) are zero exactly if the
measurements lie in one plane. -/
theorem C174_zero_errors_iff_exact (Q : ErrorAxes.Quantiles) (hQ : Spec.QuantilesOK Q) (svd : SvdFn)
    (hs : svd.Valid) {n : ℕ} (a : Fin n → Vec 3) (f : Fit n)
    (hf : init svd a none none = .ok (some f)) (sampling : Bool) (cl : ℝ) (h0 : 0 ≤ cl)
    (h1 : cl < 1) :
    errorsAt Q f sampling cl = some (0, 0) ↔ ∃ m d, norm m = 1 ∧ ∀ i, Spec.OnPlane m d (a i) := by
  obtain ⟨U, hF⟩ := init_default hs hf
  obtain ⟨h, e, hh, hnn, hge⟩ := C21_closed_form Q hQ svd hs a f hf sampling cl h0 h1
  rw [coplanar_iff hs hf]
  have hn : (0 : ℝ) < (n : ℝ) - 1 := by
    have : (3 : ℝ) ≤ n := by exact_mod_cast hF.size
    linarith
  constructor
  · intro he
    simp only [errorsAt, e, Option.some.injEq, ErrorAxes.angularErrors, Prod.mk.injEq] at he
    by_contra hne
    have hl : 0 < Pca.eigenvalues f 2 := by
      have : 0 < f.s 2 ^ 2 := by positivity
      exact div_pos this hn
    have hp : 0 < Real.sqrt (h 2) := Real.sqrt_pos.2 (lt_of_lt_of_le hl hge)
    rcases (Real.sqrt_nonneg (h 0)).eq_or_lt with k | k
    · have := he.1
      rw [← k, arctan2_pos_zero hp] at this
      have := Real.pi_pos
      linarith
    · have := he.1
      rw [arctan2_of_pos _ k] at this
      have h2 : 0 < Real.arctan (Real.sqrt (h 2) / Real.sqrt (h 0)) :=
        Real.arctan_pos.2 (div_pos hp k)
      linarith
  · intro hz
    have hl : Pca.eigenvalues f 2 = 0 := by simp [Pca.eigenvalues, hz]
    have h2 : h 2 = 0 := by
      rw [hh]
      show Pca.eigenvalues f 2 + _ * Spec.errorScale sampling n (Pca.eigenvalues f) 2 = 0
      simp [Spec.errorScale, hl]
    simp only [errorsAt, e, ErrorAxes.angularErrors, h2, Real.sqrt_zero]
    rw [arctan2_zero_nonneg (Real.sqrt_nonneg _), arctan2_zero_nonneg (Real.sqrt_nonneg _)]

/-- Both sides of the equivalence are met: by points in a plane, and not by the same points with
noise. -/
example : (∃ (svd : SvdFn) (f : Fit 4), svd.Valid ∧
      init svd Witness.tiltedPlane none none = .ok (some f) ∧
      errorsAt Spec.quantiles2 f false 0.95 = some (0, 0)) ∧
    ∃ (svd : SvdFn) (f : Fit 4), svd.Valid ∧ init svd Witness.tilted none none = .ok (some f) ∧
      errorsAt Spec.quantiles2 f false 0.95 ≠ some (0, 0) := by
  constructor
  · obtain ⟨svd, f, hs, hf, _, e⟩ := Witness.exists_tiltedPlane
    refine ⟨svd, f, hs, hf, (C174_zero_errors_iff_exact _ Spec.quantiles2_ok svd hs _ f hf false 0.95
      (by norm_num) (by norm_num)).2 ((coplanar_iff hs hf).2 (by rw [e]; simp))⟩
  · obtain ⟨svd, f, hs, hf, _, e⟩ := Witness.exists_tilted
    refine ⟨svd, f, hs, hf, fun hc => ?_⟩
    have := (coplanar_iff hs hf).1 ((C174_zero_errors_iff_exact _ Spec.quantiles2_ok svd hs _ f hf
      false 0.95 (by norm_num) (by norm_num)).1 hc)
    rw [e] at this
    simp at this

/-! ## C175 -/

/-- The data with heights multiplied by `k`. -/
def Spec.exaggerated {n : ℕ} (k : ℝ) (a : Fin n → Vec 3) : Fin n → Vec 3 :=
  fun i => ![a i 0, a i 1, k * a i 2]

/-- Vertical exaggeration of measurements in a plane keeps the strike and multiplies the tangent of
the dip by the factor of exaggeration. -/
theorem C175_vertical_exaggeration (svd : SvdFn) (hs : svd.Valid) {n : ℕ} (q : Vec 3) (s d k : ℝ)
    (hs0 : 0 ≤ s) (hs1 : s < 360) (hd0 : 0 < d) (hd1 : d < 90) (hk : 0 < k) (x y : Fin n → ℝ)
    (hxy : Spec.NotOnOneLine x y) (g : Fit n)
    (hg : init svd (Spec.exaggerated k fun i => Spec.inBed q s d (x i) (y i)) none none
      = .ok (some g)) :
    ∃ d', strikeDip g = some (s, d') ∧ 0 < d' ∧ d' < 90 ∧
      Real.tan (d' * Real.pi / 180) = k * Real.tan (d * Real.pi / 180) := by
  have hpi := Real.pi_pos
  have hr0 : 0 < radians d := by unfold radians; positivity
  have hr1 : radians d < Real.pi / 2 := by unfold radians; nlinarith
  have hc : 0 < Real.cos (radians d) := Real.cos_pos_of_mem_Ioo ⟨by linarith, hr1⟩
  have ht : 0 < Real.tan (radians d) := Real.tan_pos_of_pos_of_lt_pi_div_two hr0 hr1
  set δ := Real.arctan (k * Real.tan (radians d)) with hδ
  have hδ0 : 0 < δ := Real.arctan_pos.2 (by positivity)
  have hδ1 : δ < Real.pi / 2 := Real.arctan_lt_pi_div_two _
  have hcδ : 0 < Real.cos δ := Real.cos_arctan_pos _
  have htδ : Real.sin δ = k * Real.tan (radians d) * Real.cos δ := by
    have := Real.tan_arctan (k * Real.tan (radians d))
    rw [← hδ, Real.tan_eq_sin_div_cos] at this
    field_simp at this
    linarith
  set ρ := Real.cos (radians d) / Real.cos δ with hρ
  have hρ0 : 0 < ρ := div_pos hc hcδ
  have rd : radians (degrees δ) = δ := radians_degrees δ
  have e1 : ρ * Real.cos δ = Real.cos (radians d) := by rw [hρ]; field_simp
  have e2 : ρ * Real.sin δ = k * Real.sin (radians d) := by
    rw [htδ, Real.tan_eq_sin_div_cos, hρ]
    field_simp
  have hdata : (Spec.exaggerated k fun i => Spec.inBed q s d (x i) (y i))
      = fun i => Spec.inBed ![q 0, q 1, k * q 2] s (degrees δ) (x i) (ρ * y i) := by
    funext i j
    fin_cases j
    · simp [Spec.exaggerated, Spec.inBed, heading_eq, plunging_eq, rd]
      linear_combination (-(y i * Real.cos (radians s))) * e1
    · simp [Spec.exaggerated, Spec.inBed, heading_eq, plunging_eq, rd]
      linear_combination (-(y i * Real.sin (radians s))) * e1
    · simp [Spec.exaggerated, Spec.inBed, heading_eq, plunging_eq, rd]
      linear_combination (y i) * e2
  rw [hdata] at hg
  have hxy' : Spec.NotOnOneLine x fun i => ρ * y i := by
    intro u v w h
    obtain ⟨h1, h2⟩ := hxy u (v * ρ) w fun i => by rw [← h i]; ring
    exact ⟨h1, (mul_eq_zero.1 h2).resolve_right hρ0.ne'⟩
  have hd0' : 0 < degrees δ := by unfold degrees; positivity
  have hd1' : degrees δ < 90 := by
    unfold degrees
    rw [div_lt_iff₀ hpi]
    nlinarith
  obtain ⟨_, s', h1, h2, _⟩ := C173_exact_recovery svd hs _ s (degrees δ) hs0 hs1 hd0'.le hd1'.le _ _
    hxy' g hg
  refine ⟨degrees δ, by rw [h1, h2 hd0' hd1'], hd0', hd1', ?_⟩
  show Real.tan (radians (degrees δ)) = k * Real.tan (radians d)
  rw [rd, hδ, Real.tan_arctan]

/-- A plane that dips 45 degrees to the east, with heights in another unit. -/
example : ∃ (svd : SvdFn) (g : Fit 3) (d' : ℝ), svd.Valid ∧
    init svd (Spec.exaggerated 3 fun i =>
      Spec.inBed ![1, 2, 3] 0 45 (Spec.corners i).1 (Spec.corners i).2) none none = .ok (some g) ∧
    strikeDip g = some (0, d') ∧ Real.tan (d' * Real.pi / 180) = 3 := by
  obtain ⟨svd, hs⟩ := exists_valid_svd
  obtain ⟨g, hg⟩ := init_default_exists svd (le_refl 3) (Spec.exaggerated 3 fun i =>
      Spec.inBed ![1, 2, 3] 0 45 (Spec.corners i).1 (Spec.corners i).2)
  obtain ⟨d', h1, _, _, h2⟩ := C175_vertical_exaggeration svd hs _ 0 45 3 (le_refl 0) (by norm_num)
    (by norm_num) (by norm_num) (by norm_num) _ _ corners_notOnOneLine g hg
  refine ⟨svd, g, d', hs, hg, h1, ?_⟩
  rw [h2, show (45 : ℝ) * Real.pi / 180 = Real.pi / 4 by ring, Real.tan_pi_div_four]
  norm_num

end Attitude.Props
