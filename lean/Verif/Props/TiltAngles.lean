import Verif.Props.ErrorStability
import Verif.Props.Reconstructed

/-!
# C226, C227: how far the strike and the dip of a plane change when it is tilted,
and what the angular errors of a fit say about them
-/

namespace Attitude.Props

open Attitude Pca Matrix ErrorAxes

/-! ## Specification -/

/-- The plane (through the origin) with strike `s` and dip `d` stays within the error surface with
axes `V` and squared semi-axes `h`, as seen from its centre: whatever direction of the plane one
walks in, along strike, down dip or any mix, the climb off the nominal plane `V 0`, `V 1` is not
more than that of the asymptotic cone. -/
def Spec.WithinErrors (V : Mat 3 3) (h : Vec 3) (s d : ℝ) : Prop :=
  ∀ x y : ℝ, vdot (V 2) (Spec.inBed 0 s d x y) ^ 2
    ≤ h 2 * (vdot (V 0) (Spec.inBed 0 s d x y) ^ 2 / h 0 + vdot (V 1) (Spec.inBed 0 s d x y) ^ 2 / h 1)

/-! ## Helper lemmas -/

lemma sdNormal_dot (s d s' d' : ℝ) :
    sdNormal s d 0 * sdNormal s' d' 0 + sdNormal s d 1 * sdNormal s' d' 1
        + sdNormal s d 2 * sdNormal s' d' 2
      = Real.sin (radians d) * Real.sin (radians d') * Real.cos (radians (s - s'))
        + Real.cos (radians d) * Real.cos (radians d') := by
  simp only [sdNormal, radians_sub, Real.cos_sub, Matrix.cons_val_zero, Matrix.cons_val_one,
    Matrix.cons_val]
  ring

lemma sin_dip_nonneg {d : ℝ} (h0 : 0 ≤ d) (h1 : d ≤ 90) : 0 ≤ Real.sin (radians d) := by
  have := Real.pi_pos
  apply Real.sin_nonneg_of_nonneg_of_le_pi
  · unfold radians; positivity
  · unfold radians; nlinarith

lemma degrees_radians' (x : ℝ) : degrees (radians x) = x := by
  have := Real.pi_pos.ne'
  unfold degrees radians
  field_simp

lemma abs_radians (x : ℝ) : |radians x| = radians |x| := by
  have := Real.pi_pos
  unfold radians
  rw [abs_div, abs_mul, abs_of_pos this, abs_of_pos (by norm_num : (0 : ℝ) < 180)]

/-- The bound of a squared cosine between the normals, from the dips. -/
lemma dot_sq_le {S C S' C' c : ℝ} (hS : 0 ≤ S) (hC : 0 ≤ C) (hS' : 0 ≤ S') (hC' : 0 ≤ C')
    (h1 : -1 ≤ c) (h2 : c ≤ 1) : (S * S' * c + C * C') ^ 2 ≤ (C * C' + S * S') ^ 2 := by
  have a := mul_nonneg hS hS'
  have b := mul_nonneg hC hC'
  apply sq_le_sq'
  · nlinarith
  · nlinarith

/-- Dips of two planes, from the sine of the angle between the planes. -/
lemma dip_of_tilt {s d s' d' t : ℝ} (d0 : 0 ≤ d) (d1 : d ≤ 90) (e0 : 0 ≤ d') (e1 : d' ≤ 90)
    (ht0 : 0 ≤ t) (ht1 : t ≤ 1)
    (ht : 1 - (sdNormal s d 0 * sdNormal s' d' 0 + sdNormal s d 1 * sdNormal s' d' 1
        + sdNormal s d 2 * sdNormal s' d' 2) ^ 2 ≤ t ^ 2) :
    |d - d'| ≤ degrees (Real.arcsin t) := by
  rw [sdNormal_dot] at ht
  have hpi := Real.pi_pos
  have k := dot_sq_le (sin_dip_nonneg d0 d1) (cos_dip_nonneg d0 d1) (sin_dip_nonneg e0 e1)
    (cos_dip_nonneg e0 e1) (Real.neg_one_le_cos (radians (s - s'))) (Real.cos_le_one _)
  have hc : Real.cos (radians d) * Real.cos (radians d') + Real.sin (radians d) * Real.sin (radians d')
      = Real.cos (radians (d - d')) := by rw [radians_sub, Real.cos_sub]
  rw [hc] at k
  have hs := Real.sin_sq_add_cos_sq (radians (d - d'))
  have habs : |d - d'| ≤ 90 := by rw [abs_le]; constructor <;> linarith
  have hrange : radians |d - d'| ∈ Set.Icc (-(Real.pi / 2)) (Real.pi / 2) := by
    have := abs_nonneg (d - d')
    constructor
    · have : 0 ≤ radians |d - d'| := by unfold radians; positivity
      linarith
    · unfold radians; nlinarith
  have hsq : Real.sin (radians |d - d'|) ^ 2 ≤ t ^ 2 := by
    have : Real.sin (radians |d - d'|) ^ 2 = Real.sin (radians (d - d')) ^ 2 := by
      rw [← abs_radians]
      rcases abs_choice (radians (d - d')) with h | h <;> rw [h]
      rw [Real.sin_neg, neg_sq]
    rw [this]
    linarith
  have hle : Real.sin (radians |d - d'|) ≤ t := (abs_le_of_sq_le_sq' hsq ht0).2
  have := (Real.le_arcsin_iff_sin_le hrange ⟨by linarith, ht1⟩).2 hle
  rw [← degrees_radians' |d - d'|]
  exact degrees_le.2 this

lemma strike_real {S C S' C' c z t : ℝ} (hS : 0 ≤ S) (hC : 0 ≤ C) (hS' : 0 ≤ S') (hC' : 0 ≤ C')
    (hu : S ^ 2 + C ^ 2 = 1) (hu' : S' ^ 2 + C' ^ 2 = 1) (hcz : z ^ 2 + c ^ 2 = 1)
    (ht : 1 - (S * S' * c + C * C') ^ 2 ≤ t ^ 2) (ht0 : 0 ≤ t) (h1 : t < S) (h2 : t < C) :
    0 < c ∧ S ^ 2 * z ^ 2 ≤ t ^ 2 := by
  have hS1 : S ≤ 1 := by nlinarith
  have hC1 : C ≤ 1 := by nlinarith
  have hS1' : S' ≤ 1 := by nlinarith
  have hC1' : C' ≤ 1 := by nlinarith
  have hc : -1 ≤ c ∧ c ≤ 1 := by constructor <;> nlinarith [sq_nonneg z]
  have a := mul_nonneg hS hS'
  have b := mul_nonneg hC hC'
  constructor
  · by_contra hneg
    push Not at hneg
    rcases le_or_gt 0 (S * S' * c + C * C') with hp | hp
    · -- the normals are on one side: the cosine is at most that of the dip
      have : S * S' * c + C * C' ≤ C := by nlinarith
      have : (S * S' * c + C * C') ^ 2 ≤ C ^ 2 := pow_le_pow_left₀ hp this 2
      nlinarith
    · have : -(S * S' * c + C * C') ≤ S := by nlinarith
      have : (-(S * S' * c + C * C')) ^ 2 ≤ S ^ 2 := pow_le_pow_left₀ (by linarith) this 2
      nlinarith
  · have key : 1 - (S * S' * c + C * C') ^ 2 - S ^ 2 * z ^ 2 = (S * C' * c - C * S') ^ 2 := by
      have e1 : C' ^ 2 = 1 - S' ^ 2 := by linarith
      have e2 : z ^ 2 = 1 - c ^ 2 := by linarith
      have e3 : C ^ 2 = 1 - S ^ 2 := by linarith
      linear_combination (-(S ^ 2) * 1) * e2 + (-(C ^ 2) - S ^ 2 * c ^ 2) * e1 - e3
    nlinarith [sq_nonneg (S * C' * c - C * S')]

/-- Strikes of two planes, from the sine of the angle between the planes. -/
lemma strike_of_tilt {s d s' d' t : ℝ} (d0 : 0 ≤ d) (d1 : d ≤ 90) (e0 : 0 ≤ d') (e1 : d' ≤ 90)
    (ht0 : 0 ≤ t) (h1 : t < Real.sin (radians d)) (h2 : t < Real.cos (radians d))
    (ht : 1 - (sdNormal s d 0 * sdNormal s' d' 0 + sdNormal s d 1 * sdNormal s' d' 1
        + sdNormal s d 2 * sdNormal s' d' 2) ^ 2 ≤ t ^ 2) :
    ∃ k : ℤ, |s - s' - 360 * k| ≤ degrees (Real.arcsin (t / Real.sin (radians d))) := by
  rw [sdNormal_dot] at ht
  have hpi := Real.pi_pos
  set S := Real.sin (radians d) with hS
  have hSp : 0 < S := lt_of_le_of_lt ht0 h1
  obtain ⟨hc, hz⟩ := strike_real (sin_dip_nonneg d0 d1) (cos_dip_nonneg d0 d1) (sin_dip_nonneg e0 e1)
    (cos_dip_nonneg e0 e1) (Real.sin_sq_add_cos_sq _) (Real.sin_sq_add_cos_sq _)
    (Real.sin_sq_add_cos_sq (radians (s - s'))) ht ht0 h1 h2
  -- the difference of the strikes, within half a turn
  set k : ℤ := round ((s - s') / 360) with hk
  refine ⟨k, ?_⟩
  have hr := abs_sub_round ((s - s') / 360)
  rw [← hk] at hr
  set δ := s - s' - 360 * k with hδ
  have hd180 : |δ| ≤ 180 := by
    have e : δ = 360 * ((s - s') / 360 - k) := by rw [hδ]; field_simp
    rw [e, abs_mul, abs_of_pos (by norm_num : (0 : ℝ) < 360)]
    linarith
  have hrad : radians (s - s') = radians δ + k * (2 * Real.pi) := by
    rw [hδ]; unfold radians; ring
  have hcos : Real.cos (radians (s - s')) = Real.cos (radians δ) := by
    rw [hrad, Real.cos_add_int_mul_two_pi]
  have hsin : Real.sin (radians (s - s')) = Real.sin (radians δ) := by
    rw [hrad, Real.sin_add_int_mul_two_pi]
  rw [hcos] at hc
  rw [hsin] at hz
  have hcabs : 0 < Real.cos (radians |δ|) := by
    rw [← abs_radians, Real.cos_abs]; exact hc
  have hnn : 0 ≤ radians |δ| := by unfold radians; positivity
  have hlt : radians |δ| < Real.pi / 2 := by
    by_contra h
    push Not at h
    have : Real.cos (radians |δ|) ≤ 0 := by
      apply Real.cos_nonpos_of_pi_div_two_le_of_le h
      have : radians |δ| ≤ Real.pi := by unfold radians; nlinarith
      linarith
    linarith
  have hsabs : Real.sin (radians |δ|) ^ 2 = Real.sin (radians δ) ^ 2 := by
    rw [← abs_radians]
    rcases abs_choice (radians δ) with h | h <;> rw [h]
    rw [Real.sin_neg, neg_sq]
  have hle : Real.sin (radians |δ|) ≤ t / S := by
    rw [le_div_iff₀ hSp]
    refine (abs_le_of_sq_le_sq' ?_ ht0).2
    rw [mul_pow, hsabs]
    linarith
  have hq1 : t / S ≤ 1 := by rw [div_le_one hSp]; exact h1.le
  have hq0 : 0 ≤ t / S := by positivity
  have := (Real.le_arcsin_iff_sin_le ⟨by linarith, hlt.le⟩ ⟨by linarith, hq1⟩).2 hle
  rw [← degrees_radians' |δ|]
  exact degrees_le.2 this

lemma fit_sdNormal {n : ℕ} {a : Fin n → Vec 3} {f : Fit n} {U : Mat n 3} (h : IsFit a f U) :
    ∃ s d, strikeDip f = some (s, d) ∧ 0 ≤ s ∧ s < 360 ∧ 0 ≤ d ∧ d ≤ 90 ∧ f.normal = sdNormal s d := by
  obtain ⟨s, d, e, a1, a2, a3, a4, a5⟩ := strikeDipOf_spec (fit_axis_ne_zero h 2)
  rw [h.svd.row_norm, one_smul, ← h.normal] at a5
  exact ⟨s, d, e, a1, a2, a3, a4, a5.symm⟩

lemma sineBetween_nonneg (u v : Vec 3) : 0 ≤ Spec.sineBetween u v := Real.sqrt_nonneg _

lemma sineBetween_le_one (u v : Vec 3) : Spec.sineBetween u v ≤ 1 := by
  unfold Spec.sineBetween
  apply Real.sqrt_le_one.2
  nlinarith [sq_nonneg (u 0 * v 0 + u 1 * v 1 + u 2 * v 2)]

lemma one_sub_dot_le (u v : Vec 3) :
    1 - (u 0 * v 0 + u 1 * v 1 + u 2 * v 2) ^ 2 ≤ Spec.sineBetween u v ^ 2 := by
  unfold Spec.sineBetween
  rcases le_or_gt 0 (1 - (u 0 * v 0 + u 1 * v 1 + u 2 * v 2) ^ 2) with h | h
  · rw [Real.sq_sqrt h]
  · have := sq_nonneg (Real.sqrt (1 - (u 0 * v 0 + u 1 * v 1 + u 2 * v 2) ^ 2))
    linarith

lemma inBed_coords (q : Vec 3) (s d x y : ℝ) :
    vdot (Spec.heading s) (Spec.inBed q s d x y) = vdot (Spec.heading s) q + x ∧
    vdot (Spec.plunging (s + 90) d) (Spec.inBed q s d x y)
      = vdot (Spec.plunging (s + 90) d) q + y := by
  have h1 := Real.sin_sq_add_cos_sq (radians s)
  have h2 := Real.sin_sq_add_cos_sq (radians d)
  simp only [Spec.inBed, vdot3, heading_eq, plunging_eq, Matrix.cons_val_zero, Matrix.cons_val_one,
    Matrix.cons_val]
  constructor
  · linear_combination x * h1
  · linear_combination y * h2 + y * Real.cos (radians d) ^ 2 * h1

/-- Points of a plane that are not on a line: the second singular value is not zero. -/
lemma second_pos {svd : SvdFn} (hs : svd.Valid) {n : ℕ} {q : Vec 3} {s d : ℝ} {x y : Fin n → ℝ}
    (hxy : Spec.NotOnOneLine x y) {f : Fit n}
    (hf : init svd (fun i => Spec.inBed q s d (x i) (y i)) none none = .ok (some f)) : 0 < f.s 1 := by
  obtain ⟨U, hF⟩ := init_default hs hf
  rcases (hF.svd.nonneg' 1).lt_or_eq with h | h
  · exact h
  exfalso
  obtain ⟨r, u, hl⟩ := (C216_second_partial svd hs _ f hf).1 h.symm
  choose t ht using hl
  have hx : ∀ i, x i = vdot (Spec.heading s) r - vdot (Spec.heading s) q
      + t i * vdot (Spec.heading s) u := by
    intro i
    have k := (inBed_coords q s d (x i) (y i)).1
    have e : Spec.inBed q s d (x i) (y i) = fun j => r j + t i * u j := funext (ht i)
    rw [e] at k
    simp only [vdot3] at k ⊢
    linear_combination -k
  have hy : ∀ i, y i = vdot (Spec.plunging (s + 90) d) r - vdot (Spec.plunging (s + 90) d) q
      + t i * vdot (Spec.plunging (s + 90) d) u := by
    intro i
    have k := (inBed_coords q s d (x i) (y i)).2
    have e : Spec.inBed q s d (x i) (y i) = fun j => r j + t i * u j := funext (ht i)
    rw [e] at k
    simp only [vdot3] at k ⊢
    linear_combination -k
  set α := vdot (Spec.heading s) u
  set β := vdot (Spec.plunging (s + 90) d) u
  obtain ⟨hb, ha⟩ := hxy β (-α) (β * (vdot (Spec.heading s) r - vdot (Spec.heading s) q)
    - α * (vdot (Spec.plunging (s + 90) d) r - vdot (Spec.plunging (s + 90) d) q)) (by
    intro i
    rw [hx i, hy i]
    ring)
  obtain ⟨h1, -⟩ := hxy 1 0 (vdot (Spec.heading s) r - vdot (Spec.heading s) q) (by
    intro i
    rw [hx i, neg_eq_zero.1 ha]
    ring)
  exact one_ne_zero h1

/-! ## C226 -/

/-- Two fits, of any data: their dips differ by at most the angle between their planes. -/
theorem C226_dip (svd : SvdFn) (hs : svd.Valid) {n m : ℕ} (a : Fin n → Vec 3) (b : Fin m → Vec 3)
    (f : Fit n) (g : Fit m) (hf : init svd a none none = .ok (some f))
    (hg : init svd b none none = .ok (some g)) :
    ∃ s d s' d', strikeDip f = some (s, d) ∧ strikeDip g = some (s', d') ∧
      |d - d'| ≤ degrees (Real.arcsin (Spec.sineBetween f.normal g.normal)) := by
  obtain ⟨U, hF⟩ := init_default hs hf
  obtain ⟨U', hG⟩ := init_default hs hg
  obtain ⟨s, d, e, -, -, d0, d1, hn⟩ := fit_sdNormal hF
  obtain ⟨s', d', e', -, -, c0, c1, hn'⟩ := fit_sdNormal hG
  refine ⟨s, d, s', d', e, e', dip_of_tilt (s := s) (s' := s') d0 d1 c0 c1 (sineBetween_nonneg _ _)
    (sineBetween_le_one _ _) ?_⟩
  rw [← hn, ← hn']
  exact one_sub_dot_le _ _

/-- Planes that dip more than the angle between them, and are further than that from the vertical:
the sine of the difference of the strikes, as directions of the compass, is at most the sine of the
angle between the planes over that of the dip. -/
theorem C226_strike_partial (svd : SvdFn) (hs : svd.Valid) {n m : ℕ} (a : Fin n → Vec 3)
    (b : Fin m → Vec 3) (f : Fit n) (g : Fit m) (hf : init svd a none none = .ok (some f))
    (hg : init svd b none none = .ok (some g)) (s d s' d' : ℝ) (e : strikeDip f = some (s, d))
    (e' : strikeDip g = some (s', d'))
    (h1 : Spec.sineBetween f.normal g.normal < Real.sin (radians d))
    (h2 : Spec.sineBetween f.normal g.normal < Real.cos (radians d)) :
    ∃ k : ℤ, |s - s' - 360 * k|
      ≤ degrees (Real.arcsin (Spec.sineBetween f.normal g.normal / Real.sin (radians d))) := by
  obtain ⟨U, hF⟩ := init_default hs hf
  obtain ⟨U', hG⟩ := init_default hs hg
  obtain ⟨_, _, k, -, -, d0, d1, hn⟩ := fit_sdNormal hF
  obtain ⟨_, _, k', -, -, c0, c1, hn'⟩ := fit_sdNormal hG
  rw [e] at k
  rw [e'] at k'
  simp only [Option.some.injEq, Prod.mk.injEq] at k k'
  obtain ⟨rfl, rfl⟩ := k
  obtain ⟨rfl, rfl⟩ := k'
  refine strike_of_tilt d0 d1 c0 c1 (sineBetween_nonneg _ _) h1 h2 ?_
  rw [← hn, ← hn']
  exact one_sub_dot_le _ _

/-- Points measured on a bed of strike `s` and dip `d`, with errors: the dip and the strike of the
fit, from the size of the errors and the width of the outcrop. -/
theorem C226_points_partial (svd : SvdFn) (hs : svd.Valid) {n : ℕ} (q : Vec 3) (s d : ℝ)
    (d0 : 0 ≤ d) (d1 : d ≤ 90) (x y : Fin n → ℝ)
    (hxy : Spec.NotOnOneLine x y) (b : Fin n → Vec 3) (f g : Fit n)
    (hf : init svd (fun i => Spec.inBed q s d (x i) (y i)) none none = .ok (some f))
    (hg : init svd b none none = .ok (some g)) (s' d' : ℝ) (e' : strikeDip g = some (s', d'))
    (t : ℝ) (ht : 2 * Spec.displacement (fun i => Spec.inBed q s d (x i) (y i)) b ≤ t * f.s 1)
    (ht1 : t ≤ 1) :
    |d - d'| ≤ degrees (Real.arcsin t) ∧
      (t < Real.sin (radians d) → t < Real.cos (radians d) →
        ∃ k : ℤ, |s - s' - 360 * k| ≤ degrees (Real.arcsin (t / Real.sin (radians d)))) := by
  obtain ⟨U', hG⟩ := init_default hs hg
  obtain ⟨_, _, k', -, -, c0, c1, hn'⟩ := fit_sdNormal hG
  rw [e'] at k'
  simp only [Option.some.injEq, Prod.mk.injEq] at k'
  obtain ⟨rfl, rfl⟩ := k'
  obtain ⟨U, hF⟩ := init_default hs hf
  have hx := C196_exact svd hs _ b f g hf hg
    ⟨sdNormal s d, vdot (sdNormal s d) q, norm_sdNormal s d, fun i => onPlane_inBed q s d (x i) (y i)⟩
  have hpos := second_pos hs hxy hf
  have htt : Spec.sineBetween f.normal g.normal ≤ t := by
    by_contra h
    push Not at h
    nlinarith
  have t0 : 0 ≤ t := le_trans (sineBetween_nonneg _ _) htt
  have hbound : 1 - (sdNormal s d 0 * sdNormal s' d' 0 + sdNormal s d 1 * sdNormal s' d' 1
      + sdNormal s d 2 * sdNormal s' d' 2) ^ 2 ≤ t ^ 2 := by
    have k := one_sub_dot_le f.normal g.normal
    have k2 := pow_le_pow_left₀ (sineBetween_nonneg f.normal g.normal) htt 2
    rcases normal_inBed hs hxy hf with h | h
    · rw [← h, ← hn']
      linarith
    · have h' : sdNormal s d = -f.normal := by rw [h, neg_neg]
      rw [h', ← hn']
      simp only [Pi.neg_apply]
      nlinarith
  exact ⟨dip_of_tilt d0 d1 c0 c1 t0 ht1 hbound,
    fun h1 h2 => strike_of_tilt d0 d1 c0 c1 t0 h1 h2 hbound⟩

/-- Three points of a bed, one of them measured with an error in height: whatever the bound asked
for, an error of that size meets it. -/
example (t : ℝ) (h0 : 0 < t) : ∃ (svd : SvdFn) (b : Fin 3 → Vec 3) (f g : Fit 3) (s' d' : ℝ),
    svd.Valid ∧
    init svd (fun i => Spec.inBed 0 200 35 (Spec.corners i).1 (Spec.corners i).2) none none
      = .ok (some f) ∧
    init svd b none none = .ok (some g) ∧ strikeDip g = some (s', d') ∧
    0 < Spec.displacement (fun i => Spec.inBed 0 200 35 (Spec.corners i).1 (Spec.corners i).2) b ∧
    2 * Spec.displacement (fun i => Spec.inBed 0 200 35 (Spec.corners i).1 (Spec.corners i).2) b
      ≤ t * f.s 1 := by
  obtain ⟨svd, hs⟩ := exists_valid_svd
  obtain ⟨f, hf⟩ := init_default_exists svd (le_refl 3)
    (fun i => Spec.inBed 0 200 35 (Spec.corners i).1 (Spec.corners i).2)
  have hp := second_pos hs corners_notOnOneLine hf
  set a := fun i => Spec.inBed 0 200 35 (Spec.corners i).1 (Spec.corners i).2 with ha
  set δ := t * f.s 1 / 2 with hδ
  have hδ0 : 0 < δ := by positivity
  obtain ⟨g, hg⟩ := init_default_exists svd (le_refl 3)
    (fun i j => a i j - if i = 0 ∧ j = 2 then δ else 0)
  obtain ⟨U, hG⟩ := init_default hs hg
  obtain ⟨s', d', e, -⟩ := fit_sdNormal hG
  have hdis : Spec.displacement a (fun i j => a i j - if i = 0 ∧ j = 2 then δ else 0) = δ := by
    unfold Spec.displacement
    rw [Fin.sum_univ_three]
    simp only [sub_sub_cancel]
    simp [Real.sqrt_sq hδ0.le]
  refine ⟨svd, _, f, g, s', d', hs, hf, hg, e, ?_, ?_⟩
  · rw [hdis]; exact hδ0
  · rw [hdis, hδ]; linarith

lemma sine_pair {c : ℝ} {u v : Vec 3} {θ : ℝ}
    (h : (u 0 * v 0 + u 1 * v 1 + u 2 * v 2) ^ 2 = Real.cos θ ^ 2) (hθ : |θ| ≤ c) :
    Spec.sineBetween u v ≤ c := by
  unfold Spec.sineBetween
  rw [h, show 1 - Real.cos θ ^ 2 = Real.sin θ ^ 2 by have := Real.sin_sq_add_cos_sq θ; linarith,
    Real.sqrt_sq_eq_abs]
  exact le_trans Real.abs_sin_le_abs hθ

/-- Three points of a bed with the given strike and dip, and their fit. -/
lemma exists_bed {svd : SvdFn} (hs : svd.Valid) {s d : ℝ} (s0 : 0 ≤ s) (s1 : s < 360) (d0 : 0 < d)
    (d1 : d < 90) : ∃ (a : Fin 3 → Vec 3) (f : Fit 3), init svd a none none = .ok (some f) ∧
      strikeDip f = some (s, d) ∧ (f.normal = sdNormal s d ∨ f.normal = -sdNormal s d) := by
  obtain ⟨f, hf⟩ := init_default_exists svd (le_refl 3)
    (fun i => Spec.inBed 0 s d (Spec.corners i).1 (Spec.corners i).2)
  obtain ⟨-, s', h1, h2, -⟩ := C173_exact_recovery svd hs 0 s d s0 s1 d0.le d1.le _ _
    corners_notOnOneLine f hf
  refine ⟨_, f, hf, ?_, normal_inBed hs corners_notOnOneLine hf⟩
  rw [h1, h2 d0 d1]

/-- Planes that are nearly horizontal: the angle between them can be as small as one likes while
their strikes are opposite. -/
theorem C226_horizontal_false (svd : SvdFn) (hs : svd.Valid) (ε : ℝ) (hε : 0 < ε) :
    ∃ (a b : Fin 3 → Vec 3) (f g : Fit 3) (d : ℝ), init svd a none none = .ok (some f) ∧
      init svd b none none = .ok (some g) ∧ Spec.sineBetween f.normal g.normal < ε ∧ 0 < d ∧ d < ε ∧
      strikeDip f = some (0, d) ∧ strikeDip g = some (180, d) := by
  set d := min (ε / 2) 45 with hd
  have d0 : 0 < d := lt_min (by linarith) (by norm_num)
  have d1 : d ≤ 45 := min_le_right _ _
  have d2 : d ≤ ε / 2 := min_le_left _ _
  obtain ⟨a, f, hf, ef, nf⟩ := exists_bed hs (le_refl 0) (by norm_num) d0 (by linarith)
  obtain ⟨b, g, hg, eg, ng⟩ := exists_bed hs (by norm_num : (0 : ℝ) ≤ 180) (by norm_num) d0 (by linarith)
  refine ⟨a, b, f, g, d, hf, hg, ?_, d0, by linarith, ef, eg⟩
  refine lt_of_le_of_lt (b := ε / 2) (sine_pair (θ := radians (2 * d)) ?_ ?_) (by linarith)
  · have k := sdNormal_dot 0 d 180 d
    have e : radians (0 - 180) = -Real.pi := by unfold radians; ring
    rw [e, Real.cos_neg, Real.cos_pi] at k
    have e2 : radians (2 * d) = 2 * radians d := by unfold radians; ring
    have k2 : (sdNormal 0 d 0 * sdNormal 180 d 0 + sdNormal 0 d 1 * sdNormal 180 d 1
        + sdNormal 0 d 2 * sdNormal 180 d 2) ^ 2 = Real.cos (radians (2 * d)) ^ 2 := by
      rw [k, e2, Real.cos_two_mul']
      ring
    rw [← k2]
    rcases nf with h | h <;> rcases ng with h' | h' <;> rw [h, h'] <;> simp only [Pi.neg_apply] <;> ring
  · have := Real.pi_le_four
    have := Real.pi_pos
    rw [abs_of_nonneg (by unfold radians; positivity)]
    unfold radians
    nlinarith

/-- Planes that are nearly vertical: the angle between them can be as small as one likes while
their strikes are opposite. -/
theorem C226_vertical_false (svd : SvdFn) (hs : svd.Valid) (ε : ℝ) (hε : 0 < ε) :
    ∃ (a b : Fin 3 → Vec 3) (f g : Fit 3) (d : ℝ), init svd a none none = .ok (some f) ∧
      init svd b none none = .ok (some g) ∧ Spec.sineBetween f.normal g.normal < ε ∧ d < 90 ∧
      90 - ε < d ∧ strikeDip f = some (0, d) ∧ strikeDip g = some (180, d) := by
  set c := min (ε / 2) 45
  have c0 : 0 < c := lt_min (by linarith) (by norm_num)
  have c1 : c ≤ 45 := min_le_right _ _
  have c2 : c ≤ ε / 2 := min_le_left _ _
  obtain ⟨a, f, hf, ef, nf⟩ := exists_bed hs (le_refl 0) (by norm_num)
    (by linarith : (0 : ℝ) < 90 - c) (by linarith)
  obtain ⟨b, g, hg, eg, ng⟩ := exists_bed hs (by norm_num : (0 : ℝ) ≤ 180) (by norm_num)
    (by linarith : (0 : ℝ) < 90 - c) (by linarith)
  refine ⟨a, b, f, g, 90 - c, hf, hg, ?_, by linarith, by linarith, ef, eg⟩
  refine lt_of_le_of_lt (b := ε / 2) (sine_pair (θ := radians (2 * c)) ?_ ?_) (by linarith)
  · have k := sdNormal_dot 0 (90 - c) 180 (90 - c)
    have e : radians (0 - 180) = -Real.pi := by unfold radians; ring
    rw [e, Real.cos_neg, Real.cos_pi, radians_sub 90, radians_90, Real.sin_pi_div_two_sub,
      Real.cos_pi_div_two_sub] at k
    have e2 : radians (2 * c) = 2 * radians c := by unfold radians; ring
    have k2 : (sdNormal 0 (90 - c) 0 * sdNormal 180 (90 - c) 0
        + sdNormal 0 (90 - c) 1 * sdNormal 180 (90 - c) 1
        + sdNormal 0 (90 - c) 2 * sdNormal 180 (90 - c) 2) ^ 2 = Real.cos (radians (2 * c)) ^ 2 := by
      rw [k, e2, Real.cos_two_mul']
      ring
    rw [← k2]
    rcases nf with h | h <;> rcases ng with h' | h' <;> rw [h, h'] <;> simp only [Pi.neg_apply] <;> ring
  · have := Real.pi_le_four
    have := Real.pi_pos
    rw [abs_of_nonneg (by unfold radians; positivity)]
    unfold radians
    nlinarith

/-- Two beds with the same strike that dip 45 and 30 degrees: the conditions on the strike hold. -/
example : ∃ (svd : SvdFn) (a b : Fin 3 → Vec 3) (f g : Fit 3), svd.Valid ∧
    init svd a none none = .ok (some f) ∧ init svd b none none = .ok (some g) ∧
    strikeDip f = some (0, 45) ∧ strikeDip g = some (0, 30) ∧
    Spec.sineBetween f.normal g.normal < Real.sin (radians 45) ∧
    Spec.sineBetween f.normal g.normal < Real.cos (radians 45) := by
  obtain ⟨svd, hs⟩ := exists_valid_svd
  obtain ⟨a, f, hf, ef, nf⟩ := exists_bed hs (le_refl 0) (by norm_num) (by norm_num : (0 : ℝ) < 45)
    (by norm_num)
  obtain ⟨b, g, hg, eg, ng⟩ := exists_bed hs (le_refl 0) (by norm_num) (by norm_num : (0 : ℝ) < 30)
    (by norm_num)
  have hle : Spec.sineBetween f.normal g.normal ≤ Real.pi / 12 := by
    refine sine_pair (θ := radians 15) ?_ ?_
    · have k := sdNormal_dot 0 45 0 30
      have e : radians 15 = radians 45 - radians 30 := by unfold radians; ring
      rw [sub_self, show radians 0 = 0 by unfold radians; ring, Real.cos_zero, mul_one] at k
      rw [e, Real.cos_sub, add_comm (Real.cos _ * _), ← k]
      rcases nf with h | h <;> rcases ng with h' | h' <;> rw [h, h'] <;> simp only [Pi.neg_apply] <;> ring
    · rw [abs_of_nonneg (by unfold radians; positivity)]
      unfold radians
      linarith
  have e45 : radians 45 = Real.pi / 4 := by unfold radians; ring
  have hlt : Real.pi / 12 < Real.sqrt 2 / 2 := by
    have := Real.pi_le_four
    have h2 : (1 : ℝ) ≤ Real.sqrt 2 := Real.one_le_sqrt.2 (by norm_num)
    linarith
  refine ⟨svd, a, b, f, g, hs, hf, hg, ef, eg, ?_, ?_⟩
  · rw [e45, Real.sin_pi_div_four]; linarith
  · rw [e45, Real.cos_pi_div_four]; linarith

/-! ## C227 -/

lemma in_bed_of_perp (s d : ℝ) (w : Vec 3) (h : vdot (sdNormal s d) w = 0) :
    w = Spec.inBed 0 s d (vdot (Spec.heading s) w) (vdot (Spec.plunging (s + 90) d) w) := by
  have h1 := Real.sin_sq_add_cos_sq (radians s)
  have h2 := Real.sin_sq_add_cos_sq (radians d)
  simp only [vdot3, sdNormal, Matrix.cons_val_zero, Matrix.cons_val_one, Matrix.cons_val] at h
  funext j
  simp only [Spec.inBed, vdot3, heading_eq, plunging_eq, Matrix.cons_val_zero, Matrix.cons_val_one,
    Matrix.cons_val, Pi.zero_apply]
  generalize Real.sin (radians s) = a at *
  generalize Real.cos (radians s) = b at *
  generalize Real.sin (radians d) = c at *
  generalize Real.cos (radians d) = e at *
  fin_cases j
  · simp
    linear_combination (c * b) * h - w 0 * h1 - (w 0 * b ^ 2 - a * b * w 1) * h2
  · simp
    linear_combination -(c * a) * h - w 1 * h1 - (w 1 * a ^ 2 - a * b * w 0) * h2
  · simp
    linear_combination e * h - w 2 * h2

/-- A plane in the cone, in coordinates along the axes of the fit: `p` is its unit normal. -/
lemma tilt_real {p0 p1 p2 A B T : ℝ} (hp : p0 ^ 2 + p1 ^ 2 + p2 ^ 2 = 1) (hA : A ≤ T) (hB : B ≤ T)
    (hT : 0 ≤ T)
    (h : (p0 ^ 2 + p1 ^ 2) ^ 2 ≤ A * (p0 * p2) ^ 2 + B * (p1 * p2) ^ 2) :
    (1 - p2 ^ 2) * (1 + T) ≤ T := by
  set r := p0 ^ 2 + p1 ^ 2 with hr
  have hr0 : 0 ≤ r := by positivity
  have e : p2 ^ 2 = 1 - r := by linarith
  have k : r ^ 2 ≤ T * r * (1 - r) := by
    have h1 := mul_le_mul_of_nonneg_right hA (sq_nonneg (p0 * p2))
    have h2 := mul_le_mul_of_nonneg_right hB (sq_nonneg (p1 * p2))
    have : T * (p0 * p2) ^ 2 + T * (p1 * p2) ^ 2 = T * r * (1 - r) := by rw [← e, hr]; ring
    linarith
  rw [e]
  rcases hr0.lt_or_eq with hp' | hz
  · have : r ≤ T * (1 - r) := by
      by_contra hc
      push Not at hc
      nlinarith
    linarith
  · rw [← hz]; linarith

lemma vdot_transpose {V : Mat 3 3} (hV : V * Vᵀ = 1) (q : Vec 3) (i : Fin 3) :
    vdot (V i) (Vᵀ *ᵥ q) = q i := by
  have : V *ᵥ (Vᵀ *ᵥ q) = q := by rw [Matrix.mulVec_mulVec, hV, Matrix.one_mulVec]
  exact congrFun this i

/-- A plane within the error surface makes an angle with the fitted plane whose squared tangent is
at most the larger ratio of the semi-axes. -/
lemma tilt_of_within {V : Mat 3 3} (hV : V * Vᵀ = 1) {h : Vec 3} {s d T : ℝ}
    (hw : Spec.WithinErrors V h s d) (h0 : h 2 / h 0 ≤ T) (h1 : h 2 / h 1 ≤ T) (hT : 0 ≤ T) :
    (1 - vdot (V 2) (sdNormal s d) ^ 2) * (1 + T) ≤ T := by
  have hV' : Vᵀ * V = 1 := mul_eq_one_comm.1 hV
  set p := V *ᵥ sdNormal s d with hp
  have hpd : ∀ i, vdot (V i) (sdNormal s d) = p i := fun i => rfl
  have hm : sdNormal s d = Vᵀ *ᵥ p := by rw [hp, Matrix.mulVec_mulVec, hV', Matrix.one_mulVec]
  have hn : p 0 ^ 2 + p 1 ^ 2 + p 2 ^ 2 = 1 := by
    have k := sdNormal_unit s d
    have : vdot (sdNormal s d) (sdNormal s d) = p ⬝ᵥ p := by
      show sdNormal s d ⬝ᵥ sdNormal s d = p ⬝ᵥ p
      rw [hp, Matrix.dotProduct_mulVec, Matrix.vecMul_mulVec, hV', Matrix.vecMul_one]
    rw [this] at k
    simp only [dotProduct, Fin.sum_univ_three] at k
    linarith
  set q : Vec 3 := ![p 0 * p 2, p 1 * p 2, -(p 0 ^ 2 + p 1 ^ 2)] with hq
  have hperp : vdot (sdNormal s d) (Vᵀ *ᵥ q) = 0 := by
    show sdNormal s d ⬝ᵥ (Vᵀ *ᵥ q) = 0
    rw [hm, Matrix.dotProduct_mulVec, Matrix.vecMul_mulVec, Matrix.transpose_transpose, hV,
      Matrix.vecMul_one]
    simp [dotProduct, Fin.sum_univ_three, hq]
    ring
  have k := hw (vdot (Spec.heading s) (Vᵀ *ᵥ q)) (vdot (Spec.plunging (s + 90) d) (Vᵀ *ᵥ q))
  rw [← in_bed_of_perp s d _ hperp, vdot_transpose hV, vdot_transpose hV, vdot_transpose hV] at k
  rw [hpd]
  refine tilt_real (p0 := p 0) (p1 := p 1) (A := h 2 / h 0) (B := h 2 / h 1) hn h0 h1 hT ?_
  have e0 : q 0 = p 0 * p 2 := rfl
  have e1 : q 1 = p 1 * p 2 := rfl
  have e2 : q 2 = -(p 0 ^ 2 + p 1 ^ 2) := rfl
  rw [e0, e1, e2, neg_sq] at k
  calc _ ≤ _ := k
    _ = _ := by ring

lemma error_tan {h : Vec 3} (h2 : 0 ≤ h 2) {j : Fin 3} (hj : 0 < h j) {e : ℝ}
    (he : e = arctan2 (Real.sqrt (h 2)) (Real.sqrt (h j))) :
    0 ≤ e ∧ e < Real.pi / 2 ∧ Real.tan e ^ 2 = h 2 / h j := by
  have k : e = Real.arctan (Real.sqrt (h 2) / Real.sqrt (h j)) := by
    rw [he, arctan2_of_pos _ (Real.sqrt_pos.2 hj)]
  rw [k]
  refine ⟨Real.arctan_nonneg.2 (by positivity), Real.arctan_lt_pi_div_two _, ?_⟩
  rw [Real.tan_arctan, div_pow, Real.sq_sqrt h2, Real.sq_sqrt hj.le]

lemma sin_sq_of_tan {e T : ℝ} (h0 : 0 ≤ e) (h1 : e < Real.pi / 2) (hT : Real.tan e ^ 2 = T) :
    Real.sin e ^ 2 = T * Real.cos e ^ 2 := by
  have hc : 0 < Real.cos e := Real.cos_pos_of_mem_Ioo ⟨by have := Real.pi_pos; linarith, h1⟩
  rw [← hT, Real.tan_eq_sin_div_cos, div_pow]
  field_simp

lemma fit_normal_dot_sq {n : ℕ} {a : Fin n → Vec 3} {f : Fit n} {U : Mat n 3} (h : IsFit a f U)
    (v : Vec 3) : vdot f.normal v ^ 2 = vdot (f.V 2) v ^ 2 := by
  rw [h.normal]
  rcases upward_eq (f.V 2) with k | k <;> rw [k]
  simp only [vdot3, Pi.neg_apply]
  ring

lemma fit_V_orth {n : ℕ} {a : Fin n → Vec 3} {f : Fit n} {U : Mat n 3} (h : IsFit a f U) :
    f.V * (f.V)ᵀ = 1 := by
  exact h.svd.orthV

/-- The squared sine of the tilt of a plane within the error surface of a fit. -/
lemma within_bound {n : ℕ} {a : Fin n → Vec 3} {f : Fit n} {U : Mat n 3} (hF : IsFit a f U) {h : Vec 3}
    (p0 : 0 < h 0) (p1 : 0 < h 1) (p2 : 0 ≤ h 2) {s d s' d' : ℝ} (hn : f.normal = sdNormal s d)
    (hw : Spec.WithinErrors f.V h s' d') :
    0 ≤ max (angularErrors h).1 (angularErrors h).2 ∧
    max (angularErrors h).1 (angularErrors h).2 < Real.pi / 2 ∧
    1 - (sdNormal s d 0 * sdNormal s' d' 0 + sdNormal s d 1 * sdNormal s' d' 1
        + sdNormal s d 2 * sdNormal s' d' 2) ^ 2
      ≤ Real.sin (max (angularErrors h).1 (angularErrors h).2) ^ 2 := by
  obtain ⟨x0, x1, xt⟩ := error_tan p2 p0 (e := (angularErrors h).1) rfl
  obtain ⟨y0, y1, yt⟩ := error_tan p2 p1 (e := (angularErrors h).2) rfl
  set x := (angularErrors h).1
  set y := (angularErrors h).2
  have hpi := Real.pi_pos
  set M := max x y with hM
  have M0 : 0 ≤ M := le_trans x0 (le_max_left _ _)
  have M1 : M < Real.pi / 2 := max_lt x1 y1
  refine ⟨M0, M1, ?_⟩
  have mono : ∀ e, 0 ≤ e → e ≤ M → Real.tan e ^ 2 ≤ Real.tan M ^ 2 := by
    intro e e0 e1
    have k := Real.strictMonoOn_tan.monotoneOn (a := e) (b := M) ⟨by linarith, by linarith⟩
      ⟨by linarith, M1⟩ e1
    exact pow_le_pow_left₀ (Real.tan_nonneg_of_nonneg_of_le_pi_div_two e0 (by linarith)) k 2
  have k := tilt_of_within (fit_V_orth hF) hw (xt ▸ mono x x0 (le_max_left _ _))
    (yt ▸ mono y y0 (le_max_right _ _)) (sq_nonneg _)
  rw [← fit_normal_dot_sq hF, hn, vdot3] at k
  have hs := sin_sq_of_tan M0 M1 rfl
  have hc := Real.sin_sq_add_cos_sq M
  have hcp : 0 < Real.cos M := Real.cos_pos_of_mem_Ioo ⟨by linarith, M1⟩
  generalize Real.tan M ^ 2 = T at *
  have e : Real.cos M ^ 2 * (1 + T) = 1 := by linarith
  have hT : 0 < 1 + T := by
    by_contra hneg
    push Not at hneg
    nlinarith [sq_nonneg (Real.cos M)]
  have : Real.sin M ^ 2 * (1 + T) = T := by rw [hs]; linear_combination T * e
  nlinarith

/-- Every plane within the error surface of a fit, for both methods and every level: its dip differs
from that of the fit by at most the larger of the angular errors. -/
theorem C227_dip (Q : Quantiles) (hQ : Spec.QuantilesOK Q) (svd : SvdFn) (hs : svd.Valid) {n : ℕ}
    (a : Fin n → Vec 3) (f : Fit n) (hf : init svd a none none = .ok (some f)) (sampling : Bool)
    (cl : ℝ) (c0 : 0 ≤ cl) (c1 : cl < 1) (h : Vec 3) (hax : axesAt Q f sampling cl = .ok (some h))
    (p0 : 0 < h 0) (p1 : 0 < h 1) :
    ∃ s d x y, strikeDip f = some (s, d) ∧ errorsAt Q f sampling cl = some (x, y) ∧
      ∀ s' d', 0 ≤ d' → d' ≤ 90 → Spec.WithinErrors f.V h s' d' →
        |d - d'| ≤ max (degrees x) (degrees y) := by
  obtain ⟨U, hF⟩ := init_default hs hf
  obtain ⟨h', e', -, hnn, -⟩ := C21_closed_form Q hQ svd hs a f hf sampling cl c0 c1
  rw [hax] at e'
  simp only [Except.ok.injEq, Option.some.injEq] at e'
  subst e'
  obtain ⟨s, d, e, -, -, d0, d1, hn⟩ := fit_sdNormal hF
  refine ⟨s, d, (angularErrors h).1, (angularErrors h).2, e, by simp [errorsAt, hax], ?_⟩
  intro s' d' q0 q1 hw
  obtain ⟨M0, M1, hb⟩ := within_bound hF p0 p1 (hnn 2) hn hw
  have hpi := Real.pi_pos
  have k := dip_of_tilt d0 d1 q0 q1 (Real.sin_nonneg_of_nonneg_of_le_pi M0 (by linarith))
    (Real.sin_le_one _) hb
  rw [Real.arcsin_sin (by linarith) M1.le] at k
  rcases max_choice (angularErrors h).1 (angularErrors h).2 with m | m <;> rw [m] at k
  · exact le_trans k (le_max_left _ _)
  · exact le_trans k (le_max_right _ _)

/-- The strikes of the planes within the error surface, if the larger of the angular errors is less
than the dip and less than the angle from the vertical. -/
theorem C227_strike (Q : Quantiles) (hQ : Spec.QuantilesOK Q) (svd : SvdFn) (hs : svd.Valid) {n : ℕ}
    (a : Fin n → Vec 3) (f : Fit n) (hf : init svd a none none = .ok (some f)) (sampling : Bool)
    (cl : ℝ) (c0 : 0 ≤ cl) (c1 : cl < 1) (h : Vec 3) (hax : axesAt Q f sampling cl = .ok (some h))
    (p0 : 0 < h 0) (p1 : 0 < h 1) (s d x y : ℝ) (hsd : strikeDip f = some (s, d))
    (herr : errorsAt Q f sampling cl = some (x, y)) (hx : degrees (max x y) < d)
    (hy : d < 90 - degrees (max x y)) (s' d' : ℝ) (q0 : 0 ≤ d') (q1 : d' ≤ 90)
    (hw : Spec.WithinErrors f.V h s' d') :
    ∃ k : ℤ, |s - s' - 360 * k| ≤ degrees (Real.arcsin (Real.sin (max x y) / Real.sin (radians d))) := by
  obtain ⟨U, hF⟩ := init_default hs hf
  obtain ⟨h', e', -, hnn, -⟩ := C21_closed_form Q hQ svd hs a f hf sampling cl c0 c1
  rw [hax] at e'
  simp only [Except.ok.injEq, Option.some.injEq] at e'
  subst e'
  obtain ⟨_, _, e, -, -, d0, d1, hn⟩ := fit_sdNormal hF
  rw [hsd] at e
  simp only [Option.some.injEq, Prod.mk.injEq] at e
  obtain ⟨rfl, rfl⟩ := e
  have he : angularErrors h = (x, y) := by simpa [errorsAt, hax] using herr
  obtain ⟨M0, M1, hb⟩ := within_bound hF p0 p1 (hnn 2) hn hw
  rw [he] at M0 M1 hb
  simp only at M0 M1 hb
  set M := max x y
  have hpi := Real.pi_pos
  have hM : M < radians d := by
    have : radians (degrees M) < radians d := by
      unfold radians
      rw [div_lt_div_iff_of_pos_right (by norm_num)]
      exact mul_lt_mul_of_pos_right hx hpi
    rwa [show radians (degrees M) = M by unfold radians degrees; field_simp] at this
  have hM' : radians d < Real.pi / 2 - M := by
    have : radians d < radians (90 - degrees M) := by
      unfold radians
      rw [div_lt_div_iff_of_pos_right (by norm_num)]
      exact mul_lt_mul_of_pos_right hy hpi
    rwa [radians_sub, radians_90, show radians (degrees M) = M by unfold radians degrees; field_simp]
      at this
  refine strike_of_tilt d0 d1 q0 q1 (Real.sin_nonneg_of_nonneg_of_le_pi M0 (by linarith)) ?_ ?_ hb
  · exact Real.sin_lt_sin_of_lt_of_le_pi_div_two (by linarith) (by linarith) hM
  · rw [← Real.sin_pi_div_two_sub]
    exact Real.sin_lt_sin_of_lt_of_le_pi_div_two (by linarith) (by linarith) (by linarith)

/-- The tilts are reached: for each of the two angular errors there is a plane within the error
surface that makes this angle with the fitted plane. -/
theorem C227_attained (Q : Quantiles) (hQ : Spec.QuantilesOK Q) (svd : SvdFn) (hs : svd.Valid) {n : ℕ}
    (a : Fin n → Vec 3) (f : Fit n) (hf : init svd a none none = .ok (some f)) (sampling : Bool)
    (cl : ℝ) (c0 : 0 ≤ cl) (c1 : cl < 1) (h : Vec 3) (hax : axesAt Q f sampling cl = .ok (some h))
    (p0 : 0 < h 0) (p1 : 0 < h 1) (x y : ℝ) (herr : errorsAt Q f sampling cl = some (x, y)) (e : ℝ)
    (he : e = x ∨ e = y) :
    ∃ s' d' m, 0 ≤ d' ∧ d' ≤ 90 ∧ Spec.WithinErrors f.V h s' d' ∧ norm m = 1 ∧
      Spec.RightHandRule m s' d' ∧ Spec.sineBetween f.normal m = Real.sin e := by
  obtain ⟨U, hF⟩ := init_default hs hf
  obtain ⟨h', e', -, hnn, -⟩ := C21_closed_form Q hQ svd hs a f hf sampling cl c0 c1
  rw [hax] at e'
  simp only [Except.ok.injEq, Option.some.injEq] at e'
  subst e'
  have hxy : angularErrors h = (x, y) := by simpa [errorsAt, hax] using herr
  have hx : x = arctan2 (Real.sqrt (h 2)) (Real.sqrt (h 0)) := (congrArg Prod.fst hxy).symm
  have hy : y = arctan2 (Real.sqrt (h 2)) (Real.sqrt (h 1)) := (congrArg Prod.snd hxy).symm
  obtain ⟨i, hi, hei, hpi⟩ : ∃ i : Fin 3, (i = 0 ∨ i = 1) ∧
      e = arctan2 (Real.sqrt (h 2)) (Real.sqrt (h i)) ∧ 0 < h i := by
    rcases he with rfl | rfl
    · exact ⟨0, .inl rfl, hx, p0⟩
    · exact ⟨1, .inr rfl, hy, p1⟩
  obtain ⟨e0, e1, et⟩ := error_tan (hnn 2) hpi hei
  have hpi' := Real.pi_pos
  have hcp : 0 < Real.cos e := Real.cos_pos_of_mem_Ioo ⟨by linarith, e1⟩
  have hs2 := sin_sq_of_tan e0 e1 et
  have hsc := Real.sin_sq_add_cos_sq e
  have r2 := hF.svd.row_dot 2 2
  have ri := hF.svd.row_dot i i
  have rc := hF.svd.row_dot i 2
  have hi2 : i ≠ 2 := by rcases hi with rfl | rfl <;> decide
  rw [if_pos rfl, vdot3] at r2 ri
  rw [if_neg hi2, vdot3] at rc
  set m : Vec 3 := fun j => Real.cos e * f.V 2 j - Real.sin e * f.V i j with hm
  have hm1 : norm m = 1 := by
    rw [norm, Real.sqrt_eq_one, Fin.sum_univ_three]
    simp only [hm]
    linear_combination Real.cos e ^ 2 * r2 + Real.sin e ^ 2 * ri
      - 2 * Real.sin e * Real.cos e * rc + hsc
  have hmne : m ≠ 0 := by
    intro k
    rw [k] at hm1
    simp [norm] at hm1
  obtain ⟨s', d', -, -, -, q0, q1, hup⟩ := strikeDipOf_spec hmne
  rw [hm1, one_smul] at hup
  obtain ⟨σ, hσ, hme⟩ : ∃ σ : ℝ, σ ^ 2 = 1 ∧ m = σ • sdNormal s' d' := by
    rcases upward_eq m with k | k <;> rw [k] at hup
    · exact ⟨1, by norm_num, by rw [hup, one_smul]⟩
    · exact ⟨-1, by norm_num, by rw [hup]; simp⟩
  refine ⟨s', d', m, q0, q1, ?_, hm1, ?_, ?_⟩
  · intro u v
    set w := Spec.inBed 0 s' d' u v with hw
    have hperp : vdot m w = 0 := by
      have k := onPlane_inBed 0 s' d' u v
      rw [← hw] at k
      simp only [Spec.OnPlane, vdot3, Pi.zero_apply, mul_zero, add_zero] at k
      rw [hme, vdot3]
      simp only [Pi.smul_apply, smul_eq_mul]
      linear_combination σ * k
    have hk : Real.cos e * vdot (f.V 2) w = Real.sin e * vdot (f.V i) w := by
      rw [vdot3] at hperp ⊢
      rw [vdot3]
      simp only [hm] at hperp
      linarith
    have hk2 : vdot (f.V 2) w ^ 2 = h 2 / h i * vdot (f.V i) w ^ 2 := by
      have := congrArg (· ^ 2) hk
      simp only [mul_pow] at this
      rw [hs2] at this
      have hc2 : Real.cos e ^ 2 ≠ 0 := by positivity
      apply mul_left_cancel₀ hc2
      rw [this]
      ring
    have n0 : 0 ≤ h 2 * (vdot (f.V 0) w ^ 2 / h 0) := mul_nonneg (hnn 2) (by positivity)
    have n1 : 0 ≤ h 2 * (vdot (f.V 1) w ^ 2 / h 1) := mul_nonneg (hnn 2) (by positivity)
    rw [hk2, mul_add]
    rcases hi with rfl | rfl
    · have : h 2 / h 0 * vdot (f.V 0) w ^ 2 = h 2 * (vdot (f.V 0) w ^ 2 / h 0) := by ring
      linarith
    · have : h 2 / h 1 * vdot (f.V 1) w ^ 2 = h 2 * (vdot (f.V 1) w ^ 2 / h 1) := by ring
      linarith
  · rw [hme]; exact rightHandRule_sdNormal _ _ _
  · have k : (f.normal 0 * m 0 + f.normal 1 * m 1 + f.normal 2 * m 2) ^ 2 = Real.cos e ^ 2 := by
      rw [← vdot3, fit_normal_dot_sq hF, vdot3]
      have : f.V 2 0 * m 0 + f.V 2 1 * m 1 + f.V 2 2 * m 2 = Real.cos e := by
        simp only [hm]
        linear_combination Real.cos e * r2 - Real.sin e * rc
      rw [this]
    unfold Spec.sineBetween
    rw [k, show 1 - Real.cos e ^ 2 = Real.sin e ^ 2 by linarith,
      Real.sqrt_sq (Real.sin_nonneg_of_nonneg_of_le_pi e0 (by linarith))]

lemma ratio_real {S C s c T : ℝ} (h : S = T * C) (h1 : S + C = 1) (h2 : s + c = 1) (hle : s ≤ S)
    (hT : 0 ≤ T) : s ≤ T * c := by
  have : C ≤ c := by linarith
  nlinarith

/-- An axis of the fit that is level: every plane with the same strike whose dip differs from that
of the fit by no more than the angular error along the other axis is within the error surface. -/
theorem C227_dip_range (Q : Quantiles) (hQ : Spec.QuantilesOK Q) (svd : SvdFn) (hs : svd.Valid) {n : ℕ}
    (a : Fin n → Vec 3) (f : Fit n) (hf : init svd a none none = .ok (some f)) (sampling : Bool)
    (cl : ℝ) (c0 : 0 ≤ cl) (c1 : cl < 1) (h : Vec 3) (hax : axesAt Q f sampling cl = .ok (some h))
    (p0 : 0 < h 0) (p1 : 0 < h 1) (s d x y : ℝ) (hsd : strikeDip f = some (s, d)) (hd : 0 < d)
    (herr : errorsAt Q f sampling cl = some (x, y)) (d' : ℝ)
    (hcase : (f.V 1 2 = 0 ∧ |d - d'| ≤ degrees x) ∨ (f.V 0 2 = 0 ∧ |d - d'| ≤ degrees y)) :
    Spec.WithinErrors f.V h s d' := by
  obtain ⟨U, hF⟩ := init_default hs hf
  obtain ⟨h', e', -, hnn, -⟩ := C21_closed_form Q hQ svd hs a f hf sampling cl c0 c1
  rw [hax] at e'
  simp only [Except.ok.injEq, Option.some.injEq] at e'
  subst e'
  have hxy : angularErrors h = (x, y) := by simpa [errorsAt, hax] using herr
  have hx : x = arctan2 (Real.sqrt (h 2)) (Real.sqrt (h 0)) := (congrArg Prod.fst hxy).symm
  have hy : y = arctan2 (Real.sqrt (h 2)) (Real.sqrt (h 1)) := (congrArg Prod.snd hxy).symm
  obtain ⟨_, _, k, -, -, d0, d1, hn⟩ := fit_sdNormal hF
  rw [hsd] at k
  simp only [Option.some.injEq, Prod.mk.injEq] at k
  obtain ⟨rfl, rfl⟩ := k
  obtain ⟨i, j, e, hij, hlev, hdd, hei, hpi⟩ : ∃ (i j : Fin 3) (e : ℝ),
      ((i = 0 ∧ j = 1) ∨ (i = 1 ∧ j = 0)) ∧ f.V j 2 = 0 ∧ |d - d'| ≤ degrees e ∧
      e = arctan2 (Real.sqrt (h 2)) (Real.sqrt (h i)) ∧ 0 < h i := by
    rcases hcase with ⟨k1, k2⟩ | ⟨k1, k2⟩
    · exact ⟨0, 1, x, .inl ⟨rfl, rfl⟩, k1, k2, hx, p0⟩
    · exact ⟨1, 0, y, .inr ⟨rfl, rfl⟩, k1, k2, hy, p1⟩
  obtain ⟨e0, e1, et⟩ := error_tan (hnn 2) hpi hei
  have hpi' := Real.pi_pos
  have hcp : 0 < Real.cos e := Real.cos_pos_of_mem_Ioo ⟨by linarith, e1⟩
  have hs2 := sin_sq_of_tan e0 e1 et
  have hsc := Real.sin_sq_add_cos_sq e
  -- the difference of the dips
  set θ := radians (d - d') with hθ
  have habs : |θ| ≤ e := by
    rw [hθ, abs_radians]
    have : radians |d - d'| ≤ radians (degrees e) := by
      unfold radians
      have := mul_le_mul_of_nonneg_right hdd hpi'.le
      linarith
    rwa [show radians (degrees e) = e by unfold radians degrees; field_simp] at this
  have hsθ : Real.sin θ ^ 2 ≤ Real.sin e ^ 2 := by
    obtain ⟨l, r⟩ := abs_le.1 habs
    have k1 := Real.sin_le_sin_of_le_of_le_pi_div_two (by linarith) e1.le r
    have k2 := Real.sin_le_sin_of_le_of_le_pi_div_two (by linarith) (by linarith : θ ≤ Real.pi / 2) l
    rw [Real.sin_neg] at k2
    exact sq_le_sq' k2 k1
  have hcθ := Real.sin_sq_add_cos_sq θ
  have hratio : Real.sin θ ^ 2 ≤ h 2 / h i * Real.cos θ ^ 2 := by
    have hT : 0 ≤ h 2 / h i := div_nonneg (hnn 2) hpi.le
    generalize h 2 / h i = T at *
    exact ratio_real hs2 hsc hcθ hsθ hT
  intro u v
  set w := Spec.inBed 0 s d' u v with hw
  have h1 := Real.sin_sq_add_cos_sq (radians s)
  have h2 := Real.sin_sq_add_cos_sq (radians d')
  have hS : 0 < Real.sin (radians d) := by
    apply Real.sin_pos_of_pos_of_lt_pi
    · unfold radians; positivity
    · unfold radians; nlinarith
  have hV2 : vdot (f.V 2) w ^ 2 = v ^ 2 * Real.sin θ ^ 2 := by
    rw [← fit_normal_dot_sq hF, hn, ← mul_pow]
    congr 1
    rw [hθ, radians_sub, Real.sin_sub, hw]
    simp only [Spec.inBed, vdot3, heading_eq, plunging_eq, sdNormal, Matrix.cons_val_zero,
      Matrix.cons_val_one, Matrix.cons_val, Pi.zero_apply]
    linear_combination v * Real.sin (radians d) * Real.cos (radians d') * h1
  have hjn : vdot f.normal (f.V j) = 0 := by
    have hj2 : (2 : Fin 3) ≠ j := by rcases hij with ⟨-, rfl⟩ | ⟨-, rfl⟩ <;> decide
    have k := hF.svd.row_dot 2 j
    rw [if_neg hj2] at k
    have k2 := fit_normal_dot_sq hF (f.V j)
    rw [k] at k2
    exact pow_eq_zero_iff (two_ne_zero) |>.1 (by rw [k2]; ring)
  have hjj := hF.svd.row_dot j j
  rw [if_pos rfl, vdot3, hlev] at hjj
  rw [hn, vdot3, hlev] at hjn
  simp only [sdNormal, Matrix.cons_val_zero, Matrix.cons_val_one, Matrix.cons_val] at hjn
  have hcol : f.V j 0 * Real.cos (radians s) - f.V j 1 * Real.sin (radians s) = 0 := by
    apply mul_left_cancel₀ hS.ne'
    linear_combination hjn
  have hVj : vdot (f.V j) w ^ 2 = u ^ 2 := by
    have e : vdot (f.V j) w = u * (f.V j 0 * Real.sin (radians s) + f.V j 1 * Real.cos (radians s)) := by
      rw [hw]
      simp only [Spec.inBed, vdot3, heading_eq, plunging_eq, Matrix.cons_val_zero,
        Matrix.cons_val_one, Matrix.cons_val, Pi.zero_apply, hlev]
      linear_combination v * Real.cos (radians d') * hcol
    have e2 : (f.V j 0 * Real.sin (radians s) + f.V j 1 * Real.cos (radians s)) ^ 2 = 1 := by
      linear_combination (f.V j 0 ^ 2 + f.V j 1 ^ 2) * h1 + hjj
        - (f.V j 0 * Real.cos (radians s) - f.V j 1 * Real.sin (radians s)) * hcol
    rw [e, mul_pow, e2, mul_one]
  have hsum : vdot (f.V 0) w ^ 2 + vdot (f.V 1) w ^ 2 + vdot (f.V 2) w ^ 2 = u ^ 2 + v ^ 2 := by
    have k := hF.svd.norm_V w
    rw [Fin.sum_univ_three, Fin.sum_univ_three] at k
    have k2 : w 0 ^ 2 + w 1 ^ 2 + w 2 ^ 2 = u ^ 2 + v ^ 2 := by
      rw [hw]
      simp only [Spec.inBed, heading_eq, plunging_eq, Matrix.cons_val_zero,
        Matrix.cons_val_one, Matrix.cons_val, Pi.zero_apply]
      linear_combination (u ^ 2 + v ^ 2 * Real.cos (radians d') ^ 2) * h1 + v ^ 2 * h2
    rw [← k2]
    exact k
  have hVi : vdot (f.V i) w ^ 2 = v ^ 2 * Real.cos θ ^ 2 := by
    have e3 : v ^ 2 * Real.cos θ ^ 2 = v ^ 2 - v ^ 2 * Real.sin θ ^ 2 := by
      rw [← mul_one_sub]; congr 1; linarith
    rw [e3]
    rcases hij with ⟨rfl, rfl⟩ | ⟨rfl, rfl⟩ <;> linarith
  have n0 : 0 ≤ h 2 * (vdot (f.V 0) w ^ 2 / h 0) := mul_nonneg (hnn 2) (by positivity)
  have n1 : 0 ≤ h 2 * (vdot (f.V 1) w ^ 2 / h 1) := mul_nonneg (hnn 2) (by positivity)
  have key : vdot (f.V 2) w ^ 2 ≤ h 2 * (vdot (f.V i) w ^ 2 / h i) := by
    rw [hV2, hVi]
    calc v ^ 2 * Real.sin θ ^ 2 ≤ v ^ 2 * (h 2 / h i * Real.cos θ ^ 2) :=
          mul_le_mul_of_nonneg_left hratio (sq_nonneg _)
      _ = _ := by ring
  rw [mul_add]
  rcases hij with ⟨rfl, rfl⟩ | ⟨rfl, rfl⟩ <;> linarith

/-- A plane that dips to the east, with a level axis: all the conditions hold, and planes with other
dips are within the error surface. -/
example : ∃ (svd : SvdFn) (f : Fit 4) (h : Vec 3) (s d x y : ℝ), svd.Valid ∧
    init svd Witness.tilted none none = .ok (some f) ∧
    axesAt Spec.quantiles2 f true 0.95 = .ok (some h) ∧ 0 < h 0 ∧ 0 < h 1 ∧
    strikeDip f = some (s, d) ∧ 0 < d ∧ errorsAt Spec.quantiles2 f true 0.95 = some (x, y) ∧
    f.V 1 2 = 0 ∧ 0 < x ∧ degrees (max x y) < d ∧ d < 90 - degrees (max x y) ∧
    Spec.WithinErrors f.V h s (d - degrees x) := by
  obtain ⟨svd, f, hs, hf, hV, es⟩ := Witness.exists_tilted
  obtain ⟨U, hF⟩ := init_default hs hf
  obtain ⟨h, hax, hh, hnn, -⟩ := C21_closed_form _ Spec.quantiles2_ok svd hs _ f hf true 0.95
    (by norm_num) (by norm_num)
  obtain ⟨s, d, e, -, -, d0, d1, hn⟩ := fit_sdNormal hF
  have hz : Spec.quantiles2.f 0.95 2 (4 - 2) = 19 := by
    simp only [Spec.quantiles2, Spec.fisher2]
    rw [show (-(2 / ((4 - 2 : ℕ) : ℝ))) = -1 by norm_num, Real.rpow_neg_one]
    norm_num
  -- the semi-axes
  obtain ⟨c, hc, hc1⟩ : ∃ c : ℝ, c = 19 * Real.sqrt (2 / (((4 : ℕ) : ℝ) - 1)) ∧ 15 ≤ c := by
    refine ⟨_, rfl, ?_⟩
    have : (15 : ℝ) / 19 ≤ Real.sqrt (2 / (((4 : ℕ) : ℝ) - 1)) := Real.le_sqrt_of_sq_le (by norm_num)
    linarith
  have ev : ∀ j, Pca.eigenvalues f j = f.s j ^ 2 / 3 := by
    intro j
    simp only [Pca.eigenvalues]
    norm_num
  have v0 : Pca.eigenvalues f 0 = 3 := by rw [ev, es]; norm_num
  have v1 : Pca.eigenvalues f 1 = 4 / 3 := by rw [ev, es]; norm_num
  have v2 : Pca.eigenvalues f 2 = 1 / 3 := by rw [ev, es]; simp
  rw [hz] at hh
  have w0 : h 0 = 3 * (c - 1) := by
    rw [hh]
    simp only [Spec.hyperbolicAxes, Spec.errorScale, if_true, v0, Matrix.cons_val_zero]
    rw [show (3 : ℝ) - 19 * (3 * Real.sqrt (2 / (((4 : ℕ) : ℝ) - 1))) = -(3 * (c - 1)) by rw [hc]; ring,
      abs_neg, abs_of_nonneg (by linarith)]
  have w1 : h 1 = 4 / 3 * (c - 1) := by
    rw [hh]
    simp only [Spec.hyperbolicAxes, Spec.errorScale, if_true, v1, Matrix.cons_val_one,
      Matrix.cons_val_zero]
    rw [show (4 : ℝ) / 3 - 19 * (4 / 3 * Real.sqrt (2 / (((4 : ℕ) : ℝ) - 1))) = -(4 / 3 * (c - 1)) by
      rw [hc]; ring, abs_neg, abs_of_nonneg (by linarith)]
  have w2 : h 2 = 1 / 3 * (1 + c) := by
    rw [hh]
    simp only [Spec.hyperbolicAxes, Spec.errorScale, if_true, v2, Matrix.cons_val]
    rw [hc]; ring
  have p0 : 0 < h 0 := by rw [w0]; linarith
  have p1 : 0 < h 1 := by rw [w1]; linarith
  have p2 : 0 < h 2 := by rw [w2]; linarith
  -- the errors
  obtain ⟨x, y, hxy⟩ : ∃ x y, angularErrors h = (x, y) := ⟨_, _, rfl⟩
  have hx : x = Real.arctan (Real.sqrt (h 2) / Real.sqrt (h 0)) := by
    rw [← arctan2_of_pos _ (Real.sqrt_pos.2 p0)]; exact (congrArg Prod.fst hxy).symm
  have hy : y = Real.arctan (Real.sqrt (h 2) / Real.sqrt (h 1)) := by
    rw [← arctan2_of_pos _ (Real.sqrt_pos.2 p1)]; exact (congrArg Prod.snd hxy).symm
  have small : ∀ j, 0 < h j → h 2 < 9 / 16 * h j →
      Real.arctan (Real.sqrt (h 2) / Real.sqrt (h j)) < Real.arctan (3 / 4) := by
    intro j hj hlt
    apply Real.arctan_strictMono
    rw [← Real.sqrt_div p2.le, Real.sqrt_lt' (by norm_num), div_lt_iff₀ hj]
    linarith
  have hM : max x y < Real.arctan (3 / 4) := by
    rw [hx, hy]
    exact max_lt (small 0 p0 (by rw [w0, w2]; linarith)) (small 1 p1 (by rw [w1, w2]; linarith))
  have hx0 : 0 < x := by rw [hx]; exact Real.arctan_pos.2 (by positivity)
  have herr : errorsAt Spec.quantiles2 f true 0.95 = some (x, y) := by simp [errorsAt, hax, hxy]
  -- the dip
  have hpi := Real.pi_pos
  have hc3 : Real.cos (radians d) = 3 / 5 := by
    have k := congrFun hn 2
    rw [hF.normal, hV] at k
    simp only [sdNormal, Matrix.cons_val] at k
    rw [← k]
    have : upward (Witness.tilt 2) = Witness.tilt 2 ∨ upward (Witness.tilt 2) = -Witness.tilt 2 :=
      upward_eq _
    rcases this with q | q
    · rw [q]; simp [Witness.tilt]
    · exfalso
      have := cos_dip_nonneg d0 d1
      rw [← k, q] at this
      simp [Witness.tilt] at this
      norm_num at this
  have hs4 : Real.sin (radians d) = 4 / 5 := by
    have := Real.sin_sq_add_cos_sq (radians d)
    have h0 := sin_dip_nonneg d0 d1
    rw [hc3] at this
    nlinarith
  have hr0 : 0 ≤ radians d := by unfold radians; positivity
  have hr1 : radians d < Real.pi / 2 := by
    by_contra hneg
    push Not at hneg
    have : Real.cos (radians d) ≤ 0 := Real.cos_nonpos_of_pi_div_two_le_of_le hneg (by
      unfold radians; nlinarith)
    linarith
  have hd : radians d = Real.pi / 2 - Real.arctan (3 / 4) := by
    have k : Real.tan (radians d) = (3 / 4)⁻¹ := by
      rw [Real.tan_eq_sin_div_cos, hs4, hc3]; norm_num
    rw [← Real.arctan_inv_of_pos (by norm_num), ← k, Real.arctan_tan (by linarith) hr1]
  have h34 : Real.arctan (3 / 4) < Real.pi / 4 := by
    rw [← Real.arctan_one]
    exact Real.arctan_strictMono (by norm_num)
  have e1 : degrees (max x y) < d := by
    rw [← degrees_radians' d]
    exact degrees_lt.2 (by linarith)
  have e2 : d < 90 - degrees (max x y) := by
    have : d = 90 - degrees (Real.arctan (3 / 4)) := by
      rw [← degrees_radians' d, hd]
      unfold degrees
      field_simp
      ring
    have := degrees_lt.2 hM
    linarith
  have hdp : 0 < d := lt_of_le_of_lt (by
    have : degrees 0 ≤ degrees (max x y) := degrees_le.2 (le_trans hx0.le (le_max_left _ _))
    simpa [degrees] using this) e1
  have hlev : f.V 1 2 = 0 := by rw [hV]; simp [Witness.tilt]
  refine ⟨svd, f, h, s, d, x, y, hs, hf, hax, p0, p1, e, hdp, herr, hlev, hx0, e1, e2, ?_⟩
  refine C227_dip_range _ Spec.quantiles2_ok svd hs _ f hf true 0.95 (by norm_num) (by norm_num) h hax
    p0 p1 s d x y e hdp herr _ (.inl ⟨hlev, ?_⟩)
  rw [sub_sub_cancel, abs_of_nonneg]
  unfold degrees
  positivity

end Attitude.Props
