import Verif.Model.PcaConics
import Verif.Props.LinearOrientation
import Verif.Props.ErrorShapes

/-!
# C99, C100: `error_ellipse` of a `LinearOrientation`
-/

namespace Attitude.Props

open Attitude Matrix Linear PcaConics
open Attitude.Conics (SqSvd)

/-! ## Specification -/

/-- The downward normal of the plane `z = p x + q y + c` has the given trend (clockwise
from the second axis) and plunge, in radians. -/
def Spec.IsPole (p q : ℝ) (tp : ℝ × ℝ) : Prop :=
  ∃ k : ℝ, 0 < k ∧ p = k * (Real.cos tp.2 * Real.sin tp.1) ∧
    q = k * (Real.cos tp.2 * Real.cos tp.1) ∧ -1 = k * -Real.sin tp.2

/-- The coefficients `p`, `q` of the plane whose coefficients in the frame of the
orientation (turned by its azimuth) are `e`. -/
noncomputable def Spec.turnedBack (az : ℝ) (e : Vec 2) : ℝ × ℝ :=
  (Real.cos az * e 0 + Real.sin az * e 1, -Real.sin az * e 0 + Real.cos az * e 1)

/-- Sanity check: the coefficients of the orientation are those of the best plane,
turned. -/
theorem Spec.turnedBack_coefficients {n : ℕ} {a : Fin n → Vec 3} {o : LinearOrientation}
    (ho : linearOrientation a = .ok o) {r : Regression n} (hr : initRows a = .ok r) {c : Vec 3}
    (hc : (coefficients r).1 = .ok c) :
    Spec.turnedBack o.azimuth ![o.coefficients 0, o.coefficients 1] = (c 0, c 1) := by
  obtain ⟨r', c', hr', hc', _, haz, hco, hsl⟩ := linearOrientation_ok ho
  rw [hr] at hr'
  cases hr'
  rw [hc] at hc'
  cases hc'
  have pyth := Real.sin_sq_add_cos_sq o.azimuth
  simp only [Spec.turnedBack, hco, rotation, Matrix.mulVec, dotProduct, Fin.sum_univ_three]
  simp
  constructor
  · linear_combination c 0 * pyth
  · linear_combination c 1 * pyth

/-! ## C99 -/

/-- A point of the ellipse is given as the pole of the plane with these coefficients
exactly when the plane dips in the direction of the fitted plane. -/
theorem C99_pole_iff_partial (o : LinearOrientation) (e : Vec 2) :
    Spec.IsPole (Spec.turnedBack o.azimuth e).1 (Spec.turnedBack o.azimuth e).2
      (sphericalPoint o true e) ↔ e 1 = 0 ∧ e 0 ≤ 0 := by
  have hcos := sqrt_mul_cos_arctan2 (-e 1) (-e 0)
  have hsin := sqrt_mul_sin_arctan2 (-e 1) (-e 0)
  set θ := arctan2 (-e 1) (-e 0) with hθ
  set r := Real.sqrt ((-e 0) ^ 2 + (-e 1) ^ 2) with hr
  have hr0 : 0 ≤ r := Real.sqrt_nonneg _
  set A := o.azimuth with hA
  have hS : 0 < Real.sqrt (1 + (-e 0) ^ 2) := Real.sqrt_pos.2 (by positivity)
  have t1 : Real.sin (Real.pi + (A + θ + Real.pi / 2)) = -Real.cos (A + θ) := by
    rw [show Real.pi + (A + θ + Real.pi / 2) = (A + θ + Real.pi / 2) + Real.pi by ring,
      Real.sin_add_pi, Real.sin_add_pi_div_two]
  have t2 : Real.cos (Real.pi + (A + θ + Real.pi / 2)) = Real.sin (A + θ) := by
    rw [show Real.pi + (A + θ + Real.pi / 2) = (A + θ + Real.pi / 2) + Real.pi by ring,
      Real.cos_add_pi, Real.cos_add_pi_div_two, neg_neg]
  have t3 : Real.sin (Real.pi / 2 - Real.arctan (-e 0)) = 1 / Real.sqrt (1 + (-e 0) ^ 2) := by
    rw [Real.sin_pi_div_two_sub, Real.cos_arctan]
  have t4 : Real.cos (Real.pi / 2 - Real.arctan (-e 0)) = -e 0 / Real.sqrt (1 + (-e 0) ^ 2) := by
    rw [Real.cos_pi_div_two_sub, Real.sin_arctan]
  have pA := Real.sin_sq_add_cos_sq A
  have pθ := Real.sin_sq_add_cos_sq θ
  have red : Spec.IsPole (Spec.turnedBack A e).1 (Spec.turnedBack A e).2 (sphericalPoint o true e)
      ↔ (Real.cos A * e 0 + Real.sin A * e 1 = e 0 * Real.cos (A + θ) ∧
        -Real.sin A * e 0 + Real.cos A * e 1 = -e 0 * Real.sin (A + θ)) := by
    simp only [Spec.IsPole, Spec.turnedBack, sphericalPoint, if_true, ← hθ, ← hA]
    rw [t1, t2, t3, t4]
    constructor
    · rintro ⟨k, hk, k1, k2, k3⟩
      have hkS : k = Real.sqrt (1 + (-e 0) ^ 2) := by
        have : k * -(1 / Real.sqrt (1 + (-e 0) ^ 2)) = -(k / Real.sqrt (1 + (-e 0) ^ 2)) := by ring
        rw [this, neg_inj] at k3
        rw [eq_div_iff hS.ne', one_mul] at k3
        exact k3.symm
      rw [hkS] at k1 k2
      constructor
      · rw [k1]; field_simp
      · rw [k2]; field_simp
    · rintro ⟨k1, k2⟩
      refine ⟨Real.sqrt (1 + (-e 0) ^ 2), hS, ?_, ?_, ?_⟩
      · rw [k1]; field_simp
      · rw [k2]; field_simp
      · field_simp
  rw [red, Real.cos_add, Real.sin_add]
  have he0 : e 0 = -(r * Real.cos θ) := by linarith
  have he1 : e 1 = -(r * Real.sin θ) := by linarith
  constructor
  · rintro ⟨k1, k2⟩
    -- rotate the two equations
    have m1 : e 0 = e 0 * Real.cos θ := by
      linear_combination Real.cos A * k1 - Real.sin A * k2
        + (e 0 * Real.cos θ - e 0) * pA
    have m2 : e 1 = -e 0 * Real.sin θ := by
      linear_combination Real.sin A * k1 + Real.cos A * k2 - (e 1 + e 0 * Real.sin θ) * pA
    rcases eq_or_ne (e 0) 0 with z | z
    · rw [z] at m2
      exact ⟨by linarith, z.le⟩
    · have hc1 : Real.cos θ = 1 := by
        have : e 0 * (Real.cos θ - 1) = 0 := by linarith
        rcases mul_eq_zero.1 this with q | q
        · exact absurd q z
        · linarith
      have hs0 : Real.sin θ = 0 := by
        rw [hc1] at pθ
        have : Real.sin θ ^ 2 = 0 := by linarith
        exact pow_eq_zero_iff (two_ne_zero) |>.1 this
      refine ⟨by rw [m2, hs0, mul_zero], ?_⟩
      rw [he0, hc1]
      linarith
  · rintro ⟨z1, z0⟩
    have hθ0 : θ = 0 := by
      rw [hθ, z1, neg_zero]
      unfold arctan2
      have : (⟨-e 0, 0⟩ : ℂ) = ((-e 0 : ℝ) : ℂ) := rfl
      rw [this]
      exact Complex.arg_ofReal_of_nonneg (by linarith)
    rw [hθ0, z1, Real.cos_zero, Real.sin_zero]
    constructor <;> ring

/-- The points of an ellipse: some point is off the dip direction as soon as the
covariance of the slopes is regular and the level is not zero. -/
lemma ellipse_off_axis (svd : SqSvd) (hs : svd.Valid) (g : ℝ) (A : Mat 2 2) (hA : A.det ≠ 0)
    (level : ℝ) (hl : level ≠ 0) :
    ∃ e ∈ Hyperbola.errorEllipse svd ![g, 0] A level, e 1 ≠ 0 := by
  have hv := hs 2 A
  set s := (svd 2 A).2.1 with hsdef
  set V := (svd 2 A).2.2 with hVdef
  have hdet : s 0 * s 1 ≠ 0 := by
    intro h0
    apply hA
    rw [hv.recon, Matrix.det_mul, Matrix.det_mul, Matrix.det_diagonal, Fin.prod_univ_two]
    show _ * (s 0 * s 1) * _ = 0
    rw [h0, mul_zero, zero_mul]
  have h0 : 0 < s 0 := lt_of_le_of_ne (hv.nonneg 0) (fun q => hdet (by rw [← q, zero_mul]))
  have h1 : 0 < s 1 := lt_of_le_of_ne (hv.nonneg 1) (fun q => hdet (by rw [← q, mul_zero]))
  by_cases hz : V 0 1 = 0
  · have hV1 : V 1 1 ≠ 0 := by
      intro q
      have ht : V.transpose * V = 1 := mul_eq_one_comm.1 hv.orthV
      have := congrArg (fun M : Mat 2 2 => M 1 1) ht
      simp [Matrix.mul_apply, hz, q] at this
    refine ⟨_, List.mem_map.2 ⟨Stereonet.linspace 1000 1, ?_, rfl⟩, ?_⟩
    · simp only [Stereonet.angles, List.mem_map, List.mem_range]
      exact ⟨1, by norm_num, rfl⟩
    · have hsin : Real.sin (Stereonet.linspace 1000 1) ≠ 0 := by
        apply ne_of_gt
        apply Real.sin_pos_of_pos_of_lt_pi
        · simp [Stereonet.linspace]
          have := Real.pi_pos
          positivity
        · simp [Stereonet.linspace]
          have := Real.pi_pos
          linarith
      simp [Matrix.vecMul, dotProduct, ← hsdef, ← hVdef, hz, hV1, hsin, hl, (Real.sqrt_pos.2 h1).ne']
  · refine ⟨_, List.mem_map.2 ⟨Stereonet.linspace 1000 0, ?_, rfl⟩, ?_⟩
    · simp only [Stereonet.angles, List.mem_map, List.mem_range]
      exact ⟨0, by norm_num, rfl⟩
    · have hl0 : Stereonet.linspace 1000 0 = 0 := by simp [Stereonet.linspace]
      rw [hl0]
      simp [Matrix.vecMul, dotProduct, ← hsdef, ← hVdef, hz, hl, (Real.sqrt_pos.2 h0).ne']

/-- For every regression with noise and every level other than zero, the curve of
`error_ellipse(vector=True)` has a point that is not the pole of the plane it stands for. -/
theorem C99_wrong_pole_false (svd : SqSvd) (hs : svd.Valid) {n : ℕ} (a : Fin n → Vec 3)
    (o : LinearOrientation) (ho : linearOrientation a = .ok o)
    (hd : (o.covarianceMatrix.submatrix ![0, 1] ![0, 1] : Mat 2 2).det ≠ 0) (level : ℝ)
    (hl : level ≠ 0) :
    ∃ e ∈ linearEllipse svd o level, sphericalPoint o true e ∈ linearErrorEllipse svd o true true level ∧
      ¬ Spec.IsPole (Spec.turnedBack o.azimuth e).1 (Spec.turnedBack o.azimuth e).2
        (sphericalPoint o true e) := by
  obtain ⟨_, _, _, h1, _⟩ := C34_aligned a o ho
  obtain ⟨e, he, hne⟩ := ellipse_off_axis svd hs (o.coefficients 0) _ hd level hl
  have heq : Hyperbola.errorEllipse svd ![o.coefficients 0, 0]
      (o.covarianceMatrix.submatrix ![0, 1] ![0, 1]) level = linearEllipse svd o level := by
    rw [linearEllipse, h1]
  have hmem : e ∈ linearEllipse svd o level := heq ▸ he
  refine ⟨e, hmem, ?_, ?_⟩
  · rw [linearErrorEllipse, if_pos rfl]
    exact List.mem_map.2 ⟨e, hmem, rfl⟩
  · rw [C99_pole_iff_partial]
    exact fun h => hne h.1

/-- At level zero all points of the curve are the pole of the fitted plane, the one
with the least vertical squares. -/
theorem C99_level_zero_partial (svd : SqSvd) {n : ℕ} (a : Fin n → Vec 3)
    (o : LinearOrientation) (ho : linearOrientation a = .ok o) :
    (linearErrorEllipse svd o true true 0).length = 1000 ∧
    ∃ p q, (∀ p' q' t', Spec.verticalSquares a p q (Spec.intercept a p q)
        ≤ Spec.verticalSquares a p' q' t') ∧
      ∀ tp ∈ linearErrorEllipse svd o true true 0, Spec.IsPole p q tp := by
  obtain ⟨r, c, hr, hc, _, haz, hco, hsl⟩ := linearOrientation_ok ho
  obtain ⟨h2, hmin, _⟩ := C31_least_squares a r hr c hc
  obtain ⟨k0, k1, k2⟩ := rotated_coefficients c
  rw [← haz, ← hco] at k0 k1 k2
  refine ⟨by rw [linearErrorEllipse, if_pos rfl, List.length_map, linearEllipse,
    Hyperbola.errorEllipse, List.length_map, Stereonet.angles_length], c 0, c 1, hmin, ?_⟩
  intro tp htp
  simp only [linearErrorEllipse, if_true, linearEllipse, Hyperbola.errorEllipse, List.map_map,
    List.mem_map, Function.comp] at htp
  obtain ⟨u, -, rfl⟩ := htp
  have e0 : ∀ M : Mat 2 2, (![0, 0] : Vec 2) ᵥ* M = 0 := by
    intro M
    funext i
    simp [Matrix.vecMul, dotProduct]
  simp only [mul_zero, zero_mul, e0, zero_add]
  have hb := Spec.turnedBack_coefficients ho hr hc
  have := (C99_pole_iff_partial o ![o.coefficients 0, o.coefficients 1]).2
    ⟨by simp [k1], by
      simp only [Matrix.cons_val_zero, k0]
      have : 0 ≤ Spec.gradient (c 0) (c 1) := Real.sqrt_nonneg _
      linarith⟩
  rw [hb] at this
  exact this

/-! ## C100 -/

/-- The covariance of the slopes in the frame turned by `az`, of which `S` is the
covariance in the frame of the data. -/
noncomputable def Spec.turnedCovariance (az : ℝ) (S : Mat 2 2) : Mat 2 2 :=
  !![Real.cos az, -Real.sin az; Real.sin az, Real.cos az] * S
    * (!![Real.cos az, -Real.sin az; Real.sin az, Real.cos az] : Mat 2 2).transpose

/-- The points of an error ellipse determine the covariance: they lie at the distance
`level` for no other covariance matrix. -/
theorem C76_determines_covariance (svd : SqSvd) (hs : svd.Valid) (c : Vec 2) (A M : Mat 2 2)
    (hA : Spec.Covariance A) (hM : Spec.Covariance M) (level : ℝ) (hl : level ≠ 0)
    (h : ∀ p ∈ Hyperbola.errorEllipse svd c A level, Spec.mahalanobisSq M c p = level ^ 2) :
    M = A := by
  have hdet : ∀ B : Mat 2 2, Spec.Covariance B → B.det ≠ 0 := by
    intro B hB hd
    obtain ⟨v, hv0, hv1⟩ := Matrix.exists_mulVec_eq_zero_iff.2 hd
    have := hB.2 v hv0
    rw [hv1] at this
    simp at this
  have hA' := (C76_level svd hs c A hA level 1000).2
  have hv := hs 2 A
  obtain ⟨-, -, s0⟩ := svd_eigen hv hA.1 hA.2 0
  obtain ⟨-, -, s1⟩ := svd_eigen hv hA.1 hA.2 1
  set s := (svd 2 A).2.1 with hsdef
  set V := (svd 2 A).2.2 with hVdef
  set D : Mat 2 2 := M⁻¹ - A⁻¹ with hD
  have hDsym : D.transpose = D := by
    rw [hD, Matrix.transpose_sub, Matrix.transpose_nonsing_inv, Matrix.transpose_nonsing_inv, hM.1,
      hA.1]
  have hD10 : D 1 0 = D 0 1 := congrFun (congrFun hDsym 0) 1
  set r0 := Real.sqrt (s 0) * level with hr0
  set r1 := Real.sqrt (s 1) * level with hr1
  have hr0n : r0 ≠ 0 := mul_ne_zero (Real.sqrt_pos.2 s0).ne' hl
  have hr1n : r1 ≠ 0 := mul_ne_zero (Real.sqrt_pos.2 s1).ne' hl
  -- the quadratic form of the difference vanishes at the points
  have hq : ∀ k < 1000,
      (![r0 * Real.cos (Stereonet.linspace 1000 k), r1 * Real.sin (Stereonet.linspace 1000 k)] ᵥ* V)
      ⬝ᵥ D *ᵥ (![r0 * Real.cos (Stereonet.linspace 1000 k),
        r1 * Real.sin (Stereonet.linspace 1000 k)] ᵥ* V) = 0 := by
    intro k hk
    have hmem : (![r0 * Real.cos (Stereonet.linspace 1000 k),
        r1 * Real.sin (Stereonet.linspace 1000 k)] ᵥ* V + c) ∈ Hyperbola.errorEllipse svd c A level :=
      List.mem_map.2 ⟨Stereonet.linspace 1000 k,
        List.mem_map.2 ⟨k, List.mem_range.2 hk, rfl⟩, rfl⟩
    have e1 := h _ hmem
    have e2 := hA' _ hmem
    rw [Spec.mahalanobisSq, add_sub_cancel_right] at e1 e2
    rw [hD, Matrix.sub_mulVec, dotProduct_sub, e1, e2, sub_self]
  set P := V * D * V.transpose with hP
  have hform : ∀ x y : ℝ, (![x, y] ᵥ* V) ⬝ᵥ D *ᵥ (![x, y] ᵥ* V)
      = P 0 0 * x ^ 2 + 2 * P 0 1 * (x * y) + P 1 1 * y ^ 2 := by
    intro x y
    simp [hP, Matrix.mul_apply, Matrix.vecMul, Matrix.mulVec, dotProduct, Fin.sum_univ_two, hD10]
    ring
  have hpi := Real.pi_pos
  set u := Stereonet.linspace 1000 1 with hu
  have hu0 : 0 < u := by
    simp [hu, Stereonet.linspace]
    positivity
  have hu1 : u < Real.pi / 2 := by
    simp [hu, Stereonet.linspace]
    linarith
  have hsin : 0 < Real.sin u := Real.sin_pos_of_pos_of_lt_pi hu0 (by linarith)
  have hcos : 0 < Real.cos u := Real.cos_pos_of_mem_Ioo ⟨by linarith, hu1⟩
  have k0 := hq 0 (by norm_num)
  have k1 := hq 1 (by norm_num)
  have k2 := hq 998 (by norm_num)
  have l0 : Stereonet.linspace 1000 0 = 0 := by simp [Stereonet.linspace]
  have l2 : Stereonet.linspace 1000 998 = 2 * Real.pi - u := by
    simp [hu, Stereonet.linspace]
    ring
  rw [hform, l0, Real.cos_zero, Real.sin_zero] at k0
  rw [hform] at k1
  rw [hform, l2, Real.cos_two_pi_sub, Real.sin_two_pi_sub] at k2
  have p00 : P 0 0 = 0 := by
    have : P 0 0 * r0 ^ 2 = 0 := by linarith
    rcases mul_eq_zero.1 this with q | q
    · exact q
    · exact absurd q (pow_ne_zero 2 hr0n)
  rw [p00] at k1 k2
  have p01 : P 0 1 = 0 := by
    have : P 0 1 * (r0 * Real.cos u * (r1 * Real.sin u)) = 0 := by linarith
    rcases mul_eq_zero.1 this with q | q
    · exact q
    · exact absurd q (mul_ne_zero (mul_ne_zero hr0n hcos.ne') (mul_ne_zero hr1n hsin.ne'))
  rw [p01] at k1
  have p11 : P 1 1 = 0 := by
    have : P 1 1 * (r1 * Real.sin u) ^ 2 = 0 := by linarith
    rcases mul_eq_zero.1 this with q | q
    · exact q
    · exact absurd q (pow_ne_zero 2 (mul_ne_zero hr1n hsin.ne'))
  have hPsym : P.transpose = P := by
    rw [hP]
    simp only [Matrix.transpose_mul, Matrix.transpose_transpose, hDsym, Matrix.mul_assoc]
  have p10 : P 1 0 = 0 := by
    have : P 1 0 = P 0 1 := congrFun (congrFun hPsym 0) 1
    rw [this, p01]
  have hP0 : P = 0 := by
    ext i j
    fin_cases i <;> fin_cases j
    · exact p00
    · exact p01
    · exact p10
    · exact p11
  have hVV : V.transpose * V = 1 := mul_eq_one_comm.1 hv.orthV
  have hD0 : D = 0 := by
    have : V.transpose * P * V = D := by
      rw [hP]
      calc V.transpose * (V * D * V.transpose) * V
          = (V.transpose * V) * D * (V.transpose * V) := by simp only [Matrix.mul_assoc]
        _ = D := by rw [hVV, Matrix.one_mul, Matrix.mul_one]
    rw [← this, hP0]
    simp
  have hinv : M⁻¹ = A⁻¹ := sub_eq_zero.1 hD0
  rw [← Matrix.nonsing_inv_nonsing_inv M (isUnit_iff_ne_zero.2 (hdet M hM)), hinv,
    Matrix.nonsing_inv_nonsing_inv A (isUnit_iff_ne_zero.2 (hdet A hA))]

/-- Turning keeps a covariance matrix one. -/
lemma turnedCovariance_cov {S : Mat 2 2} (hS : Spec.Covariance S) (az : ℝ) :
    Spec.Covariance (Spec.turnedCovariance az S) := by
  set Q : Mat 2 2 := !![Real.cos az, -Real.sin az; Real.sin az, Real.cos az] with hQ
  have hQQ : Q * Q.transpose = 1 := by
    have := Real.sin_sq_add_cos_sq az
    ext i j
    fin_cases i <;> fin_cases j <;> simp [hQ, Matrix.mul_apply, Fin.sum_univ_two] <;> nlinarith
  have e : Spec.turnedCovariance az S = Q * S * Q.transpose := rfl
  rw [e]
  constructor
  · simp only [Matrix.transpose_mul, Matrix.transpose_transpose, hS.1, Matrix.mul_assoc]
  · intro x hx
    have : x ⬝ᵥ (Q * S * Q.transpose) *ᵥ x = (Q.transpose *ᵥ x) ⬝ᵥ S *ᵥ (Q.transpose *ᵥ x) := by
      rw [← Matrix.mulVec_mulVec, ← Matrix.mulVec_mulVec, Matrix.dotProduct_mulVec,
        ← Matrix.mulVec_transpose]
    rw [this]
    apply hS.2
    intro h0
    apply hx
    have := congrArg (Q *ᵥ ·) h0
    simpa [Matrix.mulVec_mulVec, hQQ] using this

lemma turnedCovariance_apply (S : Mat 2 2) (az : ℝ) (i j : Fin 2) :
    Spec.turnedCovariance az S i j
      = (!![Real.cos az, -Real.sin az; Real.sin az, Real.cos az] i 0 * S 0 0
          + !![Real.cos az, -Real.sin az; Real.sin az, Real.cos az] i 1 * S 1 0)
            * !![Real.cos az, -Real.sin az; Real.sin az, Real.cos az] j 0
        + (!![Real.cos az, -Real.sin az; Real.sin az, Real.cos az] i 0 * S 0 1
          + !![Real.cos az, -Real.sin az; Real.sin az, Real.cos az] i 1 * S 1 1)
            * !![Real.cos az, -Real.sin az; Real.sin az, Real.cos az] j 1 := by
  rw [Spec.turnedCovariance, Matrix.mul_apply, Fin.sum_univ_two, Matrix.mul_apply, Matrix.mul_apply,
    Fin.sum_univ_two, Fin.sum_univ_two]
  rfl

lemma turnedCovariance_eq_iff {S : Mat 2 2} (hS : S.transpose = S) (az : ℝ) :
    Spec.turnedCovariance az S = S ↔ Real.sin az = 0 ∨ (S 0 1 = 0 ∧ S 0 0 = S 1 1) := by
  have s10 : S 1 0 = S 0 1 := congrFun (congrFun hS 0) 1
  have pyth := Real.sin_sq_add_cos_sq az
  constructor
  · intro h
    by_cases hz : Real.sin az = 0
    · exact Or.inl hz
    right
    have e00 := congrFun (congrFun h 0) 0
    have e01 := congrFun (congrFun h 0) 1
    rw [turnedCovariance_apply] at e00 e01
    simp [s10] at e00 e01
    set sn := Real.sin az
    set cs := Real.cos az
    -- with d = S00 - S11: sn (sn d + 2 cs S01) = 0 and sn (cs d - 2 sn S01) = 0
    have a1 : sn * (sn * (S 0 0 - S 1 1) + 2 * cs * S 0 1) = 0 := by
      linear_combination (-1 : ℝ) * e00 + S 0 0 * pyth
    have a2 : sn * (cs * (S 0 0 - S 1 1) - 2 * sn * S 0 1) = 0 := by
      linear_combination e01 - S 0 1 * pyth
    have b1 := (mul_eq_zero.1 a1).resolve_left hz
    have b2 := (mul_eq_zero.1 a2).resolve_left hz
    constructor
    · linear_combination (cs / 2) * b1 - (sn / 2) * b2 - S 0 1 * pyth
    · linear_combination sn * b1 + cs * b2 - (S 0 0 - S 1 1) * pyth
  · rintro (h | ⟨h1, h2⟩)
    · rw [h] at pyth
      ext i j
      fin_cases i <;> fin_cases j <;>
        simp [turnedCovariance_apply, s10, h]
      · linear_combination S 0 0 * pyth
      · linear_combination S 0 1 * pyth
      · linear_combination S 0 1 * pyth
      · linear_combination S 1 1 * pyth
    · ext i j
      fin_cases i <;> fin_cases j <;>
        simp [turnedCovariance_apply, s10, h1, h2]
      · linear_combination S 1 1 * pyth
      · ring
      · ring
      · linear_combination S 1 1 * pyth

/-- The ellipse `_ellipse(level)` about the coefficients in the turned frame is the
confidence ellipse of these coefficients exactly when the azimuth is a multiple of a
half turn or the covariance has no direction.  Missing from the claim: always. -/
theorem C100_ellipse_iff_partial (svd : SqSvd) (hs : svd.Valid) (o : LinearOrientation)
    (hS : Spec.Covariance (o.covarianceMatrix.submatrix ![0, 1] ![0, 1])) (level : ℝ)
    (hl : level ≠ 0) :
    (∀ p ∈ linearEllipse svd o level, Spec.mahalanobisSq
        (Spec.turnedCovariance o.azimuth (o.covarianceMatrix.submatrix ![0, 1] ![0, 1]))
        ![o.coefficients 0, o.coefficients 1] p = level ^ 2) ↔
      Real.sin o.azimuth = 0 ∨
        (o.covarianceMatrix 0 1 = 0 ∧ o.covarianceMatrix 0 0 = o.covarianceMatrix 1 1) := by
  have key := turnedCovariance_eq_iff hS.1 o.azimuth
  simp only [Matrix.submatrix_apply, Matrix.cons_val_zero, Matrix.cons_val_one] at key
  rw [← key]
  constructor
  · intro h
    exact C76_determines_covariance svd hs _ _ _ hS (turnedCovariance_cov hS _) level hl h
  · intro h p hp
    rw [h]
    exact (C76_level svd hs _ _ hS level 1000).2 p hp

/-- The covariance of the slopes of `fourPoints` and the azimuth of their plane. -/
lemma fourPoints_orientation : ∃ o, linearOrientation fourPoints = .ok o ∧
    o.covarianceMatrix.submatrix ![0, 1] ![0, 1] = (!![11 / 16, -7 / 16; -7 / 16, 11 / 16] : Mat 2 2) ∧
    Real.sin o.azimuth ≠ 0 := by
  obtain ⟨o, ho⟩ := linearOrientation_exists (by norm_num) fourPoints_not_collinear
  refine ⟨o, ho, ?_⟩
  obtain ⟨r, c, hr, hc, hm, haz, _, _⟩ := linearOrientation_ok ho
  obtain ⟨r', c', _, hr', hc', hcv, _⟩ := C32_witness_false
  rw [hr] at hr'
  cases hr'
  rw [hc] at hc'
  cases hc'
  obtain ⟨m, e, hm', he, _, hmg, hsym, _⟩ := C36_covariance fourPoints r hr fourPoints_not_collinear
  rw [hm] at hm'
  cases hm'
  obtain ⟨e', he', hres, _⟩ := C31_residuals fourPoints r hr c hc
  rw [he] at he'
  cases he'
  have hsse : ∑ i, e i ^ 2 = 18 := by
    simp only [hres, hcv, Fin.sum_univ_four, Spec.intercept, meanRows, fourPoints]
    simp
    norm_num
  obtain ⟨hrr, _⟩ := coefficients_rows hr hc
  have hG : r.C.transpose * r.C = !![44, 28, 0; 28, 44, 0; 0, 0, 4] := by
    rw [hrr]
    ext i j
    fin_cases i <;> fin_cases j <;>
    · simp [ofCentered, addOnes, Matrix.mul_apply, Fin.sum_univ_four, Coordinates.centered,
        meanRows, fourPoints]
      try norm_num
  have hmg' := hmg (by norm_num)
  rw [hG, hsse] at hmg'
  have q00 := congrFun (congrFun hmg' 0) 0
  have q01 := congrFun (congrFun hmg' 0) 1
  have q10 := congrFun (congrFun hmg' 1) 0
  have q11 := congrFun (congrFun hmg' 1) 1
  simp [Matrix.mul_apply, Fin.sum_univ_three] at q00 q01 q10 q11
  constructor
  · ext i j
    fin_cases i <;> fin_cases j <;> simp <;> linarith
  · have hsin := sqrt_mul_sin_arctan2 (-c 1) (-c 0)
    rw [haz, Real.sin_neg]
    intro h0
    rw [neg_eq_zero.1 h0, mul_zero, hcv] at hsin
    simp at hsin

lemma fourPoints_covariance : Spec.Covariance (!![11 / 16, -7 / 16; -7 / 16, 11 / 16] : Mat 2 2) := by
  constructor
  · ext i j; fin_cases i <;> fin_cases j <;> rfl
  · intro x hx
    have he : x ⬝ᵥ !![11 / 16, -7 / 16; -7 / 16, 11 / 16] *ᵥ x
        = (x 0 ^ 2 + x 1 ^ 2) / 4 + 7 / 16 * (x 0 - x 1) ^ 2 := by
      simp [Matrix.mulVec, dotProduct, Fin.sum_univ_two]; ring
    rw [he]
    have : x 0 ^ 2 + x 1 ^ 2 ≠ 0 := by
      intro h0
      apply hx
      have a0 : x 0 = 0 := by nlinarith [sq_nonneg (x 0), sq_nonneg (x 1)]
      have a1 : x 1 = 0 := by nlinarith [sq_nonneg (x 0), sq_nonneg (x 1)]
      funext i
      fin_cases i
      · exact a0
      · exact a1
    have : 0 < x 0 ^ 2 + x 1 ^ 2 := lt_of_le_of_ne (by positivity) (Ne.symm this)
    positivity

/-- Four points for which the ellipse is not the confidence ellipse of the coefficients,
at any level other than zero. -/
theorem C100_witness_false (svd : SqSvd) (hs : svd.Valid) (level : ℝ) (hl : level ≠ 0) :
    ∃ o, linearOrientation fourPoints = .ok o ∧ ∃ p ∈ linearEllipse svd o level,
      Spec.mahalanobisSq
        (Spec.turnedCovariance o.azimuth (o.covarianceMatrix.submatrix ![0, 1] ![0, 1]))
        ![o.coefficients 0, o.coefficients 1] p ≠ level ^ 2 := by
  obtain ⟨o, ho, hcov, hsin⟩ := fourPoints_orientation
  refine ⟨o, ho, ?_⟩
  by_contra hc
  push Not at hc
  rcases (C100_ellipse_iff_partial svd hs o (by rw [hcov]; exact fourPoints_covariance) level hl).1
    hc with h | ⟨h, -⟩
  · exact hsin h
  · have := congrFun (congrFun hcov 0) 1
    simp at this
    rw [h] at this
    norm_num at this

/-- The covariance of the same four points is determined by its ellipse. -/
example (svd : SqSvd) (hs : svd.Valid) : ∃ o, linearOrientation fourPoints = .ok o ∧ ∀ M,
    Spec.Covariance M → (∀ p ∈ Hyperbola.errorEllipse svd ![1, 2]
      (o.covarianceMatrix.submatrix ![0, 1] ![0, 1]) 2, Spec.mahalanobisSq M ![1, 2] p = 2 ^ 2) →
      M = o.covarianceMatrix.submatrix ![0, 1] ![0, 1] := by
  obtain ⟨o, ho, hcov, -⟩ := fourPoints_orientation
  exact ⟨o, ho, fun M hM h => C76_determines_covariance svd hs ![1, 2] _ M
    (by rw [hcov]; exact fourPoints_covariance) hM 2 two_ne_zero h⟩

/-- Non-vacuity of C99: the same four points. -/
example (svd : SqSvd) (hs : svd.Valid) : ∃ o, linearOrientation fourPoints = .ok o ∧
    ∃ e ∈ linearEllipse svd o 1,
      ¬ Spec.IsPole (Spec.turnedBack o.azimuth e).1 (Spec.turnedBack o.azimuth e).2
        (sphericalPoint o true e) := by
  obtain ⟨o, ho, hcov, -⟩ := fourPoints_orientation
  obtain ⟨e, he, -, h⟩ := C99_wrong_pole_false svd hs fourPoints o ho
    (by rw [hcov, Matrix.det_fin_two]; norm_num) 1 one_ne_zero
  exact ⟨o, ho, e, he, h⟩

/-- Non-vacuity of the other statements of C99 and C100: the same four points. -/
example (svd : SqSvd) : ∃ o, linearOrientation fourPoints = .ok o ∧
    Spec.Covariance (o.covarianceMatrix.submatrix ![0, 1] ![0, 1]) ∧
    (linearErrorEllipse svd o true true 0).length = 1000 := by
  obtain ⟨o, ho, hcov, -⟩ := fourPoints_orientation
  exact ⟨o, ho, by rw [hcov]; exact fourPoints_covariance,
    (C99_level_zero_partial svd fourPoints o ho).1⟩

/-- Non-vacuity: a backend that meets the contract exists. -/
example : ∃ svd : SqSvd, svd.Valid := Conics.exists_valid_sqSvd

end Attitude.Props
