import Verif.Model.SlopeEllipse
import Verif.Props.Linear

/-! # Axes of the error ellipse of a regression: C291 -/

namespace Attitude.Props

open Attitude Linear Matrix SlopeEllipse

namespace Spec

/-- The variance of the slope along the direction `t` (the gradient times the unit vector `(cos t, sin t)`), given
the covariance of the coefficients. -/
noncomputable def slopeVariance (m : Mat 3 3) (t : ℝ) : ℝ :=
  m 0 0 * Real.cos t ^ 2 + (m 0 1 + m 1 0) * (Real.cos t * Real.sin t) + m 1 1 * Real.sin t ^ 2

/-- `x` and `y` are the half axes of an ellipse of errors: in some direction the standard deviation of the slope is
`x`, across it is `y`, and in all directions it is between them. -/
def HalfAxes (m : Mat 3 3) (x y : ℝ) : Prop :=
  0 ≤ x ∧ 0 ≤ y ∧
  (∃ t, slopeVariance m t = x ^ 2 ∧ slopeVariance m (t + Real.pi / 2) = y ^ 2) ∧
  ∀ t, min x y ^ 2 ≤ slopeVariance m t ∧ slopeVariance m t ≤ max x y ^ 2

end Spec

lemma slopeVariance_quarter (m : Mat 3 3) (t : ℝ) : Spec.slopeVariance m (t + Real.pi / 2)
    = m 0 0 * Real.sin t ^ 2 - (m 0 1 + m 1 0) * (Real.cos t * Real.sin t) + m 1 1 * Real.cos t ^ 2 := by
  rw [Spec.slopeVariance, Real.cos_add_pi_div_two, Real.sin_add_pi_div_two]
  ring

/-- The variance and the one across it have the sum and, up to a square, the product of the eigenvalues. -/
lemma slopeVariance_product (m : Mat 3 3) (hm : m 1 0 = m 0 1) (t : ℝ) :
    Spec.slopeVariance m t + Spec.slopeVariance m (t + Real.pi / 2) = m 0 0 + m 1 1 ∧
    Spec.slopeVariance m t * Spec.slopeVariance m (t + Real.pi / 2)
      = m 0 0 * m 1 1 - m 0 1 * m 1 0
        + ((m 1 1 - m 0 0) * (Real.cos t * Real.sin t) + m 0 1 * (Real.cos t ^ 2 - Real.sin t ^ 2)) ^ 2 := by
  have h := Real.sin_sq_add_cos_sq t
  rw [slopeVariance_quarter, Spec.slopeVariance, hm]
  constructor
  · linear_combination (m 0 0 + m 1 1) * h
  · linear_combination (m 0 0 * m 1 1 - m 0 1 ^ 2) * (Real.sin t ^ 2 + Real.cos t ^ 2 + 1) * h

/-- In some direction the mixed term vanishes. -/
lemma exists_principal (m : Mat 3 3) : ∃ t : ℝ,
    (m 1 1 - m 0 0) * (Real.cos t * Real.sin t) + m 0 1 * (Real.cos t ^ 2 - Real.sin t ^ 2) = 0 := by
  set z : ℂ := ⟨m 0 0 - m 1 1, 2 * m 0 1⟩
  refine ⟨Complex.arg z / 2, ?_⟩
  have hc := Complex.norm_mul_cos_arg z
  have hs := Complex.norm_mul_sin_arg z
  have e : Complex.arg z = 2 * (Complex.arg z / 2) := by ring
  set t := Complex.arg z / 2
  rw [e, Real.cos_two_mul] at hc
  rw [e, Real.sin_two_mul] at hs
  have h := Real.sin_sq_add_cos_sq t
  have hc' : ‖z‖ * (2 * Real.cos t ^ 2 - 1) = m 0 0 - m 1 1 := hc
  have hs' : ‖z‖ * (2 * Real.sin t * Real.cos t) = 2 * m 0 1 := hs
  linear_combination (-(Real.cos t * Real.sin t)) * (-hc') - (1 / 2) * (Real.cos t ^ 2 - Real.sin t ^ 2) * hs'
    - ‖z‖ * Real.sin t * Real.cos t * h

lemma halfAxes_of_eig {eig : Eig} (he : eig.Valid) (m : Mat 3 3) (hm : m 1 0 = m 0 1)
    (hpos : ∀ t, 0 ≤ Spec.slopeVariance m t) :
    ∃ x y, axes eig m = some (x, y) ∧ Spec.HalfAxes m x y := by
  have hw := he (block m) (by ext i j; fin_cases i <;> fin_cases j <;> simp [block, hm])
  simp only [block, Matrix.of_apply, Matrix.cons_val_zero, Matrix.cons_val_one, Matrix.cons_val_fin_one] at hw
  obtain ⟨u, hu⟩ : ∃ u, u = (eig (block m)).1 := ⟨_, rfl⟩
  obtain ⟨v, hv⟩ : ∃ v, v = (eig (block m)).2 := ⟨_, rfl⟩
  simp only [block] at hu hv
  rw [← hu, ← hv] at hw
  have hprod : u * v = m 0 0 * m 1 1 - m 0 1 * m 1 0 := by have := hw 0; linarith
  have hsum : u + v = m 0 0 + m 1 1 := by have := hw 1; linarith
  obtain ⟨t, ht⟩ := exists_principal m
  obtain ⟨s1, p1⟩ := slopeVariance_product m hm t
  rw [ht] at p1
  have hroot : (Spec.slopeVariance m t - u) * (Spec.slopeVariance m t - v) = 0 := by
    have : Spec.slopeVariance m (t + Real.pi / 2) = u + v - Spec.slopeVariance m t := by linarith
    rw [this] at p1
    linear_combination -p1 + hprod
  have hex : ∃ t, Spec.slopeVariance m t = u ∧ Spec.slopeVariance m (t + Real.pi / 2) = v := by
    rcases mul_eq_zero.1 hroot with k | k
    · exact ⟨t, by linarith, by linarith⟩
    · refine ⟨t + Real.pi / 2, by linarith, ?_⟩
      obtain ⟨s2, -⟩ := slopeVariance_product m hm (t + Real.pi / 2)
      linarith
  obtain ⟨t₀, h1, h2⟩ := hex
  have hu0 : 0 ≤ u := h1 ▸ hpos t₀
  have hv0 : 0 ≤ v := h2 ▸ hpos _
  refine ⟨Real.sqrt u, Real.sqrt v, ?_, Real.sqrt_nonneg _, Real.sqrt_nonneg _,
    ⟨t₀, by rw [Real.sq_sqrt hu0, h1], by rw [Real.sq_sqrt hv0, h2]⟩, fun t => ?_⟩
  · simp only [axes, block, ← hu, ← hv]
    rw [if_neg (by push Not; exact ⟨hu0, hv0⟩)]
  · obtain ⟨s, p⟩ := slopeVariance_product m hm t
    have hbet : (Spec.slopeVariance m t - u) * (Spec.slopeVariance m t - v) ≤ 0 := by
      have e : Spec.slopeVariance m (t + Real.pi / 2) = u + v - Spec.slopeVariance m t := by linarith
      rw [e] at p
      nlinarith [sq_nonneg ((m 1 1 - m 0 0) * (Real.cos t * Real.sin t) + m 0 1 * (Real.cos t ^ 2 - Real.sin t ^ 2))]
    generalize Spec.slopeVariance m t = w at *
    rcases le_total u v with k | k
    · have k' := Real.sqrt_le_sqrt k
      rw [min_eq_left k', max_eq_right k', Real.sq_sqrt hu0, Real.sq_sqrt hv0]
      constructor <;> nlinarith
    · have k' := Real.sqrt_le_sqrt k
      rw [min_eq_right k', max_eq_left k', Real.sq_sqrt hu0, Real.sq_sqrt hv0]
      constructor <;> nlinarith

/-- The covariance of a regression gives no slope a negative variance. -/
lemma regression_variance_nonneg {n : ℕ} {a : Fin n → Vec 3} {r : Regression n} (hr : initRows a = .ok r)
    (hcol : ¬ Spec.CollinearInPlan a) {m : Mat 3 3} (hm : (covarianceMatrix r).1 = .ok m) (t : ℝ) :
    m 1 0 = m 0 1 ∧ 0 ≤ Spec.slopeVariance m t := by
  obtain ⟨m', e, h1, -, h3, h4, hsym, -⟩ := C36_covariance a r hr hcol
  rw [hm] at h1
  injection h1 with h1
  subst h1
  have hs : m 1 0 = m 0 1 := congrFun (congrFun hsym 0) 1
  refine ⟨hs, ?_⟩
  by_cases hn : n = 3
  · rw [h3 hn]
    simp [Spec.slopeVariance]
  obtain ⟨c, hc⟩ := (C31_singular_iff a r hr).2.2 hcol
  obtain ⟨-, -, hd, -⟩ := coefficients_rows hr hc
  have hG := h4 hn
  set x : Vec 3 := ![Real.cos t, Real.sin t, 0]
  set y : Vec 3 := (matrixSquared r.C)⁻¹ *ᵥ x
  have hx : x = (r.C.transpose * r.C) *ᵥ y := by
    show x = (matrixSquared r.C) *ᵥ ((matrixSquared r.C)⁻¹ *ᵥ x)
    rw [Matrix.mulVec_mulVec, Matrix.mul_nonsing_inv _ (isUnit_iff_ne_zero.2 hd), Matrix.one_mulVec]
  have hv : Spec.slopeVariance m t = x ⬝ᵥ m *ᵥ x := by
    simp only [Spec.slopeVariance, dotProduct, Matrix.mulVec, Fin.sum_univ_three, x]
    simp
    ring
  have hk : 0 ≤ ∑ i, e i ^ 2 := Finset.sum_nonneg fun i _ => sq_nonneg _
  have : x ⬝ᵥ m *ᵥ x = (∑ i, e i ^ 2) * ((r.C *ᵥ y) ⬝ᵥ (r.C *ᵥ y)) := by
    have e1 : m *ᵥ x = (∑ i, e i ^ 2) • y := by
      rw [hx, Matrix.mulVec_mulVec, hG, Matrix.smul_mulVec, Matrix.one_mulVec]
    rw [e1, dotProduct_smul, smul_eq_mul, hx, ← Matrix.mulVec_mulVec, dotProduct_comm, Matrix.dotProduct_mulVec,
      Matrix.vecMul_transpose]
  rw [hv, this]
  refine mul_nonneg hk (Finset.sum_nonneg fun i _ => mul_self_nonneg _)

/-- For every regression of points that are not on a line in plan, and every valid solver: the numbers returned by
`axes` for its covariance are real and are the half axes of the ellipse of errors of the slopes. -/
theorem C291_half_axes (eig : Eig) (he : eig.Valid) {n : ℕ} (a : Fin n → Vec 3) (r : Regression n)
    (hr : initRows a = .ok r) (hcol : ¬ Spec.CollinearInPlan a) :
    ∃ m x y, (covarianceMatrix r).1 = .ok m ∧ axes eig m = some (x, y) ∧ Spec.HalfAxes m x y := by
  obtain ⟨m, e, hm, -⟩ := C36_covariance a r hr hcol
  obtain ⟨x, y, h1, h2⟩ := halfAxes_of_eig he m (regression_variance_nonneg hr hcol hm 0).1
    fun t => (regression_variance_nonneg hr hcol hm t).2
  exact ⟨m, x, y, hm, h1, h2⟩

/-- The standard errors of the two coefficients are between the half axes; the squares have the same sum. -/
theorem C291_standard_errors (eig : Eig) (he : eig.Valid) {n : ℕ} (a : Fin n → Vec 3) (r : Regression n)
    (hr : initRows a = .ok r) (hcol : ¬ Spec.CollinearInPlan a) :
    ∃ m x y s, (covarianceMatrix r).1 = .ok m ∧ axes eig m = some (x, y) ∧ (standardErrors r).1 = .ok s ∧
      min x y ≤ s 0 ∧ s 0 ≤ max x y ∧ min x y ≤ s 1 ∧ s 1 ≤ max x y ∧ s 0 ^ 2 + s 1 ^ 2 = x ^ 2 + y ^ 2 := by
  obtain ⟨m, x, y, hm, hxy, hx, hy, ⟨t, h1, h2⟩, hall⟩ := C291_half_axes eig he a r hr hcol
  obtain ⟨m', -, hm', -, -, -, -, hdiag⟩ := C36_covariance a r hr hcol
  rw [hm] at hm'
  injection hm' with hm'
  subst hm'
  have hs : (standardErrors r).1 = .ok fun j => Real.sqrt (m j j) := by
    unfold standardErrors
    rcases hc : covarianceMatrix r with ⟨v, r'⟩
    rw [hc] at hm
    simp only at hm
    subst hm
    rfl
  have a0 := hall 0
  have a1 := hall (Real.pi / 2)
  simp only [Spec.slopeVariance, Real.cos_zero, Real.sin_zero, Real.cos_pi_div_two, Real.sin_pi_div_two] at a0 a1
  have hmin : 0 ≤ min x y := le_min hx hy
  have hmax : 0 ≤ max x y := le_max_of_le_left hx
  have hsum := (slopeVariance_product m (regression_variance_nonneg hr hcol hm 0).1 t).1
  refine ⟨m, x, y, _, hm, hxy, hs, ?_, ?_, ?_, ?_, ?_⟩
  · exact Real.le_sqrt_of_sq_le (by linarith [a0.1])
  · exact Real.sqrt_le_iff.2 ⟨hmax, by linarith [a0.2]⟩
  · exact Real.le_sqrt_of_sq_le (by linarith [a1.1])
  · exact Real.sqrt_le_iff.2 ⟨hmax, by linarith [a1.2]⟩
  · show Real.sqrt (m 0 0) ^ 2 + Real.sqrt (m 1 1) ^ 2 = _
    rw [Real.sq_sqrt (hdiag 0), Real.sq_sqrt (hdiag 1)]
    linarith

/-- A solver that puts the larger root first. -/
noncomputable def descendingEig : Eig := fun M =>
  ((M 0 0 + M 1 1 + Real.sqrt ((M 0 0 - M 1 1) ^ 2 + 4 * (M 0 1 * M 1 0))) / 2,
   (M 0 0 + M 1 1 - Real.sqrt ((M 0 0 - M 1 1) ^ 2 + 4 * (M 0 1 * M 1 0))) / 2)

lemma descendingEig_valid : descendingEig.Valid := by
  intro M hM x
  have hs : M 1 0 = M 0 1 := congrFun (congrFun hM 0) 1
  have h := Real.sq_sqrt (show 0 ≤ (M 0 0 - M 1 1) ^ 2 + 4 * (M 0 1 * M 1 0) by
    rw [hs]; nlinarith [sq_nonneg (M 0 0 - M 1 1), sq_nonneg (M 0 1)])
  simp only [descendingEig]
  linear_combination -(1 / 4) * h

/-- Two valid solvers can return the half axes in different orders: which of the two numbers is the longer one is not
determined (they are the same two numbers for all solvers). -/
theorem C291_order_false : ∃ eig eig' : Eig, eig.Valid ∧ eig'.Valid ∧
    (∀ m : Mat 3 3, (axes eig m).map Prod.swap = axes eig' m) ∧
    axes eig !![4, 0, 0; 0, 1, 0; 0, 0, 1] = some (2, 1) := by
  refine ⟨descendingEig, fun M => (descendingEig M).swap, descendingEig_valid, fun M hM x => ?_, fun m => ?_, ?_⟩
  · rw [← descendingEig_valid M hM x]
    simp only [Prod.fst_swap, Prod.snd_swap]
    ring
  · simp only [axes, Prod.fst_swap, Prod.snd_swap]
    by_cases h : (descendingEig (block m)).1 < 0 ∨ (descendingEig (block m)).2 < 0
    · rw [if_pos h, if_pos h.symm]; rfl
    · rw [if_neg h, if_neg fun k => h k.symm]; rfl
  · have h3 : Real.sqrt ((4 - 1) ^ 2) = 3 := by
      rw [Real.sqrt_sq (by norm_num)]; norm_num
    have h1 : descendingEig (block !![4, 0, 0; 0, 1, 0; 0, 0, 1]) = (4, 1) := by
      simp [descendingEig, block, h3]
      norm_num
    simp only [axes, h1]
    rw [if_neg (by norm_num), Real.sqrt_one, show (4 : ℝ) = 2 ^ 2 by norm_num, Real.sqrt_sq (by norm_num)]

example : ∃ r, initRows fourPoints = .ok r ∧ ¬ Spec.CollinearInPlan fourPoints ∧ descendingEig.Valid :=
  ⟨_, by simp [initRows]; rfl, fourPoints_not_collinear, descendingEig_valid⟩

end Attitude.Props
