import Verif.Props.Statistics
import Verif.Props.Rotations

/-!
# Where the Bingham density is highest, and how far the statistical distance is off
-/

namespace Attitude.Props

open Attitude Statistics

/-! ## C137 -/

/-- The direction at a longitude and a latitude. -/
noncomputable def Spec.towards (lon lat : ℝ) : Vec 3 :=
  ![Real.cos lat * Real.cos lon, Real.cos lat * Real.sin lon, Real.sin lat]

/-- A direction is along another one, with either sign. -/
def Spec.AlongAxis (v w : Vec 3) : Prop := v = w ∨ v = -w

/-- The density is highest at a direction. -/
def Spec.IsMode (density : ℝ → ℝ → Option ℝ) (lon₀ lat₀ : ℝ) : Prop :=
  ∃ p₀, density lon₀ lat₀ = some p₀ ∧ ∀ lon lat, ∃ p, density lon lat = some p ∧ p ≤ p₀

lemma direction_unit (lon lat : ℝ) : ∑ i, Spec.towards lon lat i ^ 2 = 1 := by
  have := sph2cart_unit lon lat
  simpa [Spec.towards, Fin.sum_univ_three] using this

lemma direction_surj {v : Vec 3} (hv : ∑ i, v i ^ 2 = 1) : ∃ lon lat, Spec.towards lon lat = v := by
  rw [Fin.sum_univ_three] at hv
  have h := sph2cart_of_unit hv
  simp only [Rotations.sph2cart, Prod.mk.injEq] at h
  refine ⟨arctan2 (v 1) (v 0), Real.arcsin (v 2), ?_⟩
  funext i
  fin_cases i
  · exact h.1
  · exact h.2.1
  · exact h.2.2

/-- Lengths are kept by orthonormal axes. -/
lemma coords_sq {axes : Mat 3 3} (ho : axes * axes.transpose = 1) (x : Vec 3) :
    ∑ j, (∑ i, x i * axes i j) ^ 2 = ∑ i, x i ^ 2 := by
  have r : ∀ i j, ∑ k, axes i k * axes j k = if i = j then 1 else 0 := by
    intro i j
    have := congrFun (congrFun ho i) j
    simpa [Matrix.mul_apply, Matrix.one_apply] using this
  simp only [Fin.sum_univ_three] at r ⊢
  have r00 := r 0 0; have r01 := r 0 1; have r02 := r 0 2
  have r11 := r 1 1; have r12 := r 1 2; have r22 := r 2 2
  simp at r00 r01 r02 r11 r12 r22
  linear_combination x 0 ^ 2 * r00 + x 1 ^ 2 * r11 + x 2 ^ 2 * r22 + 2 * x 0 * x 1 * r01
    + 2 * x 0 * x 2 * r02 + 2 * x 1 * x 2 * r12

lemma columns_orthonormal {axes : Mat 3 3} (ho : axes * axes.transpose = 1) (i j : Fin 3) :
    ∑ k, axes k i * axes k j = if i = j then 1 else 0 := by
  have h : axes.transpose * axes = 1 := mul_eq_one_comm.1 ho
  have := congrFun (congrFun h i) j
  simpa [Matrix.mul_apply, Matrix.one_apply] using this

lemma three_sq_zero {a b c : ℝ} (h : a ^ 2 + b ^ 2 + c ^ 2 = 0) : a = 0 ∧ b = 0 ∧ c = 0 := by
  refine ⟨?_, ?_, ?_⟩ <;> apply pow_eq_zero_iff (two_ne_zero) |>.1 <;>
    nlinarith [sq_nonneg a, sq_nonneg b, sq_nonneg c]

lemma sq_eq_one_cases {a : ℝ} (h : a ^ 2 = 1) : a = 1 ∨ a = -1 := by
  have : (a - 1) * (a + 1) = 0 := by linear_combination h
  rcases mul_eq_zero.1 this with h | h
  · left; linarith
  · right; linarith

/-- The squared coordinate along the third column is one only for that column. -/
lemma along_third {axes : Mat 3 3} (ho : axes * axes.transpose = 1) {x : Vec 3}
    (hx : ∑ i, x i ^ 2 = 1) :
    (∑ i, x i * axes i 2) ^ 2 = 1 ↔ Spec.AlongAxis x (fun i => axes i 2) := by
  have hc := columns_orthonormal ho 2 2
  simp only [Fin.sum_univ_three, if_true] at hx hc ⊢
  constructor
  · intro h
    rcases (sq_eq_one_cases h) with h1 | h1
    · left
      have hz : (x 0 - axes 0 2) ^ 2 + (x 1 - axes 1 2) ^ 2 + (x 2 - axes 2 2) ^ 2 = 0 := by
        linear_combination hx + hc - 2 * h1
      have z := three_sq_zero hz
      funext i; fin_cases i
      · exact sub_eq_zero.1 z.1
      · exact sub_eq_zero.1 z.2.1
      · exact sub_eq_zero.1 z.2.2
    · right
      have hz : (x 0 + axes 0 2) ^ 2 + (x 1 + axes 1 2) ^ 2 + (x 2 + axes 2 2) ^ 2 = 0 := by
        linear_combination hx + hc + 2 * h1
      have z := three_sq_zero hz
      funext i; fin_cases i
      · exact eq_neg_of_add_eq_zero_left z.1
      · exact eq_neg_of_add_eq_zero_left z.2.1
      · exact eq_neg_of_add_eq_zero_left z.2.2
  · rintro (h | h)
    · rw [h]
      have : axes 0 2 * axes 0 2 + axes 1 2 * axes 1 2 + axes 2 2 * axes 2 2 = 1 := hc
      rw [this]; norm_num
    · rw [h]
      have : axes 0 2 * axes 0 2 + axes 1 2 * axes 1 2 + axes 2 2 * axes 2 2 = 1 := hc
      simp only [Pi.neg_apply]
      linear_combination (axes 0 2 * axes 0 2 + axes 1 2 * axes 1 2 + axes 2 2 * axes 2 2 + 1) * this

/-- The density as the exponential of a quadratic form. -/
lemma bingham_value (hyp1f1 : ℝ → ℝ → ℝ → ℝ) (hpos : ∀ a b c, 0 < hyp1f1 a b c) (h : Vec 3)
    (hh : ∀ i, 0 < h i) (axes : Mat 3 3) :
    ∃ F : ℝ, 0 < F ∧ ∀ lon lat, binghamPdf hyp1f1 h axes lon lat
      = some (1 / (F * Real.exp (∑ j, h j / h 2 ^ 2 *
          (∑ i, Spec.towards lon lat i * axes i j) ^ 2))) := by
  have hne : ¬ (h 0 = 0 ∨ h 1 = 0 ∨ h 2 = 0) := by
    push Not; exact ⟨(hh 0).ne', (hh 1).ne', (hh 2).ne'⟩
  have hw : hyp1f1 (1 / (1 / (h 2 ^ 2 / h 0))) (1 / (1 / (h 2 ^ 2 / h 1)))
      (1 / (1 / (h 2 ^ 2 / h 2))) ≠ 0 := (hpos _ _ _).ne'
  refine ⟨1 / hyp1f1 (1 / (1 / (h 2 ^ 2 / h 0))) (1 / (1 / (h 2 ^ 2 / h 1)))
      (1 / (1 / (h 2 ^ 2 / h 2))), one_div_pos.2 (hpos _ _ _), fun lon lat => ?_⟩
  simp only [binghamPdf, if_neg hne, if_neg hw, binghamExponent]
  have e : ∀ j, (1 : ℝ) / (h 2 ^ 2 / h j) = h j / h 2 ^ 2 := fun j => by
    rw [one_div_div]
  simp only [e]
  rfl

/-- For orthonormal axes and a smallest third entry, the directions at which the density is
highest are exactly those along the third *column* of the matrix of axes.  The pole of the plane
is its third *row*. -/
theorem C137_mode_column_partial (hyp1f1 : ℝ → ℝ → ℝ → ℝ) (hpos : ∀ a b c, 0 < hyp1f1 a b c)
    (h : Vec 3) (h2 : 0 < h 2) (h12 : h 2 < h 1) (h02 : h 2 < h 0) (axes : Mat 3 3)
    (ho : axes * axes.transpose = 1) (lon₀ lat₀ : ℝ) :
    Spec.IsMode (binghamPdf hyp1f1 h axes) lon₀ lat₀ ↔
      Spec.AlongAxis (Spec.towards lon₀ lat₀) (fun i => axes i 2) := by
  have hh : ∀ i, 0 < h i := by
    intro i; fin_cases i
    · exact h2.trans h02
    · exact h2.trans h12
    · exact h2
  obtain ⟨F, hF, hv⟩ := bingham_value hyp1f1 hpos h hh axes
  -- the exponent
  set E : Vec 3 → ℝ := fun x => ∑ j, h j / h 2 ^ 2 * (∑ i, x i * axes i j) ^ 2 with hE
  have hs : (0 : ℝ) < h 2 ^ 2 := by positivity
  have key : ∀ x : Vec 3, ∑ i, x i ^ 2 = 1 →
      h 2 / h 2 ^ 2 ≤ E x ∧ (E x = h 2 / h 2 ^ 2 ↔ Spec.AlongAxis x (fun i => axes i 2)) := by
    intro x hx
    have hc := (coords_sq ho x).trans hx
    rw [← along_third ho hx]
    set y : Vec 3 := fun j => ∑ i, x i * axes i j with hy
    have hc' : y 0 ^ 2 + y 1 ^ 2 + y 2 ^ 2 = 1 := by
      rw [Fin.sum_univ_three] at hc; exact hc
    have hEx : E x = h 2 / h 2 ^ 2 + (h 0 - h 2) / h 2 ^ 2 * y 0 ^ 2
        + (h 1 - h 2) / h 2 ^ 2 * y 1 ^ 2 := by
      simp only [hE]
      rw [Fin.sum_univ_three]
      change h 0 / h 2 ^ 2 * y 0 ^ 2 + h 1 / h 2 ^ 2 * y 1 ^ 2 + h 2 / h 2 ^ 2 * y 2 ^ 2 = _
      linear_combination h 2 / h 2 ^ 2 * hc'
    have a0 : 0 < (h 0 - h 2) / h 2 ^ 2 := div_pos (by linarith) hs
    have a1 : 0 < (h 1 - h 2) / h 2 ^ 2 := div_pos (by linarith) hs
    have b0 : 0 ≤ (h 0 - h 2) / h 2 ^ 2 * y 0 ^ 2 := by positivity
    have b1 : 0 ≤ (h 1 - h 2) / h 2 ^ 2 * y 1 ^ 2 := by positivity
    refine ⟨by rw [hEx]; linarith, ?_⟩
    change _ ↔ y 2 ^ 2 = 1
    rw [hEx]
    constructor
    · intro e
      have c0 : (h 0 - h 2) / h 2 ^ 2 * y 0 ^ 2 = 0 := by linarith
      have c1 : (h 1 - h 2) / h 2 ^ 2 * y 1 ^ 2 = 0 := by linarith
      have d0 := (mul_eq_zero.1 c0).resolve_left a0.ne'
      have d1 := (mul_eq_zero.1 c1).resolve_left a1.ne'
      linarith
    · intro e
      have d0 : y 0 ^ 2 = 0 := by nlinarith [sq_nonneg (y 0), sq_nonneg (y 1)]
      have d1 : y 1 ^ 2 = 0 := by nlinarith [sq_nonneg (y 0), sq_nonneg (y 1)]
      rw [d0, d1]; ring
  have mono : ∀ a b : ℝ, 1 / (F * Real.exp a) ≤ 1 / (F * Real.exp b) ↔ b ≤ a := by
    intro a b
    rw [one_div_le_one_div (by positivity) (by positivity), mul_le_mul_iff_right₀ hF,
      Real.exp_le_exp]
  constructor
  · rintro ⟨p₀, hp₀, hmax⟩
    rw [hv] at hp₀
    obtain ⟨lon, lat, hd⟩ := direction_surj (v := fun i => axes i 2) (by
      have := columns_orthonormal ho 2 2
      simpa [sq] using this)
    obtain ⟨p, hp, hle⟩ := hmax lon lat
    rw [hv] at hp
    rw [← Option.some.inj hp, ← Option.some.inj hp₀, mono] at hle
    have k0 := key _ (direction_unit lon₀ lat₀)
    have k1 := key _ (direction_unit lon lat)
    have e1 : E (Spec.towards lon lat) = h 2 / h 2 ^ 2 := k1.2.2 (Or.inl hd)
    exact k0.2.1 (le_antisymm (hle.trans_eq e1) k0.1)
  · intro hal
    refine ⟨_, hv lon₀ lat₀, fun lon lat => ⟨_, hv lon lat, ?_⟩⟩
    rw [mono]
    have k0 := (key _ (direction_unit lon₀ lat₀)).2.2 hal
    have k1 := (key _ (direction_unit lon lat)).1
    exact k0.trans_le k1

/-- Axes turned about the vertical by a right angle after a tilt: the row and the column differ,
and the density is not highest at the pole. -/
example : ∃ (axes : Mat 3 3) (lon lat : ℝ), axes * axes.transpose = 1 ∧
    Spec.towards lon lat = axes 2 ∧
    ¬ Spec.IsMode (binghamPdf (fun _ _ _ => 1) ![3, 2, 1] axes) lon lat := by
  refine ⟨!![0, 1, 0; 0, 0, 1; 1, 0, 0], 0, 0, ?_, ?_, ?_⟩
  · ext i j; fin_cases i <;> fin_cases j <;> simp [Matrix.mul_apply, Fin.sum_univ_three]
  · funext i; fin_cases i <;> simp [Spec.towards]
  · rw [C137_mode_column_partial _ (fun _ _ _ => one_pos) ![3, 2, 1] (by simp) (by simp) (by simp)
      _ (by ext i j; fin_cases i <;> fin_cases j <;> simp [Matrix.mul_apply, Fin.sum_univ_three])]
    rintro (h | h) <;> simpa [Spec.towards] using congrFun h 0

/-! ## C139 -/

/-- The Bhattacharyya distance of two normal distributions. -/
noncomputable def Spec.bhattacharyya (u1 u2 : Vec 3) (s1 s2 : Mat 3 3) : ℝ :=
  1 / 8 * ((u1 - u2) ⬝ᵥ ((1 / 2 : ℝ) • (s1 + s2))⁻¹.mulVec (u1 - u2))
    + 1 / 2 * Real.log (((1 / 2 : ℝ) • (s1 + s2)).det / Real.sqrt (s1.det * s2.det))

/-- For fits that pass the assertions the value is the Bhattacharyya distance less a quarter of
the logarithm of the product of the determinants; the root of that product is missing in the
code. -/
theorem C139_difference_partial (u1 u2 : Vec 3) (s1 s2 : Mat 3 3) (hu1 : ∀ i, 0 < u1 i)
    (hu2 : ∀ i, 0 < u2 i) (hs1 : ∀ i, 0 < ∑ j, s1 i j) (hs2 : ∀ i, 0 < ∑ j, s2 i j)
    (h1 : 0 < s1.det) (h2 : 0 < s2.det) (hs : 0 < ((1 / 2 : ℝ) • (s1 + s2)).det) :
    ∃ d, bhattacharyya u1 u2 s1 s2 = .ok (some d) ∧
      d = Spec.bhattacharyya u1 u2 s1 s2 - 1 / 4 * Real.log (s1.det * s2.det) ∧
      (d = Spec.bhattacharyya u1 u2 s1 s2 ↔ s1.det * s2.det = 1) := by
  have hp : 0 < s1.det * s2.det := mul_pos h1 h2
  have c1 : ¬ ¬ ((∀ i, 0 < u1 i) ∧ (∀ i, 0 < u2 i) ∧ (∀ i, 0 < ∑ j, s1 i j) ∧
      (∀ i, 0 < ∑ j, s2 i j)) := not_not.2 ⟨hu1, hu2, hs1, hs2⟩
  have c2 : ¬ (s1.det * s2.det = 0 ∨
      ((1 / 2 : ℝ) • (s1 + s2)).det / (s1.det * s2.det) ≤ 0) := by
    push Not
    exact ⟨hp.ne', div_pos hs hp⟩
  have hd : 1 / 2 * Real.log (((1 / 2 : ℝ) • (s1 + s2)).det / (s1.det * s2.det))
      = 1 / 2 * Real.log (((1 / 2 : ℝ) • (s1 + s2)).det / Real.sqrt (s1.det * s2.det))
        - 1 / 4 * Real.log (s1.det * s2.det) := by
    rw [Real.log_div hs.ne' hp.ne', Real.log_div hs.ne' (Real.sqrt_pos.2 hp).ne',
      Real.log_sqrt hp.le]
    ring
  have he : 1 / 8 * ((u1 - u2) ⬝ᵥ ((1 / 2 : ℝ) • (s1 + s2))⁻¹.mulVec (u1 - u2))
      + 1 / 2 * Real.log (((1 / 2 : ℝ) • (s1 + s2)).det / (s1.det * s2.det))
      = Spec.bhattacharyya u1 u2 s1 s2 - 1 / 4 * Real.log (s1.det * s2.det) := by
    rw [hd, Spec.bhattacharyya]; ring
  refine ⟨_, by
    unfold bhattacharyya
    simp only [if_neg c1, if_neg hs.ne', if_neg c2], he, ?_⟩
  rw [he]
  constructor
  · intro h
    exact Real.eq_one_of_pos_of_log_eq_zero hp (by linarith)
  · intro h; rw [h]; simp

/-- Two fits with the errors one and two. -/
example : ∃ d, bhattacharyya ![1, 2, 3] ![2, 2, 3] 1 ((2 : ℝ) • 1) = .ok (some d) ∧
    d ≠ Spec.bhattacharyya ![1, 2, 3] ![2, 2, 3] 1 ((2 : ℝ) • 1) := by
  have e : (1 / 2 : ℝ) • ((1 : Mat 3 3) + (2 : ℝ) • 1) = (3 / 2 : ℝ) • 1 := by
    ext i j; simp only [Matrix.smul_apply, Matrix.add_apply, smul_eq_mul]; ring
  obtain ⟨d, hd, _, hi⟩ := C139_difference_partial ![1, 2, 3] ![2, 2, 3] 1 ((2 : ℝ) • 1)
    (by intro i; fin_cases i <;> simp) (by intro i; fin_cases i <;> simp)
    (by intro i; fin_cases i <;> simp [Matrix.one_apply])
    (by intro i; fin_cases i <;> simp [Matrix.one_apply]) (by simp) (by simp)
    (by rw [e]; simp)
  refine ⟨d, hd, fun h => ?_⟩
  have := hi.1 h
  simp only [Matrix.det_smul, Matrix.det_one] at this
  norm_num at this

end Attitude.Props
