import Verif.Props.PcaAngles
import Verif.Props.PcaExact

/-!
# C183: strike, dip and rake locate the principal axes
-/

namespace Attitude.Props

open Attitude Pca

/-- The line of the plane with strike `s` and dip `d` that makes the angle `r` (degrees) with the
direction up dip, on the side of the strike (`ε = 1`) or the opposite one (`ε = -1`). -/
noncomputable def Spec.planeLine (s d r ε : ℝ) : Vec 3 :=
  -(Real.cos (radians r)) • Spec.plunging (s + 90) d + (ε * Real.sin (radians r)) • Spec.heading s

/-- `strike_dip_rake` of a plane that is not horizontal gives the direction of the largest extent of the
data up to the side of the dip direction on which it is. -/
theorem C183_axis_partial (svd : SvdFn) (hs : svd.Valid) {n : ℕ} (a : Fin n → Vec 3) (f : Fit n)
    (hf : init svd a none none = .ok (some f)) (s d : ℝ) (r : Option ℝ)
    (h : strikeDipRake f = (some (s, d), r)) (hd : d ≠ 0) :
    ∃ r', r = some r' ∧ 0 ≤ r' ∧ r' ≤ 180 ∧
      (f.V 0 = Spec.planeLine s d r' 1 ∨ f.V 0 = Spec.planeLine s d r' (-1)) := by
  simp only [strikeDipRake, Prod.mk.injEq] at h
  obtain ⟨hsd, hr⟩ := h
  obtain ⟨U, hF⟩ := init_default hs hf
  obtain ⟨v, hv, hveq, hvn, -, -, -⟩ := C16_dip_dr_partial svd hs a f hf s d hsd hd
  have hV0 : norm (f.V 0) = 1 := hF.svd.row_norm 0
  have hang : Rotations.angle v (f.V 0) = some (Real.arccos (vdot v (f.V 0))) := by
    simp [Rotations.angle, fdiv, hvn, hV0]
  have hrk : rake f = some (degrees (Real.arccos (vdot v (f.V 0)))) := by
    simp [rake, hv, hang]
  rw [hrk] at hr
  obtain ⟨b1, b2⟩ := C17_rake_range_partial f _ hrk
  refine ⟨_, hr.symm, b1, b2, ?_⟩
  -- the axis in the frame of the plane
  have hperp : vdot (f.V 0) (sdNormal s d) = 0 := by
    obtain ⟨s', d', e, -, -, -, -, a5⟩ := strikeDipOf_spec (fit_axis_ne_zero hF 2)
    rw [show strikeDipOf (f.V 2) = some (s, d) from hsd] at e
    cases e
    rw [hF.svd.row_norm, one_smul] at a5
    rw [a5]
    have h02 : vdot (f.V 0) (f.V 2) = 0 := by
      have := hF.svd.row_dot 0 2
      simpa using this
    rcases upward_eq (f.V 2) with k | k <;> rw [k]
    · exact h02
    · have : vdot (f.V 0) (-f.V 2) = -vdot (f.V 0) (f.V 2) := by simp [vdot]
      rw [this, h02, neg_zero]
  have e1 := Real.sin_sq_add_cos_sq (radians s)
  have e2 := Real.sin_sq_add_cos_sq (radians d)
  have hunit : f.V 0 0 ^ 2 + f.V 0 1 ^ 2 + f.V 0 2 ^ 2 = 1 := by
    have := norm_sq' (f.V 0)
    rw [hV0, Fin.sum_univ_three] at this
    linarith
  set c := vdot v (f.V 0) with hc
  set t := vdot (f.V 0) (Spec.heading s) with ht
  have hcv : c = -(vdot (f.V 0) (Spec.plunging (s + 90) d)) := by
    rw [hc, hveq, vdot3, vdot3]
    simp
    ring
  have hexp : f.V 0 = (-c) • Spec.plunging (s + 90) d + t • Spec.heading s := by
    rw [hcv, ht, neg_neg, vdot3, vdot3]
    rw [vdot3] at hperp
    simp only [sdNormal, Matrix.cons_val_zero, Matrix.cons_val_one, Matrix.cons_val] at hperp
    rw [heading_eq, plunging_eq]
    set w := f.V 0
    set S := Real.sin (radians s)
    set C := Real.cos (radians s)
    set T := Real.sin (radians d)
    set K := Real.cos (radians d)
    funext j
    fin_cases j
    · simp
      linear_combination (-w 0) * e1 + (T * C) * hperp - (w 0 * C ^ 2 - w 1 * S * C) * e2
    · simp
      linear_combination (-w 1) * e1 - (T * S) * hperp - (w 1 * S ^ 2 - w 0 * S * C) * e2
    · simp
      linear_combination K * hperp - w 2 * e2
  have hct : c ^ 2 + t ^ 2 = 1 := by
    have h0 := congrFun hexp 0
    have h1 := congrFun hexp 1
    have h2 := congrFun hexp 2
    rw [heading_eq, plunging_eq] at h0 h1 h2
    simp at h0 h1 h2
    rw [h0, h1, h2] at hunit
    linear_combination hunit - (t ^ 2 + c ^ 2 * Real.cos (radians d) ^ 2) * e1 - c ^ 2 * e2
  have c1 : -1 ≤ c := by nlinarith
  have c2 : c ≤ 1 := by nlinarith
  have hcos : Real.cos (radians (degrees (Real.arccos c))) = c := by
    rw [show radians (degrees (Real.arccos c)) = Real.arccos c by
      unfold radians degrees; field_simp, Real.cos_arccos c1 c2]
  have hsin : Real.sin (radians (degrees (Real.arccos c))) = Real.sqrt (t ^ 2) := by
    rw [show radians (degrees (Real.arccos c)) = Real.arccos c by
      unfold radians degrees; field_simp, Real.sin_arccos]
    congr 1
    linarith
  simp only [Spec.planeLine, hcos, hsin, Real.sqrt_sq_eq_abs]
  rcases le_total 0 t with k | k
  · left
    rw [abs_of_nonneg k, one_mul]
    exact hexp
  · right
    rw [abs_of_nonpos k, neg_one_mul, neg_neg]
    exact hexp

/-- Axes of a plane that dips towards the east, the first one oblique to the dip direction, on its
northern (`e = 1`) or southern (`e = -1`) side. -/
noncomputable def obliqueTilt (e : ℝ) : Mat 3 3 :=
  !![-9/25, e * (4/5), 12/25; -12/25, -(e * (3/5)), 16/25; 4/5, 0, 3/5]

lemma obliqueTilt_orth {e : ℝ} (he : e ^ 2 = 1) : obliqueTilt e * (obliqueTilt e).transpose = 1 := by
  ext i j
  fin_cases i <;> fin_cases j <;>
    simp [obliqueTilt, Matrix.mul_apply, Fin.sum_univ_three] <;> nlinarith

example : ∃ (svd : SvdFn) (f : Fit 4) (s d r : ℝ), svd.Valid ∧
    init svd (Witness.points (obliqueTilt 1) ![3, 2, 1]) none none = .ok (some f) ∧
    strikeDipRake f = (some (s, d), some r) ∧ d ≠ 0 := by
  obtain ⟨svd, f, hs, hf, hV, -⟩ := Witness.exists_fit (obliqueTilt 1) (obliqueTilt_orth (by norm_num))
    ![3, 2, 1] (by simp) (by simp) (by norm_num)
  obtain ⟨s, d, h', -, -, hn⟩ := C14_fit_right_hand_rule svd hs _ f hf
  obtain ⟨U, hF⟩ := init_default hs hf
  have hd : d ≠ 0 := by
    rintro rfl
    have h0 := congrFun hn 0
    rw [hF.normal, hV] at h0
    have : upward (obliqueTilt 1 2) = obliqueTilt 1 2 := by
      unfold upward
      rw [if_neg]
      simp [obliqueTilt]
      norm_num
    rw [this] at h0
    simp [obliqueTilt, radians] at h0
  obtain ⟨r, hr, -⟩ := C183_axis_partial svd hs _ f hf s d _
    (show strikeDipRake f = (some (s, d), rake f) by rw [strikeDipRake, h']) hd
  exact ⟨svd, f, s, d, r, hs, hf, by rw [strikeDipRake, h', hr], hd⟩

/-- The side is not given: data with the same strike, dip and rake and different axes. -/
theorem C183_side_false : ∃ (svd svd' : SvdFn) (f g : Fit 4), svd.Valid ∧ svd'.Valid ∧
    init svd (Witness.points (obliqueTilt 1) ![3, 2, 1]) none none = .ok (some f) ∧
    init svd' (Witness.points (obliqueTilt (-1)) ![3, 2, 1]) none none = .ok (some g) ∧
    strikeDipRake f = strikeDipRake g ∧ f.V 0 ≠ g.V 0 ∧ f.V 0 ≠ -g.V 0 := by
  obtain ⟨svd, f, hs, hf, hV, -⟩ := Witness.exists_fit (obliqueTilt 1) (obliqueTilt_orth (by norm_num))
    ![3, 2, 1] (by simp) (by simp) (by norm_num)
  obtain ⟨svd', g, hs', hg, hW, -⟩ := Witness.exists_fit (obliqueTilt (-1))
    (obliqueTilt_orth (by norm_num)) ![3, 2, 1] (by simp) (by simp) (by norm_num)
  refine ⟨svd, svd', f, g, hs, hs', hf, hg, ?_, ?_, ?_⟩
  · obtain ⟨U, hF⟩ := init_default hs hf
    obtain ⟨U', hG⟩ := init_default hs' hg
    have h2 : g.V 2 = f.V 2 := by
      rw [hV, hW]; funext j; fin_cases j <;> simp [obliqueTilt]
    have hsd : strikeDip g = strikeDip f := by unfold strikeDip; rw [h2]
    obtain ⟨s, d, h', -, -, hn⟩ := C14_fit_right_hand_rule svd hs _ f hf
    have hup : upward (obliqueTilt 1 2) = ![4 / 5, 0, 3 / 5] := by
      unfold upward
      rw [if_neg]
      · funext j; fin_cases j <;> simp [obliqueTilt]
      · simp [obliqueTilt]
        norm_num
    rw [hF.normal, hV, hup] at hn
    have n0 := congrFun hn 0
    have n1 := congrFun hn 1
    simp at n0 n1
    have hd : d ≠ 0 := by
      rintro rfl
      simp [radians] at n0
    have hss : Real.sin (radians s) = 0 := by
      rcases n1 with k | k
      · rw [k] at n0; norm_num at n0
      · exact k
    obtain ⟨v, hv, hveq, hvn, -⟩ := C16_dip_dr_partial svd hs _ f hf s d h' hd
    obtain ⟨v', hv', hveq', -⟩ := C16_dip_dr_partial svd' hs' _ g hg s d (by rw [hsd, h']) hd
    have hvv : v' = v := by rw [hveq, hveq']
    subst hvv
    have v1 : v' 1 = 0 := by
      rw [hveq, plunging_eq]
      simp [hss]
    have hdot : vdot v' (g.V 0) = vdot v' (f.V 0) := by
      rw [vdot3, vdot3, v1, hV, hW]
      simp [obliqueTilt]
    have hrake : rake g = rake f := by
      simp [rake, hv, hv', Rotations.angle, hdot, hF.svd.row_norm 0, hG.svd.row_norm 0]
    rw [strikeDipRake, strikeDipRake, hsd, hrake]
  · rw [hV, hW]
    intro h
    have := congrFun h 1
    simp [obliqueTilt] at this
    norm_num at this
  · rw [hV, hW]
    intro h
    have := congrFun h 0
    simp [obliqueTilt] at this
    norm_num at this

/-- For a horizontal plane the rake is `nan`. -/
theorem C183_horizontal (svd : SvdFn) (hs : svd.Valid) {n : ℕ} (a : Fin n → Vec 3) (f : Fit n)
    (hf : init svd a none none = .ok (some f)) (s d : ℝ) (r : Option ℝ)
    (h : strikeDipRake f = (some (s, d), r)) : r = none ↔ d = 0 := by
  constructor
  · intro hr
    by_contra hd
    obtain ⟨r', e, -⟩ := C183_axis_partial svd hs a f hf s d r h hd
    rw [hr] at e
    cases e
  · intro hd
    simp only [strikeDipRake, Prod.mk.injEq] at h
    obtain ⟨hsd, hr⟩ := h
    have hnone : f.dipDr = none := by
      rw [C16_undefined_iff_horizontal svd hs a f hf]
      by_contra hc
      push Not at hc
      obtain ⟨U, hF⟩ := init_default hs hf
      subst hd
      obtain ⟨s', d', h', -, -, hn⟩ := C14_fit_right_hand_rule svd hs a f hf
      rw [hsd] at h'
      cases h'
      have r0 : radians 0 = 0 := by unfold radians; ring
      rw [r0] at hn
      simp at hn
      rw [hF.normal] at hn
      rcases upward_eq (f.V 2) with k | k
      · rw [k] at hn
        exact hc.1 (by unfold strikeDip; rw [hn]; exact (C13_horizontal_false 1 one_pos).1)
      · rw [k] at hn
        have hn' : f.V 2 = ![0, 0, -1] := by
          rw [← neg_neg (f.V 2), hn]
          funext i; fin_cases i <;> simp
        exact hc.2 (by unfold strikeDip; rw [hn']; exact (C13_horizontal_false 1 one_pos).2)
    rw [← hr]
    simp [rake, hnone]

example : ∃ (svd : SvdFn) (f : Fit 4) (s : ℝ), svd.Valid ∧
    init svd (Witness.points 1 ![3, 2, 1]) none none = .ok (some f) ∧
    strikeDipRake f = (some (s, 0), none) := by
  obtain ⟨svd, f, hs, hf, hV, -⟩ := Witness.exists_fit 1 (by simp) ![3, 2, 1] (by simp) (by simp)
    (by norm_num)
  have e : strikeDip f = some (270, 0) := by
    unfold strikeDip
    rw [hV, show (1 : Mat 3 3) 2 = ![0, 0, 1] by
      funext j; fin_cases j <;> simp [Matrix.one_apply]]
    exact (C13_horizontal_false 1 one_pos).1
  have h : strikeDipRake f = (some (270, 0), rake f) := by rw [strikeDipRake, e]
  refine ⟨svd, f, 270, hs, hf, ?_⟩
  rw [h, (C183_horizontal svd hs _ f hf 270 0 _ h).2 rfl]

end Attitude.Props
