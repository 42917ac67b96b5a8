import Verif.Props.Outlier
import Verif.Props.Accumulate
import Verif.Props.PcaGroups

/-!
# C215: whether a wrong point shows in the errors and the residuals
-/

namespace Attitude.Props

open Attitude Matrix Pca ErrorAxes

/-! ## Specification -/

/-- The points of `G` extend in every direction of the plane with normal `m`: the sum of the squared distances
from a line of the plane is at least `r`. -/
def Spec.ExtendInPlane {n : ℕ} (a : Fin n → Vec 3) (G : Finset (Fin n)) (m : Vec 3) (r : ℝ) : Prop :=
  ∀ w c, norm w = 1 → vdot w m = 0 → r ≤ ∑ i ∈ G, (vdot w (a i) - c) ^ 2

/-! ## C215 -/

/-- Whatever the other points are: if some of the points are exactly in a plane, then a fit with another
orientation has residuals.  The sum of their squares is at least the square of the sine of the angle between
the two planes times the smallest extent of the points in their plane. -/
theorem C215_residuals_partial (svd : SvdFn) (hs : svd.Valid) {n : ℕ} (a : Fin n → Vec 3) (f : Fit n)
    (hf : init svd a none none = .ok (some f)) (G : Finset (Fin n)) (m : Vec 3) (d r : ℝ) (hm : norm m = 1)
    (hG : ∀ i ∈ G, Spec.OnPlane m d (a i)) (hr : Spec.ExtendInPlane a G m r) :
    r * Spec.sineBetween m f.normal ^ 2 ≤ Spec.residualSum f := by
  obtain ⟨U, hF⟩ := init_default hs hf
  obtain ⟨d', hd'⟩ := residualSum_eq hs hf
  have hm2 : m 0 ^ 2 + m 1 ^ 2 + m 2 ^ 2 = 1 := by
    rw [norm, Real.sqrt_eq_one, Fin.sum_univ_three] at hm
    exact hm
  have hn := normal_unit hF
  have hn2 : f.normal 0 ^ 2 + f.normal 1 ^ 2 + f.normal 2 ^ 2 = 1 := by
    rw [norm, Real.sqrt_eq_one, Fin.sum_univ_three] at hn
    exact hn
  set v := f.normal with hv
  set α := m 0 * v 0 + m 1 * v 1 + m 2 * v 2 with hα
  have hα1 : α ^ 2 ≤ 1 := by
    have := Finset.sum_mul_sq_le_sq_mul_sq Finset.univ m v
    simp only [Fin.sum_univ_three] at this
    rw [hm2, hn2] at this
    rw [hα]
    linarith
  have hsub : ∑ i ∈ G, Spec.planeDist2 v d' (a i) ≤ Spec.residualSum f := by
    rw [hd', Spec.misfit]
    exact Finset.sum_le_sum_of_subset_of_nonneg (Finset.subset_univ G) fun i _ _ => sq_nonneg _
  rw [Spec.sineBetween, Real.sq_sqrt (by linarith)]
  rcases hα1.eq_or_lt with h1 | h1
  · rw [h1, sub_self, mul_zero]
    exact Finset.sum_nonneg fun i _ => by positivity
  · refine le_trans ?_ hsub
    set β := Real.sqrt (1 - α ^ 2) with hβ
    have hβ2 : β ^ 2 = 1 - α ^ 2 := Real.sq_sqrt (by linarith)
    have hβ0 : 0 < β := Real.sqrt_pos.2 (by linarith)
    set w : Vec 3 := fun j => (v j - α * m j) / β with hw
    have hw1 : norm w = 1 := by
      rw [norm, Real.sqrt_eq_one, Fin.sum_univ_three]
      simp only [hw, div_pow, hβ2]
      have hne : (1 - α ^ 2) ≠ 0 := by linarith
      field_simp
      have e : (v 0 - α * m 0) ^ 2 + (v 1 - α * m 1) ^ 2 + (v 2 - α * m 2) ^ 2 =
          (v 0 ^ 2 + v 1 ^ 2 + v 2 ^ 2) - 2 * α * (m 0 * v 0 + m 1 * v 1 + m 2 * v 2)
            + α ^ 2 * (m 0 ^ 2 + m 1 ^ 2 + m 2 ^ 2) := by ring
      rw [e, hn2, hm2, ← hα]
      ring
    have hw2 : vdot w m = 0 := by
      rw [vdot3]
      simp only [hw]
      have e : (v 0 - α * m 0) / β * m 0 + (v 1 - α * m 1) / β * m 1 + (v 2 - α * m 2) / β * m 2 =
          ((m 0 * v 0 + m 1 * v 1 + m 2 * v 2) - α * (m 0 ^ 2 + m 1 ^ 2 + m 2 ^ 2)) / β := by ring
      rw [e, hm2, ← hα]
      ring
    have key := hr w ((d' - α * d) / β) hw1 hw2
    rw [← hβ2, mul_comm]
    calc β ^ 2 * r ≤ β ^ 2 * ∑ i ∈ G, (vdot w (a i) - (d' - α * d) / β) ^ 2 :=
          mul_le_mul_of_nonneg_left key (by positivity)
      _ = ∑ i ∈ G, Spec.planeDist2 v d' (a i) := by
          rw [Finset.mul_sum]
          refine Finset.sum_congr rfl fun i hi => ?_
          have h := hG i hi
          simp only [Spec.OnPlane] at h
          rw [← mul_pow, Spec.planeDist2, vdot3]
          congr 1
          simp only [hw]
          field_simp
          linear_combination (-α) * h

/-- Four points of the horizontal plane, `t` to the east and west of the center and 1 to the north and south of it,
and one point `t` above the center. -/
def Witness.strip (t : ℝ) : Fin 5 → Vec 3 :=
  ![![t, 1, 0], ![t, -1, 0], ![-t, 1, 0], ![-t, -1, 0], ![0, 0, t]]

lemma strip_sum (t : ℝ) (w : Vec 3) :
    ∑ i, (Matrix.of (Coordinates.centered (Witness.strip t)) *ᵥ w) i ^ 2 =
      4 * t ^ 2 * w 0 ^ 2 + 4 * w 1 ^ 2 + 4 / 5 * t ^ 2 * w 2 ^ 2 := by
  simp [Matrix.mulVec, dotProduct, Coordinates.centered, meanRows, Witness.strip, Fin.sum_univ_succ]
  ring

/-- The fit of these points: the vertical plane through east and west; the smallest singular value is 2, the others
grow with `t`. -/
lemma strip_fit {svd : SvdFn} (hs : svd.Valid) {t : ℝ} (ht : 3 ≤ t) {f : Fit 5}
    (hf : init svd (Witness.strip t) none none = .ok (some f)) :
    (f.V 2 0 = 0 ∧ f.V 2 2 = 0) ∧ f.s 2 = 2 ∧ 4 / 5 * t ^ 2 ≤ f.s 1 ^ 2 ∧ f.s 1 ≤ f.s 0 := by
  obtain ⟨U, hF⟩ := init_default hs hf
  have h2 := hF.svd.sum_sq_row 2
  have hopt := hF.svd.optimal ![0, 1, 0]
  rw [strip_sum] at h2 hopt
  have hn2 := row_sq hF.svd 2
  rw [Fin.sum_univ_three] at hn2
  simp [Fin.sum_univ_three] at hopt
  have ht2 : 9 ≤ t ^ 2 := by nlinarith
  have e0 : f.V 2 0 ^ 2 = 0 := by
    nlinarith [sq_nonneg (f.V 2 0), sq_nonneg (f.V 2 2), mul_nonneg (sq_nonneg (f.V 2 0)) (sub_nonneg.2 ht2),
      mul_nonneg (sq_nonneg (f.V 2 2)) (sub_nonneg.2 ht2)]
  have e2 : f.V 2 2 ^ 2 = 0 := by
    nlinarith [sq_nonneg (f.V 2 0), sq_nonneg (f.V 2 2), mul_nonneg (sq_nonneg (f.V 2 0)) (sub_nonneg.2 ht2),
      mul_nonneg (sq_nonneg (f.V 2 2)) (sub_nonneg.2 ht2)]
  have z0 : f.V 2 0 = 0 := by simpa using e0
  have z2 : f.V 2 2 = 0 := by simpa using e2
  have e1 : f.V 2 1 ^ 2 = 1 := by rw [z0, z2] at hn2; linarith
  refine ⟨⟨z0, z2⟩, ?_, ?_, hF.svd.le01⟩
  · rw [z0, z2, e1] at h2
    nlinarith [hF.svd.nonneg' 2]
  · have h1 := hF.svd.sum_sq_row 1
    rw [strip_sum] at h1
    have hn1 := row_sq hF.svd 1
    rw [Fin.sum_univ_three] at hn1
    have ho : f.V 1 1 = 0 := by
      have h := hF.svd.row_dot 1 2
      rw [vdot3, z0, z2] at h
      have : f.V 1 1 * f.V 2 1 = 0 := by simpa using h
      refine (mul_eq_zero.1 this).resolve_right fun h0 => ?_
      rw [h0] at e1
      norm_num at e1
    rw [ho] at h1 hn1
    nlinarith [mul_nonneg (sq_nonneg (f.V 1 0)) (sq_nonneg t)]

lemma errorAngle_lt {s k ε : ℝ} (hk : 0 ≤ k) (hε : 0 < ε) (h1 : 4 * k < s)
    (h2 : 4 * Real.sqrt (1 + k) < s * ε) (_hs : 0 < s) : errorAngle s 2 2 k < ε := by
  unfold errorAngle
  have h3 : s - k * 2 ≥ s / 4 := by linarith
  have hx : s / 2 ≤ Real.sqrt (s * |s - k * 2|) := by
    apply Real.le_sqrt_of_sq_le
    have := le_abs_self (s - k * 2)
    nlinarith
  have hy : Real.sqrt (2 * (2 + k * 2)) = 2 * Real.sqrt (1 + k) := by
    rw [show 2 * (2 + k * 2) = 2 ^ 2 * (1 + k) by ring, Real.sqrt_mul (by norm_num),
      Real.sqrt_sq (by norm_num)]
  have hx0 : 0 < Real.sqrt (s * |s - k * 2|) := by linarith
  rw [arctan2_of_pos _ hx0, hy]
  have hle : ∀ x : ℝ, 0 ≤ x → Real.arctan x ≤ x := fun x h => by
    have := Real.le_tan (Real.arctan_nonneg.2 h) (Real.arctan_lt_pi_div_two x)
    rwa [Real.tan_arctan] at this
  refine lt_of_le_of_lt (hle _ (by positivity)) ?_
  rw [div_lt_iff₀ hx0]
  nlinarith [Real.sqrt_nonneg (1 + k)]

/-- Refutation: the angular errors need not show that a point is wrong.  Four of five points are exactly in a
horizontal plane, the fit is vertical, and both angular errors are as small as one likes. -/
theorem C215_angular_errors_false (Q : Quantiles) (hQ : Spec.QuantilesOK Q) (svd : SvdFn) (hs : svd.Valid) (cl ε : ℝ)
    (h0 : 0 ≤ cl) (h1 : cl < 1) (hε : 0 < ε) :
    ∃ a : Fin 5 → Vec 3, (∀ i, i ≠ 4 → a i 2 = 0) ∧ (¬ ∃ u v w, (u ≠ 0 ∨ v ≠ 0) ∧ ∀ i, i ≠ 4 → u * a i 0 + v * a i 1 = w) ∧
      (∃ f, init svd a none none = .ok (some f)) ∧
      ∀ f, init svd a none none = .ok (some f) → (∃ s, strikeDip f = some (s, 90)) ∧
        ∃ x y, errorsAt Q f false cl = some (x, y) ∧ x < ε ∧ y < ε := by
  set k := relativeError false 5 (Q.f cl 2 (5 - 2)) with hk
  have hz : 0 ≤ Q.f cl 2 (5 - 2) := hQ.f_nonneg _ _ _ h0 h1 (by norm_num) (by norm_num)
  have hk0 : 0 ≤ k := relativeError_nonneg _ _ hz
  set t := 3 + 8 * k + 8 * Real.sqrt (1 + k) / ε with ht
  have hq : 0 ≤ 8 * Real.sqrt (1 + k) / ε := by positivity
  have ht3 : 3 ≤ t := by linarith
  refine ⟨Witness.strip t, ?_, ?_, init_default_exists svd (by norm_num) _, fun f hf => ?_⟩
  · intro i hi
    fin_cases i <;> simp [Witness.strip] at hi ⊢
  · rintro ⟨u, v, w, huv, h⟩
    have e0 := h 0 (by decide)
    have e1 := h 1 (by decide)
    have e2 := h 2 (by decide)
    simp [Witness.strip] at e0 e1 e2
    have hv : v = 0 := by linarith
    have hu : u * t = 0 := by rw [hv] at e0 e2; linarith
    rcases mul_eq_zero.1 hu with h' | h'
    · rcases huv with h'' | h''
      · exact h'' h'
      · exact h'' hv
    · linarith
  · obtain ⟨U, hF⟩ := init_default hs hf
    obtain ⟨⟨z0, z2⟩, s2, s1, s01⟩ := strip_fit hs ht3 hf
    constructor
    · have hn : f.normal = sdNormal 90 90 ∨ f.normal = -sdNormal 90 90 := by
        have hsd : sdNormal 90 90 = ![0, -1, 0] := by
          simp [sdNormal, radians_90]
        have hn2 := row_sq hF.svd 2
        rw [Fin.sum_univ_three, z0, z2] at hn2
        have h21 : f.V 2 1 = 1 ∨ f.V 2 1 = -1 := by
          have : (f.V 2 1 - 1) * (f.V 2 1 + 1) = 0 := by linarith
          rcases mul_eq_zero.1 this with h | h
          · left; linarith
          · right; linarith
        have hV : f.V 2 = sdNormal 90 90 ∨ f.V 2 = -sdNormal 90 90 := by
          rw [hsd]
          rcases h21 with h | h
          · right
            funext j
            fin_cases j <;> simp [z0, z2, h]
          · left
            funext j
            fin_cases j <;> simp [z0, z2, h]
        rw [hF.normal]
        rcases upward_eq (f.V 2) with e | e <;> rw [e] <;> rcases hV with h | h <;> rw [h] <;> simp
      obtain ⟨s', e, -⟩ := strikeDip_of_sdNormal hF (by norm_num) (by norm_num) (by norm_num) (by norm_num) hn
      exact ⟨s', e⟩
    · have hs1 : t / 2 ≤ f.s 1 := by
        have := hF.svd.nonneg' 1
        nlinarith
      have hlow : ∀ s, t / 2 ≤ s → errorAngle s 2 2 k < ε := by
        intro s hst
        apply errorAngle_lt hk0 hε
        · linarith
        · have : 8 * Real.sqrt (1 + k) < t * ε := by
            rw [ht, add_mul, div_mul_cancel₀ _ hε.ne']
            nlinarith
          nlinarith
        · linarith
      refine ⟨_, _, errors_angle hQ hs hf false cl h0 h1, ?_, ?_⟩
      · simp only [errorBase, s2]
        exact hlow _ (hs1.trans s01)
      · simp only [errorBase, s2]
        exact hlow _ hs1

/-- The first four points of the strip extend in every direction of the horizontal plane, and the residuals of a fit of
the five points are bounded below. -/
example : ∃ (svd : SvdFn) (f : Fit 5), svd.Valid ∧ init svd (Witness.strip 10) none none = .ok (some f) ∧
    4 * Spec.sineBetween ![0, 0, 1] f.normal ^ 2 ≤ Spec.residualSum f := by
  obtain ⟨svd, hs⟩ := exists_valid_svd
  obtain ⟨f, hf⟩ := init_default_exists svd (by norm_num : 3 ≤ 5) (Witness.strip 10)
  refine ⟨svd, f, hs, hf, C215_residuals_partial svd hs _ f hf {0, 1, 2, 3} ![0, 0, 1] 0 4 (by simp [norm, Fin.sum_univ_three]) ?_ ?_⟩
  · intro i hi
    fin_cases i <;> simp [Spec.OnPlane, Witness.strip] at hi ⊢
  · intro w c hw hwm
    rw [norm, Real.sqrt_eq_one, Fin.sum_univ_three] at hw
    have hw2 : w 2 = 0 := by simpa [vdot3] using hwm
    rw [hw2] at hw
    simp [vdot3, Witness.strip, hw2]
    nlinarith [sq_nonneg c, sq_nonneg (w 0)]

/-- The case of the refutation for an error of one hundredth of a radian at the level 0.95. -/
example (Q : Quantiles) (hQ : Spec.QuantilesOK Q) : ∃ (svd : SvdFn) (a : Fin 5 → Vec 3) (f : Fit 5), svd.Valid ∧
    init svd a none none = .ok (some f) ∧ (∀ i, i ≠ 4 → a i 2 = 0) ∧ (∃ s, strikeDip f = some (s, 90)) ∧
      ∃ x y, errorsAt Q f false 0.95 = some (x, y) ∧ x < 0.01 ∧ y < 0.01 := by
  obtain ⟨svd, hs⟩ := exists_valid_svd
  obtain ⟨a, h, -, ⟨f, hf⟩, hall⟩ := C215_angular_errors_false Q hQ svd hs 0.95 0.01 (by norm_num) (by norm_num) (by norm_num)
  exact ⟨svd, a, f, hs, hf, h, hall f hf⟩

end Attitude.Props
