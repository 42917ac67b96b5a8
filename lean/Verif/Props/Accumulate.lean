import Verif.Props.Confirm
import Verif.Props.PcaMotion
import Mathlib.Topology.MetricSpace.Pseudo.Defs

/-!
# C204: what more data can do to the angular errors
-/

namespace Attitude.Props

open Attitude Pca Matrix ErrorAxes

/-- The angle at which the scatter across the plane is seen from the extent `j` of the data along
it. -/
noncomputable def Spec.scatterAngle {n : ℕ} (f : Fit n) (j : Fin 3) : ℝ := arctan2 (f.s 2) (f.s j)

lemma base_le {n : ℕ} {a : Fin n → Vec 3} {f : Fit n} {U : Mat n 3} (hF : IsFit a f U)
    (sampling : Bool) (j : Fin 3) : errorBase sampling f.s j ≤ f.s j := by
  unfold errorBase
  have h01 := hF.svd.le01
  have h12 := hF.svd.le12
  split_ifs
  · exact le_refl _
  · fin_cases j
    · exact h12.trans h01
    · exact h12
    · exact le_refl _

lemma base_nonneg {n : ℕ} {a : Fin n → Vec 3} {f : Fit n} {U : Mat n 3} (hF : IsFit a f U)
    (sampling : Bool) (j : Fin 3) : 0 ≤ errorBase sampling f.s j := by
  unfold errorBase
  split_ifs <;> exact hF.svd.nonneg' _

/-- The errors of both methods as a function of the relative error. -/
noncomputable def errorAngle (s b t k : ℝ) : ℝ :=
  arctan2 (Real.sqrt (t * (t + k * t))) (Real.sqrt (s * |s - k * b|))

lemma errors_angle {Q : Quantiles} (hQ : Spec.QuantilesOK Q) {svd : SvdFn} (hs : svd.Valid) {n : ℕ}
    {a : Fin n → Vec 3} {f : Fit n} (hf : init svd a none none = .ok (some f)) (sampling : Bool) (cl : ℝ)
    (h0 : 0 ≤ cl) (h1 : cl < 1) : errorsAt Q f sampling cl =
      some (errorAngle (f.s 0) (errorBase sampling f.s 0) (f.s 2)
          (relativeError sampling n (Q.f cl 2 (n - 2))),
        errorAngle (f.s 1) (errorBase sampling f.s 1) (f.s 2)
          (relativeError sampling n (Q.f cl 2 (n - 2)))) := by
  obtain ⟨U, hF⟩ := init_default hs hf
  obtain ⟨h, e, hh, _⟩ := C21_closed_form Q hQ svd hs a f hf sampling cl h0 h1
  have hn' : (0 : ℝ) < (n : ℝ) - 1 := by
    have : (3 : ℝ) ≤ n := by exact_mod_cast hF.size
    linarith
  have key : ∀ j : Fin 3, j ≠ 2 → arctan2 (Real.sqrt (h 2)) (Real.sqrt (h j)) =
      errorAngle (f.s j) (errorBase sampling f.s j) (f.s 2)
        (relativeError sampling n (Q.f cl 2 (n - 2))) := by
    intro j hj
    rw [← arctan2_sqrt_smul hn' (h 2), hh, axes_scaled hF sampling _ j hj, axes_scaled_two hF]
    rfl
  simp only [errorsAt, e, angularErrors]
  rw [key 0 (by decide), key 1 (by decide)]

lemma angle_floor {s b t k : ℝ} (hs : 0 ≤ s) (hb : 0 ≤ b) (hbs : b ≤ s) (ht : 0 ≤ t) (hk : 0 ≤ k) :
    arctan2 t s ≤ errorAngle s b t k := by
  have h1 : 0 < 1 + k := by linarith
  have e1 : arctan2 t s = arctan2 (Real.sqrt ((1 + k) * t ^ 2)) (Real.sqrt ((1 + k) * s ^ 2)) := by
    rw [arctan2_sqrt_smul h1, Real.sqrt_sq ht, Real.sqrt_sq hs]
  rw [e1, errorAngle]
  apply arctan2_mono (Real.sqrt_nonneg _) _ (Real.sqrt_nonneg _)
  · apply Real.sqrt_le_sqrt
    have h2 : |s - k * b| ≤ s + k * s := by
      rw [abs_le]
      have := mul_le_mul_of_nonneg_left hbs hk
      have := mul_nonneg hk hb
      constructor <;> nlinarith
    have := mul_le_mul_of_nonneg_left h2 hs
    linarith
  · apply Real.sqrt_le_sqrt
    linarith

/-- However many points there are, at every level and with both methods: the errors are never smaller
than the angles of the scatter. -/
theorem C204_floor (Q : Quantiles) (hQ : Spec.QuantilesOK Q) (svd : SvdFn) (hs : svd.Valid) {n : ℕ}
    (a : Fin n → Vec 3) (f : Fit n) (hf : init svd a none none = .ok (some f)) (sampling : Bool)
    (cl : ℝ) (h0 : 0 ≤ cl) (h1 : cl < 1) :
    ∃ x y, errorsAt Q f sampling cl = some (x, y) ∧ Spec.scatterAngle f 0 ≤ x ∧
      Spec.scatterAngle f 1 ≤ y := by
  obtain ⟨U, hF⟩ := init_default hs hf
  have hz : 0 ≤ Q.f cl 2 (n - 2) :=
    hQ.f_nonneg _ _ _ h0 h1 (by norm_num) (by have := hF.size; omega)
  refine ⟨_, _, errors_angle hQ hs hf sampling cl h0 h1, ?_, ?_⟩ <;>
    exact angle_floor (hF.svd.nonneg' _) (base_nonneg hF _ _) (base_le hF _ _) (hF.svd.nonneg' 2)
      (relativeError_nonneg _ _ hz)

lemma angle_zero {s t b : ℝ} (hs : 0 ≤ s) (ht : 0 ≤ t) : errorAngle s b t 0 = arctan2 t s := by
  simp [errorAngle, abs_of_nonneg hs, Real.sqrt_mul_self hs, Real.sqrt_mul_self ht]

lemma angle_smul {s b t k l : ℝ} (hl : 0 < l) :
    errorAngle (l * s) (l * b) (l * t) k = errorAngle s b t k := by
  unfold errorAngle
  have e : |l * s - k * (l * b)| = l * |s - k * b| := by
    rw [show l * s - k * (l * b) = l * (s - k * b) by ring, abs_mul, abs_of_pos hl]
  rw [e, show l * t * (l * t + k * (l * t)) = l ^ 2 * (t * (t + k * t)) by ring,
    show l * s * (l * |s - k * b|) = l ^ 2 * (s * |s - k * b|) by ring,
    arctan2_sqrt_smul (by positivity)]

lemma angle_continuous {s b t : ℝ} (hs : 0 < s) : ContinuousAt (errorAngle s b t) 0 := by
  have hne : 0 < s * |s - 0 * b| := by
    rw [zero_mul, sub_zero]
    exact mul_pos hs (abs_pos.2 hs.ne')
  have hc : ContinuousAt (fun k : ℝ => s * |s - k * b|) 0 := by fun_prop
  have ev : ∀ᶠ k in nhds (0 : ℝ), errorAngle s b t k =
      Real.arctan (Real.sqrt (t * (t + k * t)) / Real.sqrt (s * |s - k * b|)) := by
    filter_upwards [hc.eventually (lt_mem_nhds hne)] with k hk
    exact arctan2_of_pos _ (Real.sqrt_pos.2 hk)
  refine ContinuousAt.congr ?_ (ev.mono fun _ h => h.symm)
  apply ContinuousAt.comp Real.continuous_arctan.continuousAt
  apply ContinuousAt.div
  · fun_prop
  · fun_prop
  · exact (Real.sqrt_pos.2 hne).ne'

lemma relativeError_le (sampling : Bool) {m : ℕ} (hm : 3 ≤ m) {z : ℝ} (hz : 0 ≤ z) :
    relativeError sampling m z ≤ 2 * z / Real.sqrt ((m : ℝ) - 2) := by
  have hm' : (3 : ℝ) ≤ m := by exact_mod_cast hm
  have hp : 0 < Real.sqrt ((m : ℝ) - 2) := Real.sqrt_pos.2 (by linarith)
  unfold relativeError
  split_ifs
  · rw [mul_comm 2 z, mul_div_assoc]
    apply mul_le_mul_of_nonneg_left _ hz
    rw [Real.sqrt_le_left (by positivity), div_pow, Real.sq_sqrt (by linarith)]
    rw [div_le_div_iff₀ (by linarith) (by linarith)]
    linarith
  · exact le_refl _

/-- If the same points are measured more and more often, the errors come as close to the angles of the
scatter as one likes. -/
theorem C204_limit_partial (Q : Quantiles) (hQ : Spec.QuantilesOK Q) (hQ' : Spec.QuantilesShrink Q)
    (svd : SvdFn) (hs : svd.Valid) {n : ℕ} (a : Fin n → Vec 3) (f : Fit n)
    (hf : init svd a none none = .ok (some f)) (sampling : Bool) (cl : ℝ) (h0 : 0 ≤ cl) (h1 : cl < 1)
    (ε : ℝ) (hε : 0 < ε) :
    ∃ K : ℕ, ∀ (k m : ℕ) (φ : Fin m → Fin n) (svd' : SvdFn) (g : Fit m), K ≤ k → 0 < k →
      Spec.EachTaken k φ → svd'.Valid → init svd' (fun j => a (φ j)) none none = .ok (some g) →
      ∃ x y, errorsAt Q g sampling cl = some (x, y) ∧ |x - Spec.scatterAngle f 0| < ε ∧
        |y - Spec.scatterAngle f 1| < ε := by
  obtain ⟨U, hF⟩ := init_default hs hf
  have s2 := hF.svd.nonneg' 2
  -- both errors at once
  have hδ : ∀ j : Fin 3, j ≠ 2 → ∃ δ > 0, ∀ k : ℝ, 0 ≤ k → k < δ →
      |errorAngle (f.s j) (errorBase sampling f.s j) (f.s 2) k - arctan2 (f.s 2) (f.s j)| < ε := by
    intro j hj
    have sj := hF.svd.nonneg' j
    rcases sj.lt_or_eq with hp | hp
    · obtain ⟨δ, hδ, h⟩ := Metric.continuousAt_iff.1
        (angle_continuous (b := errorBase sampling f.s j) (t := f.s 2) hp) ε hε
      refine ⟨δ, hδ, fun k hk hkδ => ?_⟩
      have := h (x := k) (by rwa [Real.dist_eq, sub_zero, abs_of_nonneg hk])
      rwa [Real.dist_eq, angle_zero sj s2] at this
    · have hz : f.s 2 = 0 := by
        apply le_antisymm _ s2
        rw [hp]
        have h01 := hF.svd.le01
        have h12 := hF.svd.le12
        fin_cases j
        · exact h12.trans h01
        · exact h12
        · exact absurd rfl hj
      refine ⟨1, one_pos, fun k _ _ => ?_⟩
      rw [hz, ← hp]
      simpa [errorAngle] using hε
  obtain ⟨δ0, p0, d0⟩ := hδ 0 (by decide)
  obtain ⟨δ1, p1, d1⟩ := hδ 1 (by decide)
  set δ := min δ0 δ1 with hdef
  have pδ : 0 < δ := lt_min p0 p1
  set z := Q.f cl 2 1 with hz
  have hz0 : 0 ≤ z := hQ.f_nonneg _ _ _ h0 h1 (by norm_num) (by norm_num)
  obtain ⟨K, hK⟩ := exists_nat_gt ((2 * z / δ) ^ 2 + 2)
  refine ⟨K, fun k m φ svd' g hKk hk hφ hs' hg => ?_⟩
  obtain ⟨U', hG⟩ := init_default hs' hg
  have hm := hG.size
  have hn := hF.size
  have hmk : k ≤ m := by
    have e := sum_eachTaken hφ (fun _ => 1)
    simp only [Finset.sum_const, Finset.card_univ, Fintype.card_fin, nsmul_eq_mul, mul_one] at e
    have e' : m = k * n := by exact_mod_cast e
    rw [e']
    exact Nat.le_mul_of_pos_right k (by omega)
  have hz' : 0 ≤ Q.f cl 2 (m - 2) := hQ.f_nonneg _ _ _ h0 h1 (by norm_num) (by omega)
  have hzz : Q.f cl 2 (m - 2) ≤ z := hQ' cl _ _ h0 h1 (by norm_num) (by omega)
  set r := relativeError sampling m (Q.f cl 2 (m - 2)) with hr
  have hr0 : 0 ≤ r := relativeError_nonneg _ _ hz'
  have hm' : (K : ℝ) ≤ m := by exact_mod_cast hKk.trans hmk
  have hq : 2 * z / δ < Real.sqrt ((m : ℝ) - 2) := by
    apply Real.lt_sqrt_of_sq_lt
    linarith
  have hp : 0 < Real.sqrt ((m : ℝ) - 2) := lt_of_le_of_lt (by positivity) hq
  have hrδ : r < δ := by
    refine lt_of_le_of_lt (relativeError_le sampling hm hz') ?_
    rw [div_lt_iff₀ hp]
    rw [div_lt_iff₀ pδ] at hq
    linarith
  have hk' : (0 : ℝ) < k := by exact_mod_cast hk
  have hl : 0 < Real.sqrt k := Real.sqrt_pos.2 hk'
  have hsv := (C177_repeated_points svd svd' hs hs' hk φ hφ a f g hf hg).2.1
  have hb : ∀ j, errorBase sampling g.s j = Real.sqrt k * errorBase sampling f.s j := by
    intro j
    unfold errorBase
    split_ifs <;> exact hsv _
  refine ⟨_, _, errors_angle hQ hs' hg sampling cl h0 h1, ?_, ?_⟩
  · rw [hb, hsv, hsv, angle_smul hl]
    exact d0 _ hr0 (lt_of_lt_of_le hrδ (min_le_left _ _))
  · rw [hb, hsv, hsv, angle_smul hl]
    exact d1 _ hr0 (lt_of_lt_of_le hrδ (min_le_right _ _))

/-- Repeating the measurements therefore does not make the errors arbitrarily small: for all points
that are not in one plane, both errors stay above the same positive angle. -/
theorem C204_vanish_false (Q : Quantiles) (hQ : Spec.QuantilesOK Q) (svd : SvdFn) (hs : svd.Valid)
    {n : ℕ} (a : Fin n → Vec 3) (f : Fit n) (hf : init svd a none none = .ok (some f))
    (hnoise : ¬ ∃ m d, norm m = 1 ∧ ∀ i, Spec.OnPlane m d (a i)) :
    ∃ ε > 0, ∀ (k m : ℕ) (φ : Fin m → Fin n) (g : Fit m), 0 < k → Spec.EachTaken k φ →
      init svd (fun j => a (φ j)) none none = .ok (some g) → ∀ (sampling : Bool) (cl : ℝ), 0 ≤ cl →
      cl < 1 → ∃ x y, errorsAt Q g sampling cl = some (x, y) ∧ ε ≤ x ∧ ε ≤ y := by
  obtain ⟨U, hF⟩ := init_default hs hf
  have s2 : 0 < f.s 2 :=
    lt_of_le_of_ne (hF.svd.nonneg' 2) fun h => hnoise ((coplanar_iff hs hf).2 h.symm)
  have s1 : 0 < f.s 1 := lt_of_lt_of_le s2 hF.svd.le12
  have s0 : 0 < f.s 0 := lt_of_lt_of_le s1 hF.svd.le01
  refine ⟨Spec.scatterAngle f 0, ?_, fun k m φ g hk hφ hg sampling cl h0 h1 => ?_⟩
  · rw [gt_iff_lt, Spec.scatterAngle, arctan2_of_pos _ s0]
    exact Real.arctan_pos.2 (div_pos s2 s0)
  · obtain ⟨x, y, e, hx, hy⟩ := C204_floor Q hQ svd hs _ g hg sampling cl h0 h1
    have hsv := (C177_repeated_points svd svd hs hs hk φ hφ a f g hf hg).2.1
    have hk' : (0 : ℝ) < k := by exact_mod_cast hk
    have hl : 0 < Real.sqrt k := Real.sqrt_pos.2 hk'
    have e0 : ∀ j, Spec.scatterAngle g j = Spec.scatterAngle f j := fun j => by
      rw [Spec.scatterAngle, Spec.scatterAngle, hsv, hsv, arctan2_smul hl]
    rw [e0] at hx hy
    refine ⟨x, y, e, hx, le_trans ?_ hy⟩
    exact arctan2_mono s2.le le_rfl s1.le hF.svd.le01

/-- Points that are not in one plane, each measured twice. -/
example : ∃ (svd : SvdFn) (f : Fit 4) (g : Fit 8) (φ : Fin 8 → Fin 4), svd.Valid ∧
    Spec.EachTaken 2 φ ∧ init svd Witness.tilted none none = .ok (some f) ∧
    init svd (fun j => Witness.tilted (φ j)) none none = .ok (some g) ∧
    (¬ ∃ m d, norm m = 1 ∧ ∀ i, Spec.OnPlane m d (Witness.tilted i)) ∧
    Spec.QuantilesOK Spec.quantiles2 ∧ Spec.QuantilesShrink Spec.quantiles2 := by
  obtain ⟨svd, f, hs, hf, _, es⟩ := Witness.exists_tilted
  obtain ⟨g, hg⟩ := init_default_exists svd (by norm_num : 3 ≤ 8)
    (fun j : Fin 8 => Witness.tilted (![0, 1, 2, 3, 3, 2, 1, 0] j))
  refine ⟨svd, f, g, ![0, 1, 2, 3, 3, 2, 1, 0], hs, ?_, hf, hg, ?_, Spec.quantiles2_ok,
    Spec.quantiles2_shrink⟩
  · intro i
    fin_cases i <;> decide
  · intro h
    have := (coplanar_iff hs hf).1 h
    rw [es] at this
    simp at this

end Attitude.Props
