import Verif.Props.PcaGroups
import Verif.Props.Stability

/-!
# C199 - C200: adding measurements to a fit, in particular such that agree with it
-/

namespace Attitude.Props

open Attitude Pca Matrix ErrorAxes

/-! ## Helper lemmas -/

/-- The sum of squares about the mean along a direction. -/
lemma scatter_le {m n : ℕ} (φ : Fin n → Fin m) (hφ : Function.Injective φ) (b : Fin m → Vec 3)
    (w : Vec 3) : ∑ k, (Matrix.of (Coordinates.centered fun i => b (φ i)) *ᵥ w) k ^ 2
      ≤ ∑ k, (Matrix.of (Coordinates.centered b) *ᵥ w) k ^ 2 := by
  set d := w 0 * meanRows b 0 + w 1 * meanRows b 1 + w 2 * meanRows b 2 with hd
  have h1 := misfit_split b w d
  rw [← hd, sub_self] at h1
  have h2 := misfit_split (fun i => b (φ i)) w d
  have h3 : Spec.misfit (fun i => b (φ i)) w d ≤ Spec.misfit b w d := by
    unfold Spec.misfit
    rw [← Finset.sum_image (s := Finset.univ) (g := φ) (f := fun j => Spec.planeDist2 w d (b j))
      fun _ _ _ _ h => hφ h]
    exact Finset.sum_le_sum_of_subset_of_nonneg (Finset.subset_univ _) fun _ _ _ => sq_nonneg _
  have h4 : 0 ≤ (n : ℝ) * (w 0 * meanRows (fun i => b (φ i)) 0 + w 1 * meanRows (fun i => b (φ i)) 1
      + w 2 * meanRows (fun i => b (φ i)) 2 - d) ^ 2 := by positivity
  linarith

lemma singular_mono {m n : ℕ} {A U : Mat n 3} {B U' : Mat m 3} {s s' : Vec 3} {V V' : Mat 3 3}
    (h : IsSVD A U s V) (h' : IsSVD B U' s' V')
    (hle : ∀ w : Vec 3, ∑ k, (A *ᵥ w) k ^ 2 ≤ ∑ k, (B *ᵥ w) k ^ 2) (i : Fin 3) : s i ≤ s' i := by
  have key : s i ^ 2 ≤ s' i ^ 2 → s i ≤ s' i := fun hh => le_of_sq_le_sq hh (h'.nonneg' i)
  apply key
  fin_cases i
  · have h1 := h'.upper (V 0)
    rw [row_sq h 0, mul_one] at h1
    exact (h.sum_sq_row 0).ge.trans ((hle _).trans h1)
  · obtain ⟨w, hw, h1, h2⟩ := middle_le h h'
    exact h1.trans ((hle w).trans h2)
  · have h1 := h.optimal (V' 2)
    rw [row_sq h' 2, mul_one] at h1
    exact h1.trans ((hle _).trans (h'.sum_sq_row 2).le)

/-! ## C199 -/

/-- With more points, no singular value gets smaller. -/
theorem C199_extents_grow (svd svd' : SvdFn) (hs : svd.Valid) (hs' : svd'.Valid) {m n : ℕ}
    (φ : Fin n → Fin m) (hφ : Function.Injective φ) (b : Fin m → Vec 3) (f : Fit n) (g : Fit m)
    (hf : init svd (fun i => b (φ i)) none none = .ok (some f))
    (hg : init svd' b none none = .ok (some g)) (i : Fin 3) : f.s i ≤ g.s i := by
  obtain ⟨U, hF⟩ := init_default hs hf
  obtain ⟨U', hG⟩ := init_default hs' hg
  exact singular_mono hF.svd hG.svd (scatter_le φ hφ b) i

/-- If the added points lie in the fitted plane and that plane is unique, the new fit finds the same plane,
with the same third singular value (sum of squared residuals) and, unless the plane is vertical, the
same upward normal, and, unless it is horizontal, the same strike and dip. -/
theorem C199_confirmed (svd svd' : SvdFn) (hs : svd.Valid) (hs' : svd'.Valid) {m n : ℕ}
    (φ : Fin n → Fin m) (hφ : Function.Injective φ) (b : Fin m → Vec 3) (f : Fit n) (g : Fit m)
    (hf : init svd (fun i => b (φ i)) none none = .ok (some f))
    (hg : init svd' b none none = .ok (some g)) (c : Vec 3) (hc : f.mean = some c)
    (hon : ∀ j, (∀ i, φ i ≠ j) →
      Spec.OnPlane f.normal (f.normal 0 * c 0 + f.normal 1 * c 1 + f.normal 2 * c 2) (b j)) :
    g.s 2 = f.s 2 ∧ (f.s 2 < f.s 1 →
      (∃ c', g.mean = some c' ∧ ∀ p,
        Spec.OnPlane g.normal (g.normal 0 * c' 0 + g.normal 1 * c' 1 + g.normal 2 * c' 2) p ↔
          Spec.OnPlane f.normal (f.normal 0 * c 0 + f.normal 1 * c 1 + f.normal 2 * c 2) p) ∧
      (f.normal 2 ≠ 0 → g.normal = f.normal ∧
        ((f.normal 0 ≠ 0 ∨ f.normal 1 ≠ 0) → strikeDip g = strikeDip f))) := by
  obtain ⟨U, hF⟩ := init_default hs hf
  obtain ⟨U', hG⟩ := init_default hs' hg
  have hgrow := C199_extents_grow svd svd' hs hs' φ hφ b f g hf hg
  set d := f.normal 0 * c 0 + f.normal 1 * c 1 + f.normal 2 * c 2 with hd
  have hval := C06_misfit_value svd hs _ f hf c hc
  have hsame : Spec.misfit b f.normal d = f.s 2 ^ 2 := by
    rw [← hval]
    unfold Spec.misfit
    rw [← Finset.sum_image (s := Finset.univ) (g := φ)
      (f := fun j => Spec.planeDist2 f.normal d (b j)) fun _ _ _ _ h => hφ h]
    symm
    apply Finset.sum_subset (Finset.subset_univ _)
    intro j _ hj
    have := hon j fun i h => hj (Finset.mem_image.2 ⟨i, Finset.mem_univ i, h⟩)
    unfold Spec.OnPlane at this
    unfold Spec.planeDist2
    rw [this]; ring
  obtain ⟨hu, _, c', hc', hbest⟩ := C06_best_fit svd' hs' b g hg
  have hval' := C06_misfit_value svd' hs' b g hg c' hc'
  have hle := hbest f.normal d (normal_unit hF)
  rw [hval', hsame] at hle
  have h2 : g.s 2 = f.s 2 := le_antisymm (le_of_sq_le_sq hle (hF.svd.nonneg' 2)) (hgrow 2)
  refine ⟨h2, fun hlt => ?_⟩
  have hlt' : g.s 2 < g.s 1 := by rw [h2]; exact hlt.trans_le (hgrow 1)
  have huniq := C06_best_fit_unique svd' hs' b g hg hlt' c' hc' f.normal d (normal_unit hF)
    (by rw [hval', hsame, h2])
  refine ⟨⟨c', hc', fun p => (huniq p).symm⟩, fun hz => ?_⟩
  have hsp : ∑ j, f.normal j ^ 2 = 1 := by
    have := normal_unit hF
    rw [norm, Real.sqrt_eq_one] at this
    exact this
  have hform : ∑ k, (Matrix.of (Coordinates.centered b) *ᵥ f.normal) k ^ 2 ≤ g.s 2 ^ 2 := by
    have := misfit_split b f.normal d
    rw [hsame, ← h2] at this
    have : 0 ≤ (m : ℝ) * (f.normal 0 * meanRows b 0 + f.normal 1 * meanRows b 1
      + f.normal 2 * meanRows b 2 - d) ^ 2 := by positivity
    linarith
  have hup : 0 < f.normal 2 :=
    lt_of_le_of_ne (by rw [hF.normal]; exact upward_nonneg _) (Ne.symm hz)
  have hfn := upward_eq (f.V 2)
  rw [← hF.normal] at hfn
  have hcase := hG.svd.unique hlt' f.normal hsp hform
  have hn : g.normal = f.normal := by
    rw [hG.normal]
    unfold upward
    rcases hcase with k | k
    · rw [if_neg (by rw [← k]; linarith), k]
    · have : g.V 2 2 < 0 := by
        have := congrFun k 2
        simp only [Pi.neg_apply] at this
        linarith
      rw [if_pos this, k]
  refine ⟨hn, fun h01 => ?_⟩
  have e1 : strikeDipOf f.normal = strikeDipOf (f.V 2) := by
    rcases hfn with k | k
    · rw [k]
    · have := C13_sign_invariance_partial f.normal hz h01
      rw [← this, k, neg_neg]
  have e2 : strikeDipOf f.normal = strikeDipOf (g.V 2) := by
    rcases hcase with k | k
    · rw [k]
    · have := C13_sign_invariance_partial f.normal hz h01
      rw [← this, k, neg_neg]
  unfold strikeDip
  rw [← e1, ← e2]

/-- Four noisy points of a tilted bed, and a fifth point in the fitted plane: their mean. -/
example : ∃ (svd : SvdFn) (f : Fit 4) (g : Fit 5) (c : Vec 3), svd.Valid ∧
    init svd (fun i : Fin 4 => (Fin.snoc Witness.tilted (meanRows Witness.tilted) : Fin 5 → Vec 3)
      i.castSucc) none none = .ok (some f) ∧
    init svd (Fin.snoc Witness.tilted (meanRows Witness.tilted) : Fin 5 → Vec 3) none none
      = .ok (some g) ∧ f.mean = some c ∧ f.s 2 < f.s 1 ∧
    ∀ j, (∀ i : Fin 4, i.castSucc ≠ j) →
      Spec.OnPlane f.normal (f.normal 0 * c 0 + f.normal 1 * c 1 + f.normal 2 * c 2)
        ((Fin.snoc Witness.tilted (meanRows Witness.tilted) : Fin 5 → Vec 3) j) := by
  obtain ⟨svd, f, hs, hf, hV, hlt⟩ := Witness.exists_tilted
  have e : (fun i : Fin 4 => (Fin.snoc Witness.tilted (meanRows Witness.tilted) : Fin 5 → Vec 3)
      i.castSucc) = Witness.tilted := by
    funext i; simp
  obtain ⟨g, hg⟩ := init_default_exists svd (by norm_num : 3 ≤ 5)
    (Fin.snoc Witness.tilted (meanRows Witness.tilted) : Fin 5 → Vec 3)
  obtain ⟨U, hF⟩ := init_default hs hf
  refine ⟨svd, f, g, meanRows Witness.tilted, hs, by rw [e]; exact hf, hg, hF.mean, ?_, ?_⟩
  · rw [hlt]; simp
  · intro j hj
    have : j = Fin.last 4 := by
      by_contra h
      exact hj (j.castPred h) (Fin.castSucc_castPred j h)
    rw [this, Fin.snoc_last]
    rfl

/-! ## C200 -/

/-- The quantiles of the F distribution with two numerator degrees of freedom become smaller with
more data. -/
def Spec.QuantilesShrink (Q : Quantiles) : Prop :=
  ∀ p k m, 0 ≤ p → p < 1 → 0 < k → k ≤ m → Q.f p 2 m ≤ Q.f p 2 k

/-- The relative error of both methods: a number that depends on the number of points. -/
noncomputable def relativeError (sampling : Bool) (n : ℕ) (z : ℝ) : ℝ :=
  if sampling then z * Real.sqrt (2 / ((n : ℝ) - 1)) else 2 * z / Real.sqrt ((n : ℝ) - 2)

/-- The length it applies to. -/
def errorBase (sampling : Bool) (s : Vec 3) (j : Fin 3) : ℝ := if sampling then s j else s 2

lemma scaled_error {n : ℕ} {a : Fin n → Vec 3} {f : Fit n} {U : Mat n 3} (hF : IsFit a f U)
    (sampling : Bool) (z : ℝ) (j : Fin 3) :
    ((n : ℝ) - 1) * (z * Spec.errorScale sampling n (eigenvalues f) j) =
      f.s j * (relativeError sampling n z * errorBase sampling f.s j) ∧
    ((n : ℝ) - 1) * eigenvalues f j = f.s j * f.s j := by
  have hn : (3 : ℝ) ≤ n := by exact_mod_cast hF.size
  have h1 : (0 : ℝ) < (n : ℝ) - 1 := by linarith
  have h2 : (0 : ℝ) < (n : ℝ) - 2 := by linarith
  have hj := hF.svd.nonneg' j
  have h22 := hF.svd.nonneg' 2
  constructor
  · unfold Spec.errorScale relativeError errorBase eigenvalues
    cases sampling
    · simp only [Bool.false_eq_true, if_false]
      have e : f.s j ^ 2 / ((n : ℝ) - 1) * (f.s 2 ^ 2 / ((n : ℝ) - 1)) / ((n : ℝ) - 2)
          = (f.s j * f.s 2 / ((n : ℝ) - 1)) ^ 2 / ((n : ℝ) - 2) := by
        field_simp
      rw [e, Real.sqrt_div (sq_nonneg _), Real.sqrt_sq (by positivity)]
      have := Real.sqrt_pos.2 h2
      field_simp
    · simp only [if_true]
      field_simp
  · unfold eigenvalues
    field_simp

lemma axes_scaled {n : ℕ} {a : Fin n → Vec 3} {f : Fit n} {U : Mat n 3} (hF : IsFit a f U)
    (sampling : Bool) (z : ℝ) (j : Fin 3) (hj : j ≠ 2) :
    ((n : ℝ) - 1) * Spec.hyperbolicAxes sampling n (eigenvalues f) z j =
      f.s j * |f.s j - relativeError sampling n z * errorBase sampling f.s j| := by
  have hn : (3 : ℝ) ≤ n := by exact_mod_cast hF.size
  have h1 : (0 : ℝ) < (n : ℝ) - 1 := by linarith
  obtain ⟨e1, e2⟩ := scaled_error hF sampling z j
  have e : ((n : ℝ) - 1) * |eigenvalues f j - z * Spec.errorScale sampling n (eigenvalues f) j| =
      f.s j * |f.s j - relativeError sampling n z * errorBase sampling f.s j| := by
    have h2 : ∀ t x : ℝ, 0 ≤ t → t * |x| = |t * x| := fun t x ht => by rw [abs_mul, abs_of_nonneg ht]
    rw [h2 _ _ h1.le, h2 _ _ (hF.svd.nonneg' j), mul_sub, mul_sub, e1, e2]
  fin_cases j
  · exact e
  · exact e
  · exact absurd rfl hj

lemma axes_scaled_two {n : ℕ} {a : Fin n → Vec 3} {f : Fit n} {U : Mat n 3} (hF : IsFit a f U)
    (sampling : Bool) (z : ℝ) :
    ((n : ℝ) - 1) * Spec.hyperbolicAxes sampling n (eigenvalues f) z 2 =
      f.s 2 * (f.s 2 + relativeError sampling n z * f.s 2) := by
  obtain ⟨e1, e2⟩ := scaled_error hF sampling z 2
  have hb : errorBase sampling f.s 2 = f.s 2 := by unfold errorBase; split_ifs <;> rfl
  rw [hb] at e1
  show ((n : ℝ) - 1) * (eigenvalues f 2 + z * Spec.errorScale sampling n (eigenvalues f) 2) = _
  rw [mul_add, mul_add, e1, e2]

lemma arctan2_sqrt_smul {t : ℝ} (ht : 0 < t) (y x : ℝ) :
    arctan2 (Real.sqrt (t * y)) (Real.sqrt (t * x)) = arctan2 (Real.sqrt y) (Real.sqrt x) := by
  rw [Real.sqrt_mul ht.le, Real.sqrt_mul ht.le, arctan2_smul (Real.sqrt_pos.2 ht)]

lemma relativeError_nonneg (sampling : Bool) (n : ℕ) {z : ℝ} (hz : 0 ≤ z) :
    0 ≤ relativeError sampling n z := by
  unfold relativeError
  split_ifs
  · exact mul_nonneg hz (Real.sqrt_nonneg _)
  · exact div_nonneg (by linarith) (Real.sqrt_nonneg _)

lemma relativeError_anti (sampling : Bool) {n m : ℕ} (hn : 3 ≤ n) (hnm : n ≤ m) {z z' : ℝ}
    (hz' : 0 ≤ z') (hz : z' ≤ z) : relativeError sampling m z' ≤ relativeError sampling n z := by
  have hn' : (3 : ℝ) ≤ n := by exact_mod_cast hn
  have hm' : (n : ℝ) ≤ m := by exact_mod_cast hnm
  unfold relativeError
  split_ifs
  · apply mul_le_mul hz _ (Real.sqrt_nonneg _) (hz'.trans hz)
    apply Real.sqrt_le_sqrt
    apply div_le_div_of_nonneg_left (by norm_num) (by linarith) (by linarith)
  · apply div_le_div₀ (by linarith) (by linarith) (Real.sqrt_pos.2 (by linarith))
    exact Real.sqrt_le_sqrt (by linarith)

/-- Points that lie in the fitted plane never make the angular errors larger, as long as the errors do
not exceed the in-plane eigenvalues. Missing from the claim: larger errors, see the refutation. -/
theorem C200_confirmed_errors_partial (Q : Quantiles) (hQ : Spec.QuantilesOK Q)
    (hQ' : Spec.QuantilesShrink Q) (svd svd' : SvdFn) (hs : svd.Valid) (hs' : svd'.Valid) {m n : ℕ}
    (φ : Fin n → Fin m) (hφ : Function.Injective φ) (b : Fin m → Vec 3) (f : Fit n) (g : Fit m)
    (hf : init svd (fun i => b (φ i)) none none = .ok (some f))
    (hg : init svd' b none none = .ok (some g)) (c : Vec 3) (hc : f.mean = some c)
    (hon : ∀ j, (∀ i, φ i ≠ j) →
      Spec.OnPlane f.normal (f.normal 0 * c 0 + f.normal 1 * c 1 + f.normal 2 * c 2) (b j))
    (sampling : Bool) (cl : ℝ) (h0 : 0 ≤ cl) (h1 : cl < 1)
    (hsmall : ∀ j : Fin 3, j ≠ 2 →
      Q.f cl 2 (n - 2) * Spec.errorScale sampling n (eigenvalues f) j ≤ eigenvalues f j) :
    ∃ x y x' y', errorsAt Q f sampling cl = some (x, y) ∧ errorsAt Q g sampling cl = some (x', y') ∧
      x' ≤ x ∧ y' ≤ y := by
  obtain ⟨U, hF⟩ := init_default hs hf
  obtain ⟨U', hG⟩ := init_default hs' hg
  obtain ⟨h2, _⟩ := C199_confirmed svd svd' hs hs' φ hφ b f g hf hg c hc hon
  have hgrow := C199_extents_grow svd svd' hs hs' φ hφ b f g hf hg
  obtain ⟨h, e, hh, hnn, _⟩ := C21_closed_form Q hQ svd hs _ f hf sampling cl h0 h1
  obtain ⟨h', e', hh', hnn', _⟩ := C21_closed_form Q hQ svd' hs' b g hg sampling cl h0 h1
  have hn := hF.size
  have hm := hG.size
  have hnm : n ≤ m := by simpa using Fintype.card_le_of_injective φ hφ
  have hn' : (0 : ℝ) < (n : ℝ) - 1 := by
    have : (3 : ℝ) ≤ n := by exact_mod_cast hn
    linarith
  have hm' : (0 : ℝ) < (m : ℝ) - 1 := by
    have : (3 : ℝ) ≤ m := by exact_mod_cast hm
    linarith
  have hz : Q.f cl 2 (m - 2) ≤ Q.f cl 2 (n - 2) := hQ' cl _ _ h0 h1 (by omega) (by omega)
  have hz0 : 0 ≤ Q.f cl 2 (m - 2) := hQ.f_nonneg _ _ _ h0 h1 (by norm_num) (by omega)
  set z := Q.f cl 2 (n - 2)
  set z' := Q.f cl 2 (m - 2)
  have hk := relativeError_anti sampling hn hnm hz0 hz
  have hk0 := relativeError_nonneg sampling m hz0
  have key : ∀ j : Fin 3, j ≠ 2 →
      arctan2 (Real.sqrt (h' 2)) (Real.sqrt (h' j)) ≤ arctan2 (Real.sqrt (h 2)) (Real.sqrt (h j)) := by
    intro j hj
    rw [← arctan2_sqrt_smul hn' (h 2), ← arctan2_sqrt_smul hm' (h' 2), hh, hh',
      axes_scaled hF sampling z j hj, axes_scaled hG sampling z' j hj, axes_scaled_two hF,
      axes_scaled_two hG, h2]
    have s2 := hF.svd.nonneg' 2
    have sj := hF.svd.nonneg' j
    have sg := hgrow j
    apply arctan2_mono (Real.sqrt_nonneg _) _ (Real.sqrt_nonneg _)
    · apply Real.sqrt_le_sqrt
      -- in-plane axes
      have hsm := hsmall j hj
      obtain ⟨e1, e2⟩ := scaled_error hF sampling z j
      have hsm' : f.s j * (relativeError sampling n z * errorBase sampling f.s j) ≤ f.s j * f.s j := by
        rw [← e1, ← e2]
        exact mul_le_mul_of_nonneg_left hsm hn'.le
      rcases sj.lt_or_eq with hp | hp
      · have hle := le_of_mul_le_mul_left hsm' hp
        rw [abs_of_nonneg (by linarith)]
        have hdiff : f.s j - relativeError sampling n z * errorBase sampling f.s j ≤
            g.s j - relativeError sampling m z' * errorBase sampling g.s j := by
          unfold errorBase at hle ⊢
          cases sampling
          · simp only [Bool.false_eq_true, if_false] at hle ⊢
            rw [h2]
            have := mul_le_mul_of_nonneg_right hk s2
            linarith
          · simp only [if_true] at hle ⊢
            have hk1 : relativeError true n z ≤ 1 := by
              by_contra hcon
              push Not at hcon
              have := mul_lt_mul_of_pos_right hcon hp
              linarith
            have t1 : 0 ≤ (g.s j - f.s j) * (1 - relativeError true m z') :=
              mul_nonneg (by linarith) (by linarith)
            have t2 := mul_le_mul_of_nonneg_right hk hp.le
            linarith
        exact mul_le_mul sg (hdiff.trans (le_abs_self _)) (by linarith) (le_trans sj sg)
      · rw [← hp, zero_mul]
        exact mul_nonneg (le_trans sj sg) (abs_nonneg _)
    · apply Real.sqrt_le_sqrt
      apply mul_le_mul_of_nonneg_left _ s2
      have := mul_le_mul_of_nonneg_right hk s2
      linarith
  refine ⟨_, _, _, _, by simp only [errorsAt, e]; rfl, by simp only [errorsAt, e']; rfl, ?_, ?_⟩
  · exact key 0 (by decide)
  · exact key 1 (by decide)

/-- The quantiles of the F distribution meet the hypothesis. -/
theorem Spec.quantiles2_shrink : Spec.QuantilesShrink Spec.quantiles2 := by
  intro p k m h0 h1 hk hkm
  show (m : ℝ) / 2 * ((1 - p) ^ (-(2 / m : ℝ)) - 1) ≤ (k : ℝ) / 2 * ((1 - p) ^ (-(2 / k : ℝ)) - 1)
  have hk' : (0 : ℝ) < k := by exact_mod_cast hk
  have hm' : (0 : ℝ) < m := by exact_mod_cast lt_of_lt_of_le hk hkm
  have hkm' : (k : ℝ) ≤ m := by exact_mod_cast hkm
  have hp : 0 < 1 - p := by linarith
  set y := (1 - p) ^ (-(2 / m : ℝ)) - 1 with hy
  have hpos : 0 < (1 - p) ^ (-(2 / m : ℝ)) := Real.rpow_pos_of_pos hp _
  have hb := one_add_mul_self_le_rpow_one_add (s := y) (by linarith) (p := (m : ℝ) / k)
    ((one_le_div hk').2 hkm')
  have e : (1 + y) ^ ((m : ℝ) / k) = (1 - p) ^ (-(2 / k : ℝ)) := by
    rw [hy, add_sub_cancel, ← Real.rpow_mul hp.le]
    congr 1
    field_simp
  rw [e] at hb
  have h3 : (m : ℝ) / k * y ≤ (1 - p) ^ (-(2 / k : ℝ)) - 1 := by linarith
  calc (m : ℝ) / 2 * y = (k : ℝ) / 2 * ((m : ℝ) / k * y) := by field_simp
    _ ≤ _ := mul_le_mul_of_nonneg_left h3 (by positivity)

/-- Four points of a bed and their mean, at the level 1/2. -/
example : ∃ (svd : SvdFn) (f : Fit 4) (g : Fit 5) (x y x' y' : ℝ), svd.Valid ∧
    init svd (fun i : Fin 4 => (Fin.snoc Witness.tilted (meanRows Witness.tilted) : Fin 5 → Vec 3)
      i.castSucc) none none = .ok (some f) ∧
    init svd (Fin.snoc Witness.tilted (meanRows Witness.tilted) : Fin 5 → Vec 3) none none
      = .ok (some g) ∧
    errorsAt Spec.quantiles2 f true (1 / 2) = some (x, y) ∧
    errorsAt Spec.quantiles2 g true (1 / 2) = some (x', y') ∧ x' ≤ x ∧ y' ≤ y := by
  obtain ⟨svd, f, hs, hf, hV, hlt⟩ := Witness.exists_tilted
  have e : (fun i : Fin 4 => (Fin.snoc Witness.tilted (meanRows Witness.tilted) : Fin 5 → Vec 3)
      i.castSucc) = Witness.tilted := by
    funext i; simp
  obtain ⟨g, hg⟩ := init_default_exists svd (by norm_num : 3 ≤ 5)
    (Fin.snoc Witness.tilted (meanRows Witness.tilted) : Fin 5 → Vec 3)
  obtain ⟨U, hF⟩ := init_default hs hf
  obtain ⟨x, y, x', y', h⟩ := C200_confirmed_errors_partial _ Spec.quantiles2_ok
    Spec.quantiles2_shrink svd svd hs hs (Fin.castSucc : Fin 4 → Fin 5) (Fin.castSucc_injective 4)
    (Fin.snoc Witness.tilted (meanRows Witness.tilted) : Fin 5 → Vec 3) f g (by rw [e]; exact hf) hg
    _ hF.mean (by
      intro j hj
      have : j = Fin.last 4 := by
        by_contra h
        exact hj (j.castPred h) (Fin.castSucc_castPred j h)
      rw [this, Fin.snoc_last]
      rfl) true (1 / 2) (by norm_num) (by norm_num) (by
      intro j _
      have h1 : Spec.quantiles2.f (1 / 2) 2 (4 - 2) = 1 := by
        simp only [Spec.quantiles2, Spec.fisher2]
        norm_num [Real.rpow_neg_one]
      have h0 := eigenvalues_nonneg hF j
      have h2 : Real.sqrt (2 / ((4 : ℕ) - 1)) ≤ 1 := by
        rw [Real.sqrt_le_one]
        norm_num
      rw [h1, one_mul, Spec.errorScale, if_pos rfl]
      nlinarith)
  exact ⟨svd, f, g, x, y, x', y', hs, by rw [e]; exact hf, hg, h⟩

/-- The mean of the points, added as a further point, leaves the singular values as they are. -/
lemma snoc_mean_singular {svd svd' : SvdFn} (hs : svd.Valid) (hs' : svd'.Valid) {n : ℕ}
    {a : Fin n → Vec 3} {f : Fit n} {g : Fit (n + 1)} (hf : init svd a none none = .ok (some f))
    (hg : init svd' (Fin.snoc a (meanRows a) : Fin (n + 1) → Vec 3) none none = .ok (some g)) :
    g.s = f.s := by
  obtain ⟨U, hF⟩ := init_default hs hf
  obtain ⟨U', hG⟩ := init_default hs' hg
  have hn0 : (n : ℝ) ≠ 0 := by
    have := hF.size
    have : n ≠ 0 := by omega
    exact_mod_cast this
  have hform : ∀ w : Vec 3,
      ∑ k, (Matrix.of (Coordinates.centered (Fin.snoc a (meanRows a) : Fin (n + 1) → Vec 3)) *ᵥ w) k ^ 2
        ≤ ∑ k, (Matrix.of (Coordinates.centered a) *ᵥ w) k ^ 2 := by
    intro w
    set d := w 0 * meanRows a 0 + w 1 * meanRows a 1 + w 2 * meanRows a 2 with hd
    have h1 := misfit_split a w d
    rw [← hd, sub_self] at h1
    have h2 := misfit_split (Fin.snoc a (meanRows a) : Fin (n + 1) → Vec 3) w d
    have h3 : Spec.misfit (Fin.snoc a (meanRows a) : Fin (n + 1) → Vec 3) w d = Spec.misfit a w d := by
      unfold Spec.misfit
      rw [Fin.sum_univ_castSucc]
      simp only [Fin.snoc_castSucc, Fin.snoc_last]
      unfold Spec.planeDist2
      rw [← hd]; ring
    have h4 : 0 ≤ ((n + 1 : ℕ) : ℝ) * (w 0 * meanRows (Fin.snoc a (meanRows a) : Fin (n + 1) → Vec 3) 0
      + w 1 * meanRows (Fin.snoc a (meanRows a) : Fin (n + 1) → Vec 3) 1
      + w 2 * meanRows (Fin.snoc a (meanRows a) : Fin (n + 1) → Vec 3) 2 - d) ^ 2 := by positivity
    linarith
  funext i
  apply le_antisymm (singular_mono hG.svd hF.svd hform i)
  have e : (fun i : Fin n => (Fin.snoc a (meanRows a) : Fin (n + 1) → Vec 3) i.castSucc) = a := by
    funext i; simp
  exact C199_extents_grow svd svd' hs hs' Fin.castSucc (Fin.castSucc_injective n) _ f g
    (by rw [e]; exact hf) hg i

/-- At the usual level, for any six points that do not lie in a plane, adding a seventh that lies
exactly in the fitted plane (the mean) makes both sampling errors larger. -/
theorem C200_confirmed_larger_false (svd : SvdFn) (hs : svd.Valid) (a : Fin 6 → Vec 3) (f : Fit 6)
    (hf : init svd a none none = .ok (some f))
    (hnoise : ¬ ∃ m d, norm m = 1 ∧ ∀ i, Spec.OnPlane m d (a i)) :
    ∃ g, init svd (Fin.snoc a (meanRows a) : Fin 7 → Vec 3) none none = .ok (some g) ∧
      ∃ x y x' y', errorsAt Spec.quantiles2 f true 0.95 = some (x, y) ∧
        errorsAt Spec.quantiles2 g true 0.95 = some (x', y') ∧ x < x' ∧ y < y' := by
  obtain ⟨g, hg⟩ := init_default_exists svd (by norm_num : 3 ≤ 7)
    (Fin.snoc a (meanRows a) : Fin 7 → Vec 3)
  refine ⟨g, hg, ?_⟩
  obtain ⟨U, hF⟩ := init_default hs hf
  obtain ⟨U', hG⟩ := init_default hs hg
  have hss := snoc_mean_singular hs hs hf hg
  obtain ⟨h, e, hh, hnn, _⟩ := C21_closed_form _ Spec.quantiles2_ok svd hs _ f hf true 0.95
    (by norm_num) (by norm_num)
  obtain ⟨h', e', hh', hnn', _⟩ := C21_closed_form _ Spec.quantiles2_ok svd hs _ g hg true 0.95
    (by norm_num) (by norm_num)
  have s2 : 0 < f.s 2 :=
    lt_of_le_of_ne (hF.svd.nonneg' 2) fun h => hnoise ((coplanar_iff hs hf).2 h.symm)
  have hz' : (5 : ℝ) ≤ Spec.quantiles2.f 0.95 2 (7 - 2) := by
    have e5 : Spec.quantiles2.f 0.95 2 (7 - 2) =
        5 / 2 * ((1 / 20 : ℝ) ^ (-(2 / 5 : ℝ)) - 1) := by
      simp only [Spec.quantiles2, Spec.fisher2]
      norm_num
    have hpow : ((1 / 20 : ℝ) ^ (-(2 / 5 : ℝ))) ^ 5 = 400 := by
      rw [← Real.rpow_natCast, ← Real.rpow_mul (by norm_num)]
      norm_num
    have hpos : 0 < (1 / 20 : ℝ) ^ (-(2 / 5 : ℝ)) := Real.rpow_pos_of_pos (by norm_num) _
    have h3 : 3 ≤ (1 / 20 : ℝ) ^ (-(2 / 5 : ℝ)) := by
      by_contra hcon
      push Not at hcon
      have := pow_lt_pow_left₀ hcon hpos.le (by norm_num : (5 : ℕ) ≠ 0)
      rw [hpow] at this
      norm_num at this
    rw [e5]
    linarith
  have hz : Spec.quantiles2.f 0.95 2 (7 - 2) ≤ Spec.quantiles2.f 0.95 2 (6 - 2) :=
    Spec.quantiles2_shrink _ _ _ (by norm_num) (by norm_num) (by norm_num) (by norm_num)
  set z := Spec.quantiles2.f 0.95 2 (6 - 2)
  set z' := Spec.quantiles2.f 0.95 2 (7 - 2)
  set k := relativeError true 6 z with hk
  set k' := relativeError true 7 z' with hk'
  have hk1 : 1 < k' := by
    have h1 : (1 / 2 : ℝ) ≤ Real.sqrt (2 / (((7 : ℕ) : ℝ) - 1)) := by
      apply Real.le_sqrt_of_sq_le
      norm_num
    rw [hk', relativeError, if_pos rfl]
    nlinarith
  have hkk : k' < k := by
    have h1 : Real.sqrt (2 / (((7 : ℕ) : ℝ) - 1)) < Real.sqrt (2 / (((6 : ℕ) : ℝ) - 1)) := by
      apply Real.sqrt_lt_sqrt <;> norm_num
    rw [hk, hk', relativeError, relativeError, if_pos rfl, if_pos rfl]
    calc z' * Real.sqrt (2 / (((7 : ℕ) : ℝ) - 1)) < z' * Real.sqrt (2 / (((6 : ℕ) : ℝ) - 1)) :=
          mul_lt_mul_of_pos_left h1 (by linarith)
      _ ≤ _ := mul_le_mul_of_nonneg_right hz (Real.sqrt_nonneg _)
  have key : ∀ j : Fin 3, j ≠ 2 →
      arctan2 (Real.sqrt (h 2)) (Real.sqrt (h j)) < arctan2 (Real.sqrt (h' 2)) (Real.sqrt (h' j)) := by
    intro j hj
    have sj : 0 < f.s j := by
      have := hF.svd.le01
      have := hF.svd.le12
      fin_cases j
      · show 0 < f.s 0; linarith
      · show 0 < f.s 1; linarith
      · exact absurd rfl hj
    rw [← arctan2_sqrt_smul (by norm_num : (0 : ℝ) < ((6 : ℕ) : ℝ) - 1) (h 2),
      ← arctan2_sqrt_smul (by norm_num : (0 : ℝ) < ((7 : ℕ) : ℝ) - 1) (h' 2), hh, hh',
      axes_scaled hF true z j hj, axes_scaled hG true z' j hj, axes_scaled_two hF,
      axes_scaled_two hG, hss, ← hk, ← hk']
    unfold errorBase
    rw [if_pos rfl, abs_of_neg (by nlinarith), abs_of_neg (by nlinarith)]
    have p1 : 0 < f.s j * -(f.s j - k * f.s j) := mul_pos sj (by nlinarith)
    have p2 : 0 < f.s j * -(f.s j - k' * f.s j) := mul_pos sj (by nlinarith)
    apply arctan2_lt_of_div_lt (Real.sqrt_pos.2 p1) (Real.sqrt_pos.2 p2)
    rw [← Real.sqrt_div' _ p1.le, ← Real.sqrt_div' _ p2.le]
    apply Real.sqrt_lt_sqrt
    · apply div_nonneg _ p1.le
      exact mul_nonneg s2.le (by nlinarith)
    · rw [div_lt_div_iff₀ p1 p2]
      have d1 : 0 < (k - k') * (f.s j ^ 2 * f.s 2 ^ 2) := mul_pos (by linarith) (by positivity)
      linarith
  refine ⟨_, _, _, _, by simp only [errorsAt, e]; rfl, by simp only [errorsAt, e']; rfl, ?_, ?_⟩
  · exact key 0 (by decide)
  · exact key 1 (by decide)

example : ∃ (svd : SvdFn) (f : Fit 6), svd.Valid ∧
    init svd (axisPoints 3 2 1) none none = .ok (some f) ∧
    ¬ ∃ m d, norm m = 1 ∧ ∀ i, Spec.OnPlane m d (axisPoints 3 2 1 i) := by
  obtain ⟨svd, hs⟩ := exists_valid_svd
  obtain ⟨f, hf⟩ := init_default_exists svd (by norm_num : 3 ≤ 6) (axisPoints 3 2 1)
  refine ⟨svd, f, hs, hf, ?_⟩
  rintro ⟨m, d, hm, h⟩
  have h0 := h 0
  have h1 := h 1
  have h2 := h 2
  have h3 := h 3
  have h4 := h 4
  have h5 := h 5
  simp [Spec.OnPlane, axisPoints] at h0 h1 h2 h3 h4 h5
  have m0 : m 0 = 0 := by linarith
  have m1 : m 1 = 0 := by linarith
  have m2 : m 2 = 0 := by linarith
  rw [norm3, m0, m1, m2] at hm
  norm_num at hm

end Attitude.Props
