import Verif.Props.PcaExact

/-!
# C176 - C178: how a fit depends on its data: rigid motions, order and
repetition of the points, mirror images
-/

namespace Attitude.Props

open Attitude Pca Matrix

/-! ## Helper lemmas -/

/-- Fits of data whose quadratic forms agree up to a rotation and a factor. -/
lemma related_fits {m n : ℕ} {a : Fin n → Vec 3} {f : Fit n} {U : Mat n 3} (h : IsFit a f U)
    {b : Fin m → Vec 3} {g : Fit m} {U' : Mat m 3} (h' : IsFit b g U') {R : Mat 3 3}
    (hR : R * R.transpose = 1) {c : ℝ} (hc : 0 < c)
    (hq : ∀ w, ∑ i, (Matrix.of (Coordinates.centered b) *ᵥ (R *ᵥ w)) i ^ 2
      = c ^ 2 * ∑ i, (Matrix.of (Coordinates.centered a) *ᵥ w) i ^ 2) :
    (∀ j, g.s j = c * f.s j) ∧
      (f.s 2 < f.s 1 → g.V 2 = R *ᵥ f.V 2 ∨ g.V 2 = -(R *ᵥ f.V 2)) := by
  have hR' : R.transpose * R = 1 := mul_eq_one_comm.1 hR
  have hP : IsSVD (Matrix.of (Coordinates.centered b) * R) U' g.s (g.V * R) := by
    refine ⟨?_, h'.svd.orthU, ?_, h'.svd.nonneg, h'.svd.le01, h'.svd.le12⟩
    · rw [← Matrix.mul_assoc, ← h'.svd.recon]
    · rw [Matrix.transpose_mul, ← Matrix.mul_assoc, Matrix.mul_assoc g.V, hR, Matrix.mul_one,
        h'.svd.orthV]
  have hsv : ∀ j, g.s j = c * f.s j := by
    refine h.svd.scale_sv hP c hc.le fun w => ?_
    rw [← hq]
    simp only [Matrix.mulVec_mulVec]
  refine ⟨hsv, fun hlt => ?_⟩
  have hrow : (g.V * R) 2 = R.transpose *ᵥ g.V 2 := by
    funext j
    simp only [Matrix.mul_apply, Matrix.mulVec, dotProduct, Matrix.transpose_apply]
    exact Finset.sum_congr rfl fun i _ => mul_comm _ _
  have hback : R *ᵥ ((g.V * R) 2) = g.V 2 := by
    rw [hrow, Matrix.mulVec_mulVec, hR, Matrix.one_mulVec]
  have hu : ∑ j, (g.V * R) 2 j ^ 2 = 1 := by
    rw [sum_sq_eq_vdot]
    have := hP.row_dot 2 2
    simpa using this
  have hle : ∑ i, (Matrix.of (Coordinates.centered a) *ᵥ (g.V * R) 2) i ^ 2 ≤ f.s 2 ^ 2 := by
    have h1 := hq ((g.V * R) 2)
    rw [hback, h'.svd.sum_sq_row, hsv, mul_pow] at h1
    have : 0 < c ^ 2 := by positivity
    exact (mul_left_cancel₀ this.ne' h1).ge
  rcases h.svd.unique hlt _ hu hle with k | k
  · left; rw [← k, hback]
  · right; rw [← hback, k, Matrix.mulVec_neg]

/-- The angular errors only depend on the ratios of the singular values. -/
lemma errors_of_ratio {Q : ErrorAxes.Quantiles} (hQ : Spec.QuantilesOK Q) {svd svd' : SvdFn}
    (hs : svd.Valid) (hs' : svd'.Valid) {n : ℕ} {a b : Fin n → Vec 3} {l : ℝ} (hl : 0 < l)
    {f g : Fit n} (hf : init svd a none none = .ok (some f))
    (hg : init svd' b none none = .ok (some g)) (hsv : ∀ j, g.s j = l * f.s j) (sampling : Bool)
    (cl : ℝ) (h0 : 0 ≤ cl) (h1 : cl < 1) :
    errorsAt Q g sampling cl = errorsAt Q f sampling cl := by
  obtain ⟨U, hF⟩ := Pca.init_default hs hf
  obtain ⟨U', hG⟩ := Pca.init_default hs' hg
  obtain ⟨h, e, hh, _⟩ := C21_closed_form Q hQ svd hs a f hf sampling cl h0 h1
  obtain ⟨h', e', hh', _⟩ := C21_closed_form Q hQ svd' hs' _ g hg sampling cl h0 h1
  have hev : ∀ j, Pca.eigenvalues g j = l ^ 2 * Pca.eigenvalues f j := by
    intro j
    simp only [Pca.eigenvalues, hsv]
    ring
  have hevf := eigenvalues_nonneg hF
  have hk : ∀ j, Spec.errorScale sampling n (Pca.eigenvalues g) j
      = l ^ 2 * Spec.errorScale sampling n (Pca.eigenvalues f) j := by
    intro j
    simp only [Spec.errorScale, hev]
    split_ifs
    · ring
    · rw [show l ^ 2 * Pca.eigenvalues f j * (l ^ 2 * Pca.eigenvalues f 2) / ((n : ℝ) - 2)
        = (l ^ 2) ^ 2 * (Pca.eigenvalues f j * Pca.eigenvalues f 2 / ((n : ℝ) - 2)) by ring,
        Real.sqrt_mul (by positivity), Real.sqrt_sq (by positivity)]
      ring
  have hscale : ∀ j, h' j = l ^ 2 * h j := by
    intro j
    rw [hh, hh']
    have habs : ∀ x, |l ^ 2 * x| = l ^ 2 * |x| := by
      intro x; rw [abs_mul, abs_of_pos (by positivity)]
    fin_cases j
    · show |_ - _| = _ * |_ - _|
      rw [hev, hk, ← habs]; congr 1; ring
    · show |_ - _| = _ * |_ - _|
      rw [hev, hk, ← habs]; congr 1; ring
    · show _ + _ = _ * (_ + _)
      rw [hev, hk]; ring
  have hang : ErrorAxes.angularErrors h' = ErrorAxes.angularErrors h := by
    have q : ∀ j, Real.sqrt (h' j) = l * Real.sqrt (h j) := by
      intro j
      rw [hscale, Real.sqrt_mul (by positivity), Real.sqrt_sq hl.le]
    simp only [ErrorAxes.angularErrors, q, arctan2_smul hl]
  simp only [errorsAt, e, e', hang]

lemma inPlane_upward (v w : Vec 3) : Spec.InPlane (upward v) w ↔ Spec.InPlane v w := by
  rcases upward_eq v with e | e <;> rw [e]
  simp only [Spec.InPlane, Pi.neg_apply]
  constructor <;> intro k <;> linarith

lemma inPlane_neg (v w : Vec 3) : Spec.InPlane (-v) w ↔ Spec.InPlane v w := by
  simp only [Spec.InPlane, Pi.neg_apply]
  constructor <;> intro k <;> linarith

/-! ## C176 -/

/-- The data after a rotation or reflection `R`, a change of scale `l` and a translation `t`. -/
def Spec.rigid {n : ℕ} (l : ℝ) (R : Mat 3 3) (t : Vec 3) (a : Fin n → Vec 3) : Fin n → Vec 3 :=
  fun i j => l * (R j 0 * a i 0 + R j 1 * a i 1 + R j 2 * a i 2) + t j

lemma centered_rigid {n : ℕ} (l : ℝ) (R : Mat 3 3) (t : Vec 3) (a : Fin n → Vec 3) :
    Coordinates.centered (Spec.rigid l R t a)
      = fun i j => l * (R *ᵥ Coordinates.centered a i) j := by
  obtain ⟨hz, hs⟩ := C01_centered_zero_mean_same_shape a
  apply C01_centered_unique
  · intro j
    simp only [Matrix.mulVec, dotProduct, Fin.sum_univ_three, mul_add, Finset.sum_add_distrib,
      ← Finset.mul_sum, hz 0, hz 1, hz 2]
    ring
  · intro i i' j
    have h0 := hs i i' 0
    have h1 := hs i i' 1
    have h2 := hs i i' 2
    simp only [Spec.rigid, Matrix.mulVec, dotProduct, Fin.sum_univ_three]
    linear_combination l * R j 0 * h0 + l * R j 1 * h1 + l * R j 2 * h2

lemma form_rigid {n : ℕ} {l : ℝ} {R : Mat 3 3} (hR : R * R.transpose = 1) {t : Vec 3}
    (a : Fin n → Vec 3) (w : Vec 3) :
    ∑ i, (Matrix.of (Coordinates.centered (Spec.rigid l R t a)) *ᵥ (R *ᵥ w)) i ^ 2
      = l ^ 2 * ∑ i, (Matrix.of (Coordinates.centered a) *ᵥ w) i ^ 2 := by
  have hR' : R.transpose * R = 1 := mul_eq_one_comm.1 hR
  rw [Finset.mul_sum]
  apply Finset.sum_congr rfl
  intro i _
  rw [← mul_pow]
  congr 1
  rw [centered_rigid]
  show (fun j => l * (R *ᵥ Coordinates.centered a i) j) ⬝ᵥ (R *ᵥ w) = l * (Coordinates.centered a i ⬝ᵥ w)
  have e : (fun j => l * (R *ᵥ Coordinates.centered a i) j) = l • (R *ᵥ Coordinates.centered a i) := rfl
  rw [e, smul_dotProduct, smul_eq_mul, Matrix.dotProduct_mulVec, Matrix.vecMul_mulVec]
  congr 1
  rw [hR', Matrix.vecMul_one]

/-- Any rotation or reflection in space, change of scale and translation of the data: the center
moves along, the singular values are multiplied by the scale, the angular errors do not change, and
(if the best plane is unique) the fitted plane is rotated along. -/
theorem C176_rigid_motion (Q : ErrorAxes.Quantiles) (hQ : Spec.QuantilesOK Q) (svd svd' : SvdFn)
    (hs : svd.Valid) (hs' : svd'.Valid) {n : ℕ} (a : Fin n → Vec 3) (l : ℝ) (hl : 0 < l)
    (R : Mat 3 3) (hR : R * R.transpose = 1) (t : Vec 3) (f g : Fit n)
    (hf : init svd a none none = .ok (some f))
    (hg : init svd' (Spec.rigid l R t a) none none = .ok (some g)) :
    (∃ c, f.mean = some c ∧ g.mean = some fun j =>
      l * (R j 0 * c 0 + R j 1 * c 1 + R j 2 * c 2) + t j) ∧
    (∀ j, g.s j = l * f.s j) ∧
    (∀ sampling cl, 0 ≤ cl → cl < 1 → errorsAt Q g sampling cl = errorsAt Q f sampling cl) ∧
    (f.s 2 < f.s 1 → ∀ v, Spec.InPlane g.normal (R *ᵥ v) ↔ Spec.InPlane f.normal v) := by
  obtain ⟨U, h⟩ := init_default hs hf
  obtain ⟨U', h'⟩ := init_default hs' hg
  obtain ⟨hsv, hax⟩ := related_fits h h' hR hl (form_rigid hR a)
  refine ⟨⟨_, h.mean, ?_⟩, hsv, fun sampling cl h0 h1 =>
    errors_of_ratio hQ hs hs' hl hf hg hsv sampling cl h0 h1, fun hlt v => ?_⟩
  · rw [h'.mean]
    congr 1
    funext j
    have hn : (n : ℝ) ≠ 0 := by
      have := h.size
      exact_mod_cast (by omega : n ≠ 0)
    simp only [meanRows, Spec.rigid, Finset.sum_add_distrib, ← Finset.mul_sum]
    simp
    field_simp
  · have hR' : R.transpose * R = 1 := mul_eq_one_comm.1 hR
    have key : Spec.InPlane (R *ᵥ f.V 2) (R *ᵥ v) ↔ Spec.InPlane (f.V 2) v := by
      have e : ∀ x y : Vec 3, Spec.InPlane x y ↔ x ⬝ᵥ y = 0 := by
        intro x y
        simp only [Spec.InPlane, dotProduct, Fin.sum_univ_three]
      rw [e, e, Matrix.dotProduct_mulVec, Matrix.vecMul_mulVec, hR', Matrix.vecMul_one]
    rw [h.normal, h'.normal, inPlane_upward, inPlane_upward, ← key]
    rcases hax hlt with k | k <;> rw [k]
    exact inPlane_neg _ _

/-- A rotation by 90 degrees about the east axis, which puts vertical planes on their side. -/
example : ∃ (svd : SvdFn) (f g : Fit 4) (R : Mat 3 3), svd.Valid ∧ R * R.transpose = 1 ∧ R ≠ 1 ∧
    init svd Witness.tilted none none = .ok (some f) ∧ f.s 2 < f.s 1 ∧
    init svd (Spec.rigid 2 R ![1, 2, 3] Witness.tilted) none none = .ok (some g) ∧ g.s 0 = 6 := by
  obtain ⟨svd, f, hs, hf, _, e⟩ := Witness.exists_tilted
  have hR : (!![1, 0, 0; 0, 0, -1; 0, 1, 0] : Mat 3 3) * (!![1, 0, 0; 0, 0, -1; 0, 1, 0] :
      Mat 3 3).transpose = 1 := by
    ext i j
    fin_cases i <;> fin_cases j <;> simp [Matrix.mul_apply, Fin.sum_univ_three]
  obtain ⟨g, hg⟩ := init_default_exists svd (by norm_num : 3 ≤ 4)
    (Spec.rigid 2 !![1, 0, 0; 0, 0, -1; 0, 1, 0] ![1, 2, 3] Witness.tilted)
  refine ⟨svd, f, g, _, hs, hR, fun h => ?_, hf, by rw [e]; simp, hg, ?_⟩
  · have := congrFun (congrFun h 1) 2
    simp at this
  · rw [(C176_rigid_motion _ Spec.quantiles2_ok svd svd hs hs _ 2 (by norm_num) _ hR _ f g hf hg).2.1,
      e]
    norm_num

/-! ## C177 -/

/-- Strike and dip of the opposite axis. -/
lemma strikeDip_neg {v : Vec 3} (hv : v ≠ 0) {s d : ℝ} (h : strikeDipOf v = some (s, d)) :
    ∃ s', strikeDipOf (-v) = some (s', d) ∧ (d ≠ 0 → d ≠ 90 → s' = s) ∧
      (d ≠ 0 → s' = s ∨ s' = s + 180 ∨ s' = s - 180) := by
  by_cases h2 : v 2 = 0
  · obtain ⟨s1, s2, e1, e2, k⟩ := C13_vertical_false v hv h2
    rw [h] at e1
    cases e1
    exact ⟨s2, e2, fun _ h90 => absurd rfl h90, fun _ => .inr k⟩
  · by_cases h01 : v 0 ≠ 0 ∨ v 1 ≠ 0
    · exact ⟨s, by rw [C13_sign_invariance_partial v h2 h01, h], fun _ _ => rfl, fun _ => .inl rfl⟩
    · push Not at h01
      have key : ∀ w : Vec 3, w ≠ 0 → w 0 = 0 → w 1 = 0 → ∀ s d, strikeDipOf w = some (s, d) →
          d = 0 := by
        intro w hw w0 w1 s d e
        obtain ⟨s', d', e', a1, a2, a3, a4, a5⟩ := strikeDipOf_spec hw
        rw [e] at e'
        cases e'
        have hn : norm w ≠ 0 := fun h => hw ((norm_eq_zero_iff w).1 h)
        have c0 : upward w 0 = 0 := by rcases upward_eq w with k | k <;> simp [k, w0]
        have c1 : upward w 1 = 0 := by rcases upward_eq w with k | k <;> simp [k, w1]
        have x0 := congrFun a5 0
        have x1 := congrFun a5 1
        rw [c0] at x0
        rw [c1] at x1
        simp [sdNormal, hn] at x0 x1
        have hsin : Real.sin (radians d) = 0 := by
          have := Real.sin_sq_add_cos_sq (radians s)
          rcases x0 with k | k
          · exact k
          · rcases x1 with k' | k'
            · exact k'
            · rw [k, k'] at this
              norm_num at this
        by_contra hne
        have hpos : 0 < d := lt_of_le_of_ne a3 (Ne.symm hne)
        have hpi := Real.pi_pos
        have : 0 < Real.sin (radians d) := by
          apply Real.sin_pos_of_pos_of_lt_pi
          · unfold radians; positivity
          · unfold radians; nlinarith
        linarith
      obtain ⟨s', d', e', _⟩ := strikeDipOf_spec (neg_ne_zero.2 hv)
      have k1 := key v hv h01.1 h01.2 s d h
      have k2 := key (-v) (neg_ne_zero.2 hv) (by simp [h01.1]) (by simp [h01.2]) s' d' e'
      subst k1 k2
      exact ⟨s', e', fun h0 => absurd rfl h0, fun h0 => absurd rfl h0⟩

/-- `φ` takes every index equally often. -/
def Spec.EachTaken {m n : ℕ} (k : ℕ) (φ : Fin m → Fin n) : Prop :=
  ∀ i, (Finset.univ.filter fun j => φ j = i).card = k

lemma sum_eachTaken {m n k : ℕ} {φ : Fin m → Fin n} (hφ : Spec.EachTaken k φ) (F : Fin n → ℝ) :
    ∑ j, F (φ j) = k * ∑ i, F i := by
  rw [← Finset.sum_fiberwise Finset.univ φ, Finset.mul_sum]
  apply Finset.sum_congr rfl
  intro i _
  rw [Finset.sum_congr rfl (g := fun _ => F i) (fun j hj => by rw [(Finset.mem_filter.1 hj).2]),
    Finset.sum_const, hφ i, nsmul_eq_mul]

lemma centered_taken {m n k : ℕ} {φ : Fin m → Fin n} (hφ : Spec.EachTaken k φ)
    (a : Fin n → Vec 3) :
    Coordinates.centered (fun j => a (φ j)) = fun j => Coordinates.centered a (φ j) := by
  obtain ⟨hz, hs⟩ := C01_centered_zero_mean_same_shape a
  apply C01_centered_unique
  · intro j
    have := sum_eachTaken hφ fun i => Coordinates.centered a i j
    rw [this, hz j, mul_zero]
  · intro i i' j
    exact hs (φ i) (φ i') j

/-- Measuring the same points `k` times, in any order, changes neither the center nor strike and dip
(if the best plane is unique and neither horizontal nor vertical); the singular values grow by the
factor `√k`. -/
theorem C177_repeated_points (svd svd' : SvdFn) (hs : svd.Valid) (hs' : svd'.Valid) {m n k : ℕ}
    (hk : 0 < k) (φ : Fin m → Fin n) (hφ : Spec.EachTaken k φ) (a : Fin n → Vec 3) (f : Fit n)
    (g : Fit m) (hf : init svd a none none = .ok (some f))
    (hg : init svd' (fun j => a (φ j)) none none = .ok (some g)) :
    g.mean = f.mean ∧ (∀ j, g.s j = Real.sqrt k * f.s j) ∧
    (f.s 2 < f.s 1 → ∀ s d, strikeDip f = some (s, d) → ∃ s', strikeDip g = some (s', d) ∧
      (d ≠ 0 → d ≠ 90 → s' = s) ∧ (d ≠ 0 → s' = s ∨ s' = s + 180 ∨ s' = s - 180)) := by
  obtain ⟨U, h⟩ := init_default hs hf
  obtain ⟨U', h'⟩ := init_default hs' hg
  have hk' : (0 : ℝ) < k := by exact_mod_cast hk
  obtain ⟨hsv, hax⟩ := related_fits (R := 1) h h' (by simp) (Real.sqrt_pos.2 hk') (by
    intro w
    rw [Real.sq_sqrt hk'.le, Matrix.one_mulVec, centered_taken hφ]
    exact sum_eachTaken hφ fun i => (Matrix.of (Coordinates.centered a) *ᵥ w) i ^ 2)
  refine ⟨?_, hsv, fun hlt s d e => ?_⟩
  · rw [h.mean, h'.mean]
    congr 1
    funext j
    have hm : (m : ℝ) = k * n := by
      have := sum_eachTaken hφ fun _ => (1 : ℝ)
      simpa using this
    have hn : (n : ℝ) ≠ 0 := by
      have := h.size
      exact_mod_cast (by omega : n ≠ 0)
    simp only [meanRows]
    rw [sum_eachTaken hφ fun i => a i j, hm]
    field_simp
  · have hax' := hax hlt
    rw [Matrix.one_mulVec] at hax'
    rcases hax' with q | q
    · exact ⟨s, by rw [strikeDip, q]; exact e, fun _ _ => rfl, fun _ => .inl rfl⟩
    · obtain ⟨s', k1, k2, k3⟩ := strikeDip_neg (fit_axis_ne_zero h 2) e
      exact ⟨s', by rw [strikeDip, q]; exact k1, k2, k3⟩

/-- The order of the points does not matter for the singular values and the angular errors (for
center, strike and dip this is the case `k = 1` above). -/
theorem C177_order_of_points (Q : ErrorAxes.Quantiles) (hQ : Spec.QuantilesOK Q) (svd svd' : SvdFn)
    (hs : svd.Valid) (hs' : svd'.Valid) {n : ℕ} (σ : Equiv.Perm (Fin n)) (a : Fin n → Vec 3)
    (f g : Fit n) (hf : init svd a none none = .ok (some f))
    (hg : init svd' (fun j => a (σ j)) none none = .ok (some g)) :
    Spec.EachTaken 1 σ ∧ g.s = f.s ∧
    ∀ sampling cl, 0 ≤ cl → cl < 1 → errorsAt Q g sampling cl = errorsAt Q f sampling cl := by
  have hφ : Spec.EachTaken 1 σ := by
    intro i
    rw [Finset.card_eq_one]
    refine ⟨σ.symm i, ?_⟩
    ext j
    simp [Equiv.eq_symm_apply]
  obtain ⟨_, hsv, _⟩ := C177_repeated_points svd svd' hs hs' one_pos σ hφ a f g hf hg
  have hsv' : ∀ j, g.s j = 1 * f.s j := by intro j; rw [hsv j]; simp
  exact ⟨hφ, funext fun j => by rw [hsv' j, one_mul], fun sampling cl h0 h1 =>
    errors_of_ratio hQ hs hs' one_pos hf hg hsv' sampling cl h0 h1⟩

/-- Every point twice. -/
example : ∃ (svd : SvdFn) (f : Fit 4) (g : Fit 8) (φ : Fin 8 → Fin 4), svd.Valid ∧
    Spec.EachTaken 2 φ ∧ init svd Witness.tilted none none = .ok (some f) ∧ f.s 2 < f.s 1 ∧
    init svd (fun j => Witness.tilted (φ j)) none none = .ok (some g) ∧
    strikeDip g = strikeDip f := by
  obtain ⟨svd, f, hs, hf, eV, es⟩ := Witness.exists_tilted
  obtain ⟨g, hg⟩ := init_default_exists svd (by norm_num : 3 ≤ 8)
    (fun j : Fin 8 => Witness.tilted (![0, 1, 2, 3, 3, 2, 1, 0] j))
  have hφ : Spec.EachTaken 2 (![0, 1, 2, 3, 3, 2, 1, 0] : Fin 8 → Fin 4) := by
    intro i
    fin_cases i <;> decide
  have hlt : f.s 2 < f.s 1 := by rw [es]; simp
  refine ⟨svd, f, g, _, hs, hφ, hf, hlt, hg, ?_⟩
  obtain ⟨U, h⟩ := init_default hs hf
  obtain ⟨s, d, e, a1, a2, a3, a4, a5⟩ := strikeDipOf_spec (fit_axis_ne_zero h 2)
  obtain ⟨s', k1, k2, _⟩ := (C177_repeated_points svd svd hs hs two_pos _ hφ _ f g hf hg).2.2 hlt s d e
  have hup : upward (f.V 2) = ![4 / 5, 0, 3 / 5] := by
    rw [eV]
    unfold upward
    rw [if_neg (by simp [Witness.tilt]; norm_num)]
    funext j
    fin_cases j <;> simp [Witness.tilt]
  rw [h.svd.row_norm, one_smul, hup] at a5
  have c2 := congrFun a5 2
  simp [sdNormal] at c2
  rw [k1, show strikeDip f = some (s, d) from e, k2 ?_ ?_]
  · rintro rfl
    norm_num [radians] at c2
  · rintro rfl
    rw [radians_90, Real.cos_pi_div_two] at c2
    norm_num at c2

example : ∃ (svd : SvdFn) (f g : Fit 4), svd.Valid ∧
    init svd Witness.tilted none none = .ok (some f) ∧
    init svd (fun j => Witness.tilted (Equiv.swap 0 3 j)) none none = .ok (some g) ∧
    errorsAt Spec.quantiles2 g true 0.9 = errorsAt Spec.quantiles2 f true 0.9 := by
  obtain ⟨svd, f, hs, hf, _⟩ := Witness.exists_tilted
  obtain ⟨g, hg⟩ := init_default_exists svd (by norm_num : 3 ≤ 4)
    (fun j => Witness.tilted (Equiv.swap 0 3 j))
  exact ⟨svd, f, g, hs, hf, hg, (C177_order_of_points _ Spec.quantiles2_ok svd svd hs hs _ _ f g hf
    hg).2.2 true 0.9 (by norm_num) (by norm_num)⟩

/-! ## C178 -/

/-- The mirror image of the data in a north-south wall: east and west exchanged. -/
def Spec.mirrored {n : ℕ} (a : Fin n → Vec 3) : Fin n → Vec 3 := fun i => ![-a i 0, a i 1, a i 2]

/-- The reflection as a matrix. -/
def mirrorMat : Mat 3 3 := Matrix.diagonal ![-1, 1, 1]

lemma mirrorMat_orth : mirrorMat * mirrorMat.transpose = 1 := by
  ext i j
  fin_cases i <;> fin_cases j <;> simp [mirrorMat, Matrix.mul_apply, Fin.sum_univ_three]

lemma mirrorMat_mulVec (v : Vec 3) : mirrorMat *ᵥ v = ![-v 0, v 1, v 2] := by
  funext j
  fin_cases j <;> simp [mirrorMat, Matrix.mulVec_diagonal]

lemma mirrored_eq {n : ℕ} (a : Fin n → Vec 3) : Spec.mirrored a = Spec.rigid 1 mirrorMat 0 a := by
  funext i j
  fin_cases j <;> simp [Spec.mirrored, Spec.rigid, mirrorMat]

/-- Strike and dip of the mirrored axis. -/
lemma strikeDip_mirror {v : Vec 3} (hv : v ≠ 0) {s d : ℝ} (h : strikeDipOf v = some (s, d)) :
    ∃ s', strikeDipOf (mirrorMat *ᵥ v) = some (s', d) ∧
      (d ≠ 0 → ∃ k : ℤ, s' = 180 - s + 360 * k) := by
  have hw : mirrorMat *ᵥ v ≠ 0 := by
    intro e
    rw [mirrorMat_mulVec] at e
    apply hv
    funext j
    have := congrFun e j
    fin_cases j <;> simpa using this
  have hnorm : norm (mirrorMat *ᵥ v) = norm v := by
    rw [mirrorMat_mulVec]
    simp [norm, Fin.sum_univ_three]
  have hup : upward (mirrorMat *ᵥ v) = mirrorMat *ᵥ upward v := by
    unfold upward
    have e2 : (mirrorMat *ᵥ v) 2 = v 2 := by rw [mirrorMat_mulVec]; simp
    rw [e2]
    split_ifs
    · rw [Matrix.mulVec_neg]
    · rfl
  obtain ⟨s1, d1, e1, a1, a2, a3, a4, a5⟩ := strikeDipOf_spec hv
  obtain ⟨s2, d2, e2, b1, b2, b3, b4, b5⟩ := strikeDipOf_spec hw
  rw [h] at e1
  cases e1
  have hn : norm v ≠ 0 := fun h => hv ((norm_eq_zero_iff v).1 h)
  have hmir : mirrorMat *ᵥ sdNormal s d = sdNormal (180 - s) d := by
    rw [mirrorMat_mulVec]
    funext j
    fin_cases j <;> simp [sdNormal, radians_sub, radians_180]
  rw [hnorm, hup, ← a5, Matrix.mulVec_smul, hmir] at b5
  have e : sdNormal s2 d2 = sdNormal (180 - s) d := smul_right_injective _ hn b5
  have c0 := congrFun e 0
  have c1 := congrFun e 1
  have c2 := congrFun e 2
  simp [sdNormal] at c0 c1 c2
  have hdd := dip_inj b3 b4 a3 a4 c2
  subst hdd
  refine ⟨s2, e2, fun hd => ?_⟩
  have hpi := Real.pi_pos
  have hsin : Real.sin (radians d2) ≠ 0 := by
    have hd0' : 0 < d2 := lt_of_le_of_ne b3 (Ne.symm hd)
    apply ne_of_gt
    apply Real.sin_pos_of_pos_of_lt_pi
    · unfold radians; positivity
    · unfold radians; nlinarith
  apply cos_sin_mod
  · exact mul_left_cancel₀ hsin c0
  · exact mul_left_cancel₀ hsin c1

/-- The mirror image of a measurement has the same dip; its strike is mirrored too (under the
right-hand rule: `180 - s`, because the beds dip to the other side).  For a vertical plane this
holds up to the choice of one of the two strikes. -/
theorem C178_mirror_image (svd svd' : SvdFn) (hs : svd.Valid) (hs' : svd'.Valid) {n : ℕ}
    (a : Fin n → Vec 3) (f g : Fit n) (hf : init svd a none none = .ok (some f))
    (hg : init svd' (Spec.mirrored a) none none = .ok (some g)) (hlt : f.s 2 < f.s 1) (s d : ℝ)
    (hsd : strikeDip f = some (s, d)) :
    g.s = f.s ∧ ∃ s', strikeDip g = some (s', d) ∧
      (d ≠ 0 → d ≠ 90 → ∃ k : ℤ, s' = 180 - s + 360 * k) ∧
      (d ≠ 0 → ∃ k : ℤ, s' = 180 - s + 180 * k) := by
  obtain ⟨U, h⟩ := init_default hs hf
  rw [mirrored_eq] at hg
  obtain ⟨U', h'⟩ := init_default hs' hg
  obtain ⟨hsv, hax⟩ := related_fits h h' mirrorMat_orth one_pos (form_rigid mirrorMat_orth a)
  refine ⟨funext fun j => by rw [hsv j, one_mul], ?_⟩
  obtain ⟨s1, e1, k1⟩ := strikeDip_mirror (fit_axis_ne_zero h 2) hsd
  have k1' : d ≠ 0 → ∃ k : ℤ, s1 = 180 - s + 180 * k := by
    intro hd
    obtain ⟨k, hk⟩ := k1 hd
    exact ⟨2 * k, by rw [hk]; push_cast; ring⟩
  rcases hax hlt with q | q
  · exact ⟨s1, by rw [strikeDip, q]; exact e1, fun hd _ => k1 hd, k1'⟩
  · have hne : mirrorMat *ᵥ f.V 2 ≠ 0 := by
      intro e
      rw [e, neg_zero] at q
      exact fit_axis_ne_zero h' 2 q
    obtain ⟨s2, e2, j1, j2⟩ := strikeDip_neg hne e1
    refine ⟨s2, by rw [strikeDip, q]; exact e2, fun hd h90 => ?_, fun hd => ?_⟩
    · rw [j1 hd h90]
      exact k1 hd
    · obtain ⟨k, hk⟩ := k1' hd
      rcases j2 hd with z | z | z
      · exact ⟨k, by rw [z, hk]⟩
      · exact ⟨k + 1, by rw [z, hk]; push_cast; ring⟩
      · exact ⟨k - 1, by rw [z, hk]; push_cast; ring⟩

example : ∃ (svd : SvdFn) (f g : Fit 4) (s d : ℝ), svd.Valid ∧
    init svd Witness.tilted none none = .ok (some f) ∧ f.s 2 < f.s 1 ∧
    init svd (Spec.mirrored Witness.tilted) none none = .ok (some g) ∧
    strikeDip f = some (s, d) ∧ ∃ s', strikeDip g = some (s', d) := by
  obtain ⟨svd, f, hs, hf, _, e⟩ := Witness.exists_tilted
  obtain ⟨g, hg⟩ := init_default_exists svd (by norm_num : 3 ≤ 4) (Spec.mirrored Witness.tilted)
  have hlt : f.s 2 < f.s 1 := by rw [e]; simp
  obtain ⟨s, d, hsd, _⟩ := C12_fit_ranges svd hs _ f hf
  obtain ⟨_, s', h1, _⟩ := C178_mirror_image svd svd hs hs _ f g hf hg hlt s d hsd
  exact ⟨svd, f, g, s, d, hs, hf, hlt, hg, hsd, s', h1⟩

end Attitude.Props
