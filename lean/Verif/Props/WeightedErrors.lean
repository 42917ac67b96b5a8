import Verif.Props.Weighted
import Verif.Props.PcaMotion
import Verif.Props.Stability

/-!
# C268: angular errors of fits with weights

`PCAOrientation(points, weights=w)` multiplies the singular values with the weights (`s *= self.weights`, pca.py
L193).  Singular values belong to principal axes, weights to coordinates: the first singular value is multiplied
with the weight of `x`, whatever the direction of the first axis.  The theorems say what holds of the angular errors
nevertheless and what does not.
-/

namespace Attitude.Props

open Attitude Matrix Attitude.Pca Attitude.ErrorAxes

/-- The points with coordinates in another order. -/
def Spec.renamed {n : ℕ} (π : Equiv.Perm (Fin 3)) (a : Fin n → Vec 3) : Fin n → Vec 3 := fun i j => a i (π j)

/-! ## Helper lemmas -/

lemma weighted_size {svd : SvdFn} {n : ℕ} {a : Fin n → Vec 3} {w : Vec 3} {f : Fit n}
    (hf : init svd a (some w) none = .ok (some f)) : 3 ≤ n := by
  by_contra h
  simp [init, runSvd, not_le.1 h, bind, Except.bind] at hf

/-- The errors depend on the eigenvalues only. -/
lemma errors_of_ev (Q : Quantiles) {n : ℕ} {f g : Fit n} (h : eigenvalues f = eigenvalues g) (sampling : Bool)
    (cl : ℝ) : errorsAt Q f sampling cl = errorsAt Q g sampling cl := by
  simp only [errorsAt, axesAt, samplingAxes, noiseAxes, statisticalAxes, ofFit, h]

lemma ev_nonneg {n : ℕ} (hn : 3 ≤ n) (f : Fit n) (j : Fin 3) : 0 ≤ eigenvalues f j := by
  have : (3 : ℝ) ≤ n := by exact_mod_cast hn
  unfold eigenvalues
  apply div_nonneg (sq_nonneg _)
  linarith

/-- The errors of any fit, with the closed form of C21. -/
lemma errorsAt_eq {Q : Quantiles} (hQ : Spec.QuantilesOK Q) {n : ℕ} (hn : 3 ≤ n) (f : Fit n) (sampling : Bool)
    {cl : ℝ} (h0 : 0 ≤ cl) (h1 : cl < 1) :
    errorsAt Q f sampling cl
      = some (angularErrors (Spec.hyperbolicAxes sampling n (eigenvalues f) (Q.f cl 2 (n - 2)))) := by
  have hz0 : 0 ≤ Q.f cl 2 (n - 2) := hQ.f_nonneg _ _ _ h0 h1 (by norm_num) (by omega)
  have := statisticalAxes_eq Q n hn (eigenvalues f) f.s (ofFit Q f).hyp (ev_nonneg hn f) sampling cl _ hz0 none
    (fisher_default Q n hn cl h0 h1)
  have e : axesAt Q f sampling cl
      = .ok (some (Spec.hyperbolicAxes sampling n (eigenvalues f) (Q.f cl 2 (n - 2)))) := by
    cases sampling
    · exact this
    · exact this
  simp only [errorsAt, e]

/-- The fit with weights and the one of the points in units of them. -/
lemma weighted_pair {svd : SvdFn} {n : ℕ} {a : Fin n → Vec 3} {w : Vec 3} (hw : ∀ j, w j ≠ 0) {f : Fit n}
    (hf : init svd a (some w) none = .ok (some f)) :
    ∃ g, init svd (Spec.inUnits w a) none none = .ok (some g) ∧ f.V = g.V ∧ ∀ j, f.s j = w j * g.s j := by
  obtain ⟨f', g, hf', hg, hV, -, -, -, hS, -⟩ := C239_scaled svd (weighted_size hf) a w hw
  rw [hf] at hf'
  cases hf'
  exact ⟨g, hg, hV, hS⟩

/-- Length of an error axis in the plane. -/
noncomputable def axisLength (sampling : Bool) (n : ℕ) (e2 z e : ℝ) : ℝ :=
  e - z * (if sampling then e * Real.sqrt (2 / ((n : ℝ) - 1)) else 2 * Real.sqrt (e * e2 / ((n : ℝ) - 2)))

lemma axisLength_lt {sampling : Bool} {n : ℕ} (hn : 3 ≤ n) {e2 z e e' : ℝ} (he : 0 ≤ e)
    (hlt : e < e') (hp : 0 < axisLength sampling n e2 z e) :
    axisLength sampling n e2 z e < axisLength sampling n e2 z e' := by
  have hn' : (3 : ℝ) ≤ n := by exact_mod_cast hn
  have hz : 0 < (n : ℝ) - 2 := by linarith
  cases sampling
  · simp only [axisLength, Bool.false_eq_true, if_false] at hp ⊢
    have k : ∀ x, 0 ≤ x → Real.sqrt (x * e2 / ((n : ℝ) - 2)) = Real.sqrt x * Real.sqrt (e2 / ((n : ℝ) - 2)) := by
      intro x hx
      rw [mul_div_assoc, Real.sqrt_mul hx]
    rw [k e he] at hp ⊢
    rw [k e' (by linarith)]
    set m := Real.sqrt (e2 / ((n : ℝ) - 2))
    have s1 := Real.sq_sqrt he
    have s2 := Real.sq_sqrt (by linarith : 0 ≤ e')
    have l := Real.sqrt_lt_sqrt he hlt
    have p1 := Real.sqrt_nonneg e
    set r := Real.sqrt e
    set r' := Real.sqrt e'
    have e1 : e - z * (2 * (r * m)) = r * (r - 2 * z * m) := by rw [← s1]; ring
    have e3 : e' - z * (2 * (r' * m)) = r' * (r' - 2 * z * m) := by rw [← s2]; ring
    rw [e1] at hp ⊢
    rw [e3]
    have q : 0 < r - 2 * z * m := by
      by_contra h
      have := mul_nonpos_of_nonneg_of_nonpos p1 (not_lt.1 h)
      linarith
    nlinarith
  · simp only [axisLength, if_true] at hp ⊢
    set c := Real.sqrt (2 / ((n : ℝ) - 1))
    have e1 : ∀ x, x - z * (x * c) = x * (1 - z * c) := fun x => by ring
    rw [e1] at hp ⊢
    rw [e1]
    have : 0 < 1 - z * c := by
      by_contra h
      nlinarith [mul_nonneg he (sub_nonneg.2 (not_lt.1 h))]
    exact mul_lt_mul_of_pos_right hlt this

lemma hyperbolic_rows (sampling : Bool) (n : ℕ) (ev : Vec 3) (z : ℝ) :
    Spec.hyperbolicAxes sampling n ev z 0 = |axisLength sampling n (ev 2) z (ev 0)| ∧
    Spec.hyperbolicAxes sampling n ev z 1 = |axisLength sampling n (ev 2) z (ev 1)| ∧
    Spec.hyperbolicAxes sampling n ev z 2 = ev 2 + z * Spec.errorScale sampling n ev 2 := ⟨rfl, rfl, rfl⟩

/-- A longer axis has a smaller error. -/
lemma arctan2_axis {x y u : ℝ} (hu : 0 < u) (hx : 0 < x) (hxy : x < y) :
    arctan2 (Real.sqrt u) (Real.sqrt y) < arctan2 (Real.sqrt u) (Real.sqrt x) := by
  have h1 := Real.sqrt_pos.2 hx
  have h2 := Real.sqrt_lt_sqrt hx.le hxy
  exact arctan2_lt_of_div_lt (h1.trans h2) h1 (div_lt_div_of_pos_left (Real.sqrt_pos.2 hu) h1 h2)

/-- A fit with weights exists, used in the examples. -/
lemma weighted_exists (svd : SvdFn) {n : ℕ} (hn : 3 ≤ n) (a : Fin n → Vec 3) (w : Vec 3) (hw : ∀ j, w j ≠ 0) :
    ∃ f, init svd a (some w) none = .ok (some f) := by
  obtain ⟨f, -, hf, -⟩ := C239_scaled svd hn a w hw
  exact ⟨f, hf⟩

/-- Points along the coordinate axes, in units of the weights. -/
lemma inUnits_points (w v : Vec 3) (hw : ∀ j, w j ≠ 0) :
    Spec.inUnits w (Witness.points 1 fun j => w j * v j) = Witness.points 1 v := by
  funext i j
  simp only [Spec.inUnits, Witness.points, Matrix.mul_one, Matrix.mul_diagonal]
  have := hw j
  field_simp

/-- The singular values of such a fit. -/
lemma weighted_points {svd : SvdFn} (hs : svd.Valid) {w v : Vec 3} (hw : ∀ j, w j ≠ 0) (p2 : 0 ≤ v 2)
    (p1 : v 2 ≤ v 1) (p0 : v 1 ≤ v 0) {f : Fit 4}
    (hf : init svd (Witness.points 1 fun j => w j * v j) (some w) none = .ok (some f)) (j : Fin 3) :
    f.s j = w j * v j := by
  obtain ⟨g, hg, -, hS⟩ := weighted_pair hw hf
  rw [inUnits_points w v hw] at hg
  obtain ⟨svd', g', hs', hg', -, hv⟩ := Witness.exists_fit 1 (by simp) v p2 p1 p0
  obtain ⟨U, hG⟩ := init_default hs hg
  obtain ⟨U', hG'⟩ := init_default hs' hg'
  obtain ⟨r1, -⟩ := related_fits hG' hG (R := 1) (by simp) (c := 1) one_pos (by intro u; simp)
  rw [hS, r1, hv, one_mul]

/-! ## C268 -/

/-- Only the ratios of the weights matter: weights `c * w` give the errors of weights `w` and, if the points
determine a plane, the same normal up to sign; for any decompositions, both methods and all levels. -/
theorem C268_relative (Q : Quantiles) (svd svd' : SvdFn) (hs : svd.Valid) (hs' : svd'.Valid) {n : ℕ}
    (a : Fin n → Vec 3) (w : Vec 3) (hw : ∀ j, w j ≠ 0) (c : ℝ) (hc : c ≠ 0) (f f' : Fit n)
    (hf : init svd a (some w) none = .ok (some f))
    (hf' : init svd' a (some fun j => c * w j) none = .ok (some f')) (sampling : Bool) (cl : ℝ) :
    errorsAt Q f' sampling cl = errorsAt Q f sampling cl ∧
      (f.s 2 / w 2 < f.s 1 / w 1 → f'.V 2 = f.V 2 ∨ f'.V 2 = -f.V 2) := by
  obtain ⟨g, hg, hV, hS⟩ := weighted_pair hw hf
  obtain ⟨g', hg', hV', hS'⟩ := weighted_pair (fun j => mul_ne_zero hc (hw j)) hf'
  obtain ⟨U, hG⟩ := init_default hs hg
  obtain ⟨U', hG'⟩ := init_default hs' hg'
  have hcc : ∀ i j, Coordinates.centered (Spec.inUnits (fun j => c * w j) a) i j
      = c⁻¹ * Coordinates.centered (Spec.inUnits w a) i j := by
    intro i j
    rw [centered_inUnits, centered_inUnits]
    have := hw j
    field_simp
  obtain ⟨r1, r2⟩ := related_fits hG hG' (R := 1) (by simp) (c := |c⁻¹|) (by positivity) (by
    intro v
    rw [Matrix.one_mulVec, Finset.mul_sum]
    refine Finset.sum_congr rfl fun i _ => ?_
    have : (Matrix.of (Coordinates.centered (Spec.inUnits (fun j => c * w j) a)) *ᵥ v) i
        = c⁻¹ * (Matrix.of (Coordinates.centered (Spec.inUnits w a)) *ᵥ v) i := by
      simp only [Matrix.mulVec, dotProduct, Matrix.of_apply, hcc, Finset.mul_sum]
      exact Finset.sum_congr rfl fun j _ => by ring
    rw [this, mul_pow, sq_abs])
  constructor
  · apply errors_of_ev
    funext j
    simp only [eigenvalues, hS', hS, r1]
    congr 1
    rw [mul_pow, mul_pow, mul_pow, mul_pow, sq_abs]
    field_simp
  · intro hlt
    rw [hV, hV']
    have : g.s 2 < g.s 1 := by
      rw [hS, hS, mul_div_cancel_left₀ _ (hw 2), mul_div_cancel_left₀ _ (hw 1)] at hlt
      exact hlt
    simpa using r2 this

example : ∃ (svd : SvdFn) (f f' : Fit 4), svd.Valid ∧
    init svd (Witness.points 1 fun j => ![1, 2, 1] j * ![3, 2, 1] j) (some ![1, 2, 1]) none = .ok (some f) ∧
    init svd (Witness.points 1 fun j => ![1, 2, 1] j * ![3, 2, 1] j) (some fun j => 5 * ![1, 2, 1] j) none
      = .ok (some f') ∧
    errorsAt Spec.quantiles2 f' false 0.95 = errorsAt Spec.quantiles2 f false 0.95 ∧
    (f'.V 2 = f.V 2 ∨ f'.V 2 = -f.V 2) := by
  obtain ⟨svd, hs⟩ := exists_valid_svd
  have hw : ∀ j, (![1, 2, 1] : Vec 3) j ≠ 0 := by intro j; fin_cases j <;> simp
  obtain ⟨f, hf⟩ := weighted_exists svd (by norm_num) (Witness.points 1 fun j => ![1, 2, 1] j * ![3, 2, 1] j) _ hw
  obtain ⟨f', hf'⟩ := weighted_exists svd (by norm_num) (Witness.points 1 fun j => ![1, 2, 1] j * ![3, 2, 1] j)
    (fun j => 5 * ![1, 2, 1] j) (fun j => mul_ne_zero (by norm_num) (hw j))
  obtain ⟨h1, h2⟩ := C268_relative Spec.quantiles2 svd svd hs hs _ _ hw 5 (by norm_num) f f' hf hf' false 0.95
  refine ⟨svd, f, f', hs, hf, hf', h1, h2 ?_⟩
  rw [weighted_points hs hw (by simp) (by simp) (by norm_num) hf, weighted_points hs hw (by simp) (by simp) (by norm_num) hf]
  simp

/-- Equal weights: the errors of the fit without weights. -/
theorem C268_equal (Q : Quantiles) (svd svd' : SvdFn) (hs : svd.Valid) (hs' : svd'.Valid) {n : ℕ}
    (a : Fin n → Vec 3) (c : ℝ) (hc : c ≠ 0) (f f' : Fit n) (hf : init svd a none none = .ok (some f))
    (hf' : init svd' a (some fun _ => c) none = .ok (some f')) (sampling : Bool) (cl : ℝ) :
    errorsAt Q f' sampling cl = errorsAt Q f sampling cl := by
  have hf1 : init svd a (some fun _ => 1) none = .ok (some f) := by
    rw [← hf, C20_default_weights_are_ones]
    congr 2
    funext j
    fin_cases j <;> simp
  exact (C268_relative Q svd svd' hs hs' a (fun _ => 1) (by simp) c hc f f' hf1 (by simpa using hf') sampling cl).1

example : ∃ (svd : SvdFn) (f f' : Fit 4), svd.Valid ∧ init svd Witness.tilted none none = .ok (some f) ∧
    init svd Witness.tilted (some fun _ => 7) none = .ok (some f') ∧
    errorsAt Spec.quantiles2 f' false 0.95 = errorsAt Spec.quantiles2 f false 0.95 := by
  obtain ⟨svd, f, hs, hf, -⟩ := Witness.exists_tilted
  obtain ⟨f', hf'⟩ := weighted_exists svd (by norm_num) Witness.tilted (fun _ => 7) (by simp)
  exact ⟨svd, f, f', hs, hf, hf', C268_equal _ svd svd hs hs _ 7 (by norm_num) f f' hf hf' false 0.95⟩

/-- Fits of points with renamed coordinates and renamed weights. -/
lemma renamed_fits {svd svd' : SvdFn} (hs : svd.Valid) (hs' : svd'.Valid) {n : ℕ}
    {a : Fin n → Vec 3} {w : Vec 3} (hw : ∀ j, w j ≠ 0) (π : Equiv.Perm (Fin 3)) {f f' : Fit n}
    (hf : init svd a (some w) none = .ok (some f))
    (hf' : init svd' (Spec.renamed π a) (some fun j => w (π j)) none = .ok (some f')) :
    ∃ t : Vec 3, 0 ≤ t 2 ∧ t 2 ≤ t 1 ∧ t 1 ≤ t 0 ∧ ∀ j, f.s j = w j * t j ∧ f'.s j = w (π j) * t j := by
  obtain ⟨g, hg, hV, hS⟩ := weighted_pair hw hf
  obtain ⟨g', hg', hV', hS'⟩ := weighted_pair (fun j => hw (π j)) hf'
  obtain ⟨U, hG⟩ := init_default hs hg
  obtain ⟨U', hG'⟩ := init_default hs' hg'
  have hcc : ∀ i j, Coordinates.centered (Spec.inUnits (fun j => w (π j)) (Spec.renamed π a)) i j
      = Coordinates.centered (Spec.inUnits w a) i (π j) := by
    intro i j
    rw [centered_inUnits, centered_inUnits]
    rfl
  let R : Mat 3 3 := Matrix.of fun i j => if π i = j then 1 else 0
  have hRv : ∀ v : Vec 3, R *ᵥ v = fun j => v (π j) := by
    intro v
    funext j
    simp [R, Matrix.mulVec, dotProduct]
  have hR : R * R.transpose = 1 := by
    ext i j
    simp [R, Matrix.mul_apply, Matrix.one_apply]
  obtain ⟨r1, -⟩ := related_fits hG hG' (R := R) hR (c := 1) one_pos (by
    intro v
    rw [hRv, one_pow, one_mul]
    refine Finset.sum_congr rfl fun i _ => ?_
    congr 1
    simp only [Matrix.mulVec, dotProduct, Matrix.of_apply, hcc]
    exact Equiv.sum_comp π fun j => Coordinates.centered (Spec.inUnits w a) i j * v j)
  exact ⟨g.s, hG.svd.nonneg, hG.svd.le12, hG.svd.le01, fun j => ⟨hS j, by rw [hS', r1, one_mul]⟩⟩

/-- Giving the coordinates and their weights in another order keeps the errors if coordinates that change places
have the same weight.  (Missing: other weights, see `C268_renamed_false`.) -/
theorem C268_renamed_partial (Q : Quantiles) (svd svd' : SvdFn) (hs : svd.Valid) (hs' : svd'.Valid) {n : ℕ}
    (a : Fin n → Vec 3) (w : Vec 3) (hw : ∀ j, w j ≠ 0) (π : Equiv.Perm (Fin 3)) (hπ : ∀ j, w (π j) = w j)
    (f f' : Fit n) (hf : init svd a (some w) none = .ok (some f))
    (hf' : init svd' (Spec.renamed π a) (some fun j => w (π j)) none = .ok (some f')) (sampling : Bool) (cl : ℝ) :
    errorsAt Q f' sampling cl = errorsAt Q f sampling cl := by
  obtain ⟨t, -, -, -, ht⟩ := renamed_fits hs hs' hw π hf hf'
  apply errors_of_ev
  funext j
  simp only [eigenvalues, (ht j).1, (ht j).2, hπ]

example : ∃ (svd : SvdFn) (f f' : Fit 4), svd.Valid ∧ init svd Witness.tilted (some ![1, 1, 3]) none = .ok (some f) ∧
    init svd (Spec.renamed (Equiv.swap 0 1) Witness.tilted) (some fun j => ![1, 1, 3] (Equiv.swap 0 1 j)) none
      = .ok (some f') ∧
    errorsAt Spec.quantiles2 f' false 0.95 = errorsAt Spec.quantiles2 f false 0.95 := by
  obtain ⟨svd, hs⟩ := exists_valid_svd
  have hw : ∀ j, (![1, 1, 3] : Vec 3) j ≠ 0 := by intro j; fin_cases j <;> simp
  obtain ⟨f, hf⟩ := weighted_exists svd (by norm_num) Witness.tilted _ hw
  obtain ⟨f', hf'⟩ := weighted_exists svd (by norm_num) (Spec.renamed (Equiv.swap 0 1) Witness.tilted)
    (fun j => ![1, 1, 3] (Equiv.swap 0 1 j)) (fun j => hw _)
  refine ⟨svd, f, f', hs, hf, hf', C268_renamed_partial _ svd svd hs hs _ _ hw (Equiv.swap 0 1) ?_ f f' hf hf' false
    0.95⟩
  intro j
  fin_cases j
  · show (![1, 1, 3] : Vec 3) 1 = ![1, 1, 3] 0
    simp
  · show (![1, 1, 3] : Vec 3) 0 = ![1, 1, 3] 1
    simp
  · rfl

/-- Exchanging `x` and `y` and their weights changes both errors, if the weight of `y` is the larger one: the first
becomes smaller and the second larger.  Asked are points not in one plane and errors smaller than the axes (the
usual case, see C23). -/
theorem C268_renamed_false (Q : Quantiles) (hQ : Spec.QuantilesOK Q) (svd svd' : SvdFn) (hs : svd.Valid)
    (hs' : svd'.Valid) {n : ℕ} (a : Fin n → Vec 3) (w : Vec 3) (hw : ∀ j, 0 < w j) (h01 : w 0 < w 1)
    (f f' : Fit n) (hf : init svd a (some w) none = .ok (some f))
    (hf' : init svd' (Spec.renamed (Equiv.swap 0 1) a) (some fun j => w (Equiv.swap 0 1 j)) none = .ok (some f'))
    (h2 : f.s 2 ≠ 0) (sampling : Bool) (cl : ℝ) (hc0 : 0 ≤ cl) (hc1 : cl < 1)
    (e0 : Q.f cl 2 (n - 2) * Spec.errorScale sampling n (eigenvalues f) 0 < eigenvalues f 0)
    (e1 : Q.f cl 2 (n - 2) * Spec.errorScale sampling n (eigenvalues f') 1 < eigenvalues f' 1) :
    ∃ x y x' y', errorsAt Q f sampling cl = some (x, y) ∧ errorsAt Q f' sampling cl = some (x', y') ∧
      x' < x ∧ y < y' := by
  have hn := weighted_size hf
  obtain ⟨t, t2, t1, t0, ht⟩ := renamed_fits hs hs' (fun j => (hw j).ne') _ hf hf'
  have q2 : eigenvalues f' 2 = eigenvalues f 2 := by
    simp only [eigenvalues, (ht 2).1, (ht 2).2]
    rw [show Equiv.swap (0 : Fin 3) 1 2 = 2 from rfl]
  have tp2 : 0 < t 2 := lt_of_le_of_ne t2 fun k => h2 (by rw [(ht 2).1, ← k, mul_zero])
  have hn' : (3 : ℝ) ≤ n := by exact_mod_cast hn
  have hn1 : 0 < (n : ℝ) - 1 := by linarith
  have hw0 := hw 0
  have sq_lt : ∀ u : ℝ, 0 < u → (w 0 * u) ^ 2 / ((n : ℝ) - 1) < (w 1 * u) ^ 2 / ((n : ℝ) - 1) := by
    intro u hu
    apply div_lt_div_of_pos_right _ hn1
    exact pow_lt_pow_left₀ (mul_lt_mul_of_pos_right h01 hu) (by positivity) two_ne_zero
  have l0 : eigenvalues f 0 < eigenvalues f' 0 := by
    simp only [eigenvalues, (ht 0).1, (ht 0).2]
    rw [show Equiv.swap (0 : Fin 3) 1 0 = 1 from rfl]
    exact sq_lt _ (by linarith)
  have l1 : eigenvalues f' 1 < eigenvalues f 1 := by
    simp only [eigenvalues, (ht 1).1, (ht 1).2]
    rw [show Equiv.swap (0 : Fin 3) 1 1 = 0 from rfl]
    exact sq_lt _ (by linarith)
  have ep2 : 0 < eigenvalues f 2 := by
    simp only [eigenvalues, (ht 2).1]
    have := hw 2
    positivity
  set z := Q.f cl 2 (n - 2)
  have hz0 : 0 ≤ z := hQ.f_nonneg _ _ _ hc0 hc1 (by norm_num) (by omega)
  have a0 : 0 < axisLength sampling n (eigenvalues f 2) z (eigenvalues f 0) := sub_pos.2 e0
  have a1 : 0 < axisLength sampling n (eigenvalues f 2) z (eigenvalues f' 1) := by
    rw [← q2]
    exact sub_pos.2 e1
  have b0 := axisLength_lt hn (ev_nonneg hn f 0) l0 a0
  have b1 := axisLength_lt hn (ev_nonneg hn f' 1) l1 a1
  have up : 0 < eigenvalues f 2 + z * Spec.errorScale sampling n (eigenvalues f) 2 := by
    have := errorScale_nonneg sampling n _ (ev_nonneg hn f) 2
    positivity
  have us : Spec.errorScale sampling n (eigenvalues f') 2 = Spec.errorScale sampling n (eigenvalues f) 2 := by
    simp only [Spec.errorScale, q2]
  refine ⟨_, _, _, _, errorsAt_eq hQ hn f sampling hc0 hc1, errorsAt_eq hQ hn f' sampling hc0 hc1, ?_, ?_⟩
  · obtain ⟨k0, k1, k2⟩ := hyperbolic_rows sampling n (eigenvalues f) z
    obtain ⟨m0, m1, m2⟩ := hyperbolic_rows sampling n (eigenvalues f') z
    rw [k0, k2, m0, m2, us, q2, abs_of_pos a0, abs_of_pos (a0.trans b0)]
    exact arctan2_axis up a0 b0
  · obtain ⟨k0, k1, k2⟩ := hyperbolic_rows sampling n (eigenvalues f) z
    obtain ⟨m0, m1, m2⟩ := hyperbolic_rows sampling n (eigenvalues f') z
    rw [k1, k2, m1, m2, us, q2, abs_of_pos a1, abs_of_pos (a1.trans b1)]
    exact arctan2_axis up a1 b1

example : ∃ (svd : SvdFn) (f f' : Fit 4) (x y x' y' : ℝ), svd.Valid ∧
    init svd (Witness.points 1 fun j => ![1, 2, 1] j * ![3, 2, 1] j) (some ![1, 2, 1]) none = .ok (some f) ∧
    init svd (Spec.renamed (Equiv.swap 0 1) (Witness.points 1 fun j => ![1, 2, 1] j * ![3, 2, 1] j))
      (some fun j => ![1, 2, 1] (Equiv.swap 0 1 j)) none = .ok (some f') ∧
    errorsAt Spec.quantiles2 f true 0.2 = some (x, y) ∧ errorsAt Spec.quantiles2 f' true 0.2 = some (x', y') ∧
    x' < x ∧ y < y' := by
  obtain ⟨svd, hs⟩ := exists_valid_svd
  have hp : ∀ j, 0 < (![1, 2, 1] : Vec 3) j := by intro j; fin_cases j <;> simp
  have hw : ∀ j, (![1, 2, 1] : Vec 3) j ≠ 0 := fun j => (hp j).ne'
  obtain ⟨f, hf⟩ := weighted_exists svd (by norm_num) (Witness.points 1 fun j => ![1, 2, 1] j * ![3, 2, 1] j) _ hw
  obtain ⟨f', hf'⟩ := weighted_exists svd (by norm_num)
    (Spec.renamed (Equiv.swap 0 1) (Witness.points 1 fun j => ![1, 2, 1] j * ![3, 2, 1] j))
    (fun j => ![1, 2, 1] (Equiv.swap 0 1 j)) (fun j => hw _)
  have hS := weighted_points hs hw (v := ![3, 2, 1]) (by simp) (by simp) (by norm_num) hf
  obtain ⟨t, -, -, -, ht⟩ := renamed_fits hs hs hw _ hf hf'
  have hq : Spec.quantiles2.f 0.2 2 (4 - 2) = 1 / 4 := by
    simp only [Spec.quantiles2, Spec.fisher2]
    norm_num
  have b : Real.sqrt (2 / 3) < 1 := by
    rw [Real.sqrt_lt' one_pos]; norm_num
  have key : ∀ g : Fit 4, ∀ j, g.s j ≠ 0 → Spec.quantiles2.f 0.2 2 (4 - 2) * Spec.errorScale true 4 (eigenvalues g) j
      < eigenvalues g j := by
    intro g j hg
    have he : 0 < eigenvalues g j := by
      simp only [eigenvalues]
      have : (0 : ℝ) < ((4 : ℕ) : ℝ) - 1 := by norm_num
      positivity
    rw [hq]
    simp only [Spec.errorScale, if_true]
    rw [show (2 / (((4 : ℕ) : ℝ) - 1)) = 2 / 3 by norm_num]
    nlinarith
  have t1 : t 1 = 2 := by
    have := (ht 1).1
    rw [hS] at this
    simp at this
    linarith
  obtain ⟨x, y, x', y', h⟩ := C268_renamed_false Spec.quantiles2 Spec.quantiles2_ok svd svd hs hs _ _ hp (by norm_num)
    f f' hf hf' (by rw [hS]; simp) true 0.2 (by norm_num) (by norm_num) (key f 0 (by rw [hS]; simp))
    (key f' 1 (by rw [(ht 1).2, t1]; exact mul_ne_zero (hw _) two_ne_zero))
  exact ⟨svd, f, f', x, y, x', y', hs, hf, hf', h⟩

/-- The first number reported need not be the smaller one, even at moderate errors: if the weight of `y` is larger
than that of `x`, there are points for which it is the larger one, at any level and with both methods (of the
sampling method it is asked that the errors be smaller than the axes, C23). -/
theorem C268_order_false (Q : Quantiles) (hQ : Spec.QuantilesOK Q) (w : Vec 3) (hw : ∀ j, 0 < w j) (h01 : w 0 < w 1)
    (sampling : Bool) (cl : ℝ) (hc0 : 0 ≤ cl) (hc1 : cl < 1)
    (hz : sampling = true → Q.f cl 2 2 * Real.sqrt (2 / 3) < 1) :
    ∃ a : Fin 4 → Vec 3, ∀ svd : SvdFn, svd.Valid → ∃ f x y, init svd a (some w) none = .ok (some f) ∧
      errorsAt Q f sampling cl = some (x, y) ∧ y < x := by
  have hz0 : 0 ≤ Q.f cl 2 2 := hQ.f_nonneg _ _ _ hc0 hc1 (by norm_num) (by norm_num)
  have w0 := hw 0
  have w1 := hw 1
  have w2 := hw 2
  set z := Q.f cl 2 2 with hzd
  obtain ⟨t, tp, tle, tz⟩ : ∃ t : ℝ, 0 < t ∧ t ≤ 1 ∧ 2 * z * (w 2 * t) < w 0 := by
    refine ⟨min 1 (w 0 / (2 * z * w 2 + 1) / 2), by positivity, min_le_left _ _, ?_⟩
    have h1 := min_le_right 1 (w 0 / (2 * z * w 2 + 1) / 2)
    have hp : 0 < 2 * z * w 2 + 1 := by positivity
    set t := min 1 (w 0 / (2 * z * w 2 + 1) / 2)
    have h2 : (2 * z * w 2) * t ≤ (2 * z * w 2) * (w 0 / (2 * z * w 2 + 1) / 2) :=
      mul_le_mul_of_nonneg_left h1 (by positivity)
    have h3 : (2 * z * w 2) * (w 0 / (2 * z * w 2 + 1) / 2) ≤ w 0 / 2 := by
      rw [show (2 * z * w 2) * (w 0 / (2 * z * w 2 + 1) / 2) = (2 * z * w 2) * w 0 / (2 * z * w 2 + 1) / 2 by ring]
      apply div_le_div_of_nonneg_right _ (by norm_num)
      rw [div_le_iff₀ hp]
      nlinarith
    nlinarith
  refine ⟨Witness.points 1 fun j => w j * ![1, 1, t] j, fun svd hs => ?_⟩
  obtain ⟨f, hf⟩ := weighted_exists svd (by norm_num) (Witness.points 1 fun j => w j * ![1, 1, t] j) w
    fun j => (hw j).ne'
  have hS := weighted_points hs (fun j => (hw j).ne') (v := ![1, 1, t]) (by simpa using tp.le) (by simpa using tle)
    (by simp) hf
  have v0 : eigenvalues f 0 = w 0 ^ 2 / 3 := by
    simp only [eigenvalues, hS]; norm_num
  have v1 : eigenvalues f 1 = w 1 ^ 2 / 3 := by
    simp only [eigenvalues, hS]; norm_num
  have v2 : eigenvalues f 2 = (w 2 * t) ^ 2 / 3 := by
    simp only [eigenvalues, hS]; norm_num
    simp
  have hlt : eigenvalues f 0 < eigenvalues f 1 := by
    rw [v0, v1]
    nlinarith
  have hp : 0 < axisLength sampling 4 (eigenvalues f 2) z (eigenvalues f 0) := by
    cases sampling
    · simp only [axisLength, Bool.false_eq_true, if_false, v0, v2]
      have e : Real.sqrt (w 0 ^ 2 / 3 * ((w 2 * t) ^ 2 / 3) / (((4 : ℕ) : ℝ) - 2)) ≤ w 0 * (w 2 * t) / 3 := by
        apply Real.sqrt_le_iff.2
        refine ⟨by positivity, ?_⟩
        push_cast
        rw [show w 0 ^ 2 / 3 * ((w 2 * t) ^ 2 / 3) / (4 - 2) = (w 0 * (w 2 * t)) ^ 2 / 18 by ring]
        nlinarith [sq_nonneg (w 0 * (w 2 * t))]
      have := mul_le_mul_of_nonneg_left e hz0
      nlinarith
    · simp only [axisLength, if_true, v0]
      have := hz rfl
      have e : (2 / (((4 : ℕ) : ℝ) - 1)) = 2 / 3 := by norm_num
      rw [e, show w 0 ^ 2 / 3 - z * (w 0 ^ 2 / 3 * Real.sqrt (2 / 3)) = w 0 ^ 2 / 3 * (1 - z * Real.sqrt (2 / 3)) by
        ring]
      exact mul_pos (by positivity) (by linarith)
  have hl := axisLength_lt (by norm_num) (ev_nonneg (by norm_num) f 0) hlt hp
  refine ⟨f, _, _, hf, errorsAt_eq hQ (by norm_num) f sampling hc0 hc1, ?_⟩
  obtain ⟨k0, k1, k2⟩ := hyperbolic_rows sampling 4 (eigenvalues f) z
  have up : 0 < eigenvalues f 2 + z * Spec.errorScale sampling 4 (eigenvalues f) 2 := by
    have := errorScale_nonneg sampling 4 _ (ev_nonneg (by norm_num) f) 2
    have e2 : 0 < eigenvalues f 2 := by rw [v2]; positivity
    positivity
  show arctan2 (Real.sqrt (Spec.hyperbolicAxes sampling 4 (eigenvalues f) z 2))
      (Real.sqrt (Spec.hyperbolicAxes sampling 4 (eigenvalues f) z 1))
    < arctan2 (Real.sqrt (Spec.hyperbolicAxes sampling 4 (eigenvalues f) z 2))
      (Real.sqrt (Spec.hyperbolicAxes sampling 4 (eigenvalues f) z 0))
  rw [k0, k1, k2, abs_of_pos hp, abs_of_pos (hp.trans hl)]
  exact arctan2_axis up hp hl

example : ∃ a : Fin 4 → Vec 3, ∀ svd : SvdFn, svd.Valid → ∃ f x y,
    init svd a (some ![1, 2, 1]) none = .ok (some f) ∧
    errorsAt Spec.quantiles2 f false 0.95 = some (x, y) ∧ y < x :=
  C268_order_false _ Spec.quantiles2_ok ![1, 2, 1] (by intro j; fin_cases j <;> simp) (by norm_num) false 0.95
    (by norm_num) (by norm_num) (by simp)

end Attitude.Props
