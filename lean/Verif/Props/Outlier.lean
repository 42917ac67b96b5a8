import Mathlib.Algebra.Order.Chebyshev
import Verif.Props.Stability
import Verif.Props.Attenuation

/-!
# C210, C211: one wrong measurement, and small errors of elevation in a regression
-/

namespace Attitude.Props

open Attitude Matrix Pca

/-! ## Specification -/

/-- The points with point `i` replaced. -/
def Spec.replaced {n : ℕ} (a : Fin n → Vec 3) (i : Fin n) (p : Vec 3) : Fin n → Vec 3 :=
  fun k => if k = i then p else a k

/-- The points with the elevation of point `i` changed by `t`. -/
def Spec.raised {n : ℕ} (a : Fin n → Vec 3) (i : Fin n) (t : ℝ) : Fin n → Vec 3 :=
  fun k => if k = i then ![a k 0, a k 1, a k 2 + t] else a k

/-- How steeply a plane with strike `s` and dip `d` descends, to the east and to the north. -/
noncomputable def Spec.descent (sd : ℝ × ℝ) : ℝ × ℝ :=
  (Real.tan (radians sd.2) * Real.sin (radians (sd.1 + 90)), Real.tan (radians sd.2) * Real.cos (radians (sd.1 + 90)))

/-- The extent of positions in map view is at least `m` in every direction: root of the sum of squares of the
distances from the mean, measured in that direction. -/
def Spec.WideInPlan {n : ℕ} (a : Fin n → Vec 3) (m : ℝ) : Prop :=
  ∀ u v : ℝ, m ^ 2 * (u ^ 2 + v ^ 2) ≤
    ∑ i, (u * (a i 0 - (∑ k, a k 0) / n) + v * (a i 1 - (∑ k, a k 1) / n)) ^ 2

/-! ## C210 -/

lemma exists_perp (e : Vec 3) : ∃ w : Vec 3, ∑ j, w j ^ 2 = 1 ∧ e 0 * w 0 + e 1 * w 1 + e 2 * w 2 = 0 := by
  by_cases h : e 0 ^ 2 + e 1 ^ 2 = 0
  · have h0 : e 0 = 0 := by nlinarith [sq_nonneg (e 0), sq_nonneg (e 1)]
    exact ⟨![1, 0, 0], by simp [Fin.sum_univ_three], by simp [h0]⟩
  · have hp : 0 < e 0 ^ 2 + e 1 ^ 2 := lt_of_le_of_ne (by positivity) (Ne.symm h)
    have hq : 0 < Real.sqrt (e 0 ^ 2 + e 1 ^ 2) := Real.sqrt_pos.2 hp
    have hs := Real.sq_sqrt hp.le
    refine ⟨![-e 1 / Real.sqrt (e 0 ^ 2 + e 1 ^ 2), e 0 / Real.sqrt (e 0 ^ 2 + e 1 ^ 2), 0], ?_, ?_⟩
    · simp only [Fin.sum_univ_three, Matrix.cons_val_zero, Matrix.cons_val_one, Matrix.cons_val]
      field_simp
      linarith
    · simp only [Matrix.cons_val_zero, Matrix.cons_val_one, Matrix.cons_val]
      field_simp
      ring

lemma centered_mulVec {n : ℕ} (b : Fin n → Vec 3) (w : Vec 3) (i : Fin n) :
    (Matrix.of (Coordinates.centered b) *ᵥ w) i =
      (∑ j, b i j * w j) - (∑ k, ∑ j, b k j * w j) / n := by
  rw [Finset.sum_comm]
  simp only [Matrix.mulVec, dotProduct, Matrix.of_apply, Coordinates.centered, meanRows, Fin.sum_univ_three,
    ← Finset.sum_mul]
  ring

lemma replaced_dot {n : ℕ} (a : Fin n → Vec 3) (i : Fin n) (t : ℝ) (e w : Vec 3) (k : Fin n) :
    ∑ j, Spec.replaced a i (fun j => t * e j) k j * w j =
      (if k = i then 0 else ∑ j, a k j * w j) + (if k = i then t * (e 0 * w 0 + e 1 * w 1 + e 2 * w 2) else 0) := by
  unfold Spec.replaced
  by_cases h : k = i
  · simp only [h, if_true, Fin.sum_univ_three]
    ring
  · simp [h]

lemma others_le {n : ℕ} (a : Fin n → Vec 3) (i : Fin n) (w : Vec 3) (hw : ∑ j, w j ^ 2 = 1) :
    ∑ k, (if k = i then 0 else ∑ j, a k j * w j) ^ 2 ≤ ∑ k, (a k 0 ^ 2 + a k 1 ^ 2 + a k 2 ^ 2) := by
  apply Finset.sum_le_sum
  intro k _
  by_cases h : k = i
  · rw [if_pos h]
    have := sq_nonneg (a k 0)
    have := sq_nonneg (a k 1)
    have := sq_nonneg (a k 2)
    linarith
  · rw [if_neg h]
    have := Finset.sum_mul_sq_le_sq_mul_sq Finset.univ (a k) w
    rw [hw, mul_one, Fin.sum_univ_three (fun j => a k j ^ 2)] at this
    exact this

/-- Refutation: one wrong point decides the orientation of the plane.  Whatever the other points are, a point far away
in any direction turns the fitted plane into that direction. -/
theorem C210_one_point_false (svd : SvdFn) (hs : svd.Valid) {n : ℕ} (a : Fin n → Vec 3) (i : Fin n) (e : Vec 3)
    (t : ℝ) (f : Fit n) (hf : init svd (Spec.replaced a i fun j => t * e j) none none = .ok (some f)) :
    |t| * |f.normal 0 * e 0 + f.normal 1 * e 1 + f.normal 2 * e 2| ≤
      3 * Real.sqrt (∑ k, (a k 0 ^ 2 + a k 1 ^ 2 + a k 2 ^ 2)) := by
  obtain ⟨U, hF⟩ := init_default hs hf
  set b := Spec.replaced a i fun j => t * e j with hb
  set R := ∑ k, (a k 0 ^ 2 + a k 1 ^ 2 + a k 2 ^ 2) with hR
  have hR0 : 0 ≤ R := Finset.sum_nonneg fun k _ => by positivity
  have hn : (3 : ℝ) ≤ n := by exact_mod_cast hF.size
  -- the third singular value stays bounded
  obtain ⟨w, hw, hew⟩ := exists_perp e
  have h2 : f.s 2 ^ 2 ≤ R := by
    have h := hF.svd.optimal w
    rw [hw, mul_one] at h
    refine h.trans ?_
    have hk : ∀ k, (Matrix.of (Coordinates.centered b) *ᵥ w) k =
        (if k = i then 0 else ∑ j, a k j * w j) - (∑ k, if k = i then 0 else ∑ j, a k j * w j) / n := by
      intro k
      rw [centered_mulVec]
      simp only [hb, replaced_dot, hew, mul_zero, ite_self, add_zero]
    simp only [hk]
    exact (sum_centered_sq_le _).trans (others_le a i w hw)
  -- and contains the projection of the wrong point
  set v := f.V 2 with hv
  have hvn : ∑ j, v j ^ 2 = 1 := row_sq hF.svd 2
  set τ := t * (e 0 * v 0 + e 1 * v 1 + e 2 * v 2) with hτ
  set S := ∑ k, (if k = i then 0 else ∑ j, a k j * v j) with hS
  have hi : (Matrix.of (Coordinates.centered b) *ᵥ v) i = τ - (S + τ) / n := by
    rw [centered_mulVec]
    simp only [hb, replaced_dot, ← hτ, Finset.sum_add_distrib, if_true, zero_add, Finset.sum_ite_eq',
      Finset.mem_univ, ← hS]
  have h3 : (τ - (S + τ) / n) ^ 2 ≤ R := by
    rw [← hi]
    refine le_trans ?_ (le_trans (le_of_eq (hF.svd.sum_sq_row 2)) h2)
    exact Finset.single_le_sum (f := fun k => (Matrix.of (Coordinates.centered b) *ᵥ v) k ^ 2)
      (fun k _ => sq_nonneg _) (Finset.mem_univ i)
  have h4 : S ^ 2 ≤ n * R := by
    have := sq_sum_le_card_mul_sum_sq (s := Finset.univ) (f := fun k => if k = i then 0 else ∑ j, a k j * v j)
    rw [Finset.card_univ, Fintype.card_fin] at this
    exact this.trans (mul_le_mul_of_nonneg_left (others_le a i v hvn) (by positivity))
  have hq := Real.sq_sqrt hR0
  have hq0 := Real.sqrt_nonneg R
  set ρ := Real.sqrt R
  have h5 : |τ - (S + τ) / n| ≤ ρ := abs_le_of_sq_le_sq (by rw [hq]; exact h3) hq0
  have h6 : |S / n| ≤ ρ := by
    apply abs_le_of_sq_le_sq _ hq0
    rw [hq, div_pow, div_le_iff₀ (by positivity)]
    nlinarith [mul_nonneg (by linarith : (0 : ℝ) ≤ n) hR0]
  have h7 : τ * (1 - 1 / n) = (τ - (S + τ) / n) + S / n := by ring
  have h8 : |τ| * (1 - 1 / n) ≤ 2 * ρ := by
    have hnn : (0 : ℝ) ≤ 1 - 1 / n := by
      rw [sub_nonneg, div_le_one (by linarith)]; linarith
    calc |τ| * (1 - 1 / n) = |τ * (1 - 1 / n)| := by rw [abs_mul τ, abs_of_nonneg hnn]
      _ = |(τ - (S + τ) / n) + S / n| := by rw [h7]
      _ ≤ _ := (abs_add_le _ _).trans (by linarith)
  have h9 : (1 : ℝ) / n ≤ 1 / 3 := one_div_le_one_div_of_le (by norm_num) hn
  have h10 : |t| * |f.normal 0 * e 0 + f.normal 1 * e 1 + f.normal 2 * e 2| = |τ| := by
    rw [← abs_mul, hτ, hF.normal]
    rcases upward_eq (f.V 2) with h | h <;> rw [h]
    · congr 1; rw [hv]; ring
    · rw [← abs_neg]; congr 1; simp only [Pi.neg_apply]; rw [hv]; ring
  rw [h10]
  nlinarith [abs_nonneg τ]

/-- Four measurements of a horizontal plane, one of which is wrong by 1000 in elevation: the plane is nearly vertical. -/
example : ∃ (svd : SvdFn) (f : Fit 4), svd.Valid ∧
    init svd (Spec.replaced ![![1, 0, 0], ![0, 1, 0], ![-1, 0, 0], ![0, -1, 0]] 3 fun j => 1000 * ![0, 0, 1] j)
      none none = .ok (some f) ∧ |f.normal 2| ≤ 1 / 100 := by
  obtain ⟨svd, hs⟩ := exists_valid_svd
  obtain ⟨f, hf⟩ := init_default_exists svd (by norm_num : 3 ≤ 4)
    (Spec.replaced ![![1, 0, 0], ![0, 1, 0], ![-1, 0, 0], ![0, -1, 0]] 3 fun j => 1000 * ![0, 0, 1] j)
  refine ⟨svd, f, hs, hf, ?_⟩
  have h := C210_one_point_false svd hs ![![1, 0, 0], ![0, 1, 0], ![-1, 0, 0], ![0, -1, 0]] 3 ![0, 0, 1] 1000 f hf
  have hr : Real.sqrt (∑ k, ((![![1, 0, 0], ![0, 1, 0], ![-1, 0, 0], ![0, -1, 0]] : Fin 4 → Vec 3) k 0 ^ 2 +
      (![![1, 0, 0], ![0, 1, 0], ![-1, 0, 0], ![0, -1, 0]] : Fin 4 → Vec 3) k 1 ^ 2 +
      (![![1, 0, 0], ![0, 1, 0], ![-1, 0, 0], ![0, -1, 0]] : Fin 4 → Vec 3) k 2 ^ 2)) = 2 := by
    rw [Fin.sum_univ_four, Real.sqrt_eq_iff_mul_self_eq (by simp; norm_num) (by norm_num)]
    simp
    norm_num
  rw [hr] at h
  have a1 : |(1000 : ℝ)| = 1000 := by norm_num
  rw [a1] at h
  simp only [Matrix.cons_val_zero, Matrix.cons_val_one, Matrix.cons_val, mul_zero, mul_one, zero_add] at h
  linarith

/-- What remains: one wrong point among exact measurements of a plane tilts it by an angle whose sine is at most twice
the distance by which the point is wrong, over the second singular value of the exact measurements. -/
theorem C210_one_point_partial (svd : SvdFn) (hs : svd.Valid) {n : ℕ} (a : Fin n → Vec 3) (i : Fin n) (p : Vec 3)
    (f g : Fit n) (hf : init svd a none none = .ok (some f))
    (hg : init svd (Spec.replaced a i p) none none = .ok (some g))
    (hplane : ∃ m d, norm m = 1 ∧ ∀ i, Spec.OnPlane m d (a i)) :
    f.s 1 * Spec.sineBetween f.normal g.normal ≤
      2 * Real.sqrt ((a i 0 - p 0) ^ 2 + (a i 1 - p 1) ^ 2 + (a i 2 - p 2) ^ 2) := by
  have h := C196_exact svd hs a _ f g hf hg hplane
  have e : Spec.displacement a (Spec.replaced a i p) =
      Real.sqrt ((a i 0 - p 0) ^ 2 + (a i 1 - p 1) ^ 2 + (a i 2 - p 2) ^ 2) := by
    unfold Spec.displacement
    congr 1
    rw [Finset.sum_eq_single i]
    · simp [Spec.replaced]
    · intro k _ hk
      simp [Spec.replaced, hk]
    · simp
  rwa [e] at h

example : ∃ (svd : SvdFn) (f g : Fit 4), svd.Valid ∧
    init svd ![![1, 0, 0], ![0, 1, 0], ![-1, 0, 0], ![0, -1, 0]] none none = .ok (some f) ∧
    init svd (Spec.replaced ![![1, 0, 0], ![0, 1, 0], ![-1, 0, 0], ![0, -1, 0]] 3 ![0, -1, 1 / 10]) none none
      = .ok (some g) ∧
    f.s 1 * Spec.sineBetween f.normal g.normal ≤ 1 / 5 := by
  obtain ⟨svd, hs⟩ := exists_valid_svd
  obtain ⟨f, hf⟩ := init_default_exists svd (by norm_num : 3 ≤ 4)
    ![![1, 0, 0], ![0, 1, 0], ![-1, 0, 0], ![0, -1, 0]]
  obtain ⟨g, hg⟩ := init_default_exists svd (by norm_num : 3 ≤ 4)
    (Spec.replaced ![![1, 0, 0], ![0, 1, 0], ![-1, 0, 0], ![0, -1, 0]] 3 ![0, -1, 1 / 10])
  refine ⟨svd, f, g, hs, hf, hg, ?_⟩
  have h := C210_one_point_partial svd hs _ 3 ![0, -1, 1 / 10] f g hf hg ⟨![0, 0, 1], 0, by simp [norm3],
    fun i => by fin_cases i <;> simp [Spec.OnPlane]⟩
  have e : Real.sqrt (((![![1, 0, 0], ![0, 1, 0], ![-1, 0, 0], ![0, -1, 0]] : Fin 4 → Vec 3) 3 0 -
      (![0, -1, 1 / 10] : Vec 3) 0) ^ 2 + ((![![1, 0, 0], ![0, 1, 0], ![-1, 0, 0], ![0, -1, 0]] : Fin 4 → Vec 3) 3 1 -
      (![0, -1, 1 / 10] : Vec 3) 1) ^ 2 + ((![![1, 0, 0], ![0, 1, 0], ![-1, 0, 0], ![0, -1, 0]] : Fin 4 → Vec 3) 3 2 -
      (![0, -1, 1 / 10] : Vec 3) 2) ^ 2) = 1 / 10 := by
    rw [Real.sqrt_eq_iff_mul_self_eq (by positivity) (by norm_num)]
    simp
    norm_num
  rw [e] at h
  linarith

/-! ## C211 -/

lemma descent_eq {n : ℕ} {a : Fin n → Vec 3} {o : Linear.LinearOrientation} (ho : Linear.linearOrientation a = .ok o)
    {r : Linear.Regression n} {c : Vec 3} (hr : Linear.initRows a = .ok r) (hc : (Linear.coefficients r).1 = .ok c) :
    Spec.descent (Linear.strikeDip o) = (-c 0, -c 1) := by
  have h := linear_sdNormal ho hr hc
  have h0 := congrFun h 0
  have h1 := congrFun h 1
  have h2 := congrFun h 2
  simp only [sdNormal, Pi.smul_apply, smul_eq_mul, Matrix.cons_val_zero, Matrix.cons_val_one, Matrix.cons_val] at h0 h1 h2
  set k := Real.sqrt (1 + Spec.gradient (c 0) (c 1) ^ 2)
  have hC : Real.cos (radians (Linear.strikeDip o).2) ≠ 0 := by
    intro h
    rw [h, mul_zero] at h2
    exact one_ne_zero h2
  unfold Spec.descent
  rw [radians_add, radians_90, Real.sin_add_pi_div_two, Real.cos_add_pi_div_two, Real.tan_eq_sin_div_cos]
  have hk : k = 1 / Real.cos (radians (Linear.strikeDip o).2) := by
    rw [eq_div_iff hC]; exact h2.symm
  rw [hk] at h0 h1
  rw [h0, h1]
  refine Prod.ext ?_ ?_ <;> simp only <;> field_simp

/-- The change of the regression when elevations change by `δ`, tested against the positions. -/
lemma change_orthogonal {n : ℕ} {a b : Fin n → Vec 3} {δ : Fin n → ℝ} (hxy : ∀ i, b i 0 = a i 0 ∧ b i 1 = a i 1)
    (hz : ∀ i, b i 2 = a i 2 + δ i)
    {r : Linear.Regression n} {c : Vec 3} (hr : Linear.initRows a = .ok r) (hc : (Linear.coefficients r).1 = .ok c)
    {r' : Linear.Regression n} {c' : Vec 3} (hr' : Linear.initRows b = .ok r')
    (hc' : (Linear.coefficients r').1 = .ok c') (u v : ℝ) :
    ∑ i, (u * Coordinates.centered a i 0 + v * Coordinates.centered a i 1) *
      ((δ i - (∑ k, δ k) / n) -
        ((c' 0 - c 0) * Coordinates.centered a i 0 + (c' 1 - c 1) * Coordinates.centered a i 1)) = 0 := by
  obtain ⟨_, o0, o1⟩ := residual_orthogonal hr hc
  obtain ⟨_, o0', o1'⟩ := residual_orthogonal hr' hc'
  have e0 : ∀ i, Coordinates.centered b i 0 = Coordinates.centered a i 0 := fun i => by
    simp only [Coordinates.centered, meanRows, (hxy _).1]
  have e1 : ∀ i, Coordinates.centered b i 1 = Coordinates.centered a i 1 := fun i => by
    simp only [Coordinates.centered, meanRows, (hxy _).2]
  have e2 : ∀ i, Coordinates.centered b i 2 = Coordinates.centered a i 2 + (δ i - (∑ k, δ k) / n) := fun i => by
    simp only [Coordinates.centered, meanRows, hz, Finset.sum_add_distrib]
    ring
  have h2 := intercept_zero hr hc
  have h2' := intercept_zero hr' hc'
  simp only [e0, e1, e2, h2'] at o0' o1'
  simp only [h2] at o0 o1
  have : ∀ i, (u * Coordinates.centered a i 0 + v * Coordinates.centered a i 1) *
      ((δ i - (∑ k, δ k) / n) -
        ((c' 0 - c 0) * Coordinates.centered a i 0 + (c' 1 - c 1) * Coordinates.centered a i 1)) =
      u * (Coordinates.centered a i 0 * (Coordinates.centered a i 2 + (δ i - (∑ k, δ k) / n) -
        (c' 0 * Coordinates.centered a i 0 + c' 1 * Coordinates.centered a i 1 + 0))) +
      v * (Coordinates.centered a i 1 * (Coordinates.centered a i 2 + (δ i - (∑ k, δ k) / n) -
        (c' 0 * Coordinates.centered a i 0 + c' 1 * Coordinates.centered a i 1 + 0))) -
      u * (Coordinates.centered a i 0 * (Coordinates.centered a i 2 -
        (c 0 * Coordinates.centered a i 0 + c 1 * Coordinates.centered a i 1 + 0))) -
      v * (Coordinates.centered a i 1 * (Coordinates.centered a i 2 -
        (c 0 * Coordinates.centered a i 0 + c 1 * Coordinates.centered a i 1 + 0))) := fun i => by ring
  rw [Finset.sum_congr rfl fun i _ => this i, Finset.sum_sub_distrib, Finset.sum_sub_distrib, Finset.sum_add_distrib,
    ← Finset.mul_sum, ← Finset.mul_sum, ← Finset.mul_sum, ← Finset.mul_sum, o0, o1, o0', o1']
  ring

/-- Errors of elevation change the descent of the regression plane by at most the root of the sum of their squares over
the extent of the positions. -/
theorem C211_small_errors {n : ℕ} (a b : Fin n → Vec 3) (hxy : ∀ i, b i 0 = a i 0 ∧ b i 1 = a i 1) (m : ℝ)
    (hm : Spec.WideInPlan a m) (o o' : Linear.LinearOrientation) (ho : Linear.linearOrientation a = .ok o)
    (ho' : Linear.linearOrientation b = .ok o') :
    m ^ 2 * (((Spec.descent (Linear.strikeDip o')).1 - (Spec.descent (Linear.strikeDip o)).1) ^ 2 +
      ((Spec.descent (Linear.strikeDip o')).2 - (Spec.descent (Linear.strikeDip o)).2) ^ 2) ≤
      ∑ i, (b i 2 - a i 2) ^ 2 := by
  obtain ⟨r, c, hr, hc, -⟩ := linearOrientation_ok ho
  obtain ⟨r', c', hr', hc', -⟩ := linearOrientation_ok ho'
  rw [descent_eq ho hr hc, descent_eq ho' hr' hc']
  simp only
  have h := change_orthogonal (δ := fun i => b i 2 - a i 2) hxy (fun i => by ring) hr hc hr' hc' (c' 0 - c 0) (c' 1 - c 1)
  set w : Fin n → ℝ := fun i => (c' 0 - c 0) * Coordinates.centered a i 0 + (c' 1 - c 1) * Coordinates.centered a i 1
    with hw
  set ζ : Fin n → ℝ := fun i => (b i 2 - a i 2) - (∑ k, (b k 2 - a k 2)) / n with hζ
  have h1 : ∑ i, w i * (ζ i - w i) = 0 := h
  have h2 : ∑ i, w i ^ 2 ≤ ∑ i, ζ i ^ 2 := by
    have : ∑ i, ζ i ^ 2 = ∑ i, w i ^ 2 + 2 * ∑ i, w i * (ζ i - w i) + ∑ i, (ζ i - w i) ^ 2 := by
      rw [Finset.mul_sum, ← Finset.sum_add_distrib, ← Finset.sum_add_distrib]
      exact Finset.sum_congr rfl fun i _ => by ring
    rw [this, h1]
    have := Finset.sum_nonneg fun i (_ : i ∈ Finset.univ) => sq_nonneg (ζ i - w i)
    linarith
  have h3 : ∑ i, ζ i ^ 2 ≤ ∑ i, (b i 2 - a i 2) ^ 2 := sum_centered_sq_le _
  have h4 := hm (c' 0 - c 0) (c' 1 - c 1)
  have h5 : ∑ i, ((c' 0 - c 0) * (a i 0 - (∑ k, a k 0) / n) + (c' 1 - c 1) * (a i 1 - (∑ k, a k 1) / n)) ^ 2
      = ∑ i, w i ^ 2 := rfl
  rw [h5] at h4
  have e : (-c' 0 - -c 0) ^ 2 + (-c' 1 - -c 1) ^ 2 = (c' 0 - c 0) ^ 2 + (c' 1 - c 1) ^ 2 := by ring
  rw [e]
  linarith

/-- Four positions around the origin, with elevations. -/
def around (z : Fin 4 → ℝ) : Fin 4 → Vec 3 := ![![1, 0, z 0], ![0, 1, z 1], ![-1, 0, z 2], ![0, -1, z 3]]

lemma around_wide (z : Fin 4 → ℝ) : Spec.WideInPlan (around z) 1 := by
  intro u v
  simp only [Fin.sum_univ_four, around, Matrix.cons_val_zero, Matrix.cons_val_one, Matrix.cons_val]
  norm_num
  nlinarith [sq_nonneg u, sq_nonneg v]

lemma around_fits (z : Fin 4 → ℝ) : ∃ o, Linear.linearOrientation (around z) = .ok o := by
  apply linearOrientation_exists (by norm_num)
  rintro ⟨p, q, t, hpq, h⟩
  have h0 := h 0
  have h1 := h 1
  have h2 := h 2
  have h3 := h 3
  simp [around] at h0 h1 h2 h3
  rcases hpq with k | k <;> apply k <;> linarith

example : ∃ o o', Linear.linearOrientation (around ![1, 2, 3, 4]) = .ok o ∧
    Linear.linearOrientation (around ![1, 2, 3, 5]) = .ok o' ∧
    ((Spec.descent (Linear.strikeDip o')).1 - (Spec.descent (Linear.strikeDip o)).1) ^ 2 +
      ((Spec.descent (Linear.strikeDip o')).2 - (Spec.descent (Linear.strikeDip o)).2) ^ 2 ≤ 1 := by
  obtain ⟨o, ho⟩ := around_fits ![1, 2, 3, 4]
  obtain ⟨o', ho'⟩ := around_fits ![1, 2, 3, 5]
  refine ⟨o, o', ho, ho', ?_⟩
  have h := C211_small_errors _ _ (fun i => by fin_cases i <;> simp [around]) 1 (around_wide _) o o' ho ho'
  rw [Fin.sum_univ_four] at h
  simp [around] at h
  norm_num at h
  exact h

/-- Errors that look like a tilt cannot be told from one: they change the descent by exactly that tilt, so that the
bound is attained by a tilt in the direction in which the positions have the smallest extent. -/
theorem C211_tilt {n : ℕ} (a b : Fin n → Vec 3) (u v t : ℝ) (hxy : ∀ i, b i 0 = a i 0 ∧ b i 1 = a i 1)
    (hz : ∀ i, b i 2 = a i 2 - u * a i 0 - v * a i 1 + t) (o o' : Linear.LinearOrientation)
    (ho : Linear.linearOrientation a = .ok o) (ho' : Linear.linearOrientation b = .ok o') :
    Spec.descent (Linear.strikeDip o') =
      ((Spec.descent (Linear.strikeDip o)).1 + u, (Spec.descent (Linear.strikeDip o)).2 + v) := by
  obtain ⟨r, c, hr, hc, -⟩ := linearOrientation_ok ho
  obtain ⟨r', c', hr', hc', -⟩ := linearOrientation_ok ho'
  rw [descent_eq ho hr hc, descent_eq ho' hr' hc']
  have hn : n ≠ 0 := (coefficients_rows hr hc).2.1
  have hn' : (n : ℝ) ≠ 0 := by exact_mod_cast hn
  have hcol : ¬ Spec.CollinearInPlan a := (C31_singular_iff a r hr).2.1 ⟨c, hc⟩
  set p := -u - (c' 0 - c 0) with hp
  set q := -v - (c' 1 - c 1) with hq
  have h := change_orthogonal (δ := fun i => -u * a i 0 - v * a i 1 + t) hxy (fun i => by rw [hz]; ring) hr hc hr' hc' p q
  have hd : ∀ i, (-u * a i 0 - v * a i 1 + t - (∑ k, (-u * a k 0 - v * a k 1 + t)) / n) =
      -u * Coordinates.centered a i 0 - v * Coordinates.centered a i 1 := by
    intro i
    simp only [Coordinates.centered, meanRows, Finset.sum_add_distrib, Finset.sum_sub_distrib, ← Finset.mul_sum,
      Finset.sum_const, Finset.card_univ, Fintype.card_fin, nsmul_eq_mul]
    field_simp
    ring
  have hz0 : ∑ i, (p * Coordinates.centered a i 0 + q * Coordinates.centered a i 1) ^ 2 = 0 := by
    rw [← h]
    refine Finset.sum_congr rfl fun i _ => ?_
    rw [hd i, hp, hq]
    ring
  have hall : ∀ i, p * Coordinates.centered a i 0 + q * Coordinates.centered a i 1 = 0 := fun i =>
    pow_eq_zero_iff two_ne_zero |>.1
      ((Finset.sum_eq_zero_iff_of_nonneg fun i _ => sq_nonneg _).1 hz0 i (Finset.mem_univ i))
  have hpq : p = 0 ∧ q = 0 := by
    by_contra hne
    refine hcol ⟨p, q, p * meanRows a 0 + q * meanRows a 1, ?_, fun i => ?_⟩
    · by_contra h0
      push Not at h0
      exact hne h0
    · have := hall i
      simp only [Coordinates.centered] at this
      linarith
  refine Prod.ext ?_ ?_ <;> simp only
  · linarith [hpq.1]
  · linarith [hpq.2]

example : ∃ o o', Linear.linearOrientation (around ![1, 2, 3, 5]) = .ok o ∧
    Linear.linearOrientation (around ![0, 2, 4, 5]) = .ok o' ∧
    Spec.descent (Linear.strikeDip o') =
      ((Spec.descent (Linear.strikeDip o)).1 + 1, (Spec.descent (Linear.strikeDip o)).2 + 0) := by
  obtain ⟨o, ho⟩ := around_fits ![1, 2, 3, 5]
  obtain ⟨o', ho'⟩ := around_fits ![0, 2, 4, 5]
  refine ⟨o, o', ho, ho', C211_tilt _ _ 1 0 0 (fun i => by fin_cases i <;> simp [around]) (fun i => ?_) o o' ho ho'⟩
  fin_cases i <;> simp [around]; norm_num

/-! ## C210 for the regression -/

lemma abs_le_gradient (x y : ℝ) : |x| ≤ Spec.gradient x y ∧ |y| ≤ Spec.gradient x y :=
  ⟨Real.abs_le_sqrt (le_add_of_nonneg_right (sq_nonneg y)), Real.abs_le_sqrt (le_add_of_nonneg_left (sq_nonneg x))⟩

lemma lever_bound {t x y p q X Y Z : ℝ} (e0 : t * x = p * X + q * Z) (e1 : t * y = p * Z + q * Y) :
    |t| * (|x| + |y|) ≤ (|p| + |q|) * (|X| + |Y| + 2 * |Z| + 1) := by
  have b0 : |t| * |x| ≤ |p| * |X| + |q| * |Z| := by
    rw [← abs_mul, e0, ← abs_mul, ← abs_mul]; exact abs_add_le _ _
  have b1 : |t| * |y| ≤ |p| * |Z| + |q| * |Y| := by
    rw [← abs_mul, e1, ← abs_mul, ← abs_mul]; exact abs_add_le _ _
  have h1 := mul_nonneg (abs_nonneg p) (abs_nonneg Y)
  have h2 := mul_nonneg (abs_nonneg p) (abs_nonneg Z)
  have h3 := mul_nonneg (abs_nonneg q) (abs_nonneg X)
  have h4 := mul_nonneg (abs_nonneg q) (abs_nonneg Z)
  have h5 := abs_nonneg p
  have h6 := abs_nonneg q
  linarith

/-- Refutation for the regression: one wrong elevation, at any position other than the mean of the positions, makes the
reported dip as steep as one likes, whatever the other points are. -/
theorem C210_one_elevation_false {n : ℕ} (a : Fin n → Vec 3) (hn : n ≠ 0) (hcol : ¬ Spec.CollinearInPlan a) (i : Fin n)
    (hi : a i 0 ≠ (∑ k, a k 0) / n ∨ a i 1 ≠ (∑ k, a k 1) / n) (D : ℝ) (hD : D < 90) :
    ∃ T : ℝ, ∀ t, T ≤ |t| → ∃ o, Linear.linearOrientation (Spec.raised a i t) = .ok o ∧ D < (Linear.strikeDip o).2 := by
  obtain ⟨o, ho⟩ := linearOrientation_exists hn hcol
  obtain ⟨r, c, hr, hc, -⟩ := linearOrientation_ok ho
  set X : ℝ := ∑ k, Coordinates.centered a k 0 ^ 2 with hX
  set Y : ℝ := ∑ k, Coordinates.centered a k 1 ^ 2 with hY
  set Z : ℝ := ∑ k, Coordinates.centered a k 0 * Coordinates.centered a k 1 with hZ
  set x := Coordinates.centered a i 0 with hx
  set y := Coordinates.centered a i 1 with hy
  have hh : 0 < |x| + |y| := by
    rcases hi with h | h
    · have : x ≠ 0 := sub_ne_zero.2 h
      have := abs_pos.2 this
      have := abs_nonneg y
      linarith
    · have : y ≠ 0 := sub_ne_zero.2 h
      have := abs_pos.2 this
      have := abs_nonneg x
      linarith
  set K := |X| + |Y| + 2 * |Z| + 1 with hK
  have hK0 : 0 < K := by positivity
  set D' := max D 0 with hD'
  have d0 : 0 ≤ D' := le_max_right _ _
  have d1 : D' < 90 := max_lt hD (by norm_num)
  have hpi := Real.pi_pos
  have r0 : 0 ≤ radians D' := by unfold radians; positivity
  have r1 : radians D' < Real.pi / 2 := by unfold radians; nlinarith
  set G := Real.tan (radians D') with hG
  refine ⟨K * (2 * G + |c 0| + |c 1| + 1) / (|x| + |y|), fun t ht => ?_⟩
  have hcol' : ¬ Spec.CollinearInPlan (Spec.raised a i t) := by
    rintro ⟨p, q, w, hpq, h⟩
    refine hcol ⟨p, q, w, hpq, fun k => ?_⟩
    have := h k
    by_cases hk : k = i
    · simpa [Spec.raised, hk] using this
    · simpa [Spec.raised, hk] using this
  obtain ⟨o', ho'⟩ := linearOrientation_exists hn hcol'
  obtain ⟨r', c', hr', hc', -, haz, hco, hsl⟩ := linearOrientation_ok ho'
  refine ⟨o', ho', ?_⟩
  have hor := change_orthogonal (a := a) (b := Spec.raised a i t) (δ := fun k => if k = i then t else 0)
    (fun k => by by_cases hk : k = i <;> simp [Spec.raised, hk])
    (fun k => by by_cases hk : k = i <;> simp [Spec.raised, hk]) hr hc hr' hc'
  set p := c' 0 - c 0 with hp
  set q := c' 1 - c 1 with hq
  have s0 : ∑ k, Coordinates.centered a k 0 = 0 := centered_sum a 0
  have s1 : ∑ k, Coordinates.centered a k 1 = 0 := centered_sum a 1
  have e0 : t * x = p * X + q * Z := by
    have h := hor 1 0
    simp only [one_mul, zero_mul, add_zero, mul_sub, Finset.sum_sub_distrib, mul_ite, mul_zero, Finset.sum_ite_eq',
      Finset.mem_univ, if_true, ← Finset.sum_mul, s0, mul_add, Finset.sum_add_distrib, sub_zero] at h
    rw [hX, hZ, Finset.mul_sum, Finset.mul_sum, hx]
    rw [Finset.sum_congr rfl fun k _ => (by ring : p * Coordinates.centered a k 0 ^ 2 =
      Coordinates.centered a k 0 * (p * Coordinates.centered a k 0)),
      Finset.sum_congr rfl fun k _ => (by ring : q * (Coordinates.centered a k 0 * Coordinates.centered a k 1) =
      Coordinates.centered a k 0 * (q * Coordinates.centered a k 1))]
    linarith
  have e1 : t * y = p * Z + q * Y := by
    have h := hor 0 1
    simp only [one_mul, zero_mul, zero_add, mul_sub, Finset.sum_sub_distrib, mul_ite, mul_zero, Finset.sum_ite_eq',
      Finset.mem_univ, if_true, ← Finset.sum_mul, s1, mul_add, Finset.sum_add_distrib, sub_zero] at h
    rw [hY, hZ, Finset.mul_sum, Finset.mul_sum, hy]
    rw [Finset.sum_congr rfl fun k _ => (by ring : q * Coordinates.centered a k 1 ^ 2 =
      Coordinates.centered a k 1 * (q * Coordinates.centered a k 1)),
      Finset.sum_congr rfl fun k _ => (by ring : p * (Coordinates.centered a k 0 * Coordinates.centered a k 1) =
      Coordinates.centered a k 1 * (p * Coordinates.centered a k 0))]
    linarith
  have b2 : |t| * (|x| + |y|) ≤ (|p| + |q|) * K := lever_bound e0 e1
  have b3 : 2 * G + |c 0| + |c 1| + 1 ≤ |p| + |q| := by
    rw [div_le_iff₀ hh] at ht
    have := ht.trans b2
    rw [mul_comm] at this
    exact le_of_mul_le_mul_right this hK0
  have b4 : |p| ≤ |c' 0| + |c 0| := abs_sub _ _
  have b5 : |q| ≤ |c' 1| + |c 1| := abs_sub _ _
  obtain ⟨b6, b7⟩ := abs_le_gradient (c' 0) (c' 1)
  obtain ⟨k0, k1, k2⟩ := rotated_coefficients c'
  rw [← haz, ← hco] at k0
  have hlt : G < Spec.gradient (c' 0) (c' 1) := by linarith
  have hat : radians D' < o'.slope := by
    rw [hsl, k0, neg_neg, ← Real.arctan_tan (by linarith) r1]
    exact Real.arctan_strictMono hlt
  have : degrees (radians D') < degrees o'.slope := by
    unfold degrees
    have h180 : 0 < 180 / Real.pi := by positivity
    rw [mul_div_assoc, mul_div_assoc]
    exact mul_lt_mul_of_pos_right hat h180
  rw [degrees_radians] at this
  exact lt_of_le_of_lt (le_max_left D 0) this

example : ∃ T : ℝ, ∀ t, T ≤ |t| → ∃ o, Linear.linearOrientation (Spec.raised fourPoints 0 t) = .ok o ∧
    89 < (Linear.strikeDip o).2 :=
  C210_one_elevation_false fourPoints (by norm_num) fourPoints_not_collinear 0
    (by simp [fourPoints, Fin.sum_univ_four] ; norm_num) 89 (by norm_num)

end Attitude.Props
