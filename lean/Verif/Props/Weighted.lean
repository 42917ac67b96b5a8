import Verif.Props.PcaExact
import Verif.Props.PcaState

/-!
# C239: fits with weights

`PCAOrientation(points, weights=w)` promises a fit for errors of different size along the coordinate axes.
The theorems say which plane such a fit finds, and that the reported normal, strike and dip are not those of
this plane: they belong to a copy of the data that is stretched along the axes (pca.py L191-192 has the line that
would turn the axes back, as a comment).
-/

namespace Attitude.Props

open Attitude Matrix Attitude.Pca

/-- Squared distance of two points, each coordinate in units of its error `w j`. -/
noncomputable def Spec.weightedDist2 (w p q : Vec 3) : ℝ :=
  ((p 0 - q 0) / w 0) ^ 2 + ((p 1 - q 1) / w 1) ^ 2 + ((p 2 - q 2) / w 2) ^ 2

/-- Squared distance of `p` from the plane `m · x = d`, each coordinate in units of its error. -/
noncomputable def Spec.weightedPlane2 (w m : Vec 3) (d : ℝ) (p : Vec 3) : ℝ :=
  (m 0 * p 0 + m 1 * p 1 + m 2 * p 2 - d) ^ 2 / ((w 0 * m 0) ^ 2 + (w 1 * m 1) ^ 2 + (w 2 * m 2) ^ 2)

/-- Sum of these over all points. -/
noncomputable def Spec.weightedMisfit {n : ℕ} (w : Vec 3) (a : Fin n → Vec 3) (m : Vec 3) (d : ℝ) : ℝ :=
  ∑ i, Spec.weightedPlane2 w m d (a i)

/-- The points with coordinates in units of the errors. -/
noncomputable def Spec.inUnits {n : ℕ} (w : Vec 3) (a : Fin n → Vec 3) : Fin n → Vec 3 := fun i j => a i j / w j

/-- The vector `v` is perpendicular to the plane with normal `m`: to every direction in it. -/
def Spec.Perpendicular (v m : Vec 3) : Prop := ∀ x : Vec 3, vdot m x = 0 → vdot v x = 0

lemma weighted_size_pos {w m : Vec 3} (hw : ∀ j, w j ≠ 0) (hm : m ≠ 0) :
    0 < (w 0 * m 0) ^ 2 + (w 1 * m 1) ^ 2 + (w 2 * m 2) ^ 2 := by
  by_contra h
  apply hm
  have h0 : (w 0 * m 0) ^ 2 = 0 := by nlinarith [sq_nonneg (w 0 * m 0), sq_nonneg (w 1 * m 1), sq_nonneg (w 2 * m 2)]
  have h1 : (w 1 * m 1) ^ 2 = 0 := by nlinarith [sq_nonneg (w 0 * m 0), sq_nonneg (w 1 * m 1), sq_nonneg (w 2 * m 2)]
  have h2 : (w 2 * m 2) ^ 2 = 0 := by nlinarith [sq_nonneg (w 0 * m 0), sq_nonneg (w 1 * m 1), sq_nonneg (w 2 * m 2)]
  have c : ∀ j, (w j * m j) ^ 2 = 0 → m j = 0 := fun j e =>
    (mul_eq_zero.1 (pow_eq_zero_iff two_ne_zero |>.1 e)).resolve_left (hw j)
  funext j
  fin_cases j
  exacts [c 0 h0, c 1 h1, c 2 h2]

/-- `weightedPlane2` is the smallest of the weighted distances from `p` to the points of the plane (a check of
the specification). -/
theorem Spec.weightedPlane2_is_distance (w m p : Vec 3) (d : ℝ) (hw : ∀ j, w j ≠ 0) (hm : m ≠ 0) :
    (∃ q, Spec.OnPlane m d q ∧ Spec.weightedDist2 w p q = Spec.weightedPlane2 w m d p) ∧
      ∀ q, Spec.OnPlane m d q → Spec.weightedPlane2 w m d p ≤ Spec.weightedDist2 w p q := by
  have hN := weighted_size_pos hw hm
  unfold Spec.OnPlane Spec.weightedDist2 Spec.weightedPlane2
  set N := (w 0 * m 0) ^ 2 + (w 1 * m 1) ^ 2 + (w 2 * m 2) ^ 2 with hNd
  set r := m 0 * p 0 + m 1 * p 1 + m 2 * p 2 - d with hr
  have h0 := hw 0
  have h1 := hw 1
  have h2 := hw 2
  constructor
  · refine ⟨fun j => p j - r / N * (w j ^ 2 * m j), ?_, ?_⟩
    · have : m 0 * (p 0 - r / N * (w 0 ^ 2 * m 0)) + m 1 * (p 1 - r / N * (w 1 ^ 2 * m 1)) +
          m 2 * (p 2 - r / N * (w 2 ^ 2 * m 2)) = r + d - r / N * N := by
        rw [hr, hNd]; ring
      rw [this, div_mul_cancel₀ _ hN.ne']; ring
    · have e : ∀ j : Fin 3, w j ≠ 0 →
          (p j - (p j - r / N * (w j ^ 2 * m j))) / w j = r / N * (w j * m j) := by
        intro j hj; field_simp; ring
      rw [e 0 h0, e 1 h1, e 2 h2]
      have : (r / N * (w 0 * m 0)) ^ 2 + (r / N * (w 1 * m 1)) ^ 2 + (r / N * (w 2 * m 2)) ^ 2 = (r / N) ^ 2 * N := by
        rw [hNd]; ring
      rw [this]
      field_simp
  · intro q hq
    rw [div_le_iff₀ hN]
    have e : r = (w 0 * m 0) * ((p 0 - q 0) / w 0) + (w 1 * m 1) * ((p 1 - q 1) / w 1) +
        (w 2 * m 2) * ((p 2 - q 2) / w 2) := by
      rw [hr, ← hq]; field_simp; ring
    rw [e, hNd]
    generalize w 0 * m 0 = a0, w 1 * m 1 = a1, w 2 * m 2 = a2, (p 0 - q 0) / w 0 = b0,
      (p 1 - q 1) / w 1 = b1, (p 2 - q 2) / w 2 = b2
    nlinarith [sq_nonneg (a0 * b1 - a1 * b0), sq_nonneg (a0 * b2 - a2 * b0), sq_nonneg (a1 * b2 - a2 * b1)]

example : (∃ q, Spec.OnPlane ![1, 0, 1] 2 q ∧
    Spec.weightedDist2 ![1, 1, 3] ![0, 0, 0] q = Spec.weightedPlane2 ![1, 1, 3] ![1, 0, 1] 2 ![0, 0, 0]) :=
  (Spec.weightedPlane2_is_distance _ _ _ _ (by intro j; fin_cases j <;> simp)
    (fun h => by simpa using congrFun h 0)).1

lemma centered_inUnits {n : ℕ} (w : Vec 3) (a : Fin n → Vec 3) (i : Fin n) (j : Fin 3) :
    Coordinates.centered (Spec.inUnits w a) i j = Coordinates.centered a i j / w j := by
  simp only [Coordinates.centered, meanRows, Spec.inUnits, ← Finset.sum_div, sub_div]
  rw [div_right_comm]

/-- A fit with weights none of which is zero always succeeds for three points or more.  It has the axes, the
normal, the strike and the dip of the points with coordinates divided by the weights; and its center is that of
the points themselves. -/
theorem C239_scaled (svd : SvdFn) {n : ℕ} (hn : 3 ≤ n) (a : Fin n → Vec 3) (w : Vec 3) (hw : ∀ j, w j ≠ 0) :
    ∃ f g, init svd a (some w) none = .ok (some f) ∧ init svd (Spec.inUnits w a) none none = .ok (some g) ∧
      f.V = g.V ∧ f.normal = g.normal ∧ strikeDip f = strikeDip g ∧ f.U = g.U ∧ (∀ j, f.s j = w j * g.s j) ∧
      f.mean = some (fun j => (∑ i, a i j) / n) := by
  have hw' : ¬ (w 0 = 0 ∨ w 1 = 0 ∨ w 2 = 0) := by
    rintro (e | e | e)
    exacts [hw 0 e, hw 1 e, hw 2 e]
  have h0 : n ≠ 0 := by omega
  have e : (Matrix.of fun i j => Coordinates.centered (Spec.inUnits w a) i j / ![1, 1, 1] j)
      = (Matrix.of fun i j => Coordinates.centered a i j / w j : Mat n 3) := by
    ext i j
    rw [Matrix.of_apply, Matrix.of_apply, centered_inUnits]
    fin_cases j <;> simp
  have hg : init svd (Spec.inUnits w a) none none = .ok (some (derive (Spec.inUnits w a)
      (if n = 0 then none else some (meanRows (Spec.inUnits w a))) (Coordinates.centered (Spec.inUnits w a))
      ![1, 1, 1] (some (svd n (Matrix.of fun i j => Coordinates.centered a i j / w j)).1)
      (fun j => (svd n (Matrix.of fun i j => Coordinates.centered a i j / w j)).2.1 j * ![1, 1, 1] j)
      (svd n (Matrix.of fun i j => Coordinates.centered a i j / w j)).2.2)) := by
    rw [← e]
    simp [init, runSvd, not_lt.2 hn, bind, Except.bind]
  have hf : init svd a (some w) none = .ok (some (derive a (if n = 0 then none else some (meanRows a))
      (Coordinates.centered a) w (some (svd n (Matrix.of fun i j => Coordinates.centered a i j / w j)).1)
      (fun j => (svd n (Matrix.of fun i j => Coordinates.centered a i j / w j)).2.1 j * w j)
      (svd n (Matrix.of fun i j => Coordinates.centered a i j / w j)).2.2)) := by
    simp [init, runSvd, not_lt.2 hn, hw', bind, Except.bind]
  refine ⟨_, _, hf, hg, rfl, rfl, rfl, rfl, ?_, ?_⟩
  · intro j
    fin_cases j <;> simp [derive, mul_comm]
  · simp [derive, h0]
    rfl

example (svd : SvdFn) : ∃ f g, init svd Witness.tilted (some ![1, 1, 2]) none = .ok (some f) ∧
    init svd (Spec.inUnits ![1, 1, 2] Witness.tilted) none none = .ok (some g) ∧ f.normal = g.normal := by
  obtain ⟨f, g, h1, h2, _, h3, _⟩ := C239_scaled svd (by norm_num) Witness.tilted ![1, 1, 2]
    (by intro j; fin_cases j <;> simp)
  exact ⟨f, g, h1, h2, h3⟩

lemma weightedMisfit_eq {n : ℕ} {w m : Vec 3} (hw : ∀ j, w j ≠ 0) (a : Fin n → Vec 3) (d : ℝ) {ρ : ℝ}
    (hρ : ρ ^ 2 = (w 0 * m 0) ^ 2 + (w 1 * m 1) ^ 2 + (w 2 * m 2) ^ 2) (h0 : ρ ≠ 0) :
    Spec.weightedMisfit w a m d = Spec.misfit (Spec.inUnits w a) (fun j => w j * m j / ρ) (d / ρ) := by
  unfold Spec.weightedMisfit Spec.misfit
  refine Finset.sum_congr rfl fun i _ => ?_
  simp only [Spec.weightedPlane2, Spec.planeDist2, Spec.inUnits, ← hρ]
  have h0' := hw 0
  have h1' := hw 1
  have h2' := hw 2
  field_simp

/-- The plane that belongs to a fit with weights: through the center, with the reported normal divided by the
weights.  No other plane has a smaller sum of squared distances from the points, if each coordinate is measured
in units of its weight. -/
theorem C239_best_plane (svd : SvdFn) (hs : svd.Valid) {n : ℕ} (a : Fin n → Vec 3) (w : Vec 3)
    (hw : ∀ j, w j ≠ 0) (f : Fit n) (hf : init svd a (some w) none = .ok (some f)) :
    ∃ c, f.mean = some c ∧ norm f.normal = 1 ∧ ∀ (m : Vec 3) (d : ℝ), m ≠ 0 →
      Spec.weightedMisfit w a (fun j => f.normal j / w j) (vdot (fun j => f.normal j / w j) c) ≤
        Spec.weightedMisfit w a m d := by
  have hn : 3 ≤ n := by
    by_contra h
    simp [init, runSvd, not_le.1 h, bind, Except.bind] at hf
  obtain ⟨f', g, hf', hg, -, hN, -, -, -, hm⟩ := C239_scaled svd hn a w hw
  rw [hf] at hf'
  cases hf'
  obtain ⟨h1, -, c', hc', hbest⟩ := C06_best_fit svd hs _ g hg
  obtain ⟨U, hG⟩ := init_default hs hg
  have hc : c' = fun j => (∑ i, a i j) / n / w j := by
    rw [hG.mean] at hc'
    cases hc'
    funext j
    simp only [meanRows, Spec.inUnits, ← Finset.sum_div]
    rw [div_right_comm]
  refine ⟨_, hm, by rw [hN, h1], fun m d hne => ?_⟩
  have hsz := weighted_size_pos hw hne
  set ρ := Real.sqrt ((w 0 * m 0) ^ 2 + (w 1 * m 1) ^ 2 + (w 2 * m 2) ^ 2) with hρ
  have hρ2 : ρ ^ 2 = (w 0 * m 0) ^ 2 + (w 1 * m 1) ^ 2 + (w 2 * m 2) ^ 2 := Real.sq_sqrt hsz.le
  have hρ0 : 0 < ρ := Real.sqrt_pos.2 hsz
  have e0 := hw 0
  have e1 := hw 1
  have e2 := hw 2
  have hunit : f.normal 0 ^ 2 + f.normal 1 ^ 2 + f.normal 2 ^ 2 = 1 := by
    have := h1
    rw [← hN, norm, Real.sqrt_eq_one, Fin.sum_univ_three] at this
    exact this
  rw [weightedMisfit_eq hw a d hρ2 hρ0.ne', weightedMisfit_eq hw a _ (ρ := 1) (by
    rw [mul_div_cancel₀ _ e0, mul_div_cancel₀ _ e1, mul_div_cancel₀ _ e2, hunit]; norm_num) one_ne_zero]
  have en : (fun j => w j * (f.normal j / w j) / 1) = g.normal := by
    funext j
    rw [← hN, mul_div_cancel₀ _ (hw j), div_one]
  rw [en]
  have := hbest (fun j => w j * m j / ρ) (d / ρ) (by
    rw [norm, Real.sqrt_eq_one, Fin.sum_univ_three]
    field_simp
    rw [hρ2]
    ring)
  refine le_trans (le_of_eq ?_) this
  congr 1
  rw [hc, ← hN]
  simp only [vdot, Fin.sum_univ_three]
  ring

example : ∃ (svd : SvdFn) (f : Fit 4), svd.Valid ∧ init svd Witness.tilted (some ![1, 1, 2]) none = .ok (some f) := by
  obtain ⟨svd, hs⟩ := exists_valid_svd
  obtain ⟨f, _, h, _⟩ := C239_scaled svd (by norm_num) Witness.tilted ![1, 1, 2]
    (by intro j; fin_cases j <;> simp)
  exact ⟨svd, f, hs, h⟩

lemma perpendicular_iff (w : Vec 3) (hw : ∀ j, w j ≠ 0) (v : Vec 3) :
    Spec.Perpendicular v (fun j => v j / w j) ↔ ∀ i j, v i ≠ 0 → v j ≠ 0 → w i = w j := by
  constructor
  · intro h i j hi hj
    by_cases hij : i = j
    · rw [hij]
    have hji : j ≠ i := fun e => hij e.symm
    have := h (fun k => if k = i then w i * v j else if k = j then -(w j * v i) else 0) (by
      have : ∀ k, v k / w k * (if k = i then w i * v j else if k = j then -(w j * v i) else 0) =
          (if k = i then v i * v j else 0) + (if k = j then -(v i * v j) else 0) := by
        intro k
        have := hw k
        by_cases h1 : k = i
        · subst h1
          simp [hij]
          field_simp
        · by_cases h2 : k = j
          · subst h2
            simp [h1]
            field_simp
          · simp [h1, h2]
      simp only [vdot, this, Finset.sum_add_distrib, Finset.sum_ite_eq', Finset.mem_univ, if_true]
      ring)
    have e : ∀ k, v k * (if k = i then w i * v j else if k = j then -(w j * v i) else 0) =
        (if k = i then v i * v j * w i else 0) + (if k = j then -(v i * v j * w j) else 0) := by
      intro k
      by_cases h1 : k = i
      · subst h1
        simp [hij]
        ring
      · by_cases h2 : k = j
        · subst h2
          simp [h1]
          ring
        · simp [h1, h2]
    simp only [vdot, e, Finset.sum_add_distrib, Finset.sum_ite_eq', Finset.mem_univ, if_true] at this
    have h3 : v i * v j * (w i - w j) = 0 := by linarith
    exact sub_eq_zero.1 ((mul_eq_zero.1 h3).resolve_left (mul_ne_zero hi hj))
  · intro h x hx
    by_cases hv : v = 0
    · rw [hv]; simp [vdot]
    obtain ⟨i, hi⟩ : ∃ i, v i ≠ 0 := by
      by_contra hall
      exact hv (funext fun j => by_contra fun e => hall ⟨j, e⟩)
    have e : vdot v x = w i * vdot (fun j => v j / w j) x := by
      simp only [vdot, Finset.mul_sum]
      refine Finset.sum_congr rfl fun j _ => ?_
      by_cases hj : v j = 0
      · rw [hj]; simp
      · rw [h i j hi hj]
        have := hw j
        field_simp
    rw [e, hx, mul_zero]

/-- The reported normal is perpendicular to this plane just if all weights are equal of those coordinates in
which it has a component.  Missing from the claim: it is the normal of the plane for all weights. -/
theorem C239_normal_iff_partial (svd : SvdFn) (hs : svd.Valid) {n : ℕ} (a : Fin n → Vec 3) (w : Vec 3)
    (hw : ∀ j, w j ≠ 0) (f : Fit n) (hf : init svd a (some w) none = .ok (some f)) :
    ∃ c m, f.mean = some c ∧ m ≠ 0 ∧
      (∀ (m' : Vec 3) (d : ℝ), m' ≠ 0 → Spec.weightedMisfit w a m (vdot m c) ≤ Spec.weightedMisfit w a m' d) ∧
      (Spec.Perpendicular f.normal m ↔ ∀ i j, f.normal i ≠ 0 → f.normal j ≠ 0 → w i = w j) := by
  obtain ⟨c, hc, hN, hbest⟩ := C239_best_plane svd hs a w hw f hf
  refine ⟨c, fun j => f.normal j / w j, hc, fun e => ?_, hbest, perpendicular_iff w hw f.normal⟩
  have : f.normal = 0 := funext fun j => by
    have := congrFun e j
    simpa [hw j] using this
  rw [this, (norm_eq_zero_iff (0 : Vec 3)).2 rfl] at hN
  exact zero_ne_one hN

/-- Both cases occur: a normal with equal weights for its components, and one with different ones. -/
example : ¬ Spec.Perpendicular ![1, 0, 1] (fun j => (![1, 0, 1] : Vec 3) j / (![1, 1, 2] : Vec 3) j) ∧
    Spec.Perpendicular ![1, 1, 0] (fun j => (![1, 1, 0] : Vec 3) j / (![1, 1, 2] : Vec 3) j) := by
  have hw : ∀ j, (![1, 1, 2] : Vec 3) j ≠ 0 := by intro j; fin_cases j <;> simp
  constructor
  · rw [perpendicular_iff _ hw]
    intro h
    have := h 0 2 (by simp) (by simp)
    simp at this
  · rw [perpendicular_iff _ hw]
    intro i j
    fin_cases i <;> fin_cases j <;> simp

/-- Points of a plane, and of no other one: the reported normal is that of the plane multiplied by the weights,
coordinate by coordinate (up to its length). -/
theorem C239_exact_false (svd : SvdFn) (hs : svd.Valid) {n : ℕ} (a : Fin n → Vec 3) (w : Vec 3)
    (hw : ∀ j, w j ≠ 0) (f : Fit n) (hf : init svd a (some w) none = .ok (some f)) (m : Vec 3) (d : ℝ)
    (hm : m ≠ 0) (hp : ∀ i, Spec.OnPlane m d (a i))
    (honly : ∀ m' d', (∀ i, Spec.OnPlane m' d' (a i)) → ∃ t : ℝ, m' = t • m) :
    ∃ t : ℝ, t ≠ 0 ∧ ∀ j, f.normal j = t * (w j * m j) := by
  obtain ⟨c, -, hN, hbest⟩ := C239_best_plane svd hs a w hw f hf
  have hv0 : f.normal ≠ 0 := by
    intro e
    rw [e, (norm_eq_zero_iff (0 : Vec 3)).2 rfl] at hN
    exact zero_ne_one hN
  have hu0 : (fun j => f.normal j / w j) ≠ 0 := fun e => hv0 (funext fun j => by
    have := congrFun e j
    simpa [hw j] using this)
  have hz : Spec.weightedMisfit w a m d = 0 := by
    refine Finset.sum_eq_zero fun i _ => ?_
    have := hp i
    rw [Spec.OnPlane] at this
    rw [Spec.weightedPlane2, this]
    simp
  have hle := hbest m d hm
  rw [hz] at hle
  have hnn : ∀ i ∈ Finset.univ, 0 ≤ Spec.weightedPlane2 w (fun j => f.normal j / w j)
      (vdot (fun j => f.normal j / w j) c) (a i) := fun i _ => by
    unfold Spec.weightedPlane2
    positivity
  have hall := (Finset.sum_eq_zero_iff_of_nonneg hnn).1 (le_antisymm hle (Finset.sum_nonneg hnn))
  obtain ⟨t, ht⟩ := honly (fun j => f.normal j / w j) (vdot (fun j => f.normal j / w j) c) (fun i => by
    have := hall i (Finset.mem_univ i)
    rw [Spec.weightedPlane2, div_eq_zero_iff] at this
    have h2 := this.resolve_right (weighted_size_pos hw hu0).ne'
    exact sub_eq_zero.1 (pow_eq_zero_iff two_ne_zero |>.1 h2))
  refine ⟨t, fun e => hu0 (by rw [ht, e, zero_smul]), fun j => ?_⟩
  have := congrFun ht j
  simp only [Pi.smul_apply, smul_eq_mul] at this
  have hj := hw j
  field_simp at this
  linarith

/-- Three points of the plane `z = 1 - x - y`. -/
def Spec.unitPoints : Fin 3 → Vec 3 := ![![1, 0, 0], ![0, 1, 0], ![0, 0, 1]]

example : ∃ (svd : SvdFn) (f : Fit 3) (t : ℝ), svd.Valid ∧
    init svd Spec.unitPoints (some ![1, 2, 3]) none = .ok (some f) ∧ t ≠ 0 ∧
    f.normal 0 = t * 1 ∧ f.normal 1 = t * 2 ∧ f.normal 2 = t * 3 := by
  obtain ⟨svd, hs⟩ := exists_valid_svd
  have hw : ∀ j, (![1, 2, 3] : Vec 3) j ≠ 0 := by intro j; fin_cases j <;> simp
  obtain ⟨f, _, h, _⟩ := C239_scaled svd (le_refl 3) Spec.unitPoints ![1, 2, 3] hw
  obtain ⟨t, ht, hN⟩ := C239_exact_false svd hs _ _ hw f h ![1, 1, 1] 1 (fun e => by simpa using congrFun e 0)
    (by intro i; fin_cases i <;> simp [Spec.OnPlane, Spec.unitPoints])
    (by
      intro m' d' hall
      have h0 := hall 0
      have h1 := hall 1
      have h2 := hall 2
      simp [Spec.OnPlane, Spec.unitPoints] at h0 h1 h2
      refine ⟨d', ?_⟩
      funext j
      fin_cases j <;> simp [h0, h1, h2])
  refine ⟨svd, f, t, hs, h, ht, ?_, ?_, ?_⟩
  · simpa using hN 0
  · simpa using hN 1
  · simpa using hN 2

/-- If the heights have a weight `k` and the other coordinates have weight one, the strike of points in a plane
is right and the tangent of the dip is divided by `k`: the dip is right only for `k = 1`, although the points
have no errors. -/
theorem C239_dip_false (svd : SvdFn) (hs : svd.Valid) {n : ℕ} (q : Vec 3) (s d k : ℝ)
    (hs0 : 0 ≤ s) (hs1 : s < 360) (hd0 : 0 < d) (hd1 : d < 90) (hk : 0 < k) (x y : Fin n → ℝ)
    (hxy : Spec.NotOnOneLine x y) (f : Fit n)
    (hf : init svd (fun i => Spec.inBed q s d (x i) (y i)) (some ![1, 1, k]) none = .ok (some f)) :
    ∃ d', strikeDip f = some (s, d') ∧ 0 < d' ∧ d' < 90 ∧
      Real.tan (d' * Real.pi / 180) = Real.tan (d * Real.pi / 180) / k ∧ (d' = d ↔ k = 1) := by
  have hn : 3 ≤ n := by
    by_contra h
    simp [init, runSvd, not_le.1 h, bind, Except.bind] at hf
  have hw : ∀ j, (![1, 1, k] : Vec 3) j ≠ 0 := by intro j; fin_cases j <;> simp [hk.ne']
  obtain ⟨f', g, hf', hg, -, -, hsd, -⟩ := C239_scaled svd hn (fun i => Spec.inBed q s d (x i) (y i)) ![1, 1, k] hw
  rw [hf] at hf'
  cases hf'
  have e : Spec.inUnits ![1, 1, k] (fun i => Spec.inBed q s d (x i) (y i)) =
      Spec.exaggerated k⁻¹ fun i => Spec.inBed q s d (x i) (y i) := by
    funext i j
    fin_cases j <;> simp [Spec.inUnits, Spec.exaggerated, div_eq_inv_mul]
  rw [e] at hg
  obtain ⟨d', h1, h2, h3, h4⟩ := C175_vertical_exaggeration svd hs q s d k⁻¹ hs0 hs1 hd0 hd1 (inv_pos.2 hk) x y hxy g hg
  have hpi := Real.pi_pos
  have ht : 0 < Real.tan (d * Real.pi / 180) :=
    Real.tan_pos_of_pos_of_lt_pi_div_two (by positivity) (by nlinarith)
  refine ⟨d', by rw [hsd, h1], h2, h3, by rw [h4]; ring, ?_⟩
  constructor
  · rintro rfl
    have : (k⁻¹ - 1) * Real.tan (d' * Real.pi / 180) = 0 := by linarith
    have := (mul_eq_zero.1 this).resolve_right ht.ne'
    rw [sub_eq_zero, inv_eq_one] at this
    exact this
  · rintro rfl
    rw [inv_one, one_mul] at h4
    have hin : ∀ t, 0 < t → t < 90 → t * Real.pi / 180 ∈ Set.Ioo (-(Real.pi / 2)) (Real.pi / 2) := fun t h h' =>
      ⟨by nlinarith [mul_pos h hpi], by nlinarith⟩
    have := Real.injOn_tan (hin d' h2 h3) (hin d hd0 hd1) h4
    field_simp at this
    linarith

/-- A plane that dips by 45°, measured without errors; twice the error in heights: the tangent of the reported
dip is 1/2. -/
example : ∃ (svd : SvdFn) (f : Fit 3) (d' : ℝ), svd.Valid ∧
    init svd (fun i => Spec.inBed ![1, 2, 3] 0 45 (Spec.corners i).1 (Spec.corners i).2) (some ![1, 1, 2]) none
      = .ok (some f) ∧
    strikeDip f = some (0, d') ∧ Real.tan (d' * Real.pi / 180) = 1 / 2 ∧ d' ≠ 45 := by
  obtain ⟨svd, hs⟩ := exists_valid_svd
  obtain ⟨f, _, h, _⟩ := C239_scaled svd (le_refl 3)
    (fun i => Spec.inBed ![1, 2, 3] 0 45 (Spec.corners i).1 (Spec.corners i).2) ![1, 1, 2]
    (by intro j; fin_cases j <;> simp)
  obtain ⟨d', h1, _, _, h2, h3⟩ := C239_dip_false svd hs _ 0 45 2 (le_refl 0) (by norm_num)
    (by norm_num) (by norm_num) (by norm_num) _ _ corners_notOnOneLine f h
  refine ⟨svd, f, d', hs, h, h1, ?_, fun e => by simpa using h3.1 e⟩
  rw [h2, show (45 : ℝ) * Real.pi / 180 = Real.pi / 4 by ring, Real.tan_pi_div_four]

end Attitude.Props
