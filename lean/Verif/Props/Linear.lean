import Verif.Model.Linear
import Verif.Props.PcaAngles

/-!
# C31-C36: regression and linear orientations
-/

namespace Attitude.Props

open Attitude Linear Matrix

/-! ## Specification -/

/-- Sum of squared vertical distances between the points and the plane
`z = p x + q y + r`. -/
def Spec.verticalSquares {n : ℕ} (a : Fin n → Vec 3) (p q r : ℝ) : ℝ :=
  ∑ i, (a i 2 - (p * a i 0 + q * a i 1 + r)) ^ 2

/-- The plane `z = p x + q y` of centred coordinates, in original coordinates:
the intercept. -/
noncomputable def Spec.intercept {n : ℕ} (a : Fin n → Vec 3) (p q : ℝ) : ℝ :=
  meanRows a 2 - p * meanRows a 0 - q * meanRows a 1

/-! ## Helper facts -/

lemma centered_sum {n : ℕ} (a : Fin n → Vec 3) (j : Fin 3) :
    ∑ i, Coordinates.centered a i j = 0 := by
  rcases Nat.eq_zero_or_pos n with h | h
  · subst h; simp
  · have hn : (n : ℝ) ≠ 0 := by exact_mod_cast h.ne'
    simp only [Coordinates.centered, meanRows, Finset.sum_sub_distrib, Finset.sum_const,
      Finset.card_univ, Fintype.card_fin, nsmul_eq_mul]
    field_simp
    ring

/-- Normal equations of the coefficients. -/
lemma normal_equations {n : ℕ} {r : Regression n} (hd : (matrixSquared r.C).det ≠ 0) :
    r.C.transpose *ᵥ (fun i => r.Z i - (r.C *ᵥ ((matrixSquared r.C)⁻¹ *ᵥ (r.C.transpose *ᵥ r.Z))) i)
      = 0 := by
  have e : (fun i => r.Z i - (r.C *ᵥ ((matrixSquared r.C)⁻¹ *ᵥ (r.C.transpose *ᵥ r.Z))) i)
      = r.Z - r.C *ᵥ ((matrixSquared r.C)⁻¹ *ᵥ (r.C.transpose *ᵥ r.Z)) := rfl
  rw [e, Matrix.mulVec_sub, Matrix.mulVec_mulVec, Matrix.mulVec_mulVec,
    show r.C.transpose * r.C = matrixSquared r.C from rfl,
    Matrix.mul_nonsing_inv _ (isUnit_iff_ne_zero.2 hd), Matrix.one_mulVec, sub_self]

/-- The coefficients for points in rows, when the system is regular. -/
lemma coefficients_rows {n : ℕ} {a : Fin n → Vec 3} {r : Regression n}
    (hr : initRows a = .ok r) {c : Vec 3} (hc : (coefficients r).1 = .ok c) :
    r = ofCentered (Coordinates.centered a) ∧ n ≠ 0 ∧ (matrixSquared r.C).det ≠ 0 ∧
      c = (matrixSquared r.C)⁻¹ *ᵥ (r.C.transpose *ᵥ r.Z) := by
  unfold initRows at hr
  split_ifs at hr with h0
  cases hr
  refine ⟨rfl, h0, ?_⟩
  have hnone : (ofCentered (Coordinates.centered a)).coef = none := rfl
  unfold coefficients at hc
  rw [hnone] at hc
  by_cases hd : (matrixSquared (ofCentered (Coordinates.centered a)).C).det = 0
  · simp [hd] at hc
  · simp only [if_neg hd, Except.ok.injEq] at hc
    exact ⟨hd, hc.symm⟩

lemma ofCentered_mulVec {n : ℕ} (c : Fin n → Vec 3) (w : Vec 3) (i : Fin n) :
    ((ofCentered c).C *ᵥ w) i = w 0 * c i 0 + w 1 * c i 1 + w 2 := by
  simp only [ofCentered, addOnes, Matrix.mulVec, dotProduct, Matrix.of_apply, Fin.sum_univ_three,
    Matrix.cons_val]
  ring

/-- Orthogonality of the residuals of a regular system, by components. -/
lemma residual_orthogonal {n : ℕ} {a : Fin n → Vec 3} {r : Regression n}
    (hr : initRows a = .ok r) {c : Vec 3} (hc : (coefficients r).1 = .ok c) :
    let x := Coordinates.centered a
    let e := fun i => x i 2 - (c 0 * x i 0 + c 1 * x i 1 + c 2)
    ∑ i, e i = 0 ∧ ∑ i, x i 0 * e i = 0 ∧ ∑ i, x i 1 * e i = 0 := by
  obtain ⟨hr', h0, hd, hcc⟩ := coefficients_rows hr hc
  have ne := normal_equations hd
  rw [← hcc] at ne
  subst hr'
  simp only [ofCentered_mulVec] at ne
  have g : ∀ j, ∑ i, (ofCentered (Coordinates.centered a)).C i j
      * (Coordinates.centered a i 2 - (c 0 * Coordinates.centered a i 0
        + c 1 * Coordinates.centered a i 1 + c 2)) = 0 := by
    intro j
    have := congrFun ne j
    simpa [Matrix.mulVec, dotProduct, ofCentered] using this
  refine ⟨?_, ?_, ?_⟩
  · simpa [ofCentered, addOnes] using g 2
  · simpa [ofCentered, addOnes] using g 0
  · simpa [ofCentered, addOnes] using g 1

lemma intercept_zero {n : ℕ} {a : Fin n → Vec 3} {r : Regression n}
    (hr : initRows a = .ok r) {c : Vec 3} (hc : (coefficients r).1 = .ok c) : c 2 = 0 := by
  obtain ⟨hr', h0, hd, hcc⟩ := coefficients_rows hr hc
  obtain ⟨e, _, _⟩ := residual_orthogonal hr hc
  simp only [Finset.sum_sub_distrib, Finset.sum_add_distrib, ← Finset.mul_sum, centered_sum,
    Finset.sum_const, Finset.card_univ, Fintype.card_fin, nsmul_eq_mul, mul_zero] at e
  have hn : (n : ℝ) ≠ 0 := by exact_mod_cast h0
  have : (n : ℝ) * c 2 = 0 := by linarith
  rcases mul_eq_zero.1 this with k | k
  · exact absurd k hn
  · exact k

/-! ## C31 -/

/-- The coefficients minimise the sum of squared vertical distances over all
planes, no other plane does as well, the intercept of the centred data is zero,
and the residuals sum to zero and are uncorrelated with `x` and `y`. -/
theorem C31_least_squares {n : ℕ} (a : Fin n → Vec 3) (r : Regression n)
    (hr : initRows a = .ok r) (c : Vec 3) (hc : (coefficients r).1 = .ok c) :
    c 2 = 0 ∧
    (∀ p q t, Spec.verticalSquares a (c 0) (c 1) (Spec.intercept a (c 0) (c 1))
      ≤ Spec.verticalSquares a p q t) ∧
    (∀ p q t, Spec.verticalSquares a p q t
        = Spec.verticalSquares a (c 0) (c 1) (Spec.intercept a (c 0) (c 1)) →
      p = c 0 ∧ q = c 1 ∧ t = Spec.intercept a (c 0) (c 1)) := by
  have h2 := intercept_zero hr hc
  obtain ⟨o0, o1, o2⟩ := residual_orthogonal hr hc
  obtain ⟨hr', h0, hd, hcc⟩ := coefficients_rows hr hc
  set x := Coordinates.centered a with hx
  set e : Fin n → ℝ := fun i => x i 2 - (c 0 * x i 0 + c 1 * x i 1 + c 2) with he
  -- the squares of any plane split into residuals and a difference of planes
  have split : ∀ p q t, Spec.verticalSquares a p q t = ∑ i, e i ^ 2
      + ∑ i, ((p - c 0) * x i 0 + (q - c 1) * x i 1
        + (t - Spec.intercept a p q)) ^ 2 := by
    intro p q t
    have pt : ∀ i, (a i 2 - (p * a i 0 + q * a i 1 + t)) ^ 2 = e i ^ 2
        + ((p - c 0) * x i 0 + (q - c 1) * x i 1 + (t - Spec.intercept a p q)) ^ 2
        - 2 * ((p - c 0) * (x i 0 * e i) + (q - c 1) * (x i 1 * e i)
          + (t - Spec.intercept a p q) * e i) := by
      intro i
      simp only [he, hx, h2, Coordinates.centered, Spec.intercept]
      ring
    simp only [Spec.verticalSquares, pt, Finset.sum_sub_distrib, Finset.sum_add_distrib,
      ← Finset.mul_sum, o0, o1, o2]
    ring
  have own : Spec.verticalSquares a (c 0) (c 1) (Spec.intercept a (c 0) (c 1)) = ∑ i, e i ^ 2 := by
    rw [split]; simp
  refine ⟨h2, ?_, ?_⟩
  · intro p q t
    rw [own, split]
    have : 0 ≤ ∑ i, ((p - c 0) * x i 0 + (q - c 1) * x i 1 + (t - Spec.intercept a p q)) ^ 2 :=
      Finset.sum_nonneg fun i _ => sq_nonneg _
    linarith
  · intro p q t h
    rw [own, split] at h
    have z : ∑ i, ((p - c 0) * x i 0 + (q - c 1) * x i 1 + (t - Spec.intercept a p q)) ^ 2 = 0 := by
      linarith
    have zi := (Finset.sum_eq_zero_iff_of_nonneg (fun i _ => sq_nonneg _)).1 z
    set w : Vec 3 := ![p - c 0, q - c 1, t - Spec.intercept a p q] with hw
    have hCw : (ofCentered x).C *ᵥ w = 0 := by
      funext i
      rw [ofCentered_mulVec]
      have := zi i (Finset.mem_univ i)
      have := pow_eq_zero_iff two_ne_zero |>.1 this
      simpa [hw] using this
    have hw0 : w = 0 := by
      have : matrixSquared r.C *ᵥ w = 0 := by
        rw [hr', matrixSquared, ← Matrix.mulVec_mulVec, hCw, Matrix.mulVec_zero]
      have h3 : (matrixSquared r.C)⁻¹ *ᵥ (matrixSquared r.C *ᵥ w) = 0 := by
        rw [this, Matrix.mulVec_zero]
      rwa [Matrix.mulVec_mulVec, Matrix.nonsing_inv_mul _ (isUnit_iff_ne_zero.2 hd),
        Matrix.one_mulVec] at h3
    have w0 : p - c 0 = 0 := by simpa [hw] using congrFun hw0 0
    have w1 : q - c 1 = 0 := by simpa [hw] using congrFun hw0 1
    have w2 : t - Spec.intercept a p q = 0 := by simpa [hw] using congrFun hw0 2
    have ep : p = c 0 := by linarith
    have eq : q = c 1 := by linarith
    refine ⟨ep, eq, ?_⟩
    rw [← ep, ← eq]
    linarith

/-- The residuals that the object reports are those of the least-squares plane;
they sum to zero and are uncorrelated with `x` and `y`. -/
theorem C31_residuals {n : ℕ} (a : Fin n → Vec 3) (r : Regression n)
    (hr : initRows a = .ok r) (c : Vec 3) (hc : (coefficients r).1 = .ok c) :
    ∃ e, (residuals r).1 = .ok e ∧
      (∀ i, e i = a i 2 - (c 0 * a i 0 + c 1 * a i 1 + Spec.intercept a (c 0) (c 1))) ∧
      ∑ i, e i = 0 ∧ ∑ i, a i 0 * e i = 0 ∧ ∑ i, a i 1 * e i = 0 := by
  have h2 := intercept_zero hr hc
  obtain ⟨o0, o1, o2⟩ := residual_orthogonal hr hc
  obtain ⟨hr', h0, hd, hcc⟩ := coefficients_rows hr hc
  have hres : (residuals r).1 = .ok (fun i => r.Z i - (r.C *ᵥ c) i) := by
    have hcoef : coefficients r = (.ok c, { r with coef := some c, xTx := some (matrixSquared r.C)⁻¹ }) := by
      have hn : r.coef = none := by rw [hr']; rfl
      unfold coefficients
      rw [hn]
      simp only [if_neg hd, ← hcc]
    unfold residuals predictions
    rw [hcoef]
  have he : ∀ i, r.Z i - (r.C *ᵥ c) i
      = Coordinates.centered a i 2 - (c 0 * Coordinates.centered a i 0
        + c 1 * Coordinates.centered a i 1 + c 2) := by
    intro i
    rw [hr', ofCentered_mulVec]
    rfl
  refine ⟨_, hres, ?_, ?_, ?_, ?_⟩
  · intro i
    rw [he, h2]
    simp only [Coordinates.centered, Spec.intercept]
    ring
  · simp only [he]; exact o0
  · simp only [he]
    have : ∀ i, a i 0 = Coordinates.centered a i 0 + meanRows a 0 := by
      intro i; simp [Coordinates.centered]
    simp only [this, add_mul, Finset.sum_add_distrib, ← Finset.mul_sum]
    rw [o1, o0]; ring
  · simp only [he]
    have : ∀ i, a i 1 = Coordinates.centered a i 1 + meanRows a 1 := by
      intro i; simp [Coordinates.centered]
    simp only [this, add_mul, Finset.sum_add_distrib, ← Finset.mul_sum]
    rw [o2, o0]; ring

/-- Points are collinear in map view: some vertical plane contains them all. -/
def Spec.CollinearInPlan {n : ℕ} (a : Fin n → Vec 3) : Prop :=
  ∃ p q t : ℝ, (p ≠ 0 ∨ q ≠ 0) ∧ ∀ i, p * a i 0 + q * a i 1 = t

/-- The system is reported as singular exactly when the points are collinear in
map view; otherwise there are coefficients. -/
theorem C31_singular_iff {n : ℕ} (a : Fin n → Vec 3) (r : Regression n)
    (hr : initRows a = .ok r) :
    ((coefficients r).1 = .error .linAlgError ↔ Spec.CollinearInPlan a) ∧
    ((∃ c, (coefficients r).1 = .ok c) ↔ ¬ Spec.CollinearInPlan a) := by
  have hr' : r = ofCentered (Coordinates.centered a) ∧ n ≠ 0 := by
    unfold initRows at hr
    split_ifs at hr with h0
    cases hr
    exact ⟨rfl, h0⟩
  obtain ⟨hr', h0⟩ := hr'
  have hn : (n : ℝ) ≠ 0 := by exact_mod_cast h0
  have key : (matrixSquared r.C).det = 0 ↔ Spec.CollinearInPlan a := by
    constructor
    · intro hd
      obtain ⟨w, hw, hMw⟩ := Matrix.exists_mulVec_eq_zero_iff.2 hd
      have hCw : r.C *ᵥ w = 0 := by
        have : (r.C *ᵥ w) ⬝ᵥ (r.C *ᵥ w) = 0 := by
          rw [Matrix.dotProduct_mulVec, ← Matrix.mulVec_transpose, Matrix.mulVec_mulVec]
          rw [show r.C.transpose * r.C = matrixSquared r.C from rfl, hMw, zero_dotProduct]
        exact dotProduct_self_eq_zero.1 this
      have hi : ∀ i, w 0 * Coordinates.centered a i 0 + w 1 * Coordinates.centered a i 1 + w 2 = 0 := by
        intro i
        have := congrFun hCw i
        rwa [hr', ofCentered_mulVec] at this
      have hw2 : w 2 = 0 := by
        have s : ∑ i, (w 0 * Coordinates.centered a i 0 + w 1 * Coordinates.centered a i 1 + w 2)
            = 0 := Finset.sum_eq_zero fun i _ => hi i
        simp only [Finset.sum_add_distrib, ← Finset.mul_sum, centered_sum, Finset.sum_const,
          Finset.card_univ, Fintype.card_fin, nsmul_eq_mul, mul_zero, zero_add] at s
        rcases mul_eq_zero.1 s with k | k
        · exact absurd k hn
        · exact k
      refine ⟨w 0, w 1, w 0 * meanRows a 0 + w 1 * meanRows a 1, ?_, ?_⟩
      · by_contra hc
        push Not at hc
        apply hw
        funext j
        fin_cases j
        · exact hc.1
        · exact hc.2
        · exact hw2
      · intro i
        have := hi i
        simp only [Coordinates.centered, hw2] at this
        linarith
    · rintro ⟨p, q, t, hpq, h⟩
      apply Matrix.exists_mulVec_eq_zero_iff.1
      refine ⟨![p, q, 0], ?_, ?_⟩
      · intro e
        rcases hpq with k | k
        · exact k (by simpa using congrFun e 0)
        · exact k (by simpa using congrFun e 1)
      · have hCw : r.C *ᵥ ![p, q, 0] = 0 := by
          funext i
          rw [hr', ofCentered_mulVec]
          have hm : p * meanRows a 0 + q * meanRows a 1 = t := by
            have s : ∑ i, (p * a i 0 + q * a i 1) = n * t := by
              simp [h]
            simp only [Finset.sum_add_distrib, ← Finset.mul_sum] at s
            simp only [meanRows]
            field_simp
            linarith
          have := h i
          simp only [Matrix.cons_val, Coordinates.centered, Pi.zero_apply]
          linarith
        rw [matrixSquared, ← Matrix.mulVec_mulVec, hCw, Matrix.mulVec_zero]
  have hnone : r.coef = none := by rw [hr']; rfl
  constructor
  · rw [← key]
    unfold coefficients
    rw [hnone]
    by_cases hd : (matrixSquared r.C).det = 0 <;> simp [hd]
  · rw [← key]
    unfold coefficients
    rw [hnone]
    by_cases hd : (matrixSquared r.C).det = 0 <;> simp [hd]

/-- Example data for this file: four points whose least-squares plane is
`z = x + y`, with residuals `(3, -2, -2, 1)`. -/
def fourPoints : Fin 4 → Vec 3 := ![![0, 0, 3], ![4, 0, 2], ![0, 4, 2], ![8, 8, 17]]

lemma fourPoints_not_collinear : ¬ Spec.CollinearInPlan fourPoints := by
  rintro ⟨p, q, t, hpq, h⟩
  have h0 := h 0
  have h1 := h 1
  have h2 := h 2
  simp [fourPoints] at h0 h1 h2
  rcases hpq with k | k
  · exact k (by linarith)
  · exact k (by linarith)

/-- The hypotheses of C31 are met. -/
example : ∃ r c, initRows fourPoints = .ok r ∧ (coefficients r).1 = .ok c := by
  have hr : initRows fourPoints = .ok (ofCentered (Coordinates.centered fourPoints)) := by
    simp [initRows]
  obtain ⟨c, hc⟩ := (C31_singular_iff fourPoints _ hr).2.2 fourPoints_not_collinear
  exact ⟨_, c, hr, hc⟩

/-! ## C32 -/

/-- The same points as three rows. -/
def Spec.asColumns {n : ℕ} (a : Fin n → Vec 3) : Fin 3 → Vec n := fun j i => a i j

/-- Whatever the points, three rows of coordinates give the coefficients
`(-1, -1, 0)` (or a singular system): the array is centred along the wrong
axis. -/
theorem C32_columns_false {n : ℕ} (hn : 3 < n) (b : Fin 3 → Vec n) (c : Vec 3)
    (hc : (coefficients (initCols b hn)).1 = .ok c) : c = ![-1, -1, 0] := by
  have hnone : (initCols b hn).coef = none := rfl
  unfold coefficients at hc
  rw [hnone] at hc
  by_cases hd : (matrixSquared (initCols b hn).C).det = 0
  · simp [hd] at hc
  · simp only [if_neg hd, Except.ok.injEq] at hc
    have hZ : (initCols b hn).Z = (initCols b hn).C *ᵥ ![-1, -1, 0] := by
      funext i
      show _ = ((ofCentered _).C *ᵥ _) i
      rw [ofCentered_mulVec]
      simp only [initCols, ofCentered, centeredCols, Matrix.cons_val]
      ring
    rw [← hc, hZ, Matrix.mulVec_mulVec, Matrix.mulVec_mulVec, Matrix.mul_assoc]
    rw [show (initCols b hn).C.transpose * (initCols b hn).C = matrixSquared (initCols b hn).C
      from rfl, Matrix.nonsing_inv_mul _ (isUnit_iff_ne_zero.2 hd), Matrix.one_mulVec]

/-- So the two input forms agree exactly when the least-squares plane happens to
be `z = -x - y + t` (and the column form is regular).
Missing from the claim: every other plane. -/
theorem C32_agree_iff_partial {n : ℕ} (hn : 3 < n) (a : Fin n → Vec 3) (r : Regression n)
    (hr : initRows a = .ok r) (c c' : Vec 3) (hc : (coefficients r).1 = .ok c)
    (hc' : (coefficients (initCols (Spec.asColumns a) hn)).1 = .ok c') :
    c' = c ↔ c 0 = -1 ∧ c 1 = -1 := by
  rw [C32_columns_false hn _ c' hc']
  have h2 := intercept_zero hr hc
  constructor
  · intro e
    rw [← e]
    simp
  · rintro ⟨h0, h1⟩
    funext j
    fin_cases j
    · exact h0.symm
    · exact h1.symm
    · exact h2.symm

/-- Concrete case: the four example points have slopes `(1, 1)` in row form and
`(-1, -1)` in column form. -/
theorem C32_witness_false : ∃ r c c', initRows fourPoints = .ok r ∧
    (coefficients r).1 = .ok c ∧ c = ![1, 1, 0] ∧
    (coefficients (initCols (Spec.asColumns fourPoints) (by norm_num))).1 = .ok c' ∧
    c' = ![-1, -1, 0] := by
  have hr : initRows fourPoints = .ok (ofCentered (Coordinates.centered fourPoints)) := by
    simp [initRows]
  obtain ⟨c, hc⟩ := (C31_singular_iff fourPoints _ hr).2.2 fourPoints_not_collinear
  have hc1 : c = ![1, 1, 0] := by
    have h2 := intercept_zero hr hc
    obtain ⟨_, hmin, huniq⟩ := C31_least_squares fourPoints _ hr c hc
    obtain ⟨_, o1, o2⟩ := residual_orthogonal hr hc
    simp [Fin.sum_univ_four, Coordinates.centered, meanRows, fourPoints, h2] at o1 o2
    funext j
    fin_cases j
    · show c 0 = 1
      linarith
    · show c 1 = 1
      linarith
    · exact h2
  have hdet : (matrixSquared (initCols (Spec.asColumns fourPoints) (by norm_num)).C).det ≠ 0 := by
    intro hd
    obtain ⟨w, hw, hMw⟩ := Matrix.exists_mulVec_eq_zero_iff.2 hd
    have hCw : (initCols (Spec.asColumns fourPoints) (by norm_num)).C *ᵥ w = 0 := by
      have : ((initCols (Spec.asColumns fourPoints) (by norm_num)).C *ᵥ w)
          ⬝ᵥ ((initCols (Spec.asColumns fourPoints) (by norm_num)).C *ᵥ w) = 0 := by
        rw [Matrix.dotProduct_mulVec, ← Matrix.mulVec_transpose, Matrix.mulVec_mulVec]
        rw [← matrixSquared, hMw, zero_dotProduct]
      exact dotProduct_self_eq_zero.1 this
    have hi : ∀ i, w 0 * centeredCols (Spec.asColumns fourPoints) 0 i
        + w 1 * centeredCols (Spec.asColumns fourPoints) 1 i + w 2 = 0 := by
      intro i
      have := congrFun hCw i
      rwa [initCols, ofCentered_mulVec] at this
    have i0 := hi 0
    have i1 := hi 1
    have i2 := hi 2
    have i3 := hi 3
    simp [centeredCols, Spec.asColumns, fourPoints] at i0 i1 i2 i3
    apply hw
    funext j
    fin_cases j
    · show w 0 = 0
      linarith
    · show w 1 = 0
      linarith
    · show w 2 = 0
      linarith
  have hc' : ∃ c', (coefficients (initCols (Spec.asColumns fourPoints) (by norm_num))).1 = .ok c' := by
    unfold coefficients
    rw [show (initCols (Spec.asColumns fourPoints) (by norm_num : 3 < 4)).coef = none from rfl]
    simp only [if_neg hdet]
    exact ⟨_, rfl⟩
  obtain ⟨c', hc'⟩ := hc'
  exact ⟨_, c, c', hr, hc, hc1, hc', C32_columns_false _ _ c' hc'⟩

/-! ## C33 -/

/-- Invariant of the cache: whatever is cached is what a fresh object computes. -/
structure CacheOK {n : ℕ} (r₀ r : Regression n) : Prop where
  C : r.C = r₀.C
  Z : r.Z = r₀.Z
  coef : r.coef = none ∧ r.xTx = none ∨
    (matrixSquared r₀.C).det ≠ 0 ∧ r.xTx = some (matrixSquared r₀.C)⁻¹ ∧
      r.coef = some ((matrixSquared r₀.C)⁻¹ *ᵥ (r₀.C.transpose *ᵥ r₀.Z))
  cov : r.cov = none ∨ ∃ m, r.cov = some m ∧ (covarianceMatrix r₀).1 = .ok m

/-- A new object has empty caches. -/
def Fresh {n : ℕ} (r : Regression n) : Prop := r.coef = none ∧ r.xTx = none ∧ r.cov = none

lemma CacheOK.refl {n : ℕ} {r : Regression n} (h : Fresh r) : CacheOK r r :=
  ⟨rfl, rfl, Or.inl ⟨h.1, h.2.1⟩, Or.inl h.2.2⟩

lemma coefficients_ok {n : ℕ} {r₀ r : Regression n} (h0 : Fresh r₀) (h : CacheOK r₀ r) :
    (coefficients r).1 = (coefficients r₀).1 ∧ CacheOK r₀ (coefficients r).2 ∧
      (∀ c, (coefficients r).1 = .ok c →
        (coefficients r).2.xTx = some (matrixSquared r₀.C)⁻¹) := by
  have e0 : (coefficients r₀).1 = if (matrixSquared r₀.C).det = 0 then .error .linAlgError
      else .ok ((matrixSquared r₀.C)⁻¹ *ᵥ (r₀.C.transpose *ᵥ r₀.Z)) := by
    unfold coefficients
    rw [h0.1]
    by_cases hd : (matrixSquared r₀.C).det = 0 <;> simp [hd]
  rcases h.coef with ⟨hc, hx⟩ | ⟨hd, hx, hc⟩
  · by_cases hd : (matrixSquared r₀.C).det = 0
    · have e : coefficients r = (.error .linAlgError, r) := by
        unfold coefficients
        rw [hc]
        simp [h.C, hd]
      rw [e, e0, if_pos hd]
      exact ⟨rfl, h, fun c hcc => by cases hcc⟩
    · have e : coefficients r = (.ok ((matrixSquared r₀.C)⁻¹ *ᵥ (r₀.C.transpose *ᵥ r₀.Z)),
          { r with coef := some ((matrixSquared r₀.C)⁻¹ *ᵥ (r₀.C.transpose *ᵥ r₀.Z)),
                   xTx := some (matrixSquared r₀.C)⁻¹ }) := by
        unfold coefficients
        rw [hc]
        simp [h.C, h.Z, hd]
      rw [e, e0, if_neg hd]
      exact ⟨rfl, ⟨h.C, h.Z, Or.inr ⟨hd, rfl, rfl⟩, h.cov⟩, fun _ _ => rfl⟩
  · have e : coefficients r = (.ok ((matrixSquared r₀.C)⁻¹ *ᵥ (r₀.C.transpose *ᵥ r₀.Z)), r) := by
      unfold coefficients
      rw [hc]
    rw [e, e0, if_neg hd]
    exact ⟨rfl, h, fun _ _ => hx⟩

lemma residuals_ok {n : ℕ} {r₀ r : Regression n} (h0 : Fresh r₀) (h : CacheOK r₀ r) :
    (predictions r).1 = (predictions r₀).1 ∧ CacheOK r₀ (predictions r).2 ∧
    (residuals r).1 = (residuals r₀).1 ∧ CacheOK r₀ (residuals r).2 ∧
      (∀ c, (residuals r).1 = .ok c → (residuals r).2.xTx = some (matrixSquared r₀.C)⁻¹) := by
  obtain ⟨a1, a2, a3⟩ := coefficients_ok h0 h
  obtain ⟨b1, b2, b3⟩ := coefficients_ok h0 (CacheOK.refl h0)
  unfold residuals predictions
  rcases hr : coefficients r with ⟨v, r'⟩
  rcases hr0 : coefficients r₀ with ⟨v0, r0'⟩
  rw [hr] at a1 a2 a3
  rw [hr0] at a1 b2
  simp only at a1 a2 a3 b2
  subst a1
  cases v with
  | error e =>
    simp only
    exact ⟨trivial, a2, trivial, a2, fun c hc => by cases hc⟩
  | ok c =>
    simp only [a2.C, a2.Z, b2.C, b2.Z]
    exact ⟨trivial, a2, trivial, a2, fun _ _ => a3 c rfl⟩

lemma covariance_ok {n : ℕ} {r₀ r : Regression n} (h0 : Fresh r₀) (h : CacheOK r₀ r) :
    (covarianceMatrix r).1 = (covarianceMatrix r₀).1 ∧ CacheOK r₀ (covarianceMatrix r).2 := by
  obtain ⟨_, _, a1, a2, a3⟩ := residuals_ok h0 h
  obtain ⟨_, _, b1, b2, b3⟩ := residuals_ok h0 (CacheOK.refl h0)
  rcases h.cov with hc | ⟨m, hc, hm⟩
  · -- nothing cached
    have main : (covarianceMatrix r).1 = (covarianceMatrix r₀).1 ∧
        ((covarianceMatrix r).2 = (if n = 3 then { r with cov := some 0 } else
          match (residuals r).1 with
          | .error _ => (residuals r).2
          | .ok e => { (residuals r).2 with cov := some ((e ⬝ᵥ e) • (matrixSquared r₀.C)⁻¹) })) ∧
        (n = 3 → (covarianceMatrix r₀).1 = .ok 0) ∧
        (n ≠ 3 → ∀ e, (residuals r).1 = .ok e →
          (covarianceMatrix r₀).1 = .ok ((e ⬝ᵥ e) • (matrixSquared r₀.C)⁻¹)) := by
      unfold covarianceMatrix
      rw [hc, h0.2.2]
      by_cases h3 : n = 3
      · simp [h3]
      · simp only [if_neg h3]
        rcases hr : residuals r with ⟨v, r'⟩
        rcases hr0 : residuals r₀ with ⟨v0, r0'⟩
        rw [hr] at a1 a2 a3
        rw [hr0] at a1 b2 b3
        simp only at a1 a2 a3 b2 b3
        subst a1
        cases v with
        | error e => simp [h3]
        | ok e =>
          simp only [a3 e rfl, b3 e rfl]
          refine ⟨trivial, trivial, fun h => absurd h h3, ?_⟩
          intro _ e' he'
          cases he'
          rfl
    obtain ⟨m1, m2, m3, m4⟩ := main
    refine ⟨m1, ?_⟩
    rw [m2]
    by_cases h3 : n = 3
    · rw [if_pos h3]
      exact ⟨h.C, h.Z, h.coef, Or.inr ⟨0, rfl, m3 h3⟩⟩
    · rw [if_neg h3]
      cases hv : (residuals r).1 with
      | error e => simpa [hv] using a2
      | ok e =>
        simp only
        exact ⟨a2.C, a2.Z, a2.coef, Or.inr ⟨_, rfl, m4 h3 e hv⟩⟩
  · have e : covarianceMatrix r = (.ok m, r) := by
      unfold covarianceMatrix
      rw [hc]
    rw [e, hm]
    exact ⟨rfl, h⟩

lemma read_ok {n : ℕ} {r₀ r : Regression n} (h0 : Fresh r₀) (h : CacheOK r₀ r) (q : Read) :
    (readOp r q).1 = (readOp r₀ q).1 ∧ CacheOK r₀ (readOp r q).2 := by
  obtain ⟨c1, c2, _⟩ := coefficients_ok h0 h
  obtain ⟨p1, p2, s1, s2, _⟩ := residuals_ok h0 h
  obtain ⟨v1, v2⟩ := covariance_ok h0 h
  cases q with
  | coefficients => exact ⟨by simp only [readOp, c1], c2⟩
  | predictions => exact ⟨by simp only [readOp, p1], p2⟩
  | residuals => exact ⟨by simp only [readOp, s1], s2⟩
  | covariance => exact ⟨by simp only [readOp, v1], v2⟩
  | standardErrors =>
    have e : ∀ x : Regression n, (standardErrors x).1 = (covarianceMatrix x).1.map
        (fun c j => Real.sqrt (c j j)) ∧ (standardErrors x).2 = (covarianceMatrix x).2 := by
      intro x
      unfold standardErrors
      rcases covarianceMatrix x with ⟨v, r'⟩
      cases v <;> exact ⟨rfl, rfl⟩
    constructor
    · simp only [readOp, (e r).1, (e r₀).1, v1]
    · show CacheOK r₀ (standardErrors r).2
      rw [(e r).2]
      exact v2

/-- Every read, after any history of reads, returns what a fresh object returns;
this includes exceptions. -/
theorem C33_reads_history_independent {n : ℕ} (r : Regression n) (h : Fresh r)
    (history : List Read) (q : Read) : (readOp (after r history) q).1 = (readOp r q).1 := by
  have inv : ∀ (hs : List Read) (x : Regression n), CacheOK r x → CacheOK r (after x hs) := by
    intro hs
    induction hs with
    | nil => intro x hx; exact hx
    | cons q qs ih =>
      intro x hx
      exact ih _ (read_ok h hx q).2
  exact (read_ok h (inv history r (CacheOK.refl h)) q).1

example : ∃ r : Regression 4, initRows fourPoints = .ok r ∧ Fresh r :=
  ⟨ofCentered (Coordinates.centered fourPoints), by simp [initRows], by
    constructor <;> simp [ofCentered]⟩

/-- Objects are fresh after construction, for both input forms. -/
theorem C33_new_objects_fresh {n : ℕ} :
    (∀ (a : Fin n → Vec 3) r, initRows a = .ok r → Fresh r) ∧
    (∀ (b : Fin 3 → Vec n) hn, Fresh (initCols b hn)) := by
  constructor
  · intro a r hr
    unfold initRows at hr
    split_ifs at hr
    cases hr
    exact ⟨rfl, rfl, rfl⟩
  · intro b hn
    exact ⟨rfl, rfl, rfl⟩

/-- The lazily set attribute is never read before it exists: no history of reads
raises `AttributeError`. -/
theorem C33_no_attribute_error {n : ℕ} (r : Regression n) (h : Fresh r)
    (history : List Read) (q : Read) :
    (readOp (after r history) q).1 ≠ .error .attributeError := by
  rw [C33_reads_history_independent r h]
  have hc : (coefficients r).1 ≠ .error .attributeError := by
    unfold coefficients
    rw [h.1]
    by_cases hd : (matrixSquared r.C).det = 0 <;> simp [hd]
  have hp : (predictions r).1 ≠ .error .attributeError := by
    unfold predictions
    rcases hr : coefficients r with ⟨v, r'⟩
    rw [hr] at hc
    cases v with
    | error e => simpa using hc
    | ok c => simp
  have hs : (residuals r).1 ≠ .error .attributeError := by
    unfold residuals
    rcases hr : predictions r with ⟨v, r'⟩
    rw [hr] at hp
    cases v with
    | error e => simpa using hp
    | ok c => simp
  have hv : (covarianceMatrix r).1 ≠ .error .attributeError := by
    obtain ⟨_, _, _, _, b3⟩ := residuals_ok h (CacheOK.refl h)
    unfold covarianceMatrix
    rw [h.2.2]
    by_cases h3 : n = 3
    · simp [h3]
    · simp only [if_neg h3]
      rcases hr : residuals r with ⟨v, r'⟩
      rw [hr] at hs b3
      cases v with
      | error e => simpa using hs
      | ok e =>
        have := b3 e rfl
        simp only at this
        simp [this]
  have hmap : ∀ {α : Type} (x : Except PyErr α) (f : α → Value n),
      x ≠ .error .attributeError → x.map f ≠ .error .attributeError := by
    intro α x f hx
    cases x with
    | error e => simpa [Except.map] using hx
    | ok v => simp [Except.map]
  cases q with
  | coefficients => exact hmap _ _ hc
  | predictions => exact hmap _ _ hp
  | residuals => exact hmap _ _ hs
  | covariance => exact hmap _ _ hv
  | standardErrors =>
    apply hmap
    unfold standardErrors
    rcases hr : covarianceMatrix r with ⟨v, r'⟩
    rw [hr] at hv
    cases v with
    | error e => simpa using hv
    | ok c => simp

example : ∃ r, initRows fourPoints = .ok r ∧ Fresh r :=
  ⟨_, by simp [initRows]; rfl, C33_new_objects_fresh.1 fourPoints _ (by simp [initRows])⟩

/-! ## C36 -/

/-- The covariance of a regular regression: zero for three points, otherwise the
sum of squared residuals times the inverse normal matrix; symmetric, with
non-negative diagonal. -/
theorem C36_covariance {n : ℕ} (a : Fin n → Vec 3) (r : Regression n)
    (hr : initRows a = .ok r) (hcol : ¬ Spec.CollinearInPlan a) :
    ∃ m e, (covarianceMatrix r).1 = .ok m ∧ (residuals r).1 = .ok e ∧
      (n = 3 → m = 0) ∧
      (n ≠ 3 → m * (r.C.transpose * r.C) = (∑ i, e i ^ 2) • (1 : Mat 3 3)) ∧
      m.transpose = m ∧ ∀ j, 0 ≤ m j j := by
  obtain ⟨c, hc⟩ := (C31_singular_iff a r hr).2.2 hcol
  obtain ⟨hr', h0, hd, hcc⟩ := coefficients_rows hr hc
  obtain ⟨e, he, _⟩ := C31_residuals a r hr c hc
  have hF : Fresh r := C33_new_objects_fresh.1 a r hr
  obtain ⟨_, _, _, _, b3⟩ := residuals_ok hF (CacheOK.refl hF)
  have hu := isUnit_iff_ne_zero.2 hd
  have hsym : (matrixSquared r.C)⁻¹.transpose = (matrixSquared r.C)⁻¹ := by
    rw [Matrix.transpose_nonsing_inv]
    congr 1
    simp [matrixSquared, Matrix.transpose_mul]
  have hdiag : ∀ j, 0 ≤ (matrixSquared r.C)⁻¹ j j := by
    intro j
    have e1 : (matrixSquared r.C)⁻¹
        = (r.C * (matrixSquared r.C)⁻¹).transpose * (r.C * (matrixSquared r.C)⁻¹) := by
      rw [Matrix.transpose_mul, hsym, Matrix.mul_assoc, ← Matrix.mul_assoc r.C.transpose,
        show r.C.transpose * r.C = matrixSquared r.C from rfl, Matrix.mul_nonsing_inv _ hu,
        Matrix.mul_one]
    rw [e1, Matrix.mul_apply]
    exact Finset.sum_nonneg fun i _ => mul_self_nonneg _
  by_cases h3 : n = 3
  · refine ⟨0, e, ?_, he, fun _ => rfl, fun h => absurd h3 h, by simp, by simp⟩
    unfold covarianceMatrix
    rw [hF.2.2]
    simp [h3]
  · refine ⟨(e ⬝ᵥ e) • (matrixSquared r.C)⁻¹, e, ?_, he, fun h => absurd h h3, fun _ => ?_, ?_, ?_⟩
    · unfold covarianceMatrix
      rw [hF.2.2]
      simp only [if_neg h3]
      rcases hrr : residuals r with ⟨v, r'⟩
      rw [hrr] at he b3
      simp only at he
      subst he
      have := b3 e rfl
      simp only at this
      simp [this]
    · rw [Matrix.smul_mul, show r.C.transpose * r.C = matrixSquared r.C from rfl,
        Matrix.nonsing_inv_mul _ hu, sum_sq_eq_dot]
    · rw [Matrix.transpose_smul, hsym]
    · intro j
      have := hdiag j
      have h2 : 0 ≤ e ⬝ᵥ e := by
        rw [← sum_sq_eq_dot]; exact Finset.sum_nonneg fun i _ => sq_nonneg _
      simp only [Matrix.smul_apply, smul_eq_mul]
      positivity

example : ∃ (r : Regression 4) (m : Mat 3 3), initRows fourPoints = .ok r ∧
    (covarianceMatrix r).1 = .ok m ∧ m.transpose = m := by
  have hr : initRows fourPoints = .ok (ofCentered (Coordinates.centered fourPoints)) := by
    simp [initRows]
  obtain ⟨m, _, h, _, _, _, h', _⟩ := C36_covariance fourPoints _ hr fourPoints_not_collinear
  exact ⟨_, m, hr, h, h'⟩

/-- A collinear set of exactly three points still gets a zero covariance; with
any other number of points it raises. -/
theorem C36_singular {n : ℕ} (a : Fin n → Vec 3) (r : Regression n)
    (hr : initRows a = .ok r) (hcol : Spec.CollinearInPlan a) :
    (n = 3 → (covarianceMatrix r).1 = .ok 0) ∧
    (n ≠ 3 → (covarianceMatrix r).1 = .error .linAlgError) := by
  have hc := (C31_singular_iff a r hr).1.2 hcol
  have hF : Fresh r := C33_new_objects_fresh.1 a r hr
  have hs : (residuals r).1 = .error .linAlgError := by
    unfold residuals predictions
    rcases hrr : coefficients r with ⟨v, r'⟩
    rw [hrr] at hc
    simp only at hc
    subst hc
    rfl
  constructor
  · intro h3
    unfold covarianceMatrix
    rw [hF.2.2]
    simp [h3]
  · intro h3
    unfold covarianceMatrix
    rw [hF.2.2]
    simp only [if_neg h3]
    rcases hrr : residuals r with ⟨v, r'⟩
    rw [hrr] at hs
    simp only at hs
    subst hs
    rfl

example : ∃ r, initRows fourPoints = .ok r ∧ ¬ Spec.CollinearInPlan fourPoints :=
  ⟨_, by simp [initRows]; rfl, fourPoints_not_collinear⟩

example : Spec.CollinearInPlan (fun i : Fin 5 => ![(i : ℝ), 0, (i : ℝ) ^ 2]) :=
  ⟨0, 1, 0, Or.inr one_ne_zero, by intro i; simp⟩

end Attitude.Props
