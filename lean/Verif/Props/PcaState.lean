import Verif.Props.PcaInvariance

/-!
# C18, C19, C20, C45: queries, explained variance, weights and uids
-/

namespace Attitude.Props

open Attitude Pca Matrix

/-! ## C18 -/

/-- Along any history a fit is either untouched or, if its third axis pointed
down at the start, has all its axes negated. -/
lemma run_cases {n : ℕ} {f : Fit n} {U : Mat n 3} (hU : f.U = some U) (qs : List Query) :
    run f qs = f ∨ (f.V 2 2 < 0 ∧ run f qs = negateAxes f) := by
  induction qs using List.reverseRecOn with
  | nil => left; rfl
  | append_singleton qs q ih =>
    have e : run f (qs ++ [q]) = step (run f qs) q := by simp [run]
    rw [e]
    have hflip : flipDown f = f ∨ (f.V 2 2 < 0 ∧ flipDown f = negateAxes f) := by
      unfold flipDown
      split_ifs with h
      · right; exact ⟨h, rfl⟩
      · left; rfl
    rcases ih with h | ⟨h2, h⟩
    · rw [h]
      cases q <;> simp only [step] <;> try exact hflip
      · left; simp [getU, hU]
      · left; trivial
      · left; trivial
    · right
      refine ⟨h2, ?_⟩
      rw [h]
      have hn : flipDown (negateAxes f) = negateAxes f := by
        unfold flipDown
        rw [if_neg]
        simp only [negateAxes, Matrix.neg_apply]
        linarith
      cases q <;> simp only [step] <;> try exact hn
      simp [getU, negateAxes, hU]

lemma rotated_negateAxes {n : ℕ} (f : Fit n) : rotated (negateAxes f) = -rotated f := by
  simp [rotated, negateAxes]

lemma residuals_negateAxes {n : ℕ} (f : Fit n) : residuals (negateAxes f) = residuals f := by
  ext i j
  simp only [residuals, rotated_negateAxes, Matrix.sub_apply, Matrix.of_apply, Matrix.mul_apply,
    Fin.sum_univ_three]
  simp [negateAxes]

lemma varRows_neg {n : ℕ} (A : Mat n 3) : varRows (-A) = varRows A := by
  funext j
  simp only [varRows, Matrix.neg_apply, Finset.sum_neg_distrib, neg_div, sub_neg_eq_add]
  congr 1
  apply Finset.sum_congr rfl
  intro i _
  ring

/-- Every history of queries leaves the data, mean, singular values, upward
normal, residuals, explained variance, left singular vectors, and (unless the
fitted plane is horizontal) strike and dip as they were.  A fit whose third axis
does not point down is not changed at all.
Missing from the full claim: axes, uid and reconstruction, see the refutations. -/
theorem C18_queries_preserve_partial (svd : SvdFn) (hs : svd.Valid) {n : ℕ} (a : Fin n → Vec 3)
    (f : Fit n) (hf : init svd a none none = .ok (some f)) (qs : List Query) :
    let g := run f qs
    g.array = f.array ∧ g.mean = f.mean ∧ g.s = f.s ∧ g.normal = f.normal ∧ g.dipDr = f.dipDr ∧
    residuals g = residuals f ∧ eigenvalues g = eigenvalues f ∧
    explainedVariance g = explainedVariance f ∧ (getU g).1 = f.U ∧
    ((f.V 2 0 ≠ 0 ∨ f.V 2 1 ≠ 0) → strikeDip g = strikeDip f) ∧
    (0 ≤ f.V 2 2 → g = f) ∧
    (g.V = f.V ∨ (f.V 2 2 < 0 ∧ g.V = -f.V)) := by
  obtain ⟨U, h⟩ := init_default hs hf
  intro g
  have hgU : (getU f).1 = f.U := by simp [getU, h.hU]
  rcases run_cases h.hU qs with e | ⟨h2, e⟩
  · have e' : g = f := e
    rw [e']
    exact ⟨rfl, rfl, rfl, rfl, rfl, rfl, rfl, rfl, hgU, fun _ => rfl, fun _ => rfl, Or.inl rfl⟩
  · have e' : g = negateAxes f := e
    rw [e']
    refine ⟨rfl, rfl, rfl, ?_, rfl, residuals_negateAxes f, rfl, ?_, ?_, ?_, ?_, Or.inr ⟨h2, rfl⟩⟩
    · simp [negateAxes, h.view, h2]
    · simp only [explainedVariance, covarianceMatrix, rotated_negateAxes, varRows_neg]
      rfl
    · simp [getU, negateAxes, h.hU]
    · intro h01
      exact C13_sign_invariance_partial (f.V 2) h2.ne h01
    · intro h0
      linarith

example : ∃ (svd : SvdFn) (f : Fit 4), svd.Valid ∧ init svd Witness.tilted none none = .ok (some f) ∧
    strikeDip (run f [.asConic, .errorEllipse, .asConic]) = strikeDip f := by
  obtain ⟨svd, f, hs, hf, hV, _⟩ := Witness.exists_tilted
  have h := C18_queries_preserve_partial svd hs _ f hf [.asConic, .errorEllipse, .asConic]
  exact ⟨svd, f, hs, hf, h.2.2.2.2.2.2.2.2.2.1 (.inl (by rw [hV]; simp [Witness.tilt]))⟩

/-- Once a fit's third axis points up, no history of queries changes it again:
the axes change at most once. -/
theorem C18_second_history_no_effect (svd : SvdFn) (hs : svd.Valid) {n : ℕ} (a : Fin n → Vec 3)
    (f : Fit n) (hf : init svd a none none = .ok (some f)) (qs qs' : List Query)
    (hq : Query.asConic ∈ qs) : run (run f qs) qs' = run f qs := by
  obtain ⟨U, h⟩ := init_default hs hf
  by_cases h2 : f.V 2 2 < 0
  · -- the first history contains a flip
    have hrun : run f qs = negateAxes f := by
      obtain ⟨l, r, rfl⟩ := List.append_of_mem hq
      have hx : run f (l ++ [Query.asConic]) = negateAxes f := by
        have e : run f (l ++ [Query.asConic]) = flipDown (run f l) := by simp [run, step]
        rw [e]
        rcases run_cases h.hU l with e | ⟨_, e⟩ <;> rw [e]
        · simp [flipDown, h2]
        · unfold flipDown
          rw [if_neg]
          simp only [negateAxes, Matrix.neg_apply]
          linarith
      have e : run f (l ++ Query.asConic :: r) = run (run f (l ++ [Query.asConic])) r := by
        simp [run]
      rw [e, hx]
      rcases run_cases (f := negateAxes f) h.hU r with k | ⟨k, _⟩
      · exact k
      · simp only [negateAxes, Matrix.neg_apply] at k
        linarith
    rw [hrun]
    rcases run_cases (f := negateAxes f) h.hU qs' with k | ⟨k, _⟩
    · exact k
    · simp only [negateAxes, Matrix.neg_apply] at k
      linarith
  · rcases run_cases h.hU qs with e | ⟨k, _⟩
    · rw [e]
      rcases run_cases h.hU qs' with k | ⟨k, _⟩
      · exact k
      · exact absurd k h2
    · exact absurd k h2

example : ∃ (svd : SvdFn) (f : Fit 4), svd.Valid ∧ init svd Witness.tilted none none = .ok (some f) ∧
    run (run f [.errorEllipse, .asConic]) [.asConic, .errorEllipse]
      = run f [.errorEllipse, .asConic] := by
  obtain ⟨svd, f, hs, hf, _⟩ := Witness.exists_tilted
  exact ⟨svd, f, hs, hf, C18_second_history_no_effect svd hs _ f hf _ _ (by simp)⟩

/-- If the third axis points down and the points are not all equal, a single
`as_conic` call changes the axes, the principal axes (hence the uid, for any
injective digest), and the stored decomposition stops reproducing the data. -/
theorem C18_as_conic_changes_fit_false (svd : SvdFn) (hs : svd.Valid) {n : ℕ} (a : Fin n → Vec 3)
    (f : Fit n) (hf : init svd a none none = .ok (some f)) (h2 : f.V 2 2 < 0) (h0 : f.s 0 ≠ 0)
    {α : Type} (H : Mat 3 3 → α) (hH : Function.Injective H) (U : Mat n 3) (hU : f.U = some U) :
    let g := run f [.asConic]
    g.V ≠ f.V ∧ uid H g ≠ uid H f ∧
    U * Matrix.diagonal f.s * f.V = Matrix.of f.arr ∧
    g.U = some U ∧ U * Matrix.diagonal g.s * g.V ≠ Matrix.of g.arr := by
  obtain ⟨U', h⟩ := init_default hs hf
  have hUU : U' = U := by
    have := h.hU
    rw [hU] at this
    cases this; rfl
  subst hUU
  intro g
  have hg : g = negateAxes f := by
    show flipDown f = _
    simp [flipDown, h2]
  have hVne : ∃ j, f.V 0 j ≠ 0 := by
    by_contra hc
    push Not at hc
    have := h.svd.row_norm 0
    rw [show f.V 0 = 0 from funext hc] at this
    simp [norm] at this
  have hrec : U' * Matrix.diagonal f.s * f.V = Matrix.of f.arr := by
    rw [h.arr]; exact h.svd.recon.symm
  rw [hg]
  refine ⟨?_, ?_, hrec, hU, ?_⟩
  · intro e
    have := congrFun (congrFun e 2) 2
    simp only [negateAxes, Matrix.neg_apply] at this
    linarith
  · intro e
    have e := hH e
    -- the first column of the principal axes has norm `s 0`
    have hcol : ∀ i, f.V i 0 = 0 := by
      intro i
      have := congrFun (congrFun e i) 0
      simp only [principalAxes, negateAxes, Matrix.neg_apply, Matrix.of_apply] at this
      have : f.s 0 * f.V i 0 = 0 := by linarith
      rcases mul_eq_zero.1 this with k | k
      · exact absurd k h0
      · exact k
    have o := congrFun (congrFun h.svd.orthV' 0) 0
    simp [Matrix.mul_apply, hcol] at o
  · intro e
    have hz : Matrix.of f.arr = (0 : Mat n 3) := by
      have e' : -(U' * Matrix.diagonal f.s * f.V) = Matrix.of f.arr := by
        have e2 : U' * Matrix.diagonal f.s * (-f.V) = Matrix.of f.arr := e
        rw [← e2, Matrix.mul_neg]
      rw [hrec] at e'
      ext i j
      have := congrFun (congrFun e' i) j
      simp only [Matrix.neg_apply, Matrix.of_apply] at this
      simp only [Matrix.of_apply, Matrix.zero_apply]
      linarith
    have := h.svd.sum_sq_row 0
    rw [← h.arr, hz] at this
    simp at this
    exact h0 (pow_eq_zero_iff two_ne_zero |>.1 this.symm)

/-- Signs used by `flipThird`. -/
def thirdFlip : Vec 3 := ![1, 1, -1]

/-- The backend obtained from another by negating the third principal axis and
the third left singular vector. -/
def flipThird (svd : SvdFn) : SvdFn := fun m A =>
  let r := svd m A
  (r.1 * Matrix.diagonal thirdFlip, r.2.1, Matrix.diagonal thirdFlip * r.2.2)

/-- It is as valid as the original. -/
theorem flipThird_valid {svd : SvdFn} (hs : svd.Valid) : (flipThird svd).Valid := by
  intro m A hm
  have h := hs m A hm
  have hD : Matrix.diagonal thirdFlip * Matrix.diagonal thirdFlip = (1 : Mat 3 3) := by
    rw [Matrix.diagonal_mul_diagonal]
    ext i j
    fin_cases i <;> fin_cases j <;> simp [thirdFlip]
  refine ⟨?_, ?_, ?_, h.nonneg, h.le01, h.le12⟩
  · show A = (svd m A).1 * Matrix.diagonal thirdFlip * Matrix.diagonal (svd m A).2.1
        * (Matrix.diagonal thirdFlip * (svd m A).2.2)
    have e : (svd m A).1 * Matrix.diagonal thirdFlip * Matrix.diagonal (svd m A).2.1
        * (Matrix.diagonal thirdFlip * (svd m A).2.2)
        = (svd m A).1 * (Matrix.diagonal thirdFlip * Matrix.diagonal (svd m A).2.1
          * Matrix.diagonal thirdFlip) * (svd m A).2.2 := by
      simp only [Matrix.mul_assoc]
    rw [e]
    have e2 : Matrix.diagonal thirdFlip * Matrix.diagonal (svd m A).2.1
          * Matrix.diagonal thirdFlip = Matrix.diagonal (svd m A).2.1 := by
      rw [Matrix.diagonal_mul_diagonal, Matrix.diagonal_mul_diagonal]
      congr 1
      funext i
      fin_cases i <;> simp [thirdFlip]
    rw [e2]
    exact h.recon
  · show ((svd m A).1 * Matrix.diagonal thirdFlip).transpose
      * ((svd m A).1 * Matrix.diagonal thirdFlip) = 1
    rw [Matrix.transpose_mul, Matrix.diagonal_transpose, Matrix.mul_assoc,
      ← Matrix.mul_assoc _ _ (Matrix.diagonal thirdFlip), h.orthU, Matrix.one_mul, hD]
  · show (Matrix.diagonal thirdFlip * (svd m A).2.2)
      * (Matrix.diagonal thirdFlip * (svd m A).2.2).transpose = 1
    rw [Matrix.transpose_mul, Matrix.diagonal_transpose, Matrix.mul_assoc,
      ← Matrix.mul_assoc (svd m A).2.2, h.orthV, Matrix.one_mul, hD]

lemma init_V {svd : SvdFn} {n : ℕ} {a : Fin n → Vec 3} {f : Fit n}
    (hf : init svd a none none = .ok (some f)) :
    f.V = (svd n (Matrix.of (Coordinates.centered a))).2.2 := by
  by_cases hn : n < 3
  · simp [init, runSvd, hn, bind, Except.bind] at hf
  simp [init, runSvd, hn, bind, Except.bind] at hf
  have e : (Matrix.of fun i j => Coordinates.centered a i j / ![1, 1, 1] j)
      = Matrix.of (Coordinates.centered a) := by
    ext i j; fin_cases j <;> simp
  rw [e] at hf
  rw [← hf]
  rfl

/-- The situation of `C18_as_conic_changes_fit_false` does occur: for three
points of the plane `x + y + z = 0`, one of any valid backend and its twin with
the other sign of the third axis returns a third axis that points down. -/
theorem C18_downward_axis_occurs (svd : SvdFn) (hs : svd.Valid) :
    ∃ svd' : SvdFn, svd'.Valid ∧ ∃ f, init svd' tiltedPoints none none = .ok (some f) ∧
      f.V 2 2 < 0 ∧ f.s 0 ≠ 0 ∧ (f.V 2 0 ≠ 0 ∨ f.V 2 1 ≠ 0) := by
  have key : ∀ sv : SvdFn, sv.Valid → ∀ f, init sv tiltedPoints none none = .ok (some f) →
      f.V 2 2 ≠ 0 ∧ f.s 0 ≠ 0 ∧ (f.V 2 0 ≠ 0 ∨ f.V 2 1 ≠ 0) := by
    intro sv hsv f hf
    obtain ⟨U, h⟩ := init_default hsv hf
    obtain ⟨m, d, hm, hp⟩ := tiltedPoints_coplanar
    have p1 := normal_perp_of_coplanar hsv hf m d hm hp 1 0
    have p2 := normal_perp_of_coplanar hsv hf m d hm hp 2 0
    simp [tiltedPoints] at p1 p2
    have hsq : f.normal 0 ^ 2 + f.normal 1 ^ 2 + f.normal 2 ^ 2 = 1 := by
      have := norm_sq' f.normal
      rw [normal_unit h, Fin.sum_univ_three] at this
      linarith
    have q0 : f.normal 0 = f.normal 2 := by linarith
    have q1 : f.normal 1 = f.normal 2 := by linarith
    have hne : f.normal 2 ≠ 0 := by
      intro e; rw [q0, q1, e] at hsq; norm_num at hsq
    have hV : ∀ j, f.V 2 j = f.normal j ∨ f.V 2 j = -f.normal j := by
      intro j
      rw [h.normal]
      rcases upward_eq (f.V 2) with e | e <;> rw [e] <;> simp
    refine ⟨?_, ?_, Or.inl ?_⟩
    · rcases hV 2 with e | e <;> rw [e]
      · exact hne
      · exact neg_ne_zero.2 hne
    · intro h0
      have hup := h.svd.upper ![1, 0, 0]
      rw [h0] at hup
      simp only [Fin.sum_univ_three, mulVec_centered, meanRows] at hup
      simp [tiltedPoints] at hup
      norm_num at hup
    · rcases hV 0 with e | e <;> rw [e, q0]
      · exact hne
      · exact neg_ne_zero.2 hne
  obtain ⟨f, hf⟩ := init_default_exists svd (by norm_num : 3 ≤ 3) tiltedPoints
  obtain ⟨g, hg⟩ := init_default_exists (flipThird svd) (by norm_num : 3 ≤ 3) tiltedPoints
  obtain ⟨k2, k0, k1⟩ := key svd hs f hf
  by_cases hneg : f.V 2 2 < 0
  · exact ⟨svd, hs, f, hf, hneg, k0, k1⟩
  · obtain ⟨j2, j0, j1⟩ := key _ (flipThird_valid hs) g hg
    refine ⟨flipThird svd, flipThird_valid hs, g, hg, ?_, j0, j1⟩
    have e : g.V 2 2 = -f.V 2 2 := by
      rw [init_V hf, init_V hg]
      simp [flipThird, thirdFlip]
    rw [e]
    have : 0 < f.V 2 2 := lt_of_le_of_ne (not_lt.1 hneg) (Ne.symm k2)
    linarith

/-- For a horizontal plane whose third axis points down, drawing an error
ellipse turns the reported strike around. -/
theorem C18_horizontal_strike_false {n : ℕ} (f : Fit n) (hV : f.V 2 = ![0, 0, -1]) :
    strikeDip f = some (90, 0) ∧ strikeDip (run f [.errorEllipse]) = some (270, 0) := by
  obtain ⟨h1, h2⟩ := C13_horizontal_false 1 one_pos
  constructor
  · rw [strikeDip, hV]; exact h2
  · have h22 : f.V 2 2 < 0 := by rw [hV]; simp
    have e : run f [.errorEllipse] = negateAxes f := by simp [run, step, flipDown, h22]
    rw [e, strikeDip]
    have : (negateAxes f).V 2 = ![0, 0, 1] := by
      show -f.V 2 = _
      rw [hV]
      funext i
      fin_cases i <;> simp
    rw [this]
    exact h1

/-- Non-vacuity: a backend may return the third axis of a horizontal plane downwards. -/
example : ∃ (svd : SvdFn) (f : Fit 4), svd.Valid ∧
    init svd (Witness.points (-1) ![3, 2, 1]) none none = .ok (some f) ∧
    f.V 2 = ![0, 0, -1] := by
  obtain ⟨svd, f, hs, hf, hV, _⟩ := Witness.exists_fit (-1) (by simp) ![3, 2, 1] (by simp) (by simp)
    (by norm_num)
  refine ⟨svd, f, hs, hf, ?_⟩
  rw [hV]
  funext j
  fin_cases j <;> simp

/-! ## C19 -/

/-- Total scatter of the data about its mean. -/
noncomputable def Spec.scatter {n : ℕ} (a : Fin n → Vec 3) : ℝ :=
  ∑ i, Spec.pointDist2 (a i) (meanRows a)

/-- Proportion of the scatter that a plane explains: what is not orthogonal
misfit. -/
noncomputable def Spec.explained {n : ℕ} (a : Fin n → Vec 3) (m : Vec 3) (d : ℝ) : ℝ :=
  1 - Spec.misfit a m d / Spec.scatter a

lemma scatter_eq {n : ℕ} {a : Fin n → Vec 3} {f : Fit n} {U : Mat n 3} (h : IsFit a f U) :
    Spec.scatter a = f.s 0 ^ 2 + f.s 1 ^ 2 + f.s 2 ^ 2 := by
  have hrow : ∀ i, Spec.pointDist2 (a i) (meanRows a)
      = ∑ k, ((Matrix.of (Coordinates.centered a) *ᵥ f.V k) i) ^ 2 := by
    intro i
    have e : ∑ k, ((Matrix.of (Coordinates.centered a) *ᵥ f.V k) i) ^ 2
        = ∑ k, (f.V *ᵥ (Coordinates.centered a i)) k ^ 2 := by
      apply Finset.sum_congr rfl
      intro k _
      congr 1
      simp [Matrix.mulVec, dotProduct, mul_comm]
    rw [e, h.svd.norm_V]
    simp [Spec.pointDist2, Coordinates.centered, Fin.sum_univ_three]
  unfold Spec.scatter
  simp only [hrow]
  rw [Finset.sum_comm, Fin.sum_univ_three, h.svd.sum_sq_row, h.svd.sum_sq_row, h.svd.sum_sq_row]

lemma varRows_rotated {n : ℕ} {a : Fin n → Vec 3} {f : Fit n} {U : Mat n 3} (h : IsFit a f U)
    (j : Fin 3) : varRows (rotated f) j = f.s j ^ 2 / n := by
  have hr : ∀ i, rotated f i j = (Matrix.of (Coordinates.centered a) *ᵥ f.V j) i := by
    intro i
    rw [← h.arr]
    simp [rotated, Matrix.mul_apply, Matrix.mulVec, dotProduct]
  simp only [varRows, hr, sum_mulVec_centered, zero_div, sub_zero, h.svd.sum_sq_row]

lemma explainedVariance_eq {n : ℕ} {a : Fin n → Vec 3} {f : Fit n} {U : Mat n 3}
    (h : IsFit a f U) (h0 : f.s 0 ≠ 0) :
    explainedVariance f = some ((f.s 0 ^ 3 + f.s 1 ^ 3) / (f.s 0 ^ 3 + f.s 1 ^ 3 + f.s 2 ^ 3)) := by
  have hn : (0 : ℝ) < n := by
    have := h.size
    exact_mod_cast (by omega : 0 < n)
  have c : ∀ j, covarianceMatrix f .noise j j = 4 / n * f.s j ^ 3 := by
    intro j
    simp only [covarianceMatrix, Matrix.of_apply, Matrix.diagonal_apply_eq, varRows_rotated h]
    field_simp
  have p0 : 0 < f.s 0 := lt_of_le_of_ne (h.svd.nonneg' 0) (Ne.symm h0)
  have p1 := pow_nonneg (h.svd.nonneg' 1) 3
  have p2 := pow_nonneg (h.svd.nonneg' 2) 3
  have p3 : 0 < f.s 0 ^ 3 := by positivity
  have hne : f.s 0 ^ 3 + f.s 1 ^ 3 + f.s 2 ^ 3 ≠ 0 := by positivity
  have hne' : 4 / (n : ℝ) * f.s 0 ^ 3 + 4 / n * f.s 1 ^ 3 + 4 / n * f.s 2 ^ 3 ≠ 0 := by positivity
  simp only [explainedVariance, c, fdiv, if_neg hne', Option.some.injEq]
  rw [div_eq_div_iff hne' hne]
  ring

/-- `explained_variance` is not finite exactly when all points coincide, and is
otherwise in `[0, 1]`, at least 2/3, and equal to one exactly for coplanar data.
Missing from the claim: equality with the proportion of variance. -/
theorem C19_explained_variance_partial (svd : SvdFn) (hs : svd.Valid) {n : ℕ} (a : Fin n → Vec 3)
    (f : Fit n) (hf : init svd a none none = .ok (some f)) :
    (explainedVariance f = none ↔ f.s 0 = 0) ∧
    ∀ x, explainedVariance f = some x →
      2 / 3 ≤ x ∧ x ≤ 1 ∧ (x = 1 ↔ f.s 2 = 0) := by
  obtain ⟨U, h⟩ := init_default hs hf
  constructor
  · constructor
    · intro hn
      by_contra h0
      rw [explainedVariance_eq h h0] at hn
      simp at hn
    · intro h0
      have h1 : f.s 1 = 0 := le_antisymm (h0 ▸ h.svd.le01) (h.svd.nonneg' 1)
      have h2 : f.s 2 = 0 := le_antisymm (h1 ▸ h.svd.le12) h.svd.nonneg
      simp [explainedVariance, covarianceMatrix, h0, h1, h2, fdiv]
  · intro x hx
    by_cases h0 : f.s 0 = 0
    · have h1 : f.s 1 = 0 := le_antisymm (h0 ▸ h.svd.le01) (h.svd.nonneg' 1)
      have h2 : f.s 2 = 0 := le_antisymm (h1 ▸ h.svd.le12) h.svd.nonneg
      simp [explainedVariance, covarianceMatrix, h0, h1, h2, fdiv] at hx
    · rw [explainedVariance_eq h h0] at hx
      cases hx
      have p0 : 0 < f.s 0 := lt_of_le_of_ne (h.svd.nonneg' 0) (Ne.symm h0)
      have p3 : 0 < f.s 0 ^ 3 := by positivity
      have p2 := pow_nonneg h.svd.nonneg 3
      have p12 : f.s 2 ^ 3 ≤ f.s 1 ^ 3 := pow_le_pow_left₀ h.svd.nonneg h.svd.le12 3
      have p01 : f.s 1 ^ 3 ≤ f.s 0 ^ 3 := pow_le_pow_left₀ (h.svd.nonneg' 1) h.svd.le01 3
      have hpos : 0 < f.s 0 ^ 3 + f.s 1 ^ 3 + f.s 2 ^ 3 := by linarith
      refine ⟨?_, ?_, ?_⟩
      · rw [le_div_iff₀ hpos]; linarith
      · rw [div_le_one hpos]; linarith
      · rw [div_eq_one_iff_eq hpos.ne']
        constructor
        · intro e
          have : f.s 2 ^ 3 = 0 := by linarith
          exact pow_eq_zero_iff (by norm_num) |>.1 this
        · intro e; rw [e]; ring

example : ∃ (svd : SvdFn) (f : Fit 4) (x : ℝ), svd.Valid ∧
    init svd Witness.tilted none none = .ok (some f) ∧ explainedVariance f = some x ∧ x < 1 := by
  obtain ⟨svd, f, hs, hf, _, e⟩ := Witness.exists_tilted
  obtain ⟨h, h'⟩ := C19_explained_variance_partial svd hs _ f hf
  cases hx : explainedVariance f with
  | none => rw [e] at h; simp at h; exact absurd hx h
  | some x =>
    obtain ⟨_, h1, h2⟩ := h' x hx
    refine ⟨svd, f, x, hs, hf, hx, lt_of_le_of_ne h1 fun h3 => ?_⟩
    have := h2.1 h3
    rw [e] at this
    simp at this

/-- The reported number overstates the proportion of variance for every noisy
data set whose principal axes are not all equal, and equals it only otherwise. -/
theorem C19_overstated_false (svd : SvdFn) (hs : svd.Valid) {n : ℕ} (a : Fin n → Vec 3)
    (f : Fit n) (hf : init svd a none none = .ok (some f)) (c : Vec 3) (hc : f.mean = some c)
    (x : ℝ) (hx : explainedVariance f = some x) :
    let y := Spec.explained a f.normal (f.normal 0 * c 0 + f.normal 1 * c 1 + f.normal 2 * c 2)
    y ≤ x ∧ (y < x ↔ 0 < f.s 2 ∧ f.s 2 < f.s 0) := by
  obtain ⟨U, h⟩ := init_default hs hf
  intro y
  have h0 : f.s 0 ≠ 0 := by
    intro e
    rw [((C19_explained_variance_partial svd hs a f hf).1).2 e] at hx
    simp at hx
  rw [explainedVariance_eq h h0] at hx
  cases hx
  have p0 : 0 < f.s 0 := lt_of_le_of_ne (h.svd.nonneg' 0) (Ne.symm h0)
  have p1 := h.svd.nonneg' 1
  have p2 := h.svd.nonneg
  have hy : y = (f.s 0 ^ 2 + f.s 1 ^ 2) / (f.s 0 ^ 2 + f.s 1 ^ 2 + f.s 2 ^ 2) := by
    show 1 - _ / _ = _
    rw [C06_misfit_value svd hs a f hf c hc, scatter_eq h]
    have : f.s 0 ^ 2 + f.s 1 ^ 2 + f.s 2 ^ 2 ≠ 0 := by positivity
    field_simp
    ring
  have hp2 : 0 < f.s 0 ^ 2 + f.s 1 ^ 2 + f.s 2 ^ 2 := by positivity
  have hp3 : 0 < f.s 0 ^ 3 + f.s 1 ^ 3 + f.s 2 ^ 3 := by positivity
  -- difference of cross products
  have hd : (f.s 0 ^ 3 + f.s 1 ^ 3) * (f.s 0 ^ 2 + f.s 1 ^ 2 + f.s 2 ^ 2)
      - (f.s 0 ^ 2 + f.s 1 ^ 2) * (f.s 0 ^ 3 + f.s 1 ^ 3 + f.s 2 ^ 3)
      = f.s 2 ^ 2 * (f.s 0 ^ 2 * (f.s 0 - f.s 2) + f.s 1 ^ 2 * (f.s 1 - f.s 2)) := by ring
  have d0 : 0 ≤ f.s 0 - f.s 2 := by linarith [h.svd.le01, h.svd.le12]
  have d1 : 0 ≤ f.s 1 - f.s 2 := by linarith [h.svd.le12]
  have hnn : 0 ≤ f.s 2 ^ 2 * (f.s 0 ^ 2 * (f.s 0 - f.s 2) + f.s 1 ^ 2 * (f.s 1 - f.s 2)) := by
    positivity
  rw [hy]
  constructor
  · rw [div_le_div_iff₀ hp2 hp3]; linarith
  · rw [div_lt_div_iff₀ hp2 hp3]
    constructor
    · intro hlt
      constructor
      · rcases p2.lt_or_eq with e | e
        · exact e
        · rw [← e] at hd; simp at hd; rw [← e] at hlt; linarith
      · rcases d0.lt_or_eq with e | e
        · linarith
        · have e1 : f.s 1 = f.s 2 := by linarith [h.svd.le01, h.svd.le12]
          rw [← e, e1] at hd
          rw [e1] at hlt
          linarith
    · rintro ⟨q2, q0⟩
      have d0' : 0 < f.s 0 - f.s 2 := by linarith
      have : 0 < f.s 2 ^ 2 * (f.s 0 ^ 2 * (f.s 0 - f.s 2) + f.s 1 ^ 2 * (f.s 1 - f.s 2)) := by
        positivity
      linarith

example : ∃ (svd : SvdFn) (f : Fit 4) (c : Vec 3) (x : ℝ), svd.Valid ∧
    init svd Witness.tilted none none = .ok (some f) ∧ f.mean = some c ∧
    explainedVariance f = some x := by
  obtain ⟨svd, f, hs, hf, _, e⟩ := Witness.exists_tilted
  obtain ⟨h, _⟩ := C19_explained_variance_partial svd hs _ f hf
  obtain ⟨_, _, c, hc, _⟩ := C06_best_fit svd hs _ f hf
  cases hx : explainedVariance f with
  | none => rw [e] at h; simp at h; exact absurd hx h
  | some x => exact ⟨svd, f, c, x, hs, hf, hc, hx⟩

/-- Six points on the coordinate axes. -/
def axisPoints (x y z : ℝ) : Fin 6 → Vec 3 :=
  ![![x, 0, 0], ![-x, 0, 0], ![0, y, 0], ![0, -y, 0], ![0, 0, z], ![0, 0, -z]]

lemma axisPoints_centered (x y z : ℝ) :
    Coordinates.centered (axisPoints x y z) = axisPoints x y z := by
  apply C01_centered_unique
  · intro j
    fin_cases j <;> simp [axisPoints, Fin.sum_univ_six]
  · intro i i' j
    rfl

lemma axisPoints_sq (x y z : ℝ) (w : Vec 3) :
    ∑ i, (Matrix.of (axisPoints x y z) *ᵥ w) i ^ 2
      = 2 * x ^ 2 * w 0 ^ 2 + 2 * y ^ 2 * w 1 ^ 2 + 2 * z ^ 2 * w 2 ^ 2 := by
  simp [axisPoints, Fin.sum_univ_six, Matrix.mulVec, dotProduct, Fin.sum_univ_three]
  ring

/-- Non-vacuity: noisy data with unequal axes, for every backend. -/
theorem C19_witness (svd : SvdFn) (hs : svd.Valid) :
    ∃ f, init svd (axisPoints 2 1 1) none none = .ok (some f) ∧ 0 < f.s 2 ∧ f.s 2 < f.s 0 := by
  obtain ⟨f, hf⟩ := init_default_exists svd (by norm_num : 3 ≤ 6) (axisPoints 2 1 1)
  obtain ⟨U, h⟩ := init_default hs hf
  have hA := h.svd
  rw [axisPoints_centered] at hA
  refine ⟨f, hf, ?_, ?_⟩
  · have e := hA.sum_sq_row 2
    rw [axisPoints_sq] at e
    have hn := hA.row_dot 2 2
    rw [if_pos rfl, vdot3] at hn
    rcases hA.nonneg.lt_or_eq with q | q
    · exact q
    · rw [← q] at e
      nlinarith [sq_nonneg (f.V 2 0)]
  · have u := hA.upper ![1, 0, 0]
    have o := hA.optimal ![0, 0, 1]
    rw [axisPoints_sq] at u o
    simp [Fin.sum_univ_three] at u o
    by_contra hc
    have := pow_le_pow_left₀ (hA.nonneg' 0) (not_lt.1 hc) 2
    linarith

/-! ## C20 -/

/-- Omitting the weights is the same as passing ones. -/
theorem C20_default_weights_are_ones (svd : SvdFn) {n : ℕ} (a : Fin n → Vec 3)
    (ax : Option (Mat 3 3)) : init svd a none ax = init svd a (some ![1, 1, 1]) ax := rfl

/-- Zero weights are refused by the linear algebra backend. -/
theorem C20_zero_weight_raises (svd : SvdFn) {n : ℕ} (hn : 3 ≤ n) (a : Fin n → Vec 3) (w : Vec 3)
    (j : Fin 3) (hw : w j = 0) : init svd a (some w) none = .error .linAlgError := by
  have : w 0 = 0 ∨ w 1 = 0 ∨ w 2 = 0 := by
    fin_cases j
    · exact Or.inl hw
    · exact Or.inr (Or.inl hw)
    · exact Or.inr (Or.inr hw)
  simp [init, runSvd, not_lt.2 hn, this, bind, Except.bind]

example (svd : SvdFn) : init svd Witness.tilted (some ![1, 0, 2]) none = .error .linAlgError :=
  C20_zero_weight_raises svd (by norm_num) _ _ 1 rfl

/-- With positive weights the fit exists, and its decomposition reproduces the
centered data exactly when every axis with non-zero extent only involves
coordinates that have the weight of its own index.  Missing from the claim: it
reproduces the data for all weights. -/
theorem C20_weights_reconstruct_iff_partial (svd : SvdFn) (hs : svd.Valid) {n : ℕ} (hn : 3 ≤ n)
    (a : Fin n → Vec 3) (w : Vec 3) (hw : ∀ j, 0 < w j) :
    ∃ f U, init svd a (some w) none = .ok (some f) ∧ f.U = some U ∧ f.weights = w ∧
      (U * Matrix.diagonal f.s * f.V = Matrix.of f.arr ↔
        ∀ i j, f.s i ≠ 0 → f.V i j ≠ 0 → w i = w j) := by
  have hw' : ¬ (w 0 = 0 ∨ w 1 = 0 ∨ w 2 = 0) := by
    rintro (e | e | e)
    · exact (hw 0).ne' e
    · exact (hw 1).ne' e
    · exact (hw 2).ne' e
  set A : Mat n 3 := Matrix.of fun i j => Coordinates.centered a i j / w j with hA
  have hv := hs n A hn
  set r := svd n A with hr
  refine ⟨derive a (if n = 0 then none else some (meanRows a)) (Coordinates.centered a) w
    (some r.1) (fun j => r.2.1 j * w j) r.2.2, r.1, ?_, rfl, rfl, ?_⟩
  · simp [init, runSvd, not_lt.2 hn, hw', bind, Except.bind, hr, hA]
  · simp only [derive]
    have hdata : Matrix.of (Coordinates.centered a)
        = r.1 * (Matrix.diagonal r.2.1 * r.2.2 * Matrix.diagonal w) := by
      rw [← Matrix.mul_assoc, ← Matrix.mul_assoc, ← hv.recon]
      ext i j
      rw [Matrix.mul_diagonal]
      simp only [hA, Matrix.of_apply]
      field_simp [(hw j).ne']
    rw [hdata, Matrix.mul_assoc]
    have hcancel : ∀ X Y : Mat 3 3, r.1 * X = r.1 * Y ↔ X = Y := by
      intro X Y
      constructor
      · intro e
        have := congrArg (fun M => r.1.transpose * M) e
        simpa [← Matrix.mul_assoc, hv.orthU] using this
      · rintro rfl; rfl
    rw [hcancel]
    constructor
    · intro e i j hi hj
      have := congrFun (congrFun e i) j
      rw [Matrix.diagonal_mul, Matrix.mul_diagonal, Matrix.diagonal_mul] at this
      have hri : r.2.1 i ≠ 0 := fun k => hi (by rw [k, zero_mul])
      have k : r.2.1 i * r.2.2 i j * (w i - w j) = 0 := by linarith
      rcases mul_eq_zero.1 k with k | k
      · exact absurd k (mul_ne_zero hri hj)
      · linarith
    · intro hall
      ext i j
      rw [Matrix.diagonal_mul, Matrix.mul_diagonal, Matrix.diagonal_mul]
      by_cases hi : r.2.1 i = 0
      · rw [hi]; ring
      by_cases hj : r.2.2 i j = 0
      · rw [hj]; ring
      · have := hall i j (mul_ne_zero hi (hw i).ne') hj
        rw [this]; ring

example : ∃ (svd : SvdFn) (f : Fit 4), svd.Valid ∧
    init svd Witness.tilted (some ![1, 2, 3]) none = .ok (some f) ∧ f.weights = ![1, 2, 3] := by
  obtain ⟨svd, hs⟩ := exists_valid_svd
  obtain ⟨f, U, h, _, h', _⟩ := C20_weights_reconstruct_iff_partial svd hs (by norm_num : 3 ≤ 4)
    Witness.tilted ![1, 2, 3] (fun j => by fin_cases j <;> simp)
  exact ⟨svd, f, hs, h, h'⟩

/-- In particular equal weights are transparent. -/
theorem C20_equal_weights_reconstruct (svd : SvdFn) (hs : svd.Valid) {n : ℕ} (hn : 3 ≤ n)
    (a : Fin n → Vec 3) (c : ℝ) (hc : 0 < c) :
    ∃ f U, init svd a (some fun _ => c) none = .ok (some f) ∧ f.U = some U ∧
      U * Matrix.diagonal f.s * f.V = Matrix.of f.arr := by
  obtain ⟨f, U, h1, h2, _, h4⟩ :=
    C20_weights_reconstruct_iff_partial svd hs hn a (fun _ => c) (fun _ => hc)
  exact ⟨f, U, h1, h2, h4.2 fun _ _ _ _ => rfl⟩

example : ∃ (svd : SvdFn) (f : Fit 4) (U : Mat 4 3), svd.Valid ∧
    init svd Witness.tilted (some fun _ => 7) none = .ok (some f) ∧ f.U = some U ∧
    U * Matrix.diagonal f.s * f.V = Matrix.of f.arr := by
  obtain ⟨svd, hs⟩ := exists_valid_svd
  obtain ⟨f, U, h⟩ := C20_equal_weights_reconstruct svd hs (by norm_num : 3 ≤ 4)
    Witness.tilted 7 (by norm_num)
  exact ⟨svd, f, U, hs, h⟩

/-- Unequal weights are not: points spread mostly along `z`, weight 2 on `x`. -/
theorem C20_unequal_weights_false (svd : SvdFn) (hs : svd.Valid) :
    ∃ f U, init svd (axisPoints 1 1 10) (some ![2, 1, 1]) none = .ok (some f) ∧ f.U = some U ∧
      U * Matrix.diagonal f.s * f.V ≠ Matrix.of f.arr := by
  obtain ⟨f, U, h1, h2, _, h4⟩ :=
    C20_weights_reconstruct_iff_partial svd hs (by norm_num : 3 ≤ 6) (axisPoints 1 1 10) ![2, 1, 1]
      (by intro j; fin_cases j <;> simp)
  refine ⟨f, U, h1, h2, ?_⟩
  rw [Ne, h4]
  intro hall
  have hA : (Matrix.of fun i j => Coordinates.centered (axisPoints 1 1 10) i j / ![2, 1, 1] j)
      = (Matrix.of (axisPoints 2⁻¹ 1 10) : Mat 6 3) := by
    rw [axisPoints_centered]
    ext i j
    fin_cases i <;> fin_cases j <;> simp [axisPoints]
    norm_num
  have hv := hs 6 (Matrix.of (axisPoints 2⁻¹ 1 10)) (by norm_num)
  simp [init, runSvd, bind, Except.bind, hA] at h1
  set r := svd 6 (Matrix.of (axisPoints 2⁻¹ 1 10)) with hr
  have hs0 : f.s 0 = r.2.1 0 * 2 := by rw [← h1]; simp [derive]
  have hV : f.V = r.2.2 := by rw [← h1]; rfl
  have u := hv.upper ![0, 0, 1]
  rw [axisPoints_sq] at u
  simp [Fin.sum_univ_three] at u
  have e := hv.sum_sq_row 0
  rw [axisPoints_sq] at e
  have hn := hv.row_dot 0 0
  rw [if_pos rfl, vdot3] at hn
  have h02 : r.2.2 0 2 ≠ 0 := by
    intro k
    rw [k] at e hn
    nlinarith [sq_nonneg (r.2.2 0 0), sq_nonneg (r.2.2 0 1)]
  have hr0 : r.2.1 0 ≠ 0 := by
    intro k; rw [k] at u; norm_num at u
  have := hall 0 2 (by rw [hs0]; exact mul_ne_zero hr0 two_ne_zero) (by rw [hV]; exact h02)
  simp at this

/-! ## C45 -/

/-- A uid is a function of the principal axes, which for non-degenerate data
determine all second moments: fits with equal uids (for an injective digest)
have the same misfit for every plane through their centers.
Missing from the claim: the location of the data, its higher moments, and
degenerate data. -/
theorem C45_uid_determines_moments_partial (svd : SvdFn) (hs : svd.Valid) {n m : ℕ}
    (a : Fin n → Vec 3) (b : Fin m → Vec 3) (f : Fit n) (g : Fit m)
    (hf : init svd a none none = .ok (some f)) (hg : init svd b none none = .ok (some g))
    {α : Type} (H : Mat 3 3 → α) (hH : Function.Injective H) (hu : uid H f = uid H g)
    (h2 : f.s 2 ≠ 0) :
    f.s = g.s ∧ f.V = g.V ∧ strikeDip f = strikeDip g ∧
    ∀ w : Vec 3, Spec.misfit a w (w 0 * meanRows a 0 + w 1 * meanRows a 1 + w 2 * meanRows a 2)
      = Spec.misfit b w (w 0 * meanRows b 0 + w 1 * meanRows b 1 + w 2 * meanRows b 2) := by
  obtain ⟨U, h⟩ := init_default hs hf
  obtain ⟨U', h'⟩ := init_default hs hg
  have hP : principalAxes f = principalAxes g := hH hu
  have hss : f.s = g.s := by
    funext j
    rw [← columnNorms_principal h, ← columnNorms_principal h', hP]
  have hpos : ∀ j, f.s j ≠ 0 := by
    have h2' : 0 < f.s 2 := lt_of_le_of_ne h.svd.nonneg (Ne.symm h2)
    intro j; fin_cases j
    · exact (lt_of_lt_of_le h2' (h.svd.le12.trans h.svd.le01)).ne'
    · exact (lt_of_lt_of_le h2' h.svd.le12).ne'
    · exact h2'.ne'
  have hVV : f.V = g.V := by
    ext i j
    have := congrFun (congrFun hP i) j
    simp only [principalAxes, Matrix.of_apply, ← hss] at this
    exact mul_left_cancel₀ (hpos j) this
  refine ⟨hss, hVV, by rw [strikeDip, strikeDip, hVV], fun w => ?_⟩
  rw [misfit_split, misfit_split, h.svd.sum_sq, h'.svd.sum_sq, hss, hVV]
  ring

/-- Shifting a measurement does not change its uid, for every backend and
digest: measurements at different places collide. -/
theorem C45_uid_ignores_location_false (svd : SvdFn) {n : ℕ} (hn : 3 ≤ n) (a : Fin n → Vec 3)
    (t : Vec 3) (ht : t ≠ 0) {α : Type} (H : Mat 3 3 → α) :
    (fun i j => a i j + t j) ≠ a ∧
    ∃ f g, init svd a none none = .ok (some f) ∧
      init svd (fun i j => a i j + t j) none none = .ok (some g) ∧ uid H f = uid H g := by
  constructor
  · intro e
    apply ht
    funext j
    have := congrFun (congrFun e ⟨0, by omega⟩) j
    simpa using this
  · obtain ⟨f, hf⟩ := init_default_exists svd hn a
    obtain ⟨g, hg⟩ := init_default_exists svd hn (fun i j => a i j + t j)
    refine ⟨f, g, hf, hg, ?_⟩
    have hc := C01_centered_translation a t
    simp [init, runSvd, not_lt.2 hn, bind, Except.bind] at hf hg
    rw [hc] at hg
    rw [← hf, ← hg]
    rfl

/-- Non-vacuity of `C45_uid_determines_moments_partial`. -/
example : ∃ (svd : SvdFn) (f g : Fit 4), svd.Valid ∧
    init svd Witness.tilted none none = .ok (some f) ∧
    init svd (fun i j => Witness.tilted i j + ![1, 2, 3] j) none none = .ok (some g) ∧
    uid id f = uid id g ∧ f.s 2 ≠ 0 := by
  obtain ⟨svd, f, hs, hf, _, e⟩ := Witness.exists_tilted
  obtain ⟨g, hg⟩ := init_default_exists svd (by norm_num : 3 ≤ 4)
    (fun i j => Witness.tilted i j + ![1, 2, 3] j)
  refine ⟨svd, f, g, hs, hf, hg, ?_, by rw [e]; simp⟩
  have ht : (![1, 2, 3] : Vec 3) ≠ 0 := fun h => by simpa using congrFun h 0
  obtain ⟨_, f', g', hf', hg', h⟩ :=
    C45_uid_ignores_location_false svd (by norm_num : 3 ≤ 4) Witness.tilted ![1, 2, 3] ht id
  rw [hf] at hf'
  rw [hg] at hg'
  cases hf'
  cases hg'
  exact h

example : ∃ svd : SvdFn, (fun i j => Witness.tilted i j + ![1, 2, 3] j) ≠ Witness.tilted ∧
    ∃ f g, init svd Witness.tilted none none = .ok (some f) ∧
      init svd (fun i j => Witness.tilted i j + ![1, 2, 3] j) none none = .ok (some g) ∧
      uid id f = uid id g := by
  obtain ⟨svd, _⟩ := exists_valid_svd
  exact ⟨svd, C45_uid_ignores_location_false svd (by norm_num) _ _
    (fun h => by simpa using congrFun h 0) id⟩

/-- A uid does not survive `as_conic` (see C18): an injective digest changes. -/
theorem C45_uid_changes_false (svd : SvdFn) (hs : svd.Valid) {α : Type} (H : Mat 3 3 → α)
    (hH : Function.Injective H) :
    ∃ svd' : SvdFn, svd'.Valid ∧ ∃ f, init svd' tiltedPoints none none = .ok (some f) ∧
      uid H (run f [.asConic]) ≠ uid H f := by
  obtain ⟨svd', hs', f, hf, h2, h0, _⟩ := C18_downward_axis_occurs svd hs
  obtain ⟨U, h⟩ := init_default hs' hf
  exact ⟨svd', hs', f, hf,
    (C18_as_conic_changes_fit_false svd' hs' tiltedPoints f hf h2 h0 H hH U h.hU).2.1⟩

end Attitude.Props
