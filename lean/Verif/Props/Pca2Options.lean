import Verif.Props.Pca2
import Verif.Model.Pca2Options

/-!
# C240: weights and saved axes of fits to two-column arrays
-/

namespace Attitude.Props

open Attitude Matrix Attitude.Pca2

/-- Points in a plane with coordinates in units of the errors. -/
noncomputable def Spec.inUnits2 {n : ℕ} (w : Vec 2) (a : Fin n → Vec 2) : Fin n → Vec 2 := fun i j => a i j / w j

/-- Without the arguments, and with weights of one, the object is the ordinary one. -/
theorem C240_defaults (svd : SvdFn) {n : ℕ} (a : Fin n → Vec 2) :
    Pca2.initWith svd a none none = (Pca2.init svd a).map some ∧
    Pca2.initWith svd a (some ![1, 1]) none = (Pca2.init svd a).map some := by
  have e : (Matrix.of fun i j => Pca2.centered a i j / ![1, 1] j) = (Matrix.of (Pca2.centered a) : Mat n 2) := by
    ext i j; fin_cases j <;> simp
  have e2 : ∀ x : Vec 2, (fun j => x j * ![1, 1] j) = x := by
    intro x; funext j; fin_cases j <;> simp
  by_cases hn : n < 3
  · simp [Pca2.initWith, Pca2.runSvd, Pca2.init, hn, bind, Except.bind, Except.map]
  · simp [Pca2.initWith, Pca2.runSvd, Pca2.init, hn, bind, Except.bind, Except.map, e, e2]

example (svd : SvdFn) : ∃ f, Pca2.initWith svd Witness.kite none none = .ok (some f) := by
  obtain ⟨f, hf⟩ := (C185_accepted svd Witness.kite).2 (by norm_num)
  exact ⟨f, by rw [(C240_defaults svd _).1, hf]; rfl⟩

lemma columnNorms2 {n : ℕ} {a : Fin n → Vec 2} {f : Pca2.Fit n} (h : Pca2.IsFit a f) :
    Pca2.columnNorms (Pca2.principalAxes f) = f.s := by
  have hnn : ∀ j, 0 ≤ f.s j := by
    intro j
    fin_cases j
    · exact h.svd.nonneg.trans h.svd.le01
    · exact h.svd.nonneg
  funext j
  have e : (∑ i, f.V i j ^ 2) = 1 := by
    have := congrFun (congrFun h.svd.orthV' j) j
    simp only [Matrix.mul_apply, Matrix.transpose_apply, Matrix.one_apply_eq] at this
    rw [← this]
    exact Finset.sum_congr rfl fun i _ => sq _
  simp only [Pca2.columnNorms, Pca2.principalAxes, norm, Matrix.of_apply, mul_pow, ← Finset.mul_sum, e, mul_one]
  exact Real.sqrt_sq (hnn j)

/-- Saving `principal_axes` and making an object from the same points and these axes gives back the same object,
if the points are not on one line.  Missing from the claim: points on a line. -/
theorem C240_reload_partial (svd svd' : SvdFn) (hs : svd.Valid) {n : ℕ} (a : Fin n → Vec 2) (f : Pca2.Fit n)
    (hf : Pca2.init svd a = .ok f) (hc : ¬ Spec.Collinear2 a) (w : Option (Vec 2)) :
    Pca2.initWith svd' a w (some (Pca2.principalAxes f)) = .ok (some f) := by
  have h := Pca2.init_ok hs hf
  have h1 : f.s 1 ≠ 0 := fun e => hc ((collinear2_iff h).1 e)
  have h1' : 0 < f.s 1 := lt_of_le_of_ne h.svd.nonneg (Ne.symm h1)
  have h0 : f.s 0 ≠ 0 := (h1'.trans_le h.svd.le01).ne'
  have hn : n ≠ 0 := by have := h.size; omega
  have hsj : ∀ j, f.s j ≠ 0 := by
    intro j; fin_cases j
    exacts [h0, h1]
  have hV : (Matrix.of fun i j => Pca2.principalAxes f i j / f.s j) = f.V := by
    ext i j
    simp only [Matrix.of_apply, Pca2.principalAxes]
    exact mul_div_cancel_left₀ _ (hsj j)
  have hU : Pca2.lazyU (Pca2.centered a) f.s f.V = f.U := by
    rw [Pca2.lazyU, h.svd.recon, Matrix.mul_assoc _ f.V, h.svd.orthV, Matrix.mul_one, Matrix.mul_assoc,
      Matrix.diagonal_mul_diagonal]
    have : (fun j => f.s j * (1 / f.s j)) = fun _ => (1 : ℝ) := by
      funext j; exact mul_one_div_cancel (hsj j)
    rw [this, Matrix.diagonal_one, Matrix.mul_one]
  simp only [Pca2.initWith, Pca2.loadSavedFit, columnNorms2 h, h0, h1, or_self, if_false, hn, hV, hU]
  congr 2
  unfold Pca2.init at hf
  split at hf
  · cases hf
  · simp only [Except.ok.injEq] at hf
    rw [← hf]
    rfl

example : ∃ (svd : SvdFn) (f : Pca2.Fit 4), svd.Valid ∧ Pca2.init svd Witness.kite = .ok f ∧
    Pca2.initWith svd Witness.kite none (some (Pca2.principalAxes f)) = .ok (some f) := by
  obtain ⟨svd, f, hs, hf⟩ := exists_fit2 (by norm_num) Witness.kite
  exact ⟨svd, f, hs, hf, C240_reload_partial svd svd hs _ f hf kite_not_collinear none⟩

/-- For points on a line the axes of the reloaded object are `nan`. -/
theorem C240_reload_false (svd svd' : SvdFn) (hs : svd.Valid) {n : ℕ} (a : Fin n → Vec 2) (f : Pca2.Fit n)
    (hf : Pca2.init svd a = .ok f) (hc : Spec.Collinear2 a) (w : Option (Vec 2)) :
    Pca2.initWith svd' a w (some (Pca2.principalAxes f)) = .ok none := by
  have h := Pca2.init_ok hs hf
  simp [Pca2.initWith, Pca2.loadSavedFit, columnNorms2 h, (collinear2_iff h).2 hc]

example : ∃ (svd : SvdFn) (f : Pca2.Fit 3), svd.Valid ∧ Pca2.init svd Witness.threeOnLine = .ok f ∧
    Pca2.initWith svd Witness.threeOnLine none (some (Pca2.principalAxes f)) = .ok none := by
  obtain ⟨svd, f, hs, hf⟩ := exists_fit2 (by norm_num) Witness.threeOnLine
  exact ⟨svd, f, hs, hf, C240_reload_false svd svd hs _ f hf threeOnLine_collinear none⟩

/-- Which arguments are accepted: too few points and zero weights raise, but only without saved axes. -/
theorem C240_accepted (svd : SvdFn) {n : ℕ} (a : Fin n → Vec 2) (w : Vec 2) :
    (n < 3 → Pca2.initWith svd a (some w) none = .error .valueError) ∧
    (3 ≤ n → (∃ j, w j = 0) → Pca2.initWith svd a (some w) none = .error .linAlgError) ∧
    (3 ≤ n → (∀ j, w j ≠ 0) → ∃ f, Pca2.initWith svd a (some w) none = .ok (some f)) ∧
    ∀ ax, ∃ o, Pca2.initWith svd a (some w) (some ax) = .ok o := by
  refine ⟨fun h => ?_, fun h hw => ?_, fun h hw => ?_, fun ax => ?_⟩
  · simp [Pca2.initWith, Pca2.runSvd, h, bind, Except.bind]
  · have : w 0 = 0 ∨ w 1 = 0 := by
      obtain ⟨j, hj⟩ := hw
      fin_cases j
      exacts [.inl hj, .inr hj]
    simp [Pca2.initWith, Pca2.runSvd, not_lt.2 h, this, bind, Except.bind]
  · have : ¬ (w 0 = 0 ∨ w 1 = 0) := by
      rintro (e | e)
      exacts [hw 0 e, hw 1 e]
    simp [Pca2.initWith, Pca2.runSvd, not_lt.2 h, this, bind, Except.bind]
  · simp only [Pca2.initWith]
    split
    · exact ⟨_, rfl⟩
    · split
      · exact ⟨_, rfl⟩
      · exact ⟨_, rfl⟩

example (svd : SvdFn) : Pca2.initWith svd Witness.kite (some ![1, 0]) none = .error .linAlgError :=
  (C240_accepted svd _ _).2.1 (by norm_num) ⟨1, rfl⟩

lemma centered_inUnits2 {n : ℕ} (w : Vec 2) (a : Fin n → Vec 2) (i : Fin n) (j : Fin 2) :
    Pca2.centered (Spec.inUnits2 w a) i j = Pca2.centered a i j / w j := by
  simp only [Pca2.centered, Pca2.meanRows, Spec.inUnits2, ← Finset.sum_div, sub_div]
  rw [div_right_comm]

/-- With weights the axes and the normal are those of the points with coordinates divided by the weights. -/
theorem C240_weights (svd : SvdFn) {n : ℕ} (hn : 3 ≤ n) (a : Fin n → Vec 2) (w : Vec 2) (hw : ∀ j, w j ≠ 0) :
    ∃ f g, Pca2.initWith svd a (some w) none = .ok (some f) ∧ Pca2.init svd (Spec.inUnits2 w a) = .ok g ∧
      f.V = g.V ∧ f.normal = g.normal ∧ f.U = g.U ∧ (∀ j, f.s j = w j * g.s j) ∧
      (∀ j, f.mean j = (∑ i, a i j) / n) := by
  have hw' : ¬ (w 0 = 0 ∨ w 1 = 0) := by
    rintro (e | e)
    exacts [hw 0 e, hw 1 e]
  have e : Matrix.of (Pca2.centered (Spec.inUnits2 w a)) = (Matrix.of fun i j => Pca2.centered a i j / w j : Mat n 2) := by
    ext i j
    rw [Matrix.of_apply, Matrix.of_apply, centered_inUnits2]
  have hf : Pca2.initWith svd a (some w) none = .ok (some (Pca2.derive a
      (svd n (Matrix.of (Pca2.centered (Spec.inUnits2 w a)))).1
      (fun j => (svd n (Matrix.of (Pca2.centered (Spec.inUnits2 w a)))).2.1 j * w j)
      (svd n (Matrix.of (Pca2.centered (Spec.inUnits2 w a)))).2.2)) := by
    rw [e]
    simp [Pca2.initWith, Pca2.runSvd, not_lt.2 hn, hw', bind, Except.bind]
  have hg : Pca2.init svd (Spec.inUnits2 w a) = .ok (Pca2.derive (Spec.inUnits2 w a)
      (svd n (Matrix.of (Pca2.centered (Spec.inUnits2 w a)))).1
      (svd n (Matrix.of (Pca2.centered (Spec.inUnits2 w a)))).2.1
      (svd n (Matrix.of (Pca2.centered (Spec.inUnits2 w a)))).2.2) := by
    rw [Pca2.init, if_neg (not_lt.2 hn)]
  exact ⟨_, _, hf, hg, rfl, rfl, rfl, fun j => mul_comm _ _, fun j => rfl⟩

example (svd : SvdFn) : ∃ f g, Pca2.initWith svd Witness.kite (some ![1, 2]) none = .ok (some f) ∧
    Pca2.init svd (Spec.inUnits2 ![1, 2] Witness.kite) = .ok g ∧ f.normal = g.normal := by
  obtain ⟨f, g, h1, h2, _, h3, _⟩ := C240_weights svd (by norm_num) Witness.kite ![1, 2]
    (by intro j; fin_cases j <;> simp)
  exact ⟨f, g, h1, h2, h3⟩

/-- So the normal of a line through points without errors is wrong: it is that of the line multiplied by the
weights.  It is perpendicular to the line just if the weights are equal or the line is along a coordinate axis. -/
theorem C240_normal_false (svd : SvdFn) (hs : svd.Valid) {n : ℕ} (a : Fin n → Vec 2) (w : Vec 2)
    (hw : ∀ j, 0 < w j) (f : Pca2.Fit n) (hf : Pca2.initWith svd a (some w) none = .ok (some f)) (m : Vec 2) (d : ℝ)
    (hm : norm m = 1) (hp : ∀ i, Spec.OnLine2 m d (a i)) (hne : ∃ i k, a i ≠ a k) :
    (∃ t : ℝ, t ≠ 0 ∧ ∀ j, f.normal j = t * (w j * m j)) ∧
      ((∃ t : ℝ, ∀ j, f.normal j = t * m j) ↔ w 0 = w 1 ∨ m 0 = 0 ∨ m 1 = 0) := by
  have hn : 3 ≤ n := by
    by_contra h
    rw [(C240_accepted svd a w).1 (not_le.1 h)] at hf
    cases hf
  have hw0 : ∀ j, w j ≠ 0 := fun j => (hw j).ne'
  obtain ⟨f', g, hf', hg, -, hN, -⟩ := C240_weights svd hn a w hw0
  rw [hf] at hf'
  cases hf'
  have hG := Pca2.init_ok hs hg
  have e0 := hw0 0
  have e1 := hw0 1
  have m1 : m 0 ^ 2 + m 1 ^ 2 = 1 := by
    rw [norm, Real.sqrt_eq_one, Fin.sum_univ_two] at hm
    exact hm
  have g1 : g.normal 0 ^ 2 + g.normal 1 ^ 2 = 1 := by
    have := normal2_unit hG
    rw [norm, Real.sqrt_eq_one, Fin.sum_univ_two] at this
    exact this
  -- the scaled points are on one line
  have hcol : Spec.Collinear2 (Spec.inUnits2 w a) := by
    set ρ := Real.sqrt ((w 0 * m 0) ^ 2 + (w 1 * m 1) ^ 2) with hρ
    have hpos : 0 < (w 0 * m 0) ^ 2 + (w 1 * m 1) ^ 2 := by
      by_contra h
      have h0 : (w 0 * m 0) ^ 2 = 0 := by nlinarith [sq_nonneg (w 0 * m 0), sq_nonneg (w 1 * m 1)]
      have h1 : (w 1 * m 1) ^ 2 = 0 := by nlinarith [sq_nonneg (w 0 * m 0), sq_nonneg (w 1 * m 1)]
      have a0 : m 0 = 0 := (mul_eq_zero.1 (pow_eq_zero_iff two_ne_zero |>.1 h0)).resolve_left e0
      have a1 : m 1 = 0 := (mul_eq_zero.1 (pow_eq_zero_iff two_ne_zero |>.1 h1)).resolve_left e1
      rw [a0, a1] at m1
      norm_num at m1
    have hρ2 : ρ ^ 2 = (w 0 * m 0) ^ 2 + (w 1 * m 1) ^ 2 := Real.sq_sqrt hpos.le
    have hρ0 : ρ ≠ 0 := (Real.sqrt_pos.2 hpos).ne'
    refine ⟨fun j => w j * m j / ρ, d / ρ, ?_, fun i => ?_⟩
    · rw [norm, Real.sqrt_eq_one, Fin.sum_univ_two, div_pow, div_pow, ← add_div, ← hρ2]
      exact div_self (pow_ne_zero 2 hρ0)
    · have := hp i
      simp only [Spec.OnLine2, Spec.inUnits2] at this ⊢
      rw [← this]
      field_simp
  have hz : g.s 1 = 0 := (collinear2_iff hG).2 hcol
  have hmis := normal2_misfit hG
  rw [hz, zero_pow two_ne_zero] at hmis
  have hmis' := (Finset.sum_eq_zero_iff_of_nonneg (fun i _ => sq_nonneg _)).1 hmis
  have hon : ∀ i, g.normal 0 * (a i 0 / w 0) + g.normal 1 * (a i 1 / w 1) =
      g.normal 0 * Pca2.meanRows (Spec.inUnits2 w a) 0 + g.normal 1 * Pca2.meanRows (Spec.inUnits2 w a) 1 := by
    intro i
    have := pow_eq_zero_iff two_ne_zero |>.1 (hmis' i (Finset.mem_univ i))
    rw [mulVec_centered2] at this
    exact sub_eq_zero.1 this
  obtain ⟨i, k, hik⟩ := hne
  -- the difference of two points is along the line
  set u := a i 0 - a k 0 with hu
  set v := a i 1 - a k 1 with hv
  have huv : u ≠ 0 ∨ v ≠ 0 := by
    by_contra h
    push Not at h
    exact hik (funext fun j => by
      fin_cases j
      · exact sub_eq_zero.1 h.1
      · exact sub_eq_zero.1 h.2)
  have l1 : m 0 * u + m 1 * v = 0 := by
    have hi := hp i
    have hk := hp k
    simp only [Spec.OnLine2] at hi hk
    rw [hu, hv]
    linarith
  have l2 : w 1 * g.normal 0 * u + w 0 * g.normal 1 * v = 0 := by
    have hi := hon i
    have hk := hon k
    have : g.normal 0 * (a i 0 / w 0) + g.normal 1 * (a i 1 / w 1) =
      g.normal 0 * (a k 0 / w 0) + g.normal 1 * (a k 1 / w 1) := by rw [hi, hk]
    field_simp at this
    rw [hu, hv]
    linarith
  have l3 : w 1 * g.normal 0 * m 1 = w 0 * g.normal 1 * m 0 := by
    rcases huv with h | h
    · have : (w 1 * g.normal 0 * m 1 - w 0 * g.normal 1 * m 0) * u = 0 := by
        linear_combination m 1 * l2 - w 0 * g.normal 1 * l1
      exact sub_eq_zero.1 ((mul_eq_zero.1 this).resolve_right h)
    · have : (w 1 * g.normal 0 * m 1 - w 0 * g.normal 1 * m 0) * v = 0 := by
        linear_combination w 1 * g.normal 0 * l1 - m 0 * l2
      exact sub_eq_zero.1 ((mul_eq_zero.1 this).resolve_right h)
  set t := g.normal 0 * m 0 / w 0 + g.normal 1 * m 1 / w 1 with ht
  have c0 : g.normal 0 = t * (w 0 * m 0) := by
    rw [ht]
    field_simp
    linear_combination (-(g.normal 0 * w 1)) * m1 + m 1 * l3
  have c1 : g.normal 1 = t * (w 1 * m 1) := by
    rw [ht]
    field_simp
    linear_combination (-(g.normal 1 * w 0)) * m1 - m 0 * l3
  have ht0 : t ≠ 0 := by
    intro e
    rw [c0, c1, e] at g1
    norm_num at g1
  rw [hN]
  refine ⟨⟨t, ht0, fun j => ?_⟩, ?_⟩
  · fin_cases j
    exacts [c0, c1]
  constructor
  · rintro ⟨r, hr⟩
    by_contra hall
    push Not at hall
    obtain ⟨hne, hm0, hm1⟩ := hall
    have r0 := hr 0
    have r1 := hr 1
    rw [c0] at r0
    rw [c1] at r1
    have q0 : t * w 0 = r := mul_right_cancel₀ hm0 (by linarith)
    have q1 : t * w 1 = r := mul_right_cancel₀ hm1 (by linarith)
    exact hne (mul_left_cancel₀ ht0 (q0.trans q1.symm))
  · rintro (h | h | h)
    · refine ⟨t * w 0, fun j => ?_⟩
      fin_cases j
      · show g.normal 0 = t * w 0 * m 0; rw [c0]; ring
      · show g.normal 1 = t * w 0 * m 1; rw [c1, h]; ring
    · refine ⟨t * w 1, fun j => ?_⟩
      fin_cases j
      · show g.normal 0 = t * w 1 * m 0; rw [c0, h]; ring
      · show g.normal 1 = t * w 1 * m 1; rw [c1]; ring
    · refine ⟨t * w 0, fun j => ?_⟩
      fin_cases j
      · show g.normal 0 = t * w 0 * m 0; rw [c0]; ring
      · show g.normal 1 = t * w 0 * m 1; rw [c1, h]; ring

/-- Points on a line that is not along an axis, with weights 1 and 2: the reported normal is not perpendicular
to it. -/
example : ∃ (svd : SvdFn) (f : Pca2.Fit 3) (m : Vec 2) (d : ℝ), svd.Valid ∧
    Pca2.initWith svd Witness.threeOnLine (some ![1, 2]) none = .ok (some f) ∧ norm m = 1 ∧
    (∀ i, Spec.OnLine2 m d (Witness.threeOnLine i)) ∧ ¬ ∃ t : ℝ, ∀ j, f.normal j = t * m j := by
  obtain ⟨svd, hs⟩ := Pca2.exists_valid
  obtain ⟨f, hf⟩ := (C240_accepted svd Witness.threeOnLine ![1, 2]).2.2.1 le_rfl
    (by intro j; fin_cases j <;> simp)
  obtain ⟨m, d, hm, hp⟩ := threeOnLine_collinear
  refine ⟨svd, f, m, d, hs, hf, hm, hp, ?_⟩
  rw [(C240_normal_false svd hs _ _ (by intro j; fin_cases j <;> simp) f hf m d hm hp
    ⟨0, 1, fun h => by have := congrFun h 0; simp [Witness.threeOnLine] at this⟩).2]
  have h0 := hp 0
  have h1 := hp 1
  have h2 := hp 2
  simp [Spec.OnLine2, Witness.threeOnLine] at h0 h1 h2
  have m1 : m 0 ^ 2 + m 1 ^ 2 = 1 := by
    rw [norm, Real.sqrt_eq_one, Fin.sum_univ_two] at hm
    exact hm
  rintro (h | h | h)
  · simp at h
  · have : m 1 = 0 := by nlinarith
    rw [h, this] at m1
    norm_num at m1
  · have : m 0 = 0 := by nlinarith
    rw [h, this] at m1
    norm_num at m1

end Attitude.Props
