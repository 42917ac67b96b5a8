import Verif.Props.ConicSpheres

/-! # Major axes of ellipses with axes along the coordinates: C59 -/

namespace Attitude.Props

open Attitude Conics Matrix

variable {d : ℕ}

/-- The ellipsoid around `c` whose semiaxes along the coordinates are `ax`, as the library builds it. -/
noncomputable def ellipsoidAt (ax c : Vec d) : Con d := translate (fromAxes fun i => 1 / ax i ^ 2) c

lemma ellipsoidAt_made {ax : Vec d} (h : ∀ i, ax i ≠ 0) (c : Vec d) :
    (fromSemiaxes ax).map (fun C => translate C c) = some (ellipsoidAt ax c) := by
  rw [fromSemiaxes_some h]; rfl

lemma ellipsoidAt_symm (ax c : Vec d) : (ellipsoidAt ax c).transpose = ellipsoidAt ax c :=
  transform_symm (fromAxes_symm _) _

lemma quad_ellipsoidAt (ax c : Vec d) :
    quad (ellipsoidAt ax c) = Matrix.diagonal fun i => 1 / ax i ^ 2 := by
  rw [ellipsoidAt, translate, quad_transform, quad_fromAxes]
  simp

lemma solve_ellipsoidAt (ax c x : Vec d) :
    solve (ellipsoidAt ax c) (augment x) = ∑ i, (x i - c i) ^ 2 / ax i ^ 2 - 1 := by
  rw [ellipsoidAt, solve_translate, solve_fromAxes]
  congr 1
  exact Finset.sum_congr rfl fun i _ => by simp; ring

lemma scalar_ellipsoidAt (ax c : Vec d) :
    -((∑ i, ∑ j, ellipsoidAt ax c i j) - ∑ i, ∑ j, quad (ellipsoidAt ax c) i j)
      = 1 + ∑ i, (2 * c i - c i ^ 2) / ax i ^ 2 := by
  have hlin : lin (ellipsoidAt ax c) = -fun i => c i / ax i ^ 2 := by
    rw [ellipsoidAt, translate, lin_transform, quad_fromAxes, lin_fromAxes]
    funext i
    simp [Matrix.mulVec_diagonal]
    ring
  have hlast : ellipsoidAt ax c (Fin.last d) (Fin.last d) = ∑ i, c i ^ 2 / ax i ^ 2 - 1 := by
    have h := solve_augment _ (ellipsoidAt_symm ax c) 0
    rw [solve_ellipsoidAt] at h
    simp at h
    rw [← h]
  rw [scalar_eq _ (ellipsoidAt_symm ax c), hlin, hlast]
  have : ∑ i, (2 * c i - c i ^ 2) / ax i ^ 2 = 2 * ∑ i, c i / ax i ^ 2 - ∑ i, c i ^ 2 / ax i ^ 2 := by
    rw [Finset.mul_sum, ← Finset.sum_sub_distrib]
    exact Finset.sum_congr rfl fun i _ => by ring
  rw [this]
  simp only [Pi.neg_apply, Finset.sum_neg_distrib]
  ring

/-- Where a right singular vector of a diagonal array is not zero, the singular value is the entry. -/
lemma svd_diagonal {svd : SqSvd} (hs : svd.Valid) {a : Vec d} (ha : ∀ i, 0 < a i) (i j : Fin d)
    (h : (svd d (Matrix.diagonal a)).2.2 i j ≠ 0) : (svd d (Matrix.diagonal a)).2.1 i = a j := by
  have hv := hs d (Matrix.diagonal a)
  set r := svd d (Matrix.diagonal a)
  have e1 : r.2.2 * (Matrix.diagonal a * Matrix.diagonal a)
      = (Matrix.diagonal r.2.1 * Matrix.diagonal r.2.1) * r.2.2 := by
    have e2 : Matrix.diagonal a * Matrix.diagonal a
        = r.2.2.transpose * (Matrix.diagonal r.2.1 * Matrix.diagonal r.2.1) * r.2.2 := by
      have e3 : Matrix.diagonal a * Matrix.diagonal a
          = (Matrix.diagonal a).transpose * Matrix.diagonal a := by rw [Matrix.diagonal_transpose]
      rw [e3, hv.recon, Matrix.transpose_mul, Matrix.transpose_mul, Matrix.diagonal_transpose]
      calc r.2.2.transpose * (Matrix.diagonal r.2.1 * r.1.transpose)
            * (r.1 * Matrix.diagonal r.2.1 * r.2.2)
          = r.2.2.transpose * (Matrix.diagonal r.2.1 * (r.1.transpose * r.1)
            * Matrix.diagonal r.2.1) * r.2.2 := by simp only [Matrix.mul_assoc]
        _ = _ := by rw [hv.orthU, Matrix.mul_one]
    rw [e2, ← Matrix.mul_assoc, ← Matrix.mul_assoc, hv.orthV, Matrix.one_mul]
  have e4 := congrFun (congrFun e1 i) j
  rw [Matrix.diagonal_mul_diagonal, Matrix.diagonal_mul_diagonal, Matrix.mul_diagonal,
    Matrix.diagonal_mul] at e4
  have e5 : r.2.1 i * r.2.1 i = a j * a j := by
    have : r.2.2 i j * (r.2.1 i * r.2.1 i - a j * a j) = 0 := by linear_combination -e4
    linarith [(mul_eq_zero.1 this).resolve_left h]
  have h0 := hv.nonneg i
  rcases mul_self_eq_mul_self_iff.1 e5 with e | e
  · exact e
  · linarith [ha j]

/-- The decomposition of a diagonal array of two different positive entries: the entries are sorted, and the
vectors are along the coordinates. -/
lemma svd_diagonal_two {svd : SqSvd} (hs : svd.Valid) {a : Vec 2} (ha : ∀ i, 0 < a i) (hne : a 0 ≠ a 1) :
    (a 1 < a 0 ∧ (svd 2 (Matrix.diagonal a)).2.1 0 = a 0 ∧ (svd 2 (Matrix.diagonal a)).2.1 1 = a 1 ∧
      (svd 2 (Matrix.diagonal a)).2.2 0 0 ^ 2 = 1 ∧ (svd 2 (Matrix.diagonal a)).2.2 0 1 = 0 ∧
      (svd 2 (Matrix.diagonal a)).2.2 1 0 = 0 ∧ (svd 2 (Matrix.diagonal a)).2.2 1 1 ^ 2 = 1) ∨
    (a 0 < a 1 ∧ (svd 2 (Matrix.diagonal a)).2.1 0 = a 1 ∧ (svd 2 (Matrix.diagonal a)).2.1 1 = a 0 ∧
      (svd 2 (Matrix.diagonal a)).2.2 0 0 = 0 ∧ (svd 2 (Matrix.diagonal a)).2.2 0 1 ^ 2 = 1 ∧
      (svd 2 (Matrix.diagonal a)).2.2 1 0 ^ 2 = 1 ∧ (svd 2 (Matrix.diagonal a)).2.2 1 1 = 0) := by
  have key := svd_diagonal hs ha
  have n0 := svd_row_norm hs (Matrix.diagonal a) 0
  have n1 := svd_row_norm hs (Matrix.diagonal a) 1
  have hv := hs 2 (Matrix.diagonal a)
  have o := congrFun (congrFun hv.orthV 0) 1
  have anti := hv.anti (show (0 : Fin 2) ≤ 1 by decide)
  simp only [Matrix.mul_apply, Matrix.transpose_apply, Fin.sum_univ_two] at o n0 n1
  rw [Matrix.one_apply_ne (by decide)] at o
  generalize svd 2 (Matrix.diagonal a) = r at *
  by_cases z : r.2.2 0 0 = 0
  · right
    rw [z] at n0 o
    have q1 : r.2.2 0 1 ^ 2 = 1 := by linarith
    have q2 : r.2.2 0 1 ≠ 0 := by intro h; rw [h] at q1; norm_num at q1
    have q3 : r.2.2 1 1 = 0 := by
      have : r.2.2 0 1 * r.2.2 1 1 = 0 := by linarith
      exact (mul_eq_zero.1 this).resolve_left q2
    rw [q3] at n1
    have q4 : r.2.2 1 0 ^ 2 = 1 := by linarith
    have q5 : r.2.2 1 0 ≠ 0 := by intro h; rw [h] at q4; norm_num at q4
    have s0 := key 0 1 q2
    have s1 := key 1 0 q5
    rw [s0, s1] at anti
    exact ⟨lt_of_le_of_ne anti hne, s0, s1, z, q1, q4, q3⟩
  · left
    have s0 := key 0 0 z
    have q1 : r.2.2 0 1 = 0 := by
      by_contra h
      exact hne (s0.symm.trans (key 0 1 h))
    rw [q1] at n0 o
    have q2 : r.2.2 1 0 = 0 := by
      have : r.2.2 0 0 * r.2.2 1 0 = 0 := by linarith
      exact (mul_eq_zero.1 this).resolve_left z
    rw [q2] at n1
    have q3 : r.2.2 1 1 ^ 2 = 1 := by linarith
    have q4 : r.2.2 1 1 ≠ 0 := by intro h; rw [h] at q3; norm_num at q3
    have s1 := key 1 1 q4
    rw [s0, s1] at anti
    exact ⟨lt_of_le_of_ne anti (Ne.symm hne), s0, s1, by linarith, q1, q2, q3⟩

/-- The major axes of every ellipse with axes along the coordinates and semiaxes `a ≠ b`: with
`κ = 1 + (2 c₀ - c₀²) / a² + (2 c₁ - c₁²) / b²`, they are `nan` if `κ < 0`, and otherwise end on the ellipse
exactly if the longer semiaxis is the first one and `κ = a² b²`. -/
theorem C59_ellipses_iff_partial (svd : SqSvd) (hs : svd.Valid) (a b : ℝ) (ha : 0 < a) (hb : 0 < b)
    (hab : a ≠ b) (c : Vec 2) :
    (fromSemiaxes ![a, b]).map (fun C => translate C c) = some (ellipsoidAt ![a, b] c) ∧
    (1 + (2 * c 0 - c 0 ^ 2) / a ^ 2 + (2 * c 1 - c 1 ^ 2) / b ^ 2 < 0 →
      majorAxes svd (ellipsoidAt ![a, b] c) = none) ∧
    (0 ≤ 1 + (2 * c 0 - c 0 ^ 2) / a ^ 2 + (2 * c 1 - c 1 ^ 2) / b ^ 2 →
      ∃ M, majorAxes svd (ellipsoidAt ![a, b] c) = some M ∧
      ((∀ i, c + M i ∈ Spec.Shell (ellipsoidAt ![a, b] c)) ↔
        b < a ∧ 1 + (2 * c 0 - c 0 ^ 2) / a ^ 2 + (2 * c 1 - c 1 ^ 2) / b ^ 2 = a ^ 2 * b ^ 2)) := by
  have hscal := scalar_ellipsoidAt ![a, b] c
  rw [Fin.sum_univ_two (fun i => (2 * c i - c i ^ 2) / ![a, b] i ^ 2), ← add_assoc] at hscal
  simp only [Matrix.cons_val_zero, Matrix.cons_val_one] at hscal
  generalize 1 + (2 * c 0 - c 0 ^ 2) / a ^ 2 + (2 * c 1 - c 1 ^ 2) / b ^ 2 = κ at hscal ⊢
  have hpos : ∀ i, 0 < (fun i => 1 / (![a, b] : Vec 2) i ^ 2) i := by
    intro i
    fin_cases i
    · show 0 < 1 / a ^ 2
      positivity
    · show 0 < 1 / b ^ 2
      positivity
  have ha2 : 0 < a ^ 2 := by positivity
  have hb2 : 0 < b ^ 2 := by positivity
  have hne : (fun i => 1 / (![a, b] : Vec 2) i ^ 2) 0 ≠ (fun i => 1 / (![a, b] : Vec 2) i ^ 2) 1 := by
    show 1 / a ^ 2 ≠ 1 / b ^ 2
    intro h
    have : a ^ 2 = b ^ 2 := by field_simp at h; linarith
    exact hab ((sq_eq_sq₀ ha.le hb.le).1 this)
  have hD := svd_diagonal_two hs hpos hne
  have hV := (hs 2 (Matrix.diagonal fun i => 1 / (![a, b] : Vec 2) i ^ 2)).nonneg
  rw [← quad_ellipsoidAt ![a, b] c] at hD hV
  simp only [Matrix.cons_val_zero, Matrix.cons_val_one] at hD
  have hs0 : ∀ i, 0 < (svd 2 (quad (ellipsoidAt ![a, b] c))).2.1 i := by
    have p0 : 0 < 1 / a ^ 2 := by positivity
    have p1 : 0 < 1 / b ^ 2 := by positivity
    intro i
    fin_cases i
    · show 0 < (svd 2 (quad (ellipsoidAt ![a, b] c))).2.1 0
      rcases hD with ⟨-, h, -⟩ | ⟨-, h, -⟩ <;> rw [h] <;> assumption
    · show 0 < (svd 2 (quad (ellipsoidAt ![a, b] c))).2.1 1
      rcases hD with ⟨-, -, h, -⟩ | ⟨-, -, h, -⟩ <;> rw [h] <;> assumption
  refine ⟨ellipsoidAt_made (fun i => by fin_cases i; exacts [ha.ne', hb.ne']) c, ?_, ?_⟩
  · intro hneg
    unfold majorAxes
    rw [if_pos]
    refine ⟨0, ?_⟩
    rw [hscal]
    exact mul_neg_of_pos_of_neg (hs0 0) hneg
  · intro hnn
    have hcond : ¬ ∃ i, (svd 2 (quad (ellipsoidAt ![a, b] c))).2.1 i
        * -((∑ i, ∑ j, ellipsoidAt ![a, b] c i j) - ∑ i, ∑ j, quad (ellipsoidAt ![a, b] c) i j) < 0 := by
      rintro ⟨i, hi⟩
      rw [hscal] at hi
      linarith [mul_nonneg (hs0 i).le hnn]
    refine ⟨_, by unfold majorAxes; rw [if_neg hcond], ?_⟩
    simp only [hscal]
    simp only [mem_shell_iff, solve_ellipsoidAt, Fin.forall_fin_two, Fin.sum_univ_two, Pi.add_apply,
      Matrix.of_apply, add_sub_cancel_left, mul_pow, Matrix.cons_val_zero, Matrix.cons_val_one,
      Real.sq_sqrt (mul_nonneg (hs0 _).le hnn)]
    rcases hD with ⟨lt, s0, s1, v00, v01, v10, v11⟩ | ⟨lt, s0, s1, v00, v01, v10, v11⟩
    · have hlt : a < b := by
        have : a ^ 2 < b ^ 2 := (one_div_lt_one_div hb2 ha2).1 lt
        exact lt_of_pow_lt_pow_left₀ 2 hb.le this
      simp only [s0, s1, v00, v01, v10, v11, ne_eq, OfNat.ofNat_ne_zero, not_false_eq_true, zero_pow,
        mul_zero, zero_div, add_zero, zero_add, mul_one, sub_eq_zero]
      constructor
      · rintro ⟨h1, h2⟩
        exfalso
        have e1 : κ = a ^ 4 := by field_simp at h1; linarith
        have e2 : κ = b ^ 4 := by field_simp at h2; linarith
        have : a ^ 4 < b ^ 4 := pow_lt_pow_left₀ hlt ha.le (by norm_num)
        linarith
      · rintro ⟨h, -⟩
        exact absurd h hlt.not_gt
    · have hlt : b < a := by
        have : b ^ 2 < a ^ 2 := (one_div_lt_one_div ha2 hb2).1 lt
        exact lt_of_pow_lt_pow_left₀ 2 ha.le this
      simp only [s0, s1, v00, v01, v10, v11, ne_eq, OfNat.ofNat_ne_zero, not_false_eq_true, zero_pow,
        mul_zero, zero_div, add_zero, zero_add, mul_one, sub_eq_zero]
      constructor
      · rintro ⟨h1, h2⟩
        refine ⟨hlt, ?_⟩
        field_simp at h1
        linarith
      · rintro ⟨-, h⟩
        rw [h]
        constructor
        · field_simp
        · field_simp

/-- An ellipse for which the ends are right, and, with its semiaxes exchanged, one for which they are not. -/
example : ∃ svd : SqSvd, svd.Valid ∧
    (∃ M, majorAxes svd (ellipsoidAt ![2, 1 / 2] 0) = some M ∧
      ∀ i, 0 + M i ∈ Spec.Shell (ellipsoidAt ![2, 1 / 2] 0)) ∧
    ∃ M, majorAxes svd (ellipsoidAt ![1 / 2, 2] 0) = some M ∧
      ¬ ∀ i, 0 + M i ∈ Spec.Shell (ellipsoidAt ![1 / 2, 2] 0) := by
  obtain ⟨svd, hs⟩ := exists_valid_sqSvd
  refine ⟨svd, hs, ?_, ?_⟩
  · obtain ⟨M, h, k⟩ := (C59_ellipses_iff_partial svd hs 2 (1 / 2) (by norm_num) (by norm_num)
      (by norm_num) 0).2.2 (by norm_num)
    exact ⟨M, h, k.2 ⟨by norm_num, by norm_num⟩⟩
  · obtain ⟨M, h, k⟩ := (C59_ellipses_iff_partial svd hs (1 / 2) 2 (by norm_num) (by norm_num)
      (by norm_num) 0).2.2 (by norm_num)
    exact ⟨M, h, fun h' => absurd (k.1 h').1 (by norm_num)⟩

end Attitude.Props
