import Verif.Lemmas.Conics
import Mathlib.Tactic.LinearCombination
import Mathlib.LinearAlgebra.Matrix.DotProduct

/-! # Conics and planes: C51 - C57, C61 - C63 -/

namespace Attitude.Props

open Attitude Conics Matrix

variable {d : ℕ}

namespace Spec

/-- The point set of a quadric: the zeros of its equation. -/
def Shell (C : Con d) : Set (Vec d) := {x | (∑ i, ∑ j, C (Fin.castSucc i) (Fin.castSucc j) * x i * x j)
  + (∑ i, C (Fin.castSucc i) (Fin.last d) * x i) + (∑ j, C (Fin.last d) (Fin.castSucc j) * x j)
  + C (Fin.last d) (Fin.last d) = 0}

/-- The inside of a quadric (shell included). -/
def Inside (C : Con d) : Set (Vec d) := {x | (∑ i, ∑ j, C (Fin.castSucc i) (Fin.castSucc j) * x i * x j)
  + (∑ i, C (Fin.castSucc i) (Fin.last d) * x i) + (∑ j, C (Fin.last d) (Fin.castSucc j) * x j)
  + C (Fin.last d) (Fin.last d) ≤ 0}

/-- The points of the plane `n₁ x₁ + ... + n_d x_d + c = 0`. -/
def PlanePoints (p : Vec (d + 1)) : Set (Vec d) :=
  {x | ∑ i, p (Fin.castSucc i) * x i + p (Fin.last d) = 0}

/-- A point is a centre of symmetry of a quadric. -/
def IsCentre (C : Con d) (c : Vec d) : Prop :=
  ∀ x : Vec d, solve C (augment (c + x)) = solve C (augment (c - x))

end Spec

lemma solve_expand (C : Con d) (x : Vec d) : solve C (augment x) =
    (∑ i, ∑ j, C (Fin.castSucc i) (Fin.castSucc j) * x i * x j)
  + (∑ i, C (Fin.castSucc i) (Fin.last d) * x i) + (∑ j, C (Fin.last d) (Fin.castSucc j) * x j)
  + C (Fin.last d) (Fin.last d) := by
  simp only [solve, dotProduct, Matrix.mulVec, Fin.sum_univ_castSucc, augment_castSucc,
    augment_last, mul_one, one_mul, mul_add, Finset.sum_add_distrib, Finset.mul_sum]
  have e1 : ∑ i : Fin d, ∑ j : Fin d, x i * (C i.castSucc j.castSucc * x j)
      = ∑ i : Fin d, ∑ j : Fin d, C i.castSucc j.castSucc * x i * x j :=
    Finset.sum_congr rfl fun i _ => Finset.sum_congr rfl fun j _ => by ring
  have e2 : ∑ i : Fin d, x i * C i.castSucc (Fin.last d)
      = ∑ i : Fin d, C i.castSucc (Fin.last d) * x i :=
    Finset.sum_congr rfl fun i _ => mul_comm _ _
  rw [e1, e2]
  ring

/-- `contains` decides membership of the inside. -/
lemma contains_iff (C : Con d) (x : Vec d) : contains C x = true ↔ x ∈ Spec.Inside C := by
  simp [contains, Spec.Inside, solve_expand]

lemma mem_shell_iff (C : Con d) (x : Vec d) : x ∈ Spec.Shell C ↔ solve C (augment x) = 0 := by
  rw [solve_expand]; rfl

/-- `contains(p, shell_only=True)` accepts every point of the shell. -/
lemma contains_shell (C : Con d) (x : Vec d) (h : x ∈ Spec.Shell C) : contains C x true = true := by
  rw [mem_shell_iff] at h
  simp [contains, h]
  norm_num

/-! ## C51 -/

lemma solve_translate (C : Con d) (v x : Vec d) :
    solve (translate C v) (augment x) = solve C (augment (x - v)) := by
  rw [translate, solve_transform, affine_augment, Matrix.one_mulVec, sub_eq_add_neg]

/-- The translated conic consists exactly of the moved points, both for the shell
and for the inside, as `contains` reports it. -/
theorem C51_points_move (C : Con d) (v : Vec d) :
    Spec.Shell (translate C v) = (fun p => p + v) '' Spec.Shell C ∧
    Spec.Inside (translate C v) = (fun p => p + v) '' Spec.Inside C ∧
    (∀ (x : Vec d) (b : Bool), contains (translate C v) (x + v) b = contains C x b) := by
  have key : ∀ S : Con d → Set (Vec d), (∀ x, x ∈ S (translate C v) ↔ x - v ∈ S C) →
      S (translate C v) = (fun p => p + v) '' S C := by
    intro S h
    ext x
    rw [h]
    constructor
    · intro hx; exact ⟨x - v, hx, by simp⟩
    · rintro ⟨y, hy, rfl⟩; simpa using hy
  refine ⟨key Spec.Shell fun x => ?_, key Spec.Inside fun x => ?_, fun x b => ?_⟩
  · rw [mem_shell_iff, mem_shell_iff, solve_translate]
  · rw [← contains_iff, ← contains_iff]
    simp [contains, solve_translate]
  · simp [contains, solve_translate]

/-- The centre moves along.  Conics without a unique centre raise `LinAlgError`
before and after. -/
theorem C51_center_moves (C : Con d) (v : Vec d) :
    ((quad C).det ≠ 0 → ∃ c, center C = .ok c ∧ center (translate C v) = .ok (c + v)) ∧
    ((quad C).det = 0 → center C = .error .linAlgError ∧
      center (translate C v) = .error .linAlgError) := by
  have hq : quad (translate C v) = quad C := by rw [translate, quad_transform]; simp
  have hl : lin (translate C v) = lin C - quad C *ᵥ v := by
    rw [translate, lin_transform]
    simp [Matrix.mulVec_neg, sub_eq_add_neg, add_comm]
  constructor
  · intro h
    refine ⟨(quad C)⁻¹ *ᵥ (-lin C), by simp [center, inv_ok h, bind, Except.bind], ?_⟩
    simp only [center, hq, hl, inv_ok h, bind, Except.bind]
    congr 1
    rw [neg_sub, sub_eq_add_neg, Matrix.mulVec_add, Matrix.mulVec_mulVec,
      Matrix.nonsing_inv_mul _ (isUnit_iff_ne_zero.2 h), Matrix.one_mulVec, add_comm]
  · intro h
    simp [center, hq, inv_error h, bind, Except.bind]

/-- What `center` returns is a centre of symmetry, and the only one. -/
theorem C51_center_is_centre (C : Con d) (hC : C.transpose = C) (c : Vec d)
    (h : center C = .ok c) : Spec.IsCentre C c ∧ ∀ c', Spec.IsCentre C c' → c' = c := by
  have hdet : (quad C).det ≠ 0 := by
    intro e; simp [center, inv_error e, bind, Except.bind] at h
  simp [center, inv_ok hdet, bind, Except.bind] at h
  have hQ : (quad C).transpose = quad C := by
    rw [quad, Matrix.transpose_submatrix, hC]
  have hqc : quad C *ᵥ c = -lin C := by
    rw [← h, Matrix.mulVec_mulVec,
      Matrix.mul_nonsing_inv _ (isUnit_iff_ne_zero.2 hdet), Matrix.one_mulVec]
  have hsw : ∀ x y : Vec d, x ⬝ᵥ quad C *ᵥ y = (quad C *ᵥ x) ⬝ᵥ y := by
    intro x y
    rw [Matrix.dotProduct_mulVec, ← Matrix.mulVec_transpose, hQ]
  have diff : ∀ c x : Vec d, solve C (augment (c + x)) - solve C (augment (c - x))
      = 4 * ((quad C *ᵥ c + lin C) ⬝ᵥ x) := by
    intro c x
    rw [solve_augment C hC, solve_augment C hC]
    simp only [Matrix.mulVec_add, Matrix.mulVec_sub, dotProduct_add, dotProduct_sub,
      add_dotProduct, sub_dotProduct]
    rw [hsw c x, hsw x c, hsw c c, hsw x x]
    have : (quad C *ᵥ x) ⬝ᵥ c = (quad C *ᵥ c) ⬝ᵥ x := by
      rw [← hsw x c, dotProduct_comm]
    rw [this]
    ring
  constructor
  · intro x
    have := diff c x
    rw [hqc, neg_add_cancel, zero_dotProduct, mul_zero] at this
    linarith
  · intro c' hc'
    have h0 : quad C *ᵥ c' + lin C = 0 := by
      have := diff c' (quad C *ᵥ c' + lin C)
      rw [hc' _, sub_self] at this
      exact dotProduct_self_eq_zero.1 (by linarith)
    have : quad C *ᵥ c' = quad C *ᵥ c := by
      rw [hqc]; exact eq_neg_of_add_eq_zero_left h0
    have h2 := congrArg (fun w => (quad C)⁻¹ *ᵥ w) this
    simpa [Matrix.mulVec_mulVec, Matrix.nonsing_inv_mul _ (isUnit_iff_ne_zero.2 hdet)] using h2

/-- Non-vacuity: the ellipse `(x - 3)^2 + 2 (y - 4)^2 = 1`. -/
def ellipse12 : Con 2 := !![1, 0, -3; 0, 2, -8; -3, -8, 40]

lemma ellipse12_symm : ellipse12.transpose = ellipse12 := by
  ext i j
  fin_cases i <;> fin_cases j <;> simp [ellipse12]

lemma ellipse12_quad : (quad ellipse12).det = 2 := by
  simp [quad, ellipse12, Matrix.det_fin_two]

lemma ellipse12_det : ellipse12.det = -2 := by
  rw [Matrix.det_fin_three]
  simp [ellipse12]
  norm_num

lemma ellipse12_solve (x y : ℝ) :
    solve ellipse12 (augment ![x, y]) = (x - 3) ^ 2 + 2 * (y - 4) ^ 2 - 1 := by
  have e : (augment ![x, y] : Vec 3) = ![x, y, 1] := by
    funext j
    fin_cases j <;> simp [augment, Fin.snoc]
  simp [solve, e, ellipse12, dotProduct, Matrix.mulVec, Fin.sum_univ_three]
  ring

example : ellipse12.transpose = ellipse12 ∧ ∃ c, center ellipse12 = .ok c := by
  obtain ⟨c, h, _⟩ := (C51_center_moves ellipse12 0).1 (by rw [ellipse12_quad]; norm_num)
  exact ⟨ellipse12_symm, c, h⟩

/-- Translations compose additively and can be undone. -/
theorem C51_translations_compose (C : Con d) (v w : Vec d) :
    translate (translate C v) w = translate C (v + w) ∧ translate (translate C v) (-v) = C := by
  have h : ∀ v w : Vec d, translate (translate C v) w = translate C (v + w) := by
    intro v w
    simp only [translate, transform_transform, affine_mul, Matrix.one_mulVec, mul_one]
    congr 2
    rw [neg_add, add_comm]
  refine ⟨h v w, ?_⟩
  rw [h]
  simp [translate, affine_one, transform_one]

/-- A sphere of radius 1 has a centre, and it moves. -/
example : ∃ c, center (fromAxes ![1, 1, 1] : Con 3) = .ok c ∧
    center (translate (fromAxes ![1, 1, 1]) ![2, 0, 1]) = .ok (c + ![2, 0, 1]) := by
  apply (C51_center_moves _ _).1
  rw [fromAxes3, quad_diagonal, Matrix.det_diagonal, Fin.prod_univ_three]
  simp

/-! ## C52 -/

/-- Transformations compose, keep symmetry, act on homogeneous points, and can be
undone when invertible. -/
theorem C52_transform {k e : ℕ} (C : Con d) (S : Mat (d + 1) (k + 1)) (T : Mat (k + 1) (e + 1)) :
    transform (transform C S) T = transform C (S * T) ∧
    (C.transpose = C → (transform C S).transpose = transform C S) ∧
    (∀ x, solve (transform C S) x = 0 ↔ solve C (S *ᵥ x) = 0) ∧
    (∀ x, solve (transform C S) x = solve C (S *ᵥ x)) :=
  ⟨transform_transform C S T, fun h => transform_symm h S, fun x => by rw [solve_transform],
    fun x => solve_transform C S x⟩

/-- An invertible transformation is undone by its inverse. -/
theorem C52_undo (C : Con d) (T : Mat (d + 1) (d + 1)) (h : T.det ≠ 0) :
    ∃ R, inv T = .ok R ∧ transform (transform C T) R = C ∧ transform (transform C R) T = C := by
  refine ⟨T⁻¹, inv_ok h, ?_, ?_⟩
  · rw [transform_transform, Matrix.mul_nonsing_inv _ (isUnit_iff_ne_zero.2 h), transform_one]
  · rw [transform_transform, Matrix.nonsing_inv_mul _ (isUnit_iff_ne_zero.2 h), transform_one]

/-- There are invertible transformations other than the identity. -/
example : ∃ R, inv (affine (1 : Mat 2 2) ![1, 2]) = .ok R := by
  refine ⟨_, inv_ok ?_⟩
  simp [Matrix.det_fin_three, affine, Fin.snoc]

/-! ## C53 -/

/-- The pole of the polar plane of a point is that point. -/
theorem C53_pole_of_polar (C : Con d) (h : C.det ≠ 0) (v : Vec d) :
    pole C (polarPlane C v) = .ok (some v) := by
  simp only [pole, polarPlane, inv_ok h, bind, Except.bind]
  rw [Matrix.mulVec_mulVec, Matrix.nonsing_inv_mul _ (isUnit_iff_ne_zero.2 h), Matrix.one_mulVec]
  simp [vdivOpt]

example : pole ellipse12 (polarPlane ellipse12 ![5, 6]) = .ok (some ![5, 6]) :=
  C53_pole_of_polar _ (by rw [ellipse12_det]; norm_num) _

/-- The polar plane of the pole of a plane is that plane (up to the scale of its
equation), whenever the pole is finite. -/
theorem C53_polar_of_pole (C : Con d) (p : Vec (d + 1)) (v : Vec d)
    (h : pole C p = .ok (some v)) : ∃ t : ℝ, t ≠ 0 ∧ p = t • polarPlane C v := by
  have hdet : C.det ≠ 0 := by
    intro e; simp [pole, inv_error e, bind, Except.bind] at h
  simp only [pole, inv_ok hdet, bind, Except.bind, vdivOpt, Except.ok.injEq] at h
  split_ifs at h with h0
  refine ⟨(C⁻¹ *ᵥ p) (Fin.last d), h0, ?_⟩
  have hv := Option.some.inj h
  have : (C⁻¹ *ᵥ p) (Fin.last d) • augment v = C⁻¹ *ᵥ p := by
    funext i
    refine Fin.lastCases ?_ (fun i => ?_) i
    · simp
    · rw [← hv]; simp; field_simp
  rw [polarPlane, ← Matrix.mulVec_smul, this, Matrix.mulVec_mulVec,
    Matrix.mul_nonsing_inv _ (isUnit_iff_ne_zero.2 hdet), Matrix.one_mulVec]

example : ∃ p v, pole ellipse12 p = .ok (some v) :=
  ⟨_, _, C53_pole_of_polar ellipse12 (by rw [ellipse12_det]; norm_num) ![5, 6]⟩

lemma mem_polar_iff (C : Con d) (p q : Vec d) :
    p ∈ Spec.PlanePoints (polarPlane C q) ↔ augment p ⬝ᵥ C *ᵥ augment q = 0 := by
  simp only [Spec.PlanePoints, Set.mem_ofPred_eq, polarPlane]
  conv_rhs => rw [dotProduct, Fin.sum_univ_castSucc]
  simp only [augment_castSucc, augment_last, one_mul]
  have : ∑ i : Fin d, p i * (C *ᵥ augment q) i.castSucc
      = ∑ i : Fin d, (C *ᵥ augment q) i.castSucc * p i :=
    Finset.sum_congr rfl fun i _ => mul_comm _ _
  rw [this]

lemma bilin_comm (C : Con d) (hC : C.transpose = C) (x y : Vec (d + 1)) :
    x ⬝ᵥ C *ᵥ y = y ⬝ᵥ C *ᵥ x := by
  rw [Matrix.dotProduct_mulVec, ← Matrix.mulVec_transpose, hC, dotProduct_comm]

/-- Reciprocity: a point lies on the polar of another exactly if the converse
holds. -/
theorem C53_reciprocal (C : Con d) (hC : C.transpose = C) (p q : Vec d) :
    p ∈ Spec.PlanePoints (polarPlane C q) ↔ q ∈ Spec.PlanePoints (polarPlane C p) := by
  rw [mem_polar_iff, mem_polar_iff, bilin_comm C hC]

/-- The unit circle is symmetric and invertible. -/
example : (fromAxes ![1, 1] : Con 2).det ≠ 0 ∧
    (fromAxes ![1, 1] : Con 2).transpose = fromAxes ![1, 1] := by
  constructor
  · simp [fromAxes2, Matrix.det_diagonal, Fin.prod_univ_three]
  · simp [fromAxes]

/-! ## C54 -/

lemma solve_line (C : Con d) (hC : C.transpose = C) (x p : Vec d) (t : ℝ) :
    solve C (augment (x + t • (p - x))) = (1 - t) ^ 2 * solve C (augment x)
      + 2 * t * (1 - t) * (augment x ⬝ᵥ C *ᵥ augment p) + t ^ 2 * solve C (augment p) := by
  have e : augment (x + t • (p - x)) = (1 - t) • augment x + t • augment p := by
    funext i
    refine Fin.lastCases ?_ (fun i => ?_) i
    · simp
    · simp; ring
  rw [e]
  simp only [solve, Matrix.mulVec_add, Matrix.mulVec_smul, dotProduct_add, add_dotProduct,
    dotProduct_smul, smul_dotProduct, smul_eq_mul]
  rw [bilin_comm C hC (augment p) (augment x)]
  ring

/-- For a point `x` of the conic: `x` lies on the polar plane of the viewpoint
`p` exactly if the conic's equation along the line from `x` to `p` has a double
zero at `x` (it is `t²` times its value at `p`). -/
theorem C54_polar_iff_double_contact (C : Con d) (hC : C.transpose = C) (p x : Vec d)
    (hx : x ∈ Spec.Shell C) :
    x ∈ Spec.PlanePoints (polarPlane C p) ↔
      ∀ t : ℝ, solve C (augment (x + t • (p - x))) = t ^ 2 * solve C (augment p) := by
  rw [mem_shell_iff] at hx
  rw [mem_polar_iff]
  constructor
  · intro h t
    rw [solve_line C hC, hx, h]; ring
  · intro h
    have := h (1 / 2)
    rw [solve_line C hC, hx] at this
    linarith

lemma ellipse12_tangent_point : (![4, 4] : Vec 2) ∈ Spec.Shell ellipse12 := by
  rw [mem_shell_iff, ellipse12_solve]
  norm_num

example : (![4, 4] : Vec 2) ∈ Spec.PlanePoints (polarPlane ellipse12 ![4, 10]) := by
  rw [C54_polar_iff_double_contact ellipse12 ellipse12_symm _ _ ellipse12_tangent_point]
  intro t
  have e : (![4, 4] : Vec 2) + t • (![4, 10] - ![4, 4]) = ![4, 4 + 6 * t] := by
    funext j
    fin_cases j <;> simp <;> ring
  rw [e, ellipse12_solve, ellipse12_solve]
  ring

/-- Consequently the sight line of a point on the polar plane meets the conic at
that point only, or is contained in it. -/
theorem C54_sight_line_tangent (C : Con d) (hC : C.transpose = C) (p x : Vec d)
    (hx : x ∈ Spec.Shell C) (hpl : x ∈ Spec.PlanePoints (polarPlane C p)) :
    (p ∉ Spec.Shell C → ∀ t : ℝ, x + t • (p - x) ∈ Spec.Shell C ↔ t = 0) ∧
    (p ∈ Spec.Shell C → ∀ t : ℝ, x + t • (p - x) ∈ Spec.Shell C) := by
  have h := (C54_polar_iff_double_contact C hC p x hx).1 hpl
  constructor
  · intro hp t
    rw [mem_shell_iff] at hp ⊢
    rw [h]
    constructor
    · intro e
      rcases mul_eq_zero.1 e with k | k
      · exact pow_eq_zero_iff (by norm_num) |>.1 k
      · exact absurd k hp
    · rintro rfl; ring
  · intro hp t
    rw [mem_shell_iff] at hp ⊢
    rw [h, hp, mul_zero]

example : ∀ t : ℝ, (![4, 4] : Vec 2) + t • (![4, 10] - ![4, 4]) ∈ Spec.Shell ellipse12 ↔ t = 0 := by
  refine (C54_sight_line_tangent ellipse12 ellipse12_symm ![4, 10] ![4, 4] ellipse12_tangent_point
    ?_).1 ?_
  · rw [C54_polar_iff_double_contact ellipse12 ellipse12_symm _ _ ellipse12_tangent_point]
    intro t
    have e : (![4, 4] : Vec 2) + t • (![4, 10] - ![4, 4]) = ![4, 4 + 6 * t] := by
      funext j
      fin_cases j <;> simp <;> ring
    rw [e, ellipse12_solve, ellipse12_solve]
    ring
  · intro h
    rw [mem_shell_iff, ellipse12_solve] at h
    norm_num at h

/-- Conversely, a sight line that meets the conic in a second point does not
start on the polar plane: for a viewpoint off the conic, points of the conic off
the polar plane see it through a crossing, with values of both signs nearby. -/
theorem C54_off_polar_crosses (C : Con d) (hC : C.transpose = C) (p x : Vec d)
    (hx : x ∈ Spec.Shell C) (hpl : x ∉ Spec.PlanePoints (polarPlane C p)) :
    ∀ ε > 0, ∃ t₁ t₂ : ℝ, |t₁| < ε ∧ |t₂| < ε ∧
      solve C (augment (x + t₁ • (p - x))) < 0 ∧ 0 < solve C (augment (x + t₂ • (p - x))) := by
  intro ε hε
  rw [mem_shell_iff] at hx
  rw [mem_polar_iff] at hpl
  set B := augment x ⬝ᵥ C *ᵥ augment p with hB
  set q := solve C (augment p)
  have hval : ∀ t, solve C (augment (x + t • (p - x))) = t * (2 * B + t * (q - 2 * B)) := by
    intro t; rw [solve_line C hC, hx, ← hB]; ring
  -- a small step
  set M := |q - 2 * B| + 1 with hM
  have hM0 : 0 < M := by positivity
  have hB0 : 0 < |B| := abs_pos.2 hpl
  set δ := min (ε / 2) (|B| / M) with hδ
  have hδ0 : 0 < δ := lt_min (by linarith) (by positivity)
  have hδε : δ < ε := lt_of_le_of_lt (min_le_left _ _) (by linarith)
  have hδB : δ * |q - 2 * B| < 2 * |B| := by
    have h1 : δ * M ≤ |B| := by
      have := min_le_right (ε / 2) (|B| / M)
      calc δ * M ≤ |B| / M * M := mul_le_mul_of_nonneg_right this hM0.le
        _ = |B| := by field_simp
    nlinarith [abs_nonneg (q - 2 * B)]
  have hsmall : ∀ t, |t| ≤ δ → |t * (q - 2 * B)| < 2 * |B| := by
    intro t ht
    rw [abs_mul]
    exact lt_of_le_of_lt (mul_le_mul_of_nonneg_right ht (abs_nonneg _)) hδB
  have hp := abs_lt.1 (hsmall δ (by rw [abs_of_pos hδ0]))
  have hn := abs_lt.1 (hsmall (-δ) (by rw [abs_neg, abs_of_pos hδ0]))
  have ha : |δ| < ε := by rwa [abs_of_pos hδ0]
  have ha' : |-δ| < ε := by rwa [abs_neg]
  rcases lt_or_gt_of_ne hpl with hneg | hpos
  · rw [abs_of_neg hneg] at hp hn
    refine ⟨δ, -δ, ha, ha', ?_, ?_⟩
    · rw [hval]
      exact mul_neg_of_pos_of_neg hδ0 (by linarith [hp.2])
    · rw [hval]
      exact mul_pos_of_neg_of_neg (by linarith) (by linarith [hn.2])
  · rw [abs_of_pos hpos] at hp hn
    refine ⟨-δ, δ, ha', ha, ?_, ?_⟩
    · rw [hval]
      exact mul_neg_of_neg_of_pos (by linarith) (by linarith [hn.1])
    · rw [hval]
      exact mul_pos hδ0 (by linarith [hp.1])

/-- The unit circle seen from `(2, 0)`: the point of tangency is on the shell and
on the polar plane. -/
example : ![1 / 2, Real.sqrt 3 / 2] ∈ Spec.Shell (fromAxes ![1, 1] : Con 2) ∧
    ![1 / 2, Real.sqrt 3 / 2] ∈ Spec.PlanePoints (polarPlane (fromAxes ![1, 1]) ![2, 0]) := by
  have h3 : Real.sqrt 3 * Real.sqrt 3 = 3 := Real.mul_self_sqrt (by norm_num)
  constructor
  · rw [mem_shell_iff]
    simp [solve, dotProduct, fromAxes, Fin.sum_univ_three, Matrix.mulVec_diagonal, Fin.snoc,
      augment]
    linarith
  · rw [mem_polar_iff]
    simp [dotProduct, fromAxes, Fin.sum_univ_three, Matrix.mulVec_diagonal, Fin.snoc,
      augment]

/-! ## C56 -/

/-- Taking the dual twice gives the conic back, and keeps symmetry; singular
conics raise. -/
theorem C56_involution (C : Con d) :
    (C.det ≠ 0 → ∃ D, dual C = .ok D ∧ dual D = .ok C ∧ (C.transpose = C → D.transpose = D)) ∧
    (C.det = 0 → dual C = .error .linAlgError) := by
  constructor
  · intro h
    have hu : IsUnit C.det := isUnit_iff_ne_zero.2 h
    have hd : C⁻¹.det ≠ 0 := by
      rw [Matrix.det_nonsing_inv]
      simpa using h
    refine ⟨C⁻¹, inv_ok h, ?_, fun hs => ?_⟩
    · rw [dual, inv_ok hd, Matrix.nonsing_inv_nonsing_inv _ hu]
    · rw [Matrix.transpose_nonsing_inv, hs]
  · intro h
    exact inv_error h

/-- The dual's points are exactly the tangent planes: a plane (as homogeneous
vector) satisfies the dual's equation iff it is the polar of some homogeneous
point that satisfies the equation of the conic. -/
theorem C56_tangent_planes (C D : Con d) (hC : C.transpose = C) (hD : dual C = .ok D)
    (p : Vec (d + 1)) :
    solve D p = 0 ↔ ∃ x, solve C x = 0 ∧ p = C *ᵥ x := by
  have h : C.det ≠ 0 := by
    intro e; simp [dual, inv_error e] at hD
  simp only [dual, inv_ok h, Except.ok.injEq] at hD
  have hu : IsUnit C.det := isUnit_iff_ne_zero.2 h
  have hs : D.transpose = D := by rw [← hD, Matrix.transpose_nonsing_inv, hC]
  have key : ∀ x, solve D (C *ᵥ x) = solve C x := by
    intro x
    rw [solve, solve, ← hD, Matrix.mulVec_mulVec, Matrix.nonsing_inv_mul _ hu, Matrix.one_mulVec,
      dotProduct_comm]
  constructor
  · intro hp
    refine ⟨D *ᵥ p, ?_, ?_⟩
    · rw [← key, Matrix.mulVec_mulVec, ← hD, Matrix.mul_nonsing_inv _ hu, Matrix.one_mulVec, hD, hp]
    · rw [Matrix.mulVec_mulVec, ← hD, Matrix.mul_nonsing_inv _ hu, Matrix.one_mulVec]
  · rintro ⟨x, hx, rfl⟩
    rw [key, hx]

example : ∃ D, ellipse12.transpose = ellipse12 ∧ dual ellipse12 = .ok D := by
  obtain ⟨D, h, _⟩ := (C56_involution ellipse12).1 (by rw [ellipse12_det]; norm_num)
  exact ⟨D, ellipse12_symm, h⟩

/-! ## C57 -/

/-- Exactly one of the three predicates holds. -/
theorem C57_exactly_one_type (C : Con d) :
    (isElliptical C = true ∧ isHyperbolic C = false ∧ isParabolic C = false) ∨
    (isElliptical C = false ∧ isHyperbolic C = true ∧ isParabolic C = false) ∨
    (isElliptical C = false ∧ isHyperbolic C = false ∧ isParabolic C = true) := by
  simp only [isElliptical, isHyperbolic, isParabolic, decide_eq_true_eq, decide_eq_false_iff_not]
  rcases lt_trichotomy (type C) 0 with h | h | h
  · right; left; exact ⟨by linarith, h, h.ne⟩
  · right; right; exact ⟨by linarith, by linarith, h⟩
  · left; exact ⟨h, by linarith, h.ne'⟩

/-- Translations and invertible linear (affine) maps keep the type. -/
theorem C57_type_kept (C : Con d) (L : Mat d d) (t : Vec d) (h : L.det ≠ 0) :
    isElliptical (transform C (affine L t)) = isElliptical C ∧
    isHyperbolic (transform C (affine L t)) = isHyperbolic C ∧
    isParabolic (transform C (affine L t)) = isParabolic C ∧
    isElliptical (translate C t) = isElliptical C ∧
    isHyperbolic (translate C t) = isHyperbolic C ∧
    isParabolic (translate C t) = isParabolic C := by
  have h2 : 0 < L.det * L.det := mul_self_pos.2 h
  have e1 : type (transform C (affine L t)) = L.det * L.det * type C := by
    rw [type, quad_transform, Matrix.det_mul, Matrix.det_mul, Matrix.det_transpose, type]; ring
  have e2 : type (translate C t) = type C := by
    rw [type, translate, quad_transform, type]; simp
  simp only [isElliptical, isHyperbolic, isParabolic, e1, e2, decide_eq_decide]
  refine ⟨mul_pos_iff_of_pos_left h2, ⟨fun k => ?_, fun k => ?_⟩, ?_, trivial, trivial, trivial⟩
  · by_contra hc
    nlinarith
  · nlinarith
  rw [mul_eq_zero]
  constructor
  · rintro (k | k)
    · exact absurd k h2.ne'
    · exact k
  · exact Or.inr

example : isElliptical (transform ellipse12 (affine !![2, 1; 0, 1] ![1, 2])) = isElliptical ellipse12 :=
  (C57_type_kept ellipse12 !![2, 1; 0, 1] ![1, 2] (by simp [Matrix.det_fin_two])).1

/-- In two dimensions an elliptical conic has a definite quadratic part, so its
point set is bounded: an ellipse, a point or empty. -/
theorem C57_elliptical_2d_partial (C : Con 2) (hC : C.transpose = C) (h : isElliptical C = true) :
    (∀ x : Vec 2, x ≠ 0 → 0 < x ⬝ᵥ quad C *ᵥ x) ∨ (∀ x : Vec 2, x ≠ 0 → x ⬝ᵥ quad C *ᵥ x < 0) := by
  simp only [isElliptical, decide_eq_true_eq, type, Matrix.det_fin_two] at h
  have hs : quad C 1 0 = quad C 0 1 := by
    have : (quad C).transpose = quad C := by rw [quad, Matrix.transpose_submatrix, hC]
    exact congrFun (congrFun this 0) 1
  rw [hs] at h
  set a := quad C 0 0
  set b := quad C 0 1
  set c := quad C 1 1
  have ha : a ≠ 0 := by rintro e; rw [e] at h; nlinarith [mul_self_nonneg b]
  have hval : ∀ x : Vec 2, x ⬝ᵥ quad C *ᵥ x = a * x 0 ^ 2 + 2 * b * x 0 * x 1 + c * x 1 ^ 2 := by
    intro x
    simp only [dotProduct, Matrix.mulVec, Fin.sum_univ_two, hs]
    ring
  have hmul : ∀ x : Vec 2, a * (x ⬝ᵥ quad C *ᵥ x)
      = (a * x 0 + b * x 1) ^ 2 + (a * c - b * b) * x 1 ^ 2 := by
    intro x; rw [hval]; ring
  have hpos : ∀ x : Vec 2, x ≠ 0 → 0 < a * (x ⬝ᵥ quad C *ᵥ x) := by
    intro x hx
    rw [hmul]
    by_cases h1 : x 1 = 0
    · have h0 : x 0 ≠ 0 := by
        intro h0
        apply hx
        funext i
        fin_cases i
        · exact h0
        · exact h1
      rw [h1]
      have : 0 < (a * x 0) ^ 2 := by positivity
      nlinarith
    · have : 0 < x 1 ^ 2 := by positivity
      nlinarith [sq_nonneg (a * x 0 + b * x 1)]
  rcases lt_or_gt_of_ne ha with hneg | hp
  · right
    intro x hx
    have := hpos x hx
    nlinarith
  · left
    intro x hx
    have := hpos x hx
    nlinarith

example : ellipse12.transpose = ellipse12 ∧ isElliptical ellipse12 = true :=
  ⟨ellipse12_symm, by simp [isElliptical, type, ellipse12_quad]⟩

/-- In three dimensions `is_elliptical` also accepts hyperboloids: the quadric
`z² - x² - y² = 1` is reported elliptical though it is unbounded. -/
theorem C57_elliptical_3d_false :
    isElliptical (fromAxes ![-1, -1, 1] : Con 3) = true ∧
    ∀ R : ℝ, ∃ x ∈ Spec.Shell (fromAxes ![-1, -1, 1] : Con 3), R < x 0 := by
  constructor
  · rw [isElliptical, type, fromAxes3, quad_diagonal, Matrix.det_diagonal, Fin.prod_univ_three]
    simp
  · intro R
    refine ⟨![R + 1, 0, Real.sqrt (1 + (R + 1) ^ 2)], ?_, by simp⟩
    rw [mem_shell_iff]
    have h3 := Real.sq_sqrt (by positivity : (0 : ℝ) ≤ 1 + (R + 1) ^ 2)
    simp [solve, dotProduct, fromAxes3, augment3, Fin.sum_univ_four, Matrix.mulVec_diagonal]
    nlinarith

/-- In any dimension it also accepts empty quadrics, such as
`x² + y² + 1 = 0`. -/
theorem C57_elliptical_empty_false :
    isElliptical (Matrix.diagonal ![1, 1, 1] : Con 2) = true ∧
    Spec.Shell (Matrix.diagonal ![1, 1, 1] : Con 2) = ∅ := by
  constructor
  · simp only [isElliptical, decide_eq_true_eq, type, Matrix.det_fin_two]
    simp [quad, Matrix.diagonal]
  · ext x
    rw [mem_shell_iff]
    simp [solve, dotProduct, Fin.sum_univ_three, Matrix.mulVec_diagonal, augment, Fin.snoc]
    nlinarith [mul_self_nonneg (x 0), mul_self_nonneg (x 1)]

end Attitude.Props
