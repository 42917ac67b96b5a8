import Verif.Props.ConicAxes
import Verif.Lemmas.SqSvdExists

/-! # Semiaxes, major axes and subtended angles: C58 - C60 -/

namespace Attitude.Props

open Attitude Conics Matrix

variable {d : ℕ}

/-! ## C58 -/

lemma fromSemiaxes_some {ax : Vec d} (h : ∀ i, ax i ≠ 0) :
    fromSemiaxes ax = some (fromAxes fun i => 1 / ax i ^ 2) := by
  unfold fromSemiaxes
  rw [if_neg (by push Not; exact h)]

lemma quad_fromAxes (f : Vec d) : quad (fromAxes f) = Matrix.diagonal f := by
  rw [fromAxes, quad_diagonal]; simp

lemma fromAxes_symm (f : Vec d) : (fromAxes f).transpose = fromAxes f := by simp [fromAxes]

lemma lin_fromAxes (f : Vec d) : lin (fromAxes f) = 0 := by
  funext i
  simp [lin, fromAxes, (Fin.castSucc_lt_last i).ne]

lemma solve_fromAxes (f x : Vec d) : solve (fromAxes f) (augment x) = ∑ i, f i * x i ^ 2 - 1 := by
  rw [solve_augment _ (fromAxes_symm f), quad_fromAxes, lin_fromAxes, zero_dotProduct]
  have h1 : (fromAxes f) (Fin.last d) (Fin.last d) = -1 := by simp [fromAxes]
  rw [h1]
  have h2 : x ⬝ᵥ (Matrix.diagonal f) *ᵥ x = ∑ i, f i * x i ^ 2 := by
    simp only [dotProduct, Matrix.mulVec_diagonal]
    exact Finset.sum_congr rfl fun i _ => by ring
  rw [h2]; ring

/-- The conic with given semiaxes is the right one, in any dimension: its inside
is the ellipsoid, and the ends of all axes are on the shell.  But `semiaxes`
returns the squares of the semiaxes. -/
theorem C58_squares_partial (a : Vec d) (h : ∀ i, 0 < a i) :
    ∃ C, fromSemiaxes a = some C ∧ semiaxes C = some (fun i => a i ^ 2) ∧
      (∀ x, x ∈ Spec.Inside C ↔ ∑ i, (x i / a i) ^ 2 ≤ 1) ∧
      (∀ x, x ∈ Spec.Shell C ↔ ∑ i, (x i / a i) ^ 2 = 1) ∧
      ∀ i, Pi.single i (a i) ∈ Spec.Shell C ∧ Pi.single i (-a i) ∈ Spec.Shell C ∧
        contains C (Pi.single i (a i)) true = true := by
  have hv : ∀ x, solve (fromAxes fun i => 1 / a i ^ 2) (augment x) = ∑ i, (x i / a i) ^ 2 - 1 := by
    intro x
    rw [solve_fromAxes]
    congr 1
    exact Finset.sum_congr rfl fun i _ => by ring
  have hshell : ∀ x, x ∈ Spec.Shell (fromAxes fun i => 1 / a i ^ 2) ↔
      ∑ i, (x i / a i) ^ 2 = 1 := by
    intro x
    rw [mem_shell_iff, hv]
    exact sub_eq_zero
  have hend : ∀ i (t : ℝ), t ^ 2 = 1 →
      Pi.single i (t * a i) ∈ Spec.Shell (fromAxes fun i => 1 / a i ^ 2) := by
    intro i t ht
    rw [hshell, Finset.sum_eq_single i]
    · simp [(h i).ne', ht]
    · intro j _ hj
      simp [hj]
    · simp
  refine ⟨_, fromSemiaxes_some fun i => (h i).ne', ?_, ?_, hshell, fun i => ?_⟩
  · unfold semiaxes
    rw [quad_fromAxes, if_neg]
    · congr 1
      funext i
      have := h i
      simp
    · push Not
      intro i
      have := h i
      simp
      exact this.ne'
  · intro x
    rw [← contains_iff]
    simp only [contains, hv]
    simp
  · have h1 := hend i 1 (by norm_num)
    have h2 := hend i (-1) (by norm_num)
    rw [one_mul] at h1
    rw [neg_one_mul] at h2
    exact ⟨h1, h2, contains_shell _ _ h1⟩

example : ∃ C, fromSemiaxes ![3, 2, 1] = some C ∧ semiaxes C = some (fun i => ![3, 2, 1] i ^ 2) := by
  obtain ⟨C, h, h', _⟩ := C58_squares_partial ![3, 2, 1] (fun i => by fin_cases i <;> simp)
  exact ⟨C, h, h'⟩

/-- The round trip holds only for unit semiaxes. -/
theorem C58_round_trip_false (a : Vec d) (h : ∀ i, 0 < a i) :
    (∃ C, fromSemiaxes a = some C ∧ semiaxes C = some a) ↔ ∀ i, a i = 1 := by
  obtain ⟨C, hC, hs, -⟩ := C58_squares_partial a h
  constructor
  · rintro ⟨C', hC', hs'⟩
    rw [hC] at hC'
    cases hC'
    rw [hs] at hs'
    intro i
    have := congrFun (Option.some.inj hs') i
    have hi := h i
    have : a i * (a i - 1) = 0 := by linear_combination this
    rcases mul_eq_zero.1 this with k | k
    · exact absurd k hi.ne'
    · linarith
  · intro h1
    refine ⟨C, hC, ?_⟩
    rw [hs]
    congr 1
    funext i
    rw [h1 i]; norm_num

/-- An ellipse with semiaxes 3 and 2. -/
example : ¬ ∃ C, fromSemiaxes (![3, 2] : Vec 2) = some C ∧ semiaxes C = some ![3, 2] := by
  rw [C58_round_trip_false]
  · intro h; have := h 0; norm_num at this
  · intro i; fin_cases i <;> simp

/-! ## Spheres -/

/-- The sphere of radius `r` around `c`, as the library builds it. -/
noncomputable def sphere (r : ℝ) (c : Vec d) : Con d :=
  translate (fromAxes fun _ => 1 / r ^ 2) c

lemma sphere_made {r : ℝ} (hr : 0 < r) (c : Vec d) :
    (fromSemiaxes fun _ : Fin d => r).map (fun C => translate C c) = some (sphere r c) := by
  rw [fromSemiaxes_some fun _ => hr.ne']; rfl

lemma sphere_symm (r : ℝ) (c : Vec d) : (sphere r c).transpose = sphere r c :=
  transform_symm (fromAxes_symm _) _

lemma solve_sphere (r : ℝ) (c x : Vec d) :
    solve (sphere r c) (augment x) = (∑ i, (x i - c i) ^ 2) / r ^ 2 - 1 := by
  rw [sphere, solve_translate, solve_fromAxes, Finset.sum_div]
  congr 1
  exact Finset.sum_congr rfl fun i _ => by simp; ring

lemma mem_sphere {r : ℝ} (hr : 0 < r) (c x : Vec d) :
    x ∈ Spec.Shell (sphere r c) ↔ norm (x - c) = r := by
  rw [mem_shell_iff, solve_sphere, sub_eq_zero, div_eq_one_iff_eq (by positivity), norm]
  simp only [Pi.sub_apply]
  constructor
  · intro h; rw [h, Real.sqrt_sq hr.le]
  · intro h
    rw [← h, Real.sq_sqrt (Finset.sum_nonneg fun _ _ => sq_nonneg _)]

lemma diagonal_const (k : ℝ) : (Matrix.diagonal fun _ : Fin d => k) = k • (1 : Mat d d) := by
  ext i j
  simp [Matrix.diagonal_apply, Matrix.one_apply]

lemma quad_sphere (r : ℝ) (c : Vec d) : quad (sphere r c) = (1 / r ^ 2) • (1 : Mat d d) := by
  rw [sphere, translate, quad_transform, quad_fromAxes, diagonal_const]; simp

lemma lin_sphere (r : ℝ) (c : Vec d) : lin (sphere r c) = -((1 / r ^ 2) • c) := by
  rw [sphere, translate, lin_transform, quad_fromAxes, lin_fromAxes, diagonal_const]
  rw [Matrix.mulVec_neg, Matrix.smul_mulVec, Matrix.one_mulVec, add_zero]
  simp

lemma last_sphere (r : ℝ) (c : Vec d) :
    sphere r c (Fin.last d) (Fin.last d) = (∑ i, c i ^ 2) / r ^ 2 - 1 := by
  have h := solve_augment _ (sphere_symm r c) 0
  rw [solve_sphere] at h
  simp at h
  rw [← h]

/-- The scalar of `major_axes`. -/
lemma scalar_eq (C : Con d) (hC : C.transpose = C) :
    (∑ i, ∑ j, C i j) - ∑ i, ∑ j, quad C i j
      = 2 * ∑ i, lin C i + C (Fin.last d) (Fin.last d) := by
  have hs : ∀ i j, C i j = C j i := fun i j => by
    conv_lhs => rw [← hC]
    rfl
  simp only [Fin.sum_univ_castSucc, quad, lin, Matrix.submatrix_apply, Finset.sum_add_distrib]
  have : ∑ x : Fin d, C (Fin.last d) x.castSucc = ∑ i : Fin d, C i.castSucc (Fin.last d) :=
    Finset.sum_congr rfl fun i _ => hs _ _
  rw [this]; ring

/-- The singular values of a positive multiple of the identity. -/
lemma svd_const {svd : SqSvd} (hs : svd.Valid) {k : ℝ} (hk : 0 ≤ k) (i : Fin d) :
    (svd d (k • (1 : Mat d d))).2.1 i = k := by
  have h := hs d (k • (1 : Mat d d))
  set r := svd d (k • (1 : Mat d d))
  have hV : r.2.2.transpose * r.2.2 = 1 := mul_eq_one_comm.1 h.orthV
  -- the product of the array with its transpose
  have hAA : Matrix.diagonal r.2.1 * Matrix.diagonal r.2.1 = (k * k) • (1 : Mat d d) := by
    have e1 : (k • (1 : Mat d d)).transpose * (k • (1 : Mat d d)) = (k * k) • (1 : Mat d d) := by
      simp [smul_smul]
    rw [h.recon] at e1
    have e2 : (r.1 * Matrix.diagonal r.2.1 * r.2.2).transpose
        * (r.1 * Matrix.diagonal r.2.1 * r.2.2)
        = r.2.2.transpose * (Matrix.diagonal r.2.1 * Matrix.diagonal r.2.1) * r.2.2 := by
      rw [Matrix.transpose_mul, Matrix.transpose_mul, Matrix.diagonal_transpose]
      calc r.2.2.transpose * (Matrix.diagonal r.2.1 * r.1.transpose)
            * (r.1 * Matrix.diagonal r.2.1 * r.2.2)
          = r.2.2.transpose * (Matrix.diagonal r.2.1 * (r.1.transpose * r.1)
            * Matrix.diagonal r.2.1) * r.2.2 := by simp only [Matrix.mul_assoc]
        _ = _ := by rw [h.orthU, Matrix.mul_one]
    rw [e2] at e1
    have e3 := congrArg (fun M => r.2.2 * M * r.2.2.transpose) e1
    rw [Matrix.mul_assoc, Matrix.mul_assoc, Matrix.mul_assoc, h.orthV, Matrix.mul_one,
      ← Matrix.mul_assoc, h.orthV, Matrix.one_mul] at e3
    rw [e3]
    simp [h.orthV]
  have hii := congrFun (congrFun hAA i) i
  rw [Matrix.diagonal_mul_diagonal] at hii
  simp at hii
  have h0 := h.nonneg i
  rcases mul_self_eq_mul_self_iff.1 hii with e | e
  · exact e
  · linarith

lemma svd_row_norm {svd : SqSvd} (hs : svd.Valid) (A : Mat d d) (i : Fin d) :
    ∑ j, (svd d A).2.2 i j ^ 2 = 1 := by
  have := congrFun (congrFun (hs d A).orthV i) i
  simp only [Matrix.mul_apply, Matrix.transpose_apply, Matrix.one_apply_eq] at this
  rw [← this]
  exact Finset.sum_congr rfl fun j _ => sq _

/-! ## C59 -/

/-- The major axes of every sphere (any dimension, radius and centre): with
`κ = r² + 2 Σ cᵢ - |c|²`, the computed axes are `nan` if `κ < 0`, and otherwise
end on the sphere exactly if `κ = r⁶`. -/
theorem C59_spheres_iff_partial (svd : SqSvd) (hs : svd.Valid) (hd : 0 < d) (r : ℝ) (hr : 0 < r)
    (c : Vec d) :
    center (sphere r c) = .ok c ∧
    (r ^ 2 + 2 * ∑ i, c i - ∑ i, c i ^ 2 < 0 → majorAxes svd (sphere r c) = none) ∧
    (0 ≤ r ^ 2 + 2 * ∑ i, c i - ∑ i, c i ^ 2 → ∃ M, majorAxes svd (sphere r c) = some M ∧
      ((∀ i, c + M i ∈ Spec.Shell (sphere r c)) ↔
        r ^ 2 + 2 * ∑ i, c i - ∑ i, c i ^ 2 = r ^ 6)) := by
  have hr2 : 0 < 1 / r ^ 2 := by positivity
  set κ := r ^ 2 + 2 * ∑ i, c i - ∑ i, c i ^ 2 with hκ
  have hscal : -((∑ i, ∑ j, sphere r c i j) - ∑ i, ∑ j, quad (sphere r c) i j) = κ / r ^ 2 := by
    rw [scalar_eq _ (sphere_symm r c), lin_sphere, last_sphere, hκ]
    simp only [Pi.neg_apply, Pi.smul_apply, smul_eq_mul, Finset.sum_neg_distrib, ← Finset.mul_sum]
    field_simp
    ring
  have hsv : ∀ i, (svd d (quad (sphere r c))).2.1 i = 1 / r ^ 2 := by
    intro i
    rw [quad_sphere]
    exact svd_const hs hr2.le i
  refine ⟨?_, ?_, ?_⟩
  · have h0 := (C51_center_moves (fromAxes fun _ : Fin d => 1 / r ^ 2) c).1 (by
      rw [quad_fromAxes, Matrix.det_diagonal]
      exact Finset.prod_ne_zero_iff.2 fun _ _ => hr2.ne')
    obtain ⟨c0, h1, h2⟩ := h0
    have hdet : (quad (fromAxes fun _ : Fin d => 1 / r ^ 2)).det ≠ 0 := by
      rw [quad_fromAxes, Matrix.det_diagonal]
      exact Finset.prod_ne_zero_iff.2 fun _ _ => hr2.ne'
    rw [center, inv_ok hdet, lin_fromAxes] at h1
    simp [bind, Except.bind] at h1
    rw [← h1, zero_add] at h2
    exact h2
  · intro hneg
    unfold majorAxes
    rw [if_pos]
    refine ⟨⟨0, hd⟩, ?_⟩
    rw [hsv, hscal]
    exact mul_neg_of_pos_of_neg hr2 (div_neg_of_neg_of_pos hneg (by positivity))
  · intro hnn
    have hcond : ¬ ∃ i, (svd d (quad (sphere r c))).2.1 i
        * -((∑ i, ∑ j, sphere r c i j) - ∑ i, ∑ j, quad (sphere r c) i j) < 0 := by
      rintro ⟨i, hi⟩
      rw [hsv, hscal] at hi
      have : 0 ≤ 1 / r ^ 2 * (κ / r ^ 2) := by positivity
      linarith
    refine ⟨_, by unfold majorAxes; rw [if_neg hcond], ?_⟩
    have hrow : ∀ i : Fin d, ∑ j, (Real.sqrt ((svd d (quad (sphere r c))).2.1 j
        * -((∑ i, ∑ j, sphere r c i j) - ∑ i, ∑ j, quad (sphere r c) i j))
        * (svd d (quad (sphere r c))).2.2 i j) ^ 2 = κ / r ^ 4 := by
      intro i
      simp only [hsv, hscal, mul_pow]
      rw [← Finset.mul_sum, svd_row_norm hs, Real.sq_sqrt (by positivity)]
      field_simp
    have hmem : ∀ i : Fin d, (c + (Matrix.of fun i j => Real.sqrt
        ((svd d (quad (sphere r c))).2.1 j
        * -((∑ i, ∑ j, sphere r c i j) - ∑ i, ∑ j, quad (sphere r c) i j))
        * (svd d (quad (sphere r c))).2.2 i j) i ∈ Spec.Shell (sphere r c)) ↔ κ = r ^ 6 := by
      intro i
      rw [mem_shell_iff, solve_sphere]
      have : ∑ j, ((c + (Matrix.of fun i j => Real.sqrt ((svd d (quad (sphere r c))).2.1 j
        * -((∑ i, ∑ j, sphere r c i j) - ∑ i, ∑ j, quad (sphere r c) i j))
        * (svd d (quad (sphere r c))).2.2 i j) i) j - c j) ^ 2 = κ / r ^ 4 := by
        rw [← hrow i]
        exact Finset.sum_congr rfl fun j _ => by simp
      rw [this, sub_eq_zero, div_div, div_eq_one_iff_eq (by positivity)]
      constructor
      · intro h; rw [h]; ring
      · intro h; rw [h]; ring
    constructor
    · intro h
      exact (hmem ⟨0, hd⟩).1 (h ⟨0, hd⟩)
    · intro h i
      exact (hmem i).2 h

example : ∃ svd : SqSvd, svd.Valid ∧ ∃ M, majorAxes svd (sphere 2 ![1, 1]) = some M := by
  obtain ⟨svd, hs⟩ := exists_valid_sqSvd
  obtain ⟨M, h, _⟩ := (C59_spheres_iff_partial svd hs (by norm_num : 0 < 2) 2 (by norm_num)
    ![1, 1]).2.2 (by simp [Fin.sum_univ_two]; norm_num)
  exact ⟨svd, hs, M, h⟩

/-- So the major axes of the unit sphere around `(2, 0, 0)`, the one of the test
suite, are right; but those of the unit sphere around `(1, 0, 0)` and of the
sphere of radius 2 around the origin do not end on the surface. -/
theorem C59_major_axes_false (svd : SqSvd) (hs : svd.Valid) :
    (∃ M, majorAxes svd (sphere 1 ![2, 0, 0]) = some M ∧
      ∀ i, ![2, 0, 0] + M i ∈ Spec.Shell (sphere 1 ![2, 0, 0])) ∧
    (∃ M, majorAxes svd (sphere 1 ![1, 0, 0]) = some M ∧
      ¬ ∀ i, ![1, 0, 0] + M i ∈ Spec.Shell (sphere 1 ![1, 0, 0])) ∧
    (∃ M, majorAxes svd (sphere 2 (0 : Vec 3)) = some M ∧
      ¬ ∀ i, 0 + M i ∈ Spec.Shell (sphere 2 (0 : Vec 3))) := by
  refine ⟨?_, ?_, ?_⟩
  · obtain ⟨M, h1, h2⟩ := (C59_spheres_iff_partial svd hs (by norm_num) 1 one_pos ![2, 0, 0]).2.2
      (by simp [Fin.sum_univ_three]; norm_num)
    exact ⟨M, h1, h2.2 (by simp [Fin.sum_univ_three]; norm_num)⟩
  · obtain ⟨M, h1, h2⟩ := (C59_spheres_iff_partial svd hs (by norm_num) 1 one_pos ![1, 0, 0]).2.2
      (by simp [Fin.sum_univ_three])
    refine ⟨M, h1, fun h => ?_⟩
    have := h2.1 h
    simp [Fin.sum_univ_three] at this
  · obtain ⟨M, h1, h2⟩ := (C59_spheres_iff_partial svd hs (by norm_num) 2 two_pos (0 : Vec 3)).2.2
      (by simp)
    refine ⟨M, h1, fun h => ?_⟩
    have := h2.1 h
    norm_num at this

/-- The hypotheses can be met: backends exist. -/
example : ∃ svd : SqSvd, svd.Valid ∧ ∃ M, majorAxes svd (sphere 1 ![2, 0, 0]) = some M := by
  obtain ⟨svd, hs⟩ := exists_valid_sqSvd
  obtain ⟨M, hM, -⟩ := (C59_major_axes_false svd hs).1
  exact ⟨svd, hs, M, hM⟩

/-! ## C60 -/

/-- Length of the in-plane axes that `slice` uses for a plane with unit normal
along `c`: the sine of the angle between `c` and the vertical, or 1 if `c` is
vertical. -/
noncomputable def Spec.axisLength (c : Vec 3) : ℝ :=
  if c 0 = 0 ∧ c 1 = 0 then 1
  else Real.sqrt (c 0 ^ 2 + c 1 ^ 2) / Real.sqrt (c 0 ^ 2 + c 1 ^ 2 + c 2 ^ 2)

/-- What `angle_subtended` computes for every sphere seen from the origin outside
of it: the tangent is `ρ / (r √(D² - r²))`, with `ρ` the axis length above,
instead of `r / √(D² - r²)`.  Hence it is the true angular radius exactly if
`ρ = r²`. -/
theorem C60_spheres_iff_partial (svd : SqSvd) (hs : svd.Valid) (r : ℝ) (hr : 0 < r) (c : Vec 3)
    (hD : r < norm c) :
    ∃ θ, angleSubtended3 svd (sphere r c) = .ok (some (θ, θ)) ∧
      θ = Real.arctan (Spec.axisLength c / (r * Real.sqrt (norm c ^ 2 - r ^ 2))) ∧
      (θ = Real.arcsin (r / norm c) ↔ Spec.axisLength c = r ^ 2) := by
  set D := norm c with hDdef
  have hD0 : 0 < D := lt_trans hr hD
  have hDsq : D ^ 2 = c 0 ^ 2 + c 1 ^ 2 + c 2 ^ 2 := by
    rw [hDdef, norm_sq', Fin.sum_univ_three]
  have hgap : 0 < D ^ 2 - r ^ 2 := by nlinarith
  -- the polar plane of the origin
  have hpp : ∀ i : Fin 3, polarPlane (sphere r c) 0 i.castSucc = -(c i / r ^ 2) := by
    intro i
    have := congrFun (lin_sphere r c) i
    simp only [lin, Pi.neg_apply, Pi.smul_apply, smul_eq_mul] at this
    simp only [polarPlane, Matrix.mulVec, dotProduct, Fin.sum_univ_castSucc (n := 3),
      augment_castSucc, augment_last, Pi.zero_apply, mul_zero, Finset.sum_const_zero, zero_add,
      mul_one]
    rw [this]; ring
  have hpl : polarPlane (sphere r c) 0 (Fin.last 3) = D ^ 2 / r ^ 2 - 1 := by
    have := last_sphere r c
    rw [Fin.sum_univ_three, ← hDsq] at this
    simp only [polarPlane, Matrix.mulVec, dotProduct, Fin.sum_univ_castSucc (n := 3),
      augment_castSucc, augment_last, Pi.zero_apply, mul_zero, Finset.sum_const_zero, zero_add,
      mul_one]
    exact this
  have hnorm : norm (fun i : Fin 3 => polarPlane (sphere r c) 0 i.castSucc) = D / r ^ 2 := by
    have : (fun i : Fin 3 => polarPlane (sphere r c) 0 i.castSucc) = fun i => -(c i / r ^ 2) :=
      funext hpp
    rw [this, norm3, show (-(c 0 / r ^ 2)) ^ 2 + (-(c 1 / r ^ 2)) ^ 2 + (-(c 2 / r ^ 2)) ^ 2
      = (D / r ^ 2) ^ 2 by rw [div_pow, hDsq]; ring, Real.sqrt_sq (by positivity)]
  have hne : D / r ^ 2 ≠ 0 := by positivity
  set n : Vec 3 := fun i => -(c i / D) with hn
  set pt : Vec 3 := fun i => c i * ((D ^ 2 - r ^ 2) / D ^ 2) with hpt
  have hN : planeNormal (polarPlane (sphere r c) 0) = some n := by
    rw [planeNormal, hessianNormal, hnorm, vdivOpt, if_neg hne, Option.map_some]
    congr 1
    funext i
    simp only [hpp, hn]
    field_simp
  have hO : planeOffset (polarPlane (sphere r c) 0) = some pt := by
    rw [planeOffset, hessianNormal, hnorm, vdivOpt, if_neg hne, Option.map_some]
    congr 1
    funext i
    simp only [hpp, hpl, hpt]
    field_simp
  -- the in-plane axes
  set ρ := Spec.axisLength c with hρ
  have hnn : n 0 ^ 2 + n 1 ^ 2 + n 2 ^ 2 = 1 := by
    simp only [hn]
    have : (-(c 0 / D)) ^ 2 + (-(c 1 / D)) ^ 2 + (-(c 2 / D)) ^ 2
        = (c 0 ^ 2 + c 1 ^ 2 + c 2 ^ 2) / D ^ 2 := by ring
    rw [this, ← hDsq]; field_simp
  obtain ⟨v1, hv1, hvn, hvρ, hρ0⟩ : ∃ v1, perpendicularVector 3 n = .ok v1 ∧ vdot n v1 = 0 ∧
      vdot v1 v1 = ρ ^ 2 ∧ 0 < ρ := by
    simp only [perpendicularVector, perpendicular3, norm_ne_zero_iff']
    by_cases h01 : c 0 = 0 ∧ c 1 = 0
    · have e1 : ¬ (cross n ![0, 0, 1] ≠ 0) := by
        push Not
        funext i
        fin_cases i <;> simp [cross, hn, h01.1, h01.2]
      have hn0 : n 0 = 0 := by simp [hn, h01.1]
      have hn1 : n 1 = 0 := by simp [hn, h01.2]
      have e2 : cross n ![0, 1, 0] ≠ 0 := by
        intro h
        have := congrFun h 0
        simp [cross] at this
        rw [hn0, hn1, this] at hnn
        norm_num at hnn
      rw [if_neg e1, if_pos e2]
      refine ⟨_, rfl, ?_, ?_, ?_⟩
      · rw [vdot3]; simp [cross]; ring
      · rw [hρ, Spec.axisLength, if_pos h01, vdot3]
        simp [cross]
        rw [hn0, hn1] at hnn
        rw [hn0]
        nlinarith
      · rw [hρ, Spec.axisLength, if_pos h01]; exact one_pos
    · have hpos : 0 < c 0 ^ 2 + c 1 ^ 2 := by
        by_contra hc
        apply h01
        constructor <;> nlinarith [sq_nonneg (c 0), sq_nonneg (c 1)]
      have e1 : cross n ![0, 0, 1] ≠ 0 := by
        intro h
        have a := congrFun h 0
        have b := congrFun h 1
        simp [cross, hn, hD0.ne'] at a b
        exact h01 ⟨b, a⟩
      rw [if_pos e1]
      have hD' : Real.sqrt (c 0 ^ 2 + c 1 ^ 2 + c 2 ^ 2) = D := by
        rw [← hDsq, Real.sqrt_sq hD0.le]
      refine ⟨_, rfl, ?_, ?_, ?_⟩
      · rw [vdot3]; simp [cross]; ring
      · rw [hρ, Spec.axisLength, if_neg h01, vdot3, hD', div_pow, Real.sq_sqrt hpos.le]
        simp [cross, hn]
        field_simp
        ring
      · rw [hρ, Spec.axisLength, if_neg h01, hD']
        have := Real.sqrt_pos.2 hpos
        positivity
  set v2 := cross v1 n with hv2
  have h12 : vdot v1 v2 = 0 := by rw [vdot3, hv2]; simp [cross]; ring
  have hn2 : vdot n v2 = 0 := by rw [vdot3, hv2]; simp [cross]; ring
  have h22 : vdot v2 v2 = ρ ^ 2 := by
    rw [vdot3] at hvn hvρ
    rw [vdot3, hv2]
    simp only [cross, Matrix.cons_val_zero, Matrix.cons_val_one, Matrix.cons_val]
    linear_combination (v1 0 * v1 0 + v1 1 * v1 1 + v1 2 * v1 2) * hnn
      - (n 0 * v1 0 + n 1 * v1 1 + n 2 * v1 2) * hvn + hvρ
  set L : Mat 3 2 := Matrix.of fun i j => ![v1, v2] j i with hL
  have hslice : slice3 (sphere r c) (polarPlane (sphere r c) 0) none
      = .ok (some (transform (sphere r c) (affine L pt), (affine L pt).transpose, pt)) := by
    simp [slice3, hN, hO, hv1, bind, Except.bind, hL, hv2]
  set con := transform (sphere r c) (affine L pt) with hcon
  -- blocks of the sliced conic
  have hLL : L.transpose * L = ρ ^ 2 • (1 : Mat 2 2) := by
    rw [vdot3] at hvρ h12 h22
    ext i j
    rw [Matrix.mul_apply, Fin.sum_univ_three]
    fin_cases i <;> fin_cases j <;> simp [hL]
    · linarith
    · linarith
    · linarith
    · linarith
  have hq : quad con = (ρ ^ 2 / r ^ 2) • (1 : Mat 2 2) := by
    rw [hcon, quad_transform, quad_sphere, Matrix.mul_smul, Matrix.mul_one, Matrix.smul_mul, hLL,
      smul_smul]
    congr 1; ring
  have hoff : quad (sphere r c) *ᵥ pt + lin (sphere r c) = (1 / D) • n := by
    rw [quad_sphere, lin_sphere]
    funext i
    simp [Matrix.smul_mulVec, hpt, hn]
    field_simp
    ring
  have hl : lin con = 0 := by
    rw [hcon, lin_transform, hoff, Matrix.mulVec_smul]
    rw [vdot3] at hvn hn2
    funext i
    fin_cases i
    · simp [Matrix.mulVec, dotProduct, Fin.sum_univ_three, hL]
      right; linarith
    · simp [Matrix.mulVec, dotProduct, Fin.sum_univ_three, hL]
      right; linarith
  have hll : con (Fin.last 2) (Fin.last 2) = r ^ 2 / D ^ 2 - 1 := by
    have h := solve_augment con (transform_symm (sphere_symm r c) _) 0
    rw [hcon, solve_transform, affine_augment, solve_sphere] at h
    simp only [Matrix.mulVec_zero, zero_add, dotProduct_zero, mul_zero] at h
    rw [hcon, ← h, Fin.sum_univ_three]
    have e : (pt 0 - c 0) ^ 2 + (pt 1 - c 1) ^ 2 + (pt 2 - c 2) ^ 2
        = (r ^ 2 / D ^ 2) ^ 2 * (c 0 ^ 2 + c 1 ^ 2 + c 2 ^ 2) := by
      simp only [hpt]
      field_simp
      ring
    rw [e, ← hDsq]
    field_simp
  have hscal : -((∑ i, ∑ j, con i j) - ∑ i, ∑ j, quad con i j) = (D ^ 2 - r ^ 2) / D ^ 2 := by
    rw [scalar_eq con (transform_symm (sphere_symm r c) _), hl, hll]
    simp
    field_simp
  have hk : 0 < ρ ^ 2 / r ^ 2 := by positivity
  have hsv : ∀ i, (svd 2 (quad con)).2.1 i = ρ ^ 2 / r ^ 2 := by
    intro i
    rw [hq]
    exact svd_const hs hk.le i
  set σ := ρ ^ 2 / r ^ 2 * ((D ^ 2 - r ^ 2) / D ^ 2) with hσ
  have hσ0 : 0 < σ := by positivity
  have hM : majorAxes svd con = some (Matrix.of fun i j => Real.sqrt σ * (svd 2 (quad con)).2.2 i j)
      := by
    unfold majorAxes
    rw [if_neg]
    · simp only [hsv, hscal, hσ]
    · rintro ⟨i, hi⟩
      rw [hsv, hscal] at hi
      linarith
  have hrow : ∀ i : Fin 2, norm ((Matrix.of fun i j => Real.sqrt σ
      * (svd 2 (quad con)).2.2 i j : Mat 2 2) i) = Real.sqrt σ := by
    intro i
    have : ∑ j, (Matrix.of fun i j => Real.sqrt σ * (svd 2 (quad con)).2.2 i j : Mat 2 2) i j ^ 2
        = σ := by
      simp only [Matrix.of_apply, mul_pow]
      rw [← Finset.mul_sum, svd_row_norm hs, Real.sq_sqrt hσ0.le, mul_one]
    rw [norm, this]
  have hB : norm pt = (D ^ 2 - r ^ 2) / D := by
    rw [norm3, show pt 0 ^ 2 + pt 1 ^ 2 + pt 2 ^ 2 = ((D ^ 2 - r ^ 2) / D) ^ 2 by
      simp only [hpt]
      have : (c 0 * ((D ^ 2 - r ^ 2) / D ^ 2)) ^ 2 + (c 1 * ((D ^ 2 - r ^ 2) / D ^ 2)) ^ 2
          + (c 2 * ((D ^ 2 - r ^ 2) / D ^ 2)) ^ 2
          = (c 0 ^ 2 + c 1 ^ 2 + c 2 ^ 2) * ((D ^ 2 - r ^ 2) / D ^ 2) ^ 2 := by ring
      rw [this, ← hDsq]
      field_simp, Real.sqrt_sq (by positivity)]
  have hval : Real.arctan (Real.sqrt σ / ((D ^ 2 - r ^ 2) / D))
      = Real.arctan (ρ / (r * Real.sqrt (D ^ 2 - r ^ 2))) := by
    congr 1
    have e : Real.sqrt σ = ρ / r * (Real.sqrt (D ^ 2 - r ^ 2) / D) := by
      rw [hσ, Real.sqrt_mul hk.le, ← div_pow, Real.sqrt_sq (by positivity),
        Real.sqrt_div hgap.le, Real.sqrt_sq hD0.le]
    have hs' := Real.sq_sqrt hgap.le
    have hsp := Real.sqrt_pos.2 hgap
    rw [e, ← hs']
    rw [Real.sqrt_sq hsp.le]
    field_simp
  refine ⟨Real.arctan (ρ / (r * Real.sqrt (D ^ 2 - r ^ 2))), ?_, rfl, ?_⟩
  · simp only [angleSubtended3, projection3, hslice, bind, Except.bind, hM]
    rw [hrow 0, hrow 1, hB, max_self, min_self, arctan2_of_pos _ (by positivity), hval]
    simp
  · have hx : r / D ∈ Set.Ioo (-1 : ℝ) 1 := by
      constructor
      · have : 0 < r / D := by positivity
        linarith
      · rw [div_lt_one hD0]; exact hD
    have hsp := Real.sqrt_pos.2 hgap
    have e : r / D / Real.sqrt (1 - (r / D) ^ 2) = r / Real.sqrt (D ^ 2 - r ^ 2) := by
      rw [show 1 - (r / D) ^ 2 = (D ^ 2 - r ^ 2) / D ^ 2 by field_simp, Real.sqrt_div hgap.le,
        Real.sqrt_sq hD0.le]
      field_simp
    rw [Real.arcsin_eq_arctan hx, e]
    constructor
    · intro h
      have := Real.arctan_injective h
      field_simp at this
      linarith
    · intro h
      rw [h]
      congr 1
      field_simp

example : ∃ svd : SqSvd, svd.Valid ∧ (2 : ℝ) < norm (![3, 0, 4] : Vec 3) := by
  obtain ⟨svd, hs⟩ := exists_valid_sqSvd
  refine ⟨svd, hs, ?_⟩
  rw [norm3]
  exact Real.lt_sqrt_of_sq_lt (by simp; norm_num)

/-- For unit spheres it is right when the centre is level with the viewpoint or
straight above or below it (the test suite's case), ... -/
theorem C60_unit_spheres_partial (svd : SqSvd) (hs : svd.Valid) (c : Vec 3) (hD : 1 < norm c)
    (hc : c 2 = 0 ∨ (c 0 = 0 ∧ c 1 = 0)) :
    angleSubtended3 svd (sphere 1 c)
      = .ok (some (Real.arcsin (1 / norm c), Real.arcsin (1 / norm c))) := by
  obtain ⟨θ, h1, -, h3⟩ := C60_spheres_iff_partial svd hs 1 one_pos c hD
  rw [h1, h3.2]
  rw [Spec.axisLength]
  split_ifs with h
  · norm_num
  · rcases hc with h2 | h2
    · have hpos : 0 < c 0 ^ 2 + c 1 ^ 2 := by
        by_contra hneg
        apply h
        constructor <;> nlinarith [sq_nonneg (c 0), sq_nonneg (c 1)]
      rw [h2, show c 0 ^ 2 + c 1 ^ 2 + 0 ^ 2 = c 0 ^ 2 + c 1 ^ 2 by ring,
        div_self (Real.sqrt_pos.2 hpos).ne']
      norm_num
    · exact absurd h2 h

example : ∃ svd : SqSvd, svd.Valid ∧ (1 : ℝ) < norm (![3, 4, 0] : Vec 3) ∧ (![3, 4, 0] : Vec 3) 2 = 0 := by
  obtain ⟨svd, hs⟩ := exists_valid_sqSvd
  refine ⟨svd, hs, ?_, rfl⟩
  rw [norm3]
  exact Real.lt_sqrt_of_sq_lt (by simp; norm_num)

/-- ... but not for a sphere of radius 2 at distance 4 along the first axis, and
not for the unit sphere around `(3, 0, 4)`. -/
theorem C60_angle_subtended_false (svd : SqSvd) (hs : svd.Valid) :
    (∃ θ, angleSubtended3 svd (sphere 2 ![4, 0, 0]) = .ok (some (θ, θ)) ∧
      θ ≠ Real.arcsin (2 / 4)) ∧
    (∃ θ, angleSubtended3 svd (sphere 1 ![3, 0, 4]) = .ok (some (θ, θ)) ∧
      θ ≠ Real.arcsin (1 / 5)) := by
  have n1 : norm (![4, 0, 0] : Vec 3) = 4 := by
    rw [norm3]; simp
  have n2 : norm (![3, 0, 4] : Vec 3) = 5 := by
    rw [norm3]
    simp
    rw [show (3 : ℝ) ^ 2 + 4 ^ 2 = 5 ^ 2 by norm_num, Real.sqrt_sq (by norm_num)]
  constructor
  · obtain ⟨θ, h1, -, h3⟩ := C60_spheres_iff_partial svd hs 2 two_pos ![4, 0, 0]
      (by rw [n1]; norm_num)
    refine ⟨θ, h1, fun h => ?_⟩
    rw [n1] at h3
    have := h3.1 h
    simp [Spec.axisLength] at this
    norm_num at this
  · obtain ⟨θ, h1, -, h3⟩ := C60_spheres_iff_partial svd hs 1 one_pos ![3, 0, 4]
      (by rw [n2]; norm_num)
    refine ⟨θ, h1, fun h => ?_⟩
    rw [n2] at h3
    have := h3.1 h
    simp [Spec.axisLength] at this
    rw [show (3 : ℝ) ^ 2 + 4 ^ 2 = 5 ^ 2 by norm_num, Real.sqrt_sq (by norm_num)] at this
    norm_num at this

example : ∃ svd : SqSvd, svd.Valid := exists_valid_sqSvd

end Attitude.Props
