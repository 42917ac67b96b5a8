import Verif.Props.Conics
import Verif.Props.Hyperbola
import Verif.Lemmas.Stereonet
import Verif.Lemmas.SqSvdExists

/-!
# C76 and C88–C91: error ellipses, asymptotes, parametric curves, sections
-/

namespace Attitude.Props

open Attitude Matrix Hyperbola

/-! ## C76 -/

namespace Spec

/-- A covariance matrix: symmetric and positive definite. -/
def Covariance (A : Mat 2 2) : Prop :=
  A.transpose = A ∧ ∀ x : Vec 2, x ≠ 0 → 0 < x ⬝ᵥ A *ᵥ x

/-- The squared Mahalanobis distance of `p` from `c`. -/
noncomputable def mahalanobisSq (A : Mat 2 2) (c p : Vec 2) : ℝ := (p - c) ⬝ᵥ A⁻¹ *ᵥ (p - c)

end Spec

lemma dot_self_nonneg' {k : ℕ} (w : Vec k) : 0 ≤ w ⬝ᵥ w :=
  Finset.sum_nonneg fun _ _ => mul_self_nonneg _

/-- The right singular vectors of a covariance matrix are eigenvectors. -/
lemma svd_eigen {k : ℕ} {A U V : Mat k k} {s : Vec k} (h : Conics.IsSqSVD A U s V)
    (hA : A.transpose = A) (hpos : ∀ x : Vec k, x ≠ 0 → 0 < x ⬝ᵥ A *ᵥ x) (i : Fin k) :
    A *ᵥ V i = s i • V i ∧ V i ⬝ᵥ V i = 1 ∧ 0 < s i := by
  have hVV : ∀ j, V i ⬝ᵥ V j = if i = j then 1 else 0 := by
    intro j
    have := congrFun (congrFun h.orthV i) j
    rw [Matrix.mul_apply, Matrix.one_apply] at this
    exact this
  have hAA : A.transpose * A = V.transpose * Matrix.diagonal (fun i => s i * s i) * V := by
    rw [h.recon]
    simp only [Matrix.transpose_mul, Matrix.diagonal_transpose]
    calc V.transpose * (Matrix.diagonal s * U.transpose) * (U * Matrix.diagonal s * V)
        = V.transpose * (Matrix.diagonal s * (U.transpose * U) * Matrix.diagonal s) * V := by
          simp only [Matrix.mul_assoc]
      _ = _ := by rw [h.orthU, Matrix.mul_one, Matrix.diagonal_mul_diagonal]
  have hV : V *ᵥ V i = Pi.single i 1 := by
    funext j
    have := hVV j
    rw [dotProduct_comm] at this
    change V j ⬝ᵥ V i = _
    rw [this]
    by_cases hij : i = j
    · subst hij; simp
    · rw [if_neg hij, Pi.single_eq_of_ne (Ne.symm hij)]
  have hsq : A *ᵥ (A *ᵥ V i) = (s i * s i) • V i := by
    rw [Matrix.mulVec_mulVec]
    nth_rewrite 1 [← hA]
    rw [hAA, ← Matrix.mulVec_mulVec, hV, ← Matrix.mulVec_mulVec]
    funext j
    have hd : Matrix.diagonal (fun i => s i * s i) *ᵥ (Pi.single i 1 : Vec k)
        = Pi.single i (s i * s i) := by
      funext l
      rw [Matrix.mulVec_diagonal]
      by_cases hl : l = i
      · subst hl; simp
      · simp [Pi.single_eq_of_ne hl]
    rw [hd, Matrix.mulVec_single]
    simp [mul_comm]
  have hone : V i ⬝ᵥ V i = 1 := by simpa using hVV i
  have hne : V i ≠ 0 := by
    intro h0
    rw [h0] at hone
    simp at hone
  have heig : A *ᵥ V i = s i • V i := by
    set w := A *ᵥ V i - s i • V i with hw
    have hAw : A *ᵥ w = -(s i • w) := by
      rw [hw, Matrix.mulVec_sub, hsq, Matrix.mulVec_smul]
      funext j
      simp only [Pi.sub_apply, Pi.smul_apply, Pi.neg_apply, smul_eq_mul]
      ring
    by_contra hc
    have hwne : w ≠ 0 := fun h0 => hc (sub_eq_zero.1 h0)
    have h1 := hpos w hwne
    rw [hAw, dotProduct_neg, dotProduct_smul, smul_eq_mul] at h1
    have := mul_nonneg (h.nonneg i) (dot_self_nonneg' w)
    linarith
  refine ⟨heig, hone, ?_⟩
  have := hpos _ hne
  rw [heig, dotProduct_smul, hone] at this
  simpa using this

/-- Every point of the error ellipse has Mahalanobis distance `level` from the
center, for every covariance matrix, level, number of points and valid backend;
there are `n` of them. -/
theorem C76_level (svd : Conics.SqSvd) (hs : svd.Valid) (c : Vec 2) (A : Mat 2 2)
    (hA : Spec.Covariance A) (level : ℝ) (n : ℕ) :
    (errorEllipse svd c A level n).length = n ∧
    ∀ p ∈ errorEllipse svd c A level n, Spec.mahalanobisSq A c p = level ^ 2 := by
  constructor
  · simp [errorEllipse, Stereonet.angles_length]
  intro p hp
  simp only [errorEllipse, List.mem_map] at hp
  obtain ⟨u, -, rfl⟩ := hp
  have hv := hs 2 A
  set s := (svd 2 A).2.1
  set V := (svd 2 A).2.2
  obtain ⟨e0, n0, s0⟩ := svd_eigen hv hA.1 hA.2 0
  obtain ⟨e1, n1, s1⟩ := svd_eigen hv hA.1 hA.2 1
  have hdet : A.det ≠ 0 := by
    intro hd
    obtain ⟨v, hv0, hv1⟩ := Matrix.exists_mulVec_eq_zero_iff.2 hd
    have := hA.2 v hv0
    rw [hv1] at this
    simp at this
  have hinv : ∀ i, A *ᵥ V i = s i • V i → 0 < s i → A⁻¹ *ᵥ V i = (s i)⁻¹ • V i := by
    intro i he hsi
    have h1 : A⁻¹ *ᵥ (A *ᵥ V i) = V i := by
      rw [Matrix.mulVec_mulVec, Matrix.nonsing_inv_mul _ (isUnit_iff_ne_zero.2 hdet),
        Matrix.one_mulVec]
    rw [he, Matrix.mulVec_smul] at h1
    rw [← h1, smul_smul, inv_mul_cancel₀ hsi.ne', one_smul, h1]
  have h01 : V 0 ⬝ᵥ V 1 = 0 := by
    have := congrFun (congrFun hv.orthV 0) 1
    rw [Matrix.mul_apply, Matrix.one_apply] at this
    exact this
  have h10 : V 1 ⬝ᵥ V 0 = 0 := by rw [dotProduct_comm]; exact h01
  have hrow : ∀ a b : ℝ, ![a, b] ᵥ* V = a • V 0 + b • V 1 := by
    intro a b
    funext i
    simp [Matrix.vecMul, dotProduct, Fin.sum_univ_two]
  rw [Spec.mahalanobisSq, add_sub_cancel_right, hrow, Matrix.mulVec_add, Matrix.mulVec_smul,
    Matrix.mulVec_smul, hinv 0 e0 s0, hinv 1 e1 s1]
  simp only [add_dotProduct, dotProduct_add, smul_dotProduct, dotProduct_smul, n0, n1, h01, h10,
    smul_eq_mul, mul_zero, mul_one, add_zero, zero_add]
  have q0 : Real.sqrt (s 0) ^ 2 = s 0 := Real.sq_sqrt s0.le
  have q1 : Real.sqrt (s 1) ^ 2 = s 1 := Real.sq_sqrt s1.le
  have r0 : Real.sqrt (s 0) * level * Real.cos u * ((s 0)⁻¹ * (Real.sqrt (s 0) * level * Real.cos u))
      = level ^ 2 * Real.cos u ^ 2 * (Real.sqrt (s 0) ^ 2 * (s 0)⁻¹) := by ring
  have r1 : Real.sqrt (s 1) * level * Real.sin u * ((s 1)⁻¹ * (Real.sqrt (s 1) * level * Real.sin u))
      = level ^ 2 * Real.sin u ^ 2 * (Real.sqrt (s 1) ^ 2 * (s 1)⁻¹) := by ring
  rw [r0, r1, q0, q1, mul_inv_cancel₀ s0.ne', mul_inv_cancel₀ s1.ne']
  have := Real.sin_sq_add_cos_sq u
  nlinarith

example : ∃ svd : Conics.SqSvd, svd.Valid ∧
    (errorEllipse svd ![1, 2] !![2, 1; 1, 2] 3 100).length = 100 := by
  obtain ⟨svd, hs⟩ := Conics.exists_valid_sqSvd
  refine ⟨svd, hs, (C76_level svd hs _ _ ?_ 3 100).1⟩
  constructor
  · ext i j
    fin_cases i <;> fin_cases j <;> rfl
  · intro x hx
    have e : x ⬝ᵥ !![2, 1; 1, 2] *ᵥ x = x 0 ^ 2 + x 1 ^ 2 + (x 0 + x 1) ^ 2 := by
      simp [dotProduct, Matrix.mulVec, Fin.sum_univ_two]
      ring
    rw [e]
    by_contra hn
    apply hx
    funext j
    fin_cases j <;> simp <;> nlinarith [sq_nonneg (x 0), sq_nonneg (x 1), sq_nonneg (x 0 + x 1)]

/-- The curve is closed: the first and the last point are the same. -/
theorem C76_closed (svd : Conics.SqSvd) (c : Vec 2) (A : Mat 2 2) (level : ℝ) (n : ℕ) (hn : 2 ≤ n) :
    ∃ p, (errorEllipse svd c A level n).head? = some p ∧
      (errorEllipse svd c A level n).getLast? = some p := by
  obtain ⟨m, rfl⟩ : ∃ m, n = m + 2 := ⟨n - 2, by omega⟩
  have hm : ((m : ℝ) + 1) ≠ 0 := by positivity
  have l0 : Stereonet.linspace (m + 2) 0 = 0 := by simp [Stereonet.linspace]
  have l1 : Stereonet.linspace (m + 2) (m + 1) = 2 * Real.pi := by
    rw [Stereonet.linspace, if_neg (by omega)]
    push_cast
    rw [show (m : ℝ) + 2 - 1 = m + 1 by ring]
    field_simp
  refine ⟨![Real.sqrt ((svd 2 A).2.1 0) * level, 0] ᵥ* (svd 2 A).2.2 + c, ?_, ?_⟩
  · simp [errorEllipse, Stereonet.angles, List.range_succ_eq_map, l0]
  · simp only [errorEllipse, Stereonet.angles]
    rw [List.range_succ]
    simp [l1]

/-- A concrete covariance matrix and a valid backend exist. -/
example : ∃ svd : Conics.SqSvd, svd.Valid ∧
    (errorEllipse svd ![1, 2] !![2, 1; 1, 2] 3 10).length = 10 := by
  obtain ⟨svd, hs⟩ := Conics.exists_valid_sqSvd
  refine ⟨svd, hs, (C76_level svd hs _ _ ⟨?_, ?_⟩ 3 10).1⟩
  · ext i j; fin_cases i <;> fin_cases j <;> rfl
  · intro x hx
    have he : x ⬝ᵥ !![2, 1; 1, 2] *ᵥ x = x 0 ^ 2 + x 1 ^ 2 + (x 0 + x 1) ^ 2 := by
      simp [Matrix.mulVec, dotProduct, Fin.sum_univ_two]; ring
    rw [he]
    rcases eq_or_ne (x 0) 0 with h0 | h0
    · have h1 : x 1 ≠ 0 := by
        intro h1
        apply hx
        funext i
        fin_cases i
        · exact h0
        · exact h1
      positivity
    · positivity

/-! ## C88: asymptotes -/

/-- The asymptotic cone of a quadric: directions in which its quadratic part
vanishes. -/
def Spec.Asymptotic (C : Conics.Con 3) (v : Vec 3) : Prop :=
  v ≠ 0 ∧ ∑ i, ∑ j, v i * C i.castSucc j.castSucc * v j = 0

/-- The hyperboloid `p₀x² + p₁y² - p₂z² = 1`. -/
def hyperboloid (p₀ p₁ p₂ : ℝ) : Conics.Con 3 := Conics.fromAxes ![p₀, p₁, -p₂]

lemma quad_hyperboloid (p₀ p₁ p₂ : ℝ) :
    Conics.quad (hyperboloid p₀ p₁ p₂) = Matrix.diagonal ![p₀, p₁, -p₂] := by
  unfold hyperboloid Conics.fromAxes
  rw [Conics.quad_diagonal]
  congr 1
  funext i
  exact Fin.snoc_castSucc _ _ _

lemma asymptotes_hyperboloid {p₀ p₁ p₂ : ℝ} (h0 : 0 < p₀) (h1 : 0 < p₁) (h2 : 0 < p₂) (n : ℕ) :
    asymptotes (hyperboloid p₀ p₁ p₂) n = .ok ((Stereonet.angles n).map fun u =>
      ![Real.cos u * p₀, Real.sin u * p₁, -p₂]) := by
  have hlin : Conics.lin (hyperboloid p₀ p₁ p₂) = 0 := by
    funext i
    exact Matrix.diagonal_apply_ne _ (Fin.castSucc_lt_last i).ne
  have hdet : (Conics.quad (hyperboloid p₀ p₁ p₂)).det ≠ 0 := by
    rw [quad_hyperboloid, Matrix.det_diagonal, Fin.prod_univ_three]
    simp
    exact ⟨⟨h0.ne', h1.ne'⟩, h2.ne'⟩
  have hc : Conics.center (hyperboloid p₀ p₁ p₂) = .ok 0 := by
    simp only [Conics.center, Conics.inv_ok hdet, bind, Except.bind, hlin, neg_zero,
      Matrix.mulVec_zero]
  have hz : norm (0 : Vec 3) = 0 := (norm_eq_zero_iff _).2 rfl
  simp only [asymptotes, hc, bind, Except.bind, hz, if_true, quad_hyperboloid]
  congr 2
  funext u
  funext i
  fin_cases i <;> simp [Matrix.vecMul_diagonal]

lemma asymptotic_hyperboloid (p₀ p₁ p₂ : ℝ) (v : Vec 3) :
    (∑ i, ∑ j, v i * hyperboloid p₀ p₁ p₂ i.castSucc j.castSucc * v j)
      = p₀ * v 0 ^ 2 + p₁ * v 1 ^ 2 - p₂ * v 2 ^ 2 := by
  have : ∀ i j : Fin 3, hyperboloid p₀ p₁ p₂ i.castSucc j.castSucc
      = Matrix.diagonal ![p₀, p₁, -p₂] i j := by
    intro i j
    exact congrFun (congrFun (quad_hyperboloid p₀ p₁ p₂) i) j
  simp only [this, Matrix.diagonal_apply, Fin.sum_univ_three]
  simp
  ring

/-- The directions returned are on the asymptotic cone if all three coefficients
are equal. -/
theorem C88_equal_axes_partial (p : ℝ) (hp : 0 < p) (n : ℕ) :
    ∃ l, asymptotes (hyperboloid p p p) n = .ok l ∧ l.length = n ∧
      ∀ v ∈ l, Spec.Asymptotic (hyperboloid p p p) v := by
  refine ⟨_, asymptotes_hyperboloid hp hp hp n, by simp [Stereonet.angles_length], ?_⟩
  intro v hv
  obtain ⟨u, -, rfl⟩ := List.mem_map.1 hv
  constructor
  · intro h
    have := congrFun h 2
    simp at this
    exact hp.ne' this
  · rw [asymptotic_hyperboloid]
    have := Real.sin_sq_add_cos_sq u
    simp
    have : p * (Real.cos u * p) ^ 2 + p * (Real.sin u * p) ^ 2 = p * p ^ 2 := by
      rw [mul_pow, mul_pow]
      linear_combination p * p ^ 2 * this
    linarith

example : ∃ l, asymptotes (hyperboloid 2 2 2) 100 = .ok l ∧ l.length = 100 := by
  obtain ⟨l, h, h', _⟩ := C88_equal_axes_partial 2 (by norm_num) 100
  exact ⟨l, h, h'⟩

/-- In general they are not: the first direction returned is on the cone only if
the first and the third coefficient agree. -/
theorem C88_asymptotes_false (p₀ p₁ p₂ : ℝ) (h0 : 0 < p₀) (h1 : 0 < p₁) (h2 : 0 < p₂) (n : ℕ)
    (hn : 0 < n) :
    ∃ v l, asymptotes (hyperboloid p₀ p₁ p₂) n = .ok (v :: l) ∧
      (Spec.Asymptotic (hyperboloid p₀ p₁ p₂) v ↔ p₀ = p₂) := by
  obtain ⟨m, rfl⟩ : ∃ m, n = m + 1 := ⟨n - 1, by omega⟩
  have l0 : Stereonet.linspace (m + 1) 0 = 0 := by simp [Stereonet.linspace]
  have hl : ∃ l, asymptotes (hyperboloid p₀ p₁ p₂) (m + 1) = .ok (![p₀, 0, -p₂] :: l) := by
    rw [asymptotes_hyperboloid h0 h1 h2]
    simp only [Stereonet.angles, List.range_succ_eq_map, List.map_cons, l0]
    simp only [Real.cos_zero, Real.sin_zero, one_mul, zero_mul]
    exact ⟨_, rfl⟩
  obtain ⟨l, hl⟩ := hl
  refine ⟨![p₀, 0, -p₂], l, hl, ?_⟩
  · unfold Spec.Asymptotic
    rw [asymptotic_hyperboloid]
    simp
    constructor
    · rintro ⟨-, h⟩
      have hc : p₀ ^ 3 = p₂ ^ 3 := by linear_combination h
      exact (pow_left_inj₀ h0.le h2.le (by norm_num)).1 hc
    · rintro rfl
      exact ⟨fun h => absurd h h0.ne', by ring⟩

example : ∃ v l, asymptotes (hyperboloid 3 2 1) 100 = .ok (v :: l) ∧
    ¬ Spec.Asymptotic (hyperboloid 3 2 1) v := by
  obtain ⟨v, l, h, h'⟩ := C88_asymptotes_false 3 2 1 (by norm_num) (by norm_num) (by norm_num) 100
    (by norm_num)
  exact ⟨v, l, h, fun c => by have := h'.1 c; norm_num at this⟩

/-- A hyperboloid that is not centred raises. -/
theorem C88_off_centre (C : Conics.Con 3) (c : Vec 3) (hc : Conics.center C = .ok c) (h : c ≠ 0)
    (n : ℕ) : asymptotes C n = .error .assertionError := by
  have : norm c ≠ 0 := fun h0 => h ((norm_eq_zero_iff c).1 h0)
  simp [asymptotes, hc, bind, Except.bind, this]

/-- A hyperboloid around a point ten metres to the east. -/
example : ∃ c, Conics.center (Conics.translate (hyperboloid 3 2 1) ![10, 0, 0]) = .ok c ∧ c ≠ 0 ∧
    asymptotes (Conics.translate (hyperboloid 3 2 1) ![10, 0, 0]) 100 = .error .assertionError := by
  have hdet : (Conics.quad (hyperboloid 3 2 1)).det ≠ 0 := by
    rw [quad_hyperboloid, Matrix.det_diagonal, Fin.prod_univ_three]
    simp
  have hlin : Conics.lin (hyperboloid 3 2 1) = 0 := by
    funext i
    exact Matrix.diagonal_apply_ne _ (Fin.castSucc_lt_last i).ne
  obtain ⟨c, hc, hc'⟩ := (C51_center_moves (hyperboloid 3 2 1) ![10, 0, 0]).1 hdet
  have h0 : c = 0 := by
    simp only [Conics.center, Conics.inv_ok hdet, bind, Except.bind, hlin, neg_zero,
      Matrix.mulVec_zero, Except.ok.injEq] at hc
    exact hc.symm
  have hne : c + ![10, 0, 0] ≠ 0 := by
    rw [h0, zero_add]
    intro h
    have := congrFun h 0
    simp at this
  exact ⟨_, hc', hne, C88_off_centre _ _ hc' hne 100⟩

/-! ## C89: parametric curves -/

/-- Points of `parametric.hyperbola` lie on the hyperbola with the given semiaxes
and centre, opening along y by default and along x otherwise; vertical angles are
not finite. -/
theorem C89_hyperbola (axes c : Vec 2) (h0 : axes 0 ≠ 0) (h1 : axes 1 ≠ 0) (th : ℝ) :
    (Real.cos th ≠ 0 → ∃ p q, parametricHyperbola axes c true th = some p ∧
      (p 1 - c 1) ^ 2 / axes 1 ^ 2 - (p 0 - c 0) ^ 2 / axes 0 ^ 2 = 1 ∧
      parametricHyperbola axes c false th = some q ∧
      (q 0 - c 0) ^ 2 / axes 0 ^ 2 - (q 1 - c 1) ^ 2 / axes 1 ^ 2 = 1) ∧
    (Real.cos th = 0 → ∀ o, parametricHyperbola axes c o th = none) := by
  constructor
  · intro hc
    refine ⟨_, _, by simp only [parametricHyperbola, hc, if_false, if_true]; rfl, ?_,
      by simp [parametricHyperbola, hc]; rfl, ?_⟩
    · have hs := Real.sin_sq_add_cos_sq th
      simp [Real.tan_eq_sin_div_cos]
      field_simp
      linarith
    · have hs := Real.sin_sq_add_cos_sq th
      simp [Real.tan_eq_sin_div_cos]
      field_simp
      linarith
  · intro hc o
    simp [parametricHyperbola, hc]

example : ∃ p, parametricHyperbola ![3, 2] ![1, 1] true 0 = some p ∧
    (p 1 - 1) ^ 2 / 2 ^ 2 - (p 0 - 1) ^ 2 / 3 ^ 2 = 1 := by
  obtain ⟨p, _, h, h', _⟩ := (C89_hyperbola ![3, 2] ![1, 1] (by simp) (by simp) 0).1 (by simp)
  exact ⟨p, h, h'⟩

/-- Points of `parametric.ellipse` lie on the ellipse with the given semiaxes and
centre, and every point of it is reached. -/
theorem C89_ellipse (axes c : Vec 2) (h0 : 0 < axes 0) (h1 : 0 < axes 1) (p : Vec 2) :
    (p 0 - c 0) ^ 2 / axes 0 ^ 2 + (p 1 - c 1) ^ 2 / axes 1 ^ 2 = 1 ↔
      ∃ th, parametricEllipse axes c th = p := by
  constructor
  · intro h
    refine ⟨arctan2 ((p 1 - c 1) / axes 1) ((p 0 - c 0) / axes 0), ?_⟩
    have hone : Real.sqrt (((p 0 - c 0) / axes 0) ^ 2 + ((p 1 - c 1) / axes 1) ^ 2) = 1 := by
      rw [div_pow, div_pow, h, Real.sqrt_one]
    have hc := sqrt_mul_cos_arctan2 ((p 1 - c 1) / axes 1) ((p 0 - c 0) / axes 0)
    have hs := sqrt_mul_sin_arctan2 ((p 1 - c 1) / axes 1) ((p 0 - c 0) / axes 0)
    rw [hone, one_mul] at hc hs
    funext i
    fin_cases i
    · simp [parametricEllipse, hc]; field_simp; ring
    · simp [parametricEllipse, hs]; field_simp; ring
  · rintro ⟨th, rfl⟩
    have hs := Real.sin_sq_add_cos_sq th
    simp [parametricEllipse]
    field_simp
    linarith

example : ∃ th, parametricEllipse ![3, 2] ![1, 1] th = ![4, 1] :=
  (C89_ellipse ![3, 2] ![1, 1] (by simp) (by simp) _).1 (by simp; norm_num)

/-- The line through the origin with direction `(b, a)`, drawn as a tangent of the
normal vectors, is perpendicular to the asymptote `(a, -b)` of the hyperbola with
semiaxes `a`, `b` and touches the ellipse of normal vectors in exactly one point. -/
theorem C89_normal_tangent (a b : ℝ) (ha : 0 < a) (hb : 0 < b) :
    ∃ ax c, inverseEllipse ![a, b] = some (ax, c) ∧ 0 < ax 0 ∧ 0 < ax 1 ∧
      a * b + (-b) * a = 0 ∧
      ∃! t : ℝ, (t * b) ^ 2 / ax 0 ^ 2 + (t * a - c) ^ 2 / ax 1 ^ 2 = 1 := by
  have h2 : Real.sqrt 2 ^ 2 = 2 := Real.sq_sqrt (by norm_num)
  refine ⟨fun i => 1 / (![a, b] : Vec 2) i * b ^ 2, 1 / b * b ^ 2 * Real.sqrt 2, ?_, ?_, ?_, by ring,
    ?_⟩
  · simp [inverseEllipse, ha.ne', hb.ne']
  · simp; positivity
  · simp; positivity
  · have key : ∀ t : ℝ, (t * b) ^ 2 / (1 / a * b ^ 2) ^ 2
        + (t * a - 1 / b * b ^ 2 * Real.sqrt 2) ^ 2 / (1 / b * b ^ 2) ^ 2 = 1
        ↔ (Real.sqrt 2 * (t * a / b) - 1) ^ 2 = 0 := by
      intro t
      have e : (t * b) ^ 2 / (1 / a * b ^ 2) ^ 2
          + (t * a - 1 / b * b ^ 2 * Real.sqrt 2) ^ 2 / (1 / b * b ^ 2) ^ 2 - 1
          = (Real.sqrt 2 * (t * a / b) - 1) ^ 2 := by
        field_simp
        linear_combination (b ^ 2 - t ^ 2 * a ^ 2) * h2
      rw [← e, sub_eq_zero]
    have hs : Real.sqrt 2 ≠ 0 := by positivity
    refine ⟨b / (a * Real.sqrt 2), ?_, ?_⟩
    · simp only [Matrix.cons_val_zero, Matrix.cons_val_one]
      rw [key]
      have : Real.sqrt 2 * (b / (a * Real.sqrt 2) * a / b) = 1 := by field_simp
      rw [this]; ring
    · intro t ht
      simp only [Matrix.cons_val_zero, Matrix.cons_val_one] at ht
      rw [key] at ht
      have : Real.sqrt 2 * (t * a / b) - 1 = 0 := by simpa using ht
      field_simp at this ⊢
      linarith

example : ∃ ax c, inverseEllipse ![3, 2] = some (ax, c) ∧ 0 < ax 0 := by
  obtain ⟨ax, c, h, h', _⟩ := C89_normal_tangent 3 2 (by norm_num) (by norm_num)
  exact ⟨ax, c, h, h'⟩

/-! ## C90: the quadratic formulation with a rotation -/

/-- In an unrotated frame the three values are the x value and the bottom and the
top of the band of `hyperbolic_errors` for hyperbolic axes `(cov₀, cov₁·level²/n)`. -/
theorem C90_unrotated_partial (cov : Vec 2) (h0 : 0 < cov 0) (h1 : 0 < cov 1) (x n level : ℝ)
    (hn : 0 < n) (hl : 0 < level) :
    ∃ y, hyperbolaValues ![cov 0, cov 1 * level ^ 2 / n] x = some y ∧
      regressionHyperbola cov 1 0 x n level = (x, -y, y) := by
  have hv : 0 < cov 1 * level ^ 2 / n := by positivity
  obtain ⟨y, hy, -, hq, -⟩ := C71_hyperbola_values ![cov 0, cov 1 * level ^ 2 / n]
    (by simpa using h0) (by simpa using hv)
  refine ⟨y x, hy x, ?_⟩
  have hyx : level * Real.sqrt (cov 1) * Real.sqrt (x ^ 2 / (Real.sqrt (cov 0) ^ 2 * n) + 1 / n)
      = y x := by
    rw [hq x]
    simp only [Matrix.cons_val_zero, Matrix.cons_val_one]
    rw [Real.sq_sqrt h0.le, show x ^ 2 / (cov 0 * n) + 1 / n = (x ^ 2 / cov 0 + 1) / n by
      field_simp, Real.sqrt_div' _ hn.le, Real.sqrt_div' _ hn.le, Real.sqrt_mul h1.le,
      Real.sqrt_sq hl.le]
    ring
  simp [regressionHyperbola]
  have := hyx
  simp at this
  exact this

example : ∃ y, hyperbolaValues ![2, 3 * 2 ^ 2 / 5] 7 = some y ∧
    regressionHyperbola ![2, 3] 1 0 7 5 2 = (7, -y, y) :=
  C90_unrotated_partial ![2, 3] (by norm_num) (by norm_num) 7 5 2 (by norm_num) (by norm_num)

/-- In a rotated frame the bottom value does not belong to the x value returned
with it: for every rotation that is not by a multiple of a right angle, the point
`(x, bottom)` is not on the hyperbola, in the frame of the rotation. -/
theorem C90_rotated_false (cov : Vec 2) (h0 : 0 < cov 0) (h1 : 0 < cov 1) (t : ℝ)
    (ht : Real.cos t * Real.sin t ≠ 0) :
    let R : Mat 2 2 := !![Real.cos t, Real.sin t; -Real.sin t, Real.cos t]
    let r := regressionHyperbola cov R 0 0
    let p : Vec 2 := ![r.1, r.2.1]
    (p ⬝ᵥ R 1) ^ 2 / cov 1 - (p ⬝ᵥ R 0) ^ 2 / cov 0 ≠ 1 := by
  intro R r p
  have hcs := Real.sin_sq_add_cos_sq t
  have q1 : Real.sqrt (cov 1) ^ 2 = cov 1 := Real.sq_sqrt h1.le
  have hr0 : r.1 = -(Real.sqrt (cov 1) * Real.sin t) := by simp [r, R, regressionHyperbola]
  have hr1 : r.2.1 = -(Real.sqrt (cov 1) * Real.cos t) := by simp [r, R, regressionHyperbola]
  have e1 : p ⬝ᵥ R 1 = Real.sqrt (cov 1) * (Real.sin t ^ 2 - Real.cos t ^ 2) := by
    simp only [p, R, dotProduct, Fin.sum_univ_two, hr0, hr1]
    simp
    ring
  have e0 : p ⬝ᵥ R 0 = -(2 * Real.sqrt (cov 1) * (Real.cos t * Real.sin t)) := by
    simp only [p, R, dotProduct, Fin.sum_univ_two, hr0, hr1]
    simp
    ring
  rw [e1, e0, mul_pow, q1, neg_sq, mul_pow, mul_pow, q1]
  set m := Real.cos t * Real.sin t with hm
  have hm2 : 0 < m ^ 2 := by positivity
  have e : (Real.sin t ^ 2 - Real.cos t ^ 2) ^ 2 = 1 - 4 * m ^ 2 := by
    have : (Real.sin t ^ 2 - Real.cos t ^ 2) ^ 2
        = (Real.sin t ^ 2 + Real.cos t ^ 2) ^ 2 - 4 * m ^ 2 := by rw [hm]; ring
    rw [this, hcs]; ring
  rw [e, mul_div_cancel_left₀ _ h1.ne']
  have : 0 < 2 ^ 2 * cov 1 * m ^ 2 / cov 0 := by positivity
  intro hc
  linarith

example : Real.cos (Real.pi / 4) * Real.sin (Real.pi / 4) ≠ 0 := by
  rw [Real.cos_pi_div_four, Real.sin_pi_div_four]; positivity

/-! ## C91: the error curve as a section -/

/-- The error hyperboloid in the frame of the fit, `z²/h₂ - x²/h₀ - y²/h₁ = 1`. -/
def Spec.OnErrorSurface (h w : Vec 3) : Prop :=
  w 2 ^ 2 / h 2 - w 0 ^ 2 / h 0 - w 1 ^ 2 / h 1 = 1

/-- If, after the transformation, the first viewing axis is in the plane of the fit
and the second one normal to it, both curves are the section of the error surface
by the viewing plane: the points `x·axis₁ ± y·axis₂` are on it. -/
theorem C91_aligned_partial (h : Vec 3) (hh : ∀ i, 0 < h i) (T : Mat 3 3) (hT : T.det ≠ 0)
    (ax : Vec 3 × Vec 3) (hax : cross ax.1 ax.2 ≠ 0)
    (h1 : (T *ᵥ ax.1) 2 = 0) (h2 : (T *ᵥ ax.2) 0 = 0) (h3 : (T *ᵥ ax.2) 1 = 0) (xs : List ℝ) :
    ∃ b e f, ∃ y : ℝ → ℝ, hyperbolicErrors h xs T (some ax) = .ok (some b) ∧ Spec.Frame e f ∧
      b.bottom = xs.map (fun x => x • e - y x • f) ∧
      b.top.reverse = xs.map (fun x => x • e + y x • f) ∧
      ∀ x, 0 < y x ∧ Spec.OnErrorSurface h (T *ᵥ (x • ax.1 + y x • ax.2)) ∧
        Spec.OnErrorSurface h (T *ᵥ (x • ax.1 - y x • ax.2)) := by
  obtain ⟨b, e, f, y, hb, hF, w1, w2, hy, -, hl, hu⟩ :=
    C71_hyperbolic_errors h hh T hT ax hax xs 0 false
  refine ⟨b, e, f, y, hb, hF, by simpa using hl, by simpa using hu, fun x => ?_⟩
  obtain ⟨hp, hq⟩ := hy x
  refine ⟨hp, ?_⟩
  rw [div_pow, div_pow, Real.sq_sqrt w1.le, Real.sq_sqrt w2.le, one_pow] at hq
  have e1 : Spec.weight h T ax.1 = (T *ᵥ ax.1) 0 ^ 2 / h 0 + (T *ᵥ ax.1) 1 ^ 2 / h 1 := by
    have : Spec.weight h T ax.1 = ∑ k, (T *ᵥ ax.1) k ^ 2 / h k := rfl
    rw [this, Fin.sum_univ_three, h1]
    simp
  have e2 : Spec.weight h T ax.2 = (T *ᵥ ax.2) 2 ^ 2 / h 2 := by
    have : Spec.weight h T ax.2 = ∑ k, (T *ᵥ ax.2) k ^ 2 / h k := rfl
    rw [this, Fin.sum_univ_three, h2, h3]
    simp
  have hq' : y x ^ 2 * ((T *ᵥ ax.2) 2 ^ 2 / h 2)
      - x ^ 2 * ((T *ᵥ ax.1) 0 ^ 2 / h 0 + (T *ᵥ ax.1) 1 ^ 2 / h 1) = 1 := by
    rw [← e1, ← e2]
    rw [div_div_eq_mul_div, div_div_eq_mul_div, div_one, div_one] at hq
    exact hq
  constructor
  · unfold Spec.OnErrorSurface
    rw [Matrix.mulVec_add, Matrix.mulVec_smul, Matrix.mulVec_smul]
    simp only [Pi.add_apply, Pi.smul_apply, smul_eq_mul, h1, h2, h3, mul_zero, add_zero, zero_add]
    rw [← hq']
    ring
  · unfold Spec.OnErrorSurface
    rw [Matrix.mulVec_sub, Matrix.mulVec_smul, Matrix.mulVec_smul]
    simp only [Pi.sub_apply, Pi.smul_apply, smul_eq_mul, h1, h2, h3, mul_zero, sub_zero, zero_sub]
    rw [← hq']
    ring

example := C91_aligned_partial ![9, 4, 1] (by intro i; fin_cases i <;> norm_num) 1 (by simp)
  (![3, 4, 0], ![0, 0, 1]) (by intro h; have := congrFun h 0; simp [cross] at this)
  (by simp) (by simp) (by simp) [0, 1]

/-- A plane tilted about the viewing direction: `T` rotates by the angle with
cosine 4/5 in the viewing plane. -/
noncomputable def tilt : Mat 3 3 := !![1, 0, 0; 0, 4/5, 3/5; 0, -(3/5), 4/5]

/-- For a tilted fit the curve is not the section, not even at its centre: at
`x = 0` its half-width is 1, but that of the section is `5/√7`. -/
theorem C91_tilted_false :
    tilt * tilt.transpose = 1 ∧ ∃ b e f, ∃ y : ℝ → ℝ,
      hyperbolicErrors ![1, 1, 1] [0] tilt = .ok (some b) ∧ Spec.Frame e f ∧
      b.top = [y 0 • f] ∧ b.bottom = [-(y 0 • f)] ∧ y 0 = 1 ∧
      ¬ Spec.OnErrorSurface ![1, 1, 1] (tilt *ᵥ (y 0 • ![0, 0, 1])) ∧
      Spec.OnErrorSurface ![1, 1, 1] (tilt *ᵥ ((5 / Real.sqrt 7) • ![0, 0, 1])) ∧
      Spec.OnErrorSurface ![1, 1, 1] (tilt *ᵥ (-(5 / Real.sqrt 7) • ![0, 0, 1])) := by
  have horth : tilt * tilt.transpose = 1 := by
    ext i j
    fin_cases i <;> fin_cases j <;> simp [tilt, Matrix.mul_apply, Fin.sum_univ_three] <;> norm_num
  have hdet : tilt.det ≠ 0 := by
    simp [tilt, Matrix.det_fin_three]; norm_num
  refine ⟨horth, ?_⟩
  obtain ⟨b, e, f, y, hb, hF, w1, w2, hy, -, hl, hu⟩ :=
    C71_hyperbolic_errors ![1, 1, 1] (by intro i; fin_cases i <;> norm_num) tilt hdet
      (![0, 1, 0], ![0, 0, 1]) (by intro h; have := congrFun h 0; simp [cross] at this) [0] 0 false
  have hw2 : Spec.weight ![1, 1, 1] tilt ![0, 0, 1] = 1 := by
    simp [Spec.weight, Fin.sum_univ_three, tilt]; norm_num
  have hy0 : y 0 = 1 := by
    obtain ⟨hp, hq⟩ := hy 0
    simp only [hw2, Real.sqrt_one] at hq
    norm_num at hq
    rcases hq with k | k
    · exact k
    · rw [k] at hp; norm_num at hp
  have hs7 : Real.sqrt 7 ^ 2 = 7 := Real.sq_sqrt (by norm_num)
  have hs7' : Real.sqrt 7 ≠ 0 := by positivity
  refine ⟨b, e, f, y, hb, hF, ?_, ?_, hy0, ?_, ?_, ?_⟩
  · have := congrArg List.reverse hu
    simpa using this
  · simpa using hl
  · rw [hy0]
    simp [Spec.OnErrorSurface, tilt, Matrix.mulVec, dotProduct, Fin.sum_univ_three]
    norm_num
  · simp [Spec.OnErrorSurface, tilt, Matrix.mulVec, dotProduct, Fin.sum_univ_three]
    field_simp
    rw [hs7]
    norm_num
  · simp [Spec.OnErrorSurface, tilt, Matrix.mulVec, dotProduct, Fin.sum_univ_three]
    field_simp
    rw [hs7]
    norm_num

end Attitude.Props
