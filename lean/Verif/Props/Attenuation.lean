import Verif.Props.LinearOrientation
import Verif.Props.Stability

/-!
# C198: the dip of the regression and the dip of the principal component fit
-/

namespace Attitude.Props

open Attitude Linear Matrix Pca

/-! ## Helper lemmas -/

lemma gram_row {m : ℕ} {A U : Mat m 3} {s : Vec 3} {V : Mat 3 3} (h : IsSVD A U s V) (i : Fin 3) :
    A.transpose *ᵥ (A *ᵥ V i) = s i ^ 2 • V i := by
  have hA : A *ᵥ V i = U *ᵥ (s i • Pi.single i 1) := by
    rw [h.recon, ← Matrix.mulVec_mulVec, ← Matrix.mulVec_mulVec, h.V_row]
    congr 1
    funext j
    rw [Matrix.mulVec_diagonal]
    by_cases hj : j = i
    · subst hj; simp
    · simp [hj]
  rw [hA, h.recon, Matrix.transpose_mul, Matrix.transpose_mul, Matrix.diagonal_transpose,
    ← Matrix.mulVec_mulVec, ← Matrix.mulVec_mulVec, Matrix.mulVec_mulVec (M := U.transpose), h.orthU,
    Matrix.one_mulVec]
  funext j
  have : Matrix.diagonal s *ᵥ (s i • Pi.single i 1) = s i ^ 2 • Pi.single i 1 := by
    funext k
    rw [Matrix.mulVec_diagonal]
    by_cases hk : k = i
    · subst hk; simp [sq]
    · simp [hk]
  rw [this, Matrix.mulVec_smul]
  simp [Matrix.mulVec_single]

/-- What relates the horizontal part `p` of the principal normal `v`, and the gradient `b` of the
regression: with `w = p + v₂ b`, the length of `w` is at most its projection on `p`. -/
lemma attenuation_core {n : ℕ} {a : Fin n → Vec 3} {U : Mat n 3} {s : Vec 3} {V : Mat 3 3}
    (h : IsSVD (Matrix.of (Coordinates.centered a)) U s V) {r : Regression n}
    (hr : initRows a = .ok r) {c : Vec 3} (hc : (coefficients r).1 = .ok c) :
    let v := V 2
    let w0 := v 0 + v 2 * c 0
    let w1 := v 1 + v 2 * c 1
    w0 ^ 2 + w1 ^ 2 ≤ w0 * v 0 + w1 * v 1 ∧
      (w0 = 0 ∧ w1 = 0 ↔ s 2 = 0 ∨ (v 0 = 0 ∧ v 1 = 0)) ∧
      (v 2 = 0 → v 0 * c 0 + v 1 * c 1 = 0) := by
  intro v w0 w1
  have h2 := intercept_zero hr hc
  obtain ⟨_, o1, o2⟩ := residual_orthogonal hr hc
  have hncol : ¬ Spec.CollinearInPlan a := (C31_singular_iff a r hr).2.1 ⟨c, hc⟩
  have hg := gram_row h 2
  set x := Coordinates.centered a with hx
  set Sxx := ∑ i, x i 0 * x i 0 with hSxx
  set Sxy := ∑ i, x i 0 * x i 1 with hSxy
  set Syy := ∑ i, x i 1 * x i 1 with hSyy
  set Sxz := ∑ i, x i 0 * x i 2 with hSxz
  set Syz := ∑ i, x i 1 * x i 2 with hSyz
  set Szz := ∑ i, x i 2 * x i 2 with hSzz
  have q1 : Sxz = c 0 * Sxx + c 1 * Sxy := by
    have : ∑ i, x i 0 * (x i 2 - (c 0 * x i 0 + c 1 * x i 1 + c 2)) =
        Sxz - (c 0 * Sxx + c 1 * Sxy) := by
      rw [h2, hSxz, hSxx, hSxy, Finset.mul_sum, Finset.mul_sum, ← Finset.sum_add_distrib,
        ← Finset.sum_sub_distrib]
      exact Finset.sum_congr rfl fun i _ => by ring
    linarith [o1]
  have q2 : Syz = c 0 * Sxy + c 1 * Syy := by
    have : ∑ i, x i 1 * (x i 2 - (c 0 * x i 0 + c 1 * x i 1 + c 2)) =
        Syz - (c 0 * Sxy + c 1 * Syy) := by
      rw [h2, hSyz, hSxy, hSyy, Finset.mul_sum, Finset.mul_sum, ← Finset.sum_add_distrib,
        ← Finset.sum_sub_distrib]
      exact Finset.sum_congr rfl fun i _ => by ring
    linarith [o2]
  have e0 : Sxx * v 0 + Sxy * v 1 + Sxz * v 2 = s 2 ^ 2 * v 0 := by
    have := congrFun hg 0
    simp only [Matrix.mulVec, dotProduct, Matrix.transpose_apply, Fin.sum_univ_three,
      Pi.smul_apply, smul_eq_mul] at this
    rw [← this, hSxx, hSxy, hSxz, Finset.sum_mul, Finset.sum_mul, Finset.sum_mul,
      ← Finset.sum_add_distrib, ← Finset.sum_add_distrib]
    exact Finset.sum_congr rfl fun i _ => by simp only [Matrix.of_apply]; ring
  have e1 : Sxy * v 0 + Syy * v 1 + Syz * v 2 = s 2 ^ 2 * v 1 := by
    have := congrFun hg 1
    simp only [Matrix.mulVec, dotProduct, Matrix.transpose_apply, Fin.sum_univ_three,
      Pi.smul_apply, smul_eq_mul] at this
    rw [← this, hSxy, hSyy, hSyz, Finset.sum_mul, Finset.sum_mul, Finset.sum_mul,
      ← Finset.sum_add_distrib, ← Finset.sum_add_distrib]
    exact Finset.sum_congr rfl fun i _ => by simp only [Matrix.of_apply]; ring
  have e2 : Sxz * v 0 + Syz * v 1 + Szz * v 2 = s 2 ^ 2 * v 2 := by
    have := congrFun hg 2
    simp only [Matrix.mulVec, dotProduct, Matrix.transpose_apply, Fin.sum_univ_three,
      Pi.smul_apply, smul_eq_mul] at this
    rw [← this, hSxz, hSyz, hSzz, Finset.sum_mul, Finset.sum_mul, Finset.sum_mul,
      ← Finset.sum_add_distrib, ← Finset.sum_add_distrib]
    exact Finset.sum_congr rfl fun i _ => by simp only [Matrix.of_apply]; ring
  -- the spread of the points in map view
  have form : ∀ u0 u1 : ℝ, ∑ i, (u0 * x i 0 + u1 * x i 1) ^ 2
      = u0 * (Sxx * u0 + Sxy * u1) + u1 * (Sxy * u0 + Syy * u1) := by
    intro u0 u1
    rw [hSxx, hSxy, hSyy, Finset.sum_mul, Finset.sum_mul, Finset.sum_mul, Finset.sum_mul,
      ← Finset.sum_add_distrib, ← Finset.sum_add_distrib, Finset.mul_sum, Finset.mul_sum,
      ← Finset.sum_add_distrib]
    exact Finset.sum_congr rfl fun i _ => by ring
  have posdef : ∀ u0 u1 : ℝ, ∑ i, (u0 * x i 0 + u1 * x i 1) ^ 2 = 0 → u0 = 0 ∧ u1 = 0 := by
    intro u0 u1 hz
    by_contra hcon
    apply hncol
    refine ⟨u0, u1, u0 * meanRows a 0 + u1 * meanRows a 1, ?_, fun i => ?_⟩
    · by_contra hh
      push Not at hh
      exact hcon hh
    · have := (Finset.sum_eq_zero_iff_of_nonneg (fun i _ => sq_nonneg _)).1 hz i (Finset.mem_univ i)
      have := pow_eq_zero_iff two_ne_zero |>.1 this
      simp only [hx, Coordinates.centered] at this
      linarith
  have m0 : Sxx * w0 + Sxy * w1 = s 2 ^ 2 * v 0 := by rw [← e0, q1]; simp only [w0, w1]; ring
  have m1 : Sxy * w0 + Syy * w1 = s 2 ^ 2 * v 1 := by rw [← e1, q2]; simp only [w0, w1]; ring
  have fw := form w0 w1
  rw [m0, m1] at fw
  have zero_of : s 2 = 0 ∨ (v 0 = 0 ∧ v 1 = 0) → w0 = 0 ∧ w1 = 0 := by
    intro hh
    apply posdef
    rw [fw]
    rcases hh with k | ⟨k0, k1⟩
    · rw [k]; ring
    · rw [k0, k1]; ring
  refine ⟨?_, ⟨?_, zero_of⟩, ?_⟩
  · by_cases hs : s 2 = 0
    · obtain ⟨z0, z1⟩ := zero_of (Or.inl hs)
      rw [z0, z1]; norm_num
    · have hp : 0 < s 2 ^ 2 := by positivity
      have opt := h.optimal ![w0, w1, 0]
      have : ∑ k, (Matrix.of x *ᵥ ![w0, w1, 0]) k ^ 2 = ∑ i, (w0 * x i 0 + w1 * x i 1) ^ 2 := by
        refine Finset.sum_congr rfl fun i _ => ?_
        simp only [Matrix.mulVec, dotProduct, Fin.sum_univ_three, Matrix.of_apply, Matrix.cons_val]
        ring
      rw [this, fw] at opt
      simp only [Fin.sum_univ_three, Matrix.cons_val] at opt
      have : s 2 ^ 2 * (w0 ^ 2 + w1 ^ 2) ≤ s 2 ^ 2 * (w0 * v 0 + w1 * v 1) := by linarith
      exact le_of_mul_le_mul_left this hp
  · rintro ⟨z0, z1⟩
    rw [z0, z1] at m0 m1
    by_cases hs : s 2 = 0
    · exact Or.inl hs
    · have hp : s 2 ^ 2 ≠ 0 := pow_ne_zero 2 hs
      right
      constructor
      · have : s 2 ^ 2 * v 0 = 0 := by linarith
        exact (mul_eq_zero.1 this).resolve_left hp
      · have : s 2 ^ 2 * v 1 = 0 := by linarith
        exact (mul_eq_zero.1 this).resolve_left hp
  · intro hv
    have k0 : w0 = v 0 := by simp only [w0, hv]; ring
    have k1 : w1 = v 1 := by simp only [w1, hv]; ring
    have hz : s 2 ^ 2 * (v 0 * c 0 + v 1 * c 1) = 0 := by
      have : s 2 ^ 2 * (v 0 * c 0 + v 1 * c 1) = Sxz * v 0 + Syz * v 1 := by
        rw [q1, q2]
        have a0 := m0
        have a1 := m1
        rw [k0, k1] at a0 a1
        linear_combination -(c 0) * a0 - (c 1) * a1
      rw [this]
      rw [hv] at e2
      linarith
    rcases mul_eq_zero.1 hz with k | k
    · obtain ⟨z0, z1⟩ := zero_of (Or.inl (pow_eq_zero_iff two_ne_zero |>.1 k))
      rw [← k0, ← k1, z0, z1]; ring
    · exact k

lemma plan_zero {x y : ℝ} (h : x ^ 2 + y ^ 2 ≤ 0) : x = 0 ∧ y = 0 := by
  constructor
  · have : x ^ 2 = 0 := le_antisymm (by linarith [sq_nonneg y]) (sq_nonneg x)
    exact pow_eq_zero_iff two_ne_zero |>.1 this
  · have : y ^ 2 = 0 := le_antisymm (by linarith [sq_nonneg x]) (sq_nonneg y)
    exact pow_eq_zero_iff two_ne_zero |>.1 this

lemma attenuation_sq {p q z b c : ℝ} (hn : p ^ 2 + q ^ 2 + z ^ 2 = 1)
    (hw : (p + z * b) ^ 2 + (q + z * c) ^ 2 ≤ (p + z * b) * p + (q + z * c) * q) :
    z ^ 2 * (1 + (b ^ 2 + c ^ 2)) ≤ 1 - ((p + z * b) ^ 2 + (q + z * c) ^ 2) := by
  have e : z ^ 2 * (b ^ 2 + c ^ 2) = (p ^ 2 + q ^ 2) - 2 * ((p + z * b) * p + (q + z * c) * q)
      + ((p + z * b) ^ 2 + (q + z * c) ^ 2) := by ring
  linarith

lemma attenuation_dir {p q z b c : ℝ}
    (hw : (p + z * b) ^ 2 + (q + z * c) ^ 2 ≤ (p + z * b) * p + (q + z * c) * q) :
    0 ≤ -(z * (p * b + q * c)) := by
  have e : (z * b) ^ 2 + (z * c) ^ 2 + z * (p * b + q * c) ≤ 0 := by linarith
  have := sq_nonneg (z * b)
  have := sq_nonneg (z * c)
  linarith

lemma eq_one_of_sq {x : ℝ} (h0 : 0 ≤ x) (h : x ^ 2 = 1) : x = 1 := by nlinarith

/-! ## C198 -/

/-- The regression reports at most the dip of the principal component fit of the same points. -/
theorem C198_dip_at_most (svd : SvdFn) (hs : svd.Valid) {n : ℕ} (a : Fin n → Vec 3) (f : Fit n)
    (hf : Pca.init svd a none none = .ok (some f)) (o : LinearOrientation)
    (ho : linearOrientation a = .ok o) :
    ∃ s d, Pca.strikeDip f = some (s, d) ∧ (Linear.strikeDip o).2 ≤ d ∧
      ((Linear.strikeDip o).2 = d ↔
        (∃ m e, norm m = 1 ∧ ∀ i, Spec.OnPlane m e (a i)) ∨ d = 0) ∧
      (0 < (Linear.strikeDip o).2 → 0 ≤ Real.cos (radians (s - (Linear.strikeDip o).1))) := by
  obtain ⟨U, hF⟩ := Pca.init_default hs hf
  obtain ⟨r, c, hr, hc, _, haz, hco, hsl⟩ := linearOrientation_ok ho
  obtain ⟨core, hiff, hvert⟩ := attenuation_core hF.svd hr hc
  have hlin := linear_sdNormal ho hr hc
  obtain ⟨_, _, _, _, e0, e1⟩ := C34_right_hand_rule a o ho
  set v := f.V 2 with hv
  have hnorm : v 0 ^ 2 + v 1 ^ 2 + v 2 ^ 2 = 1 := by
    have := row_sq hF.svd 2
    rwa [Fin.sum_univ_three] at this
  have hvne : v ≠ 0 := by
    intro h
    rw [h] at hnorm
    simp at hnorm
  obtain ⟨s, d, hsd, s0, s1, d0, d1, hup⟩ := strikeDipOf_spec hvne
  rw [show norm v = 1 from hF.svd.row_norm 2, one_smul] at hup
  set s' := (Linear.strikeDip o).1
  set d' := (Linear.strikeDip o).2
  set g := Spec.gradient (c 0) (c 1) with hg
  have hgsq : g ^ 2 = c 0 ^ 2 + c 1 ^ 2 := Real.sq_sqrt (by positivity)
  set R := Real.sqrt (1 + g ^ 2) with hR
  have hRp : 0 < R := Real.sqrt_pos.2 (by positivity)
  have hRsq : R ^ 2 = 1 + g ^ 2 := Real.sq_sqrt (by positivity)
  -- components of the normals
  obtain ⟨ε, hε, hu0, hu1, hu2⟩ : ∃ ε : ℝ, ε ^ 2 = 1 ∧ upward v 0 = ε * v 0 ∧ upward v 1 = ε * v 1 ∧
      upward v 2 = ε * v 2 := by
    rcases upward_eq v with k | k
    · exact ⟨1, by norm_num, by rw [k]; ring, by rw [k]; ring, by rw [k]; ring⟩
    · exact ⟨-1, by norm_num, by rw [k]; simp, by rw [k]; simp, by rw [k]; simp⟩
  have hu2' : 0 ≤ ε * v 2 := by rw [← hu2]; exact upward_nonneg v
  have n0 := congrFun hup 0
  have n1 := congrFun hup 1
  have n2 := congrFun hup 2
  have l0 := congrFun hlin 0
  have l1 := congrFun hlin 1
  have l2 := congrFun hlin 2
  rw [hu0] at n0; rw [hu1] at n1; rw [hu2] at n2
  simp [sdNormal] at n0 n1 n2 l0 l1 l2
  have hcd' : Real.cos (radians d') = 1 / R := by field_simp; linarith
  have hle : Real.cos (radians d) ≤ Real.cos (radians d') := by
    rw [n2, hcd', le_div_iff₀ hRp]
    have : (ε * v 2 * R) ^ 2 ≤ 1 ^ 2 := by
      rw [mul_pow, mul_pow, hε, hRsq, hgsq]
      have := attenuation_sq hnorm core
      have := sq_nonneg (v 0 + v 2 * c 0)
      have := sq_nonneg (v 1 + v 2 * c 1)
      linarith
    exact le_of_sq_le_sq this (by norm_num)
  have hr0 : ∀ y, 0 ≤ y → 0 ≤ radians y := fun y hy => by
    unfold radians; have := Real.pi_pos; positivity
  have hr1 : ∀ y, y ≤ 90 → radians y ≤ Real.pi := fun y hy => by
    unfold radians; have := Real.pi_pos; nlinarith
  have hdle : d' ≤ d := by
    by_contra hcon
    push Not at hcon
    have hlt : radians d < radians d' := by
      unfold radians
      have := Real.pi_pos
      have : d * (Real.pi / 180) < d' * (Real.pi / 180) := by
        apply mul_lt_mul_of_pos_right hcon; positivity
      linarith
    have := Real.cos_lt_cos_of_nonneg_of_le_pi (hr0 d d0) (hr1 d' e1.le) hlt
    linarith
  refine ⟨s, d, hsd, hdle, ?_, ?_⟩
  · rw [coplanar_iff hs hf]
    have hz : d = 0 ↔ v 0 = 0 ∧ v 1 = 0 := by
      constructor
      · intro h0
        have : v 2 ^ 2 = 1 := by
          have h1 := n2
          rw [h0] at h1
          simp [radians] at h1
          have : (ε * v 2) ^ 2 = 1 := by rw [← h1]; norm_num
          rwa [mul_pow, hε, one_mul] at this
        exact plan_zero (by linarith)
      · rintro ⟨k0, k1⟩
        have h1 : (ε * v 2) ^ 2 = 1 := by
          rw [k0, k1] at hnorm
          rw [mul_pow, hε]; linarith
        have h2 : ε * v 2 = 1 := eq_one_of_sq hu2' h1
        apply dip_inj d0 d1 le_rfl (by norm_num)
        rw [n2, h2]; simp [radians]
    have hw : d' = d ↔ v 0 + v 2 * c 0 = 0 ∧ v 1 + v 2 * c 1 = 0 := by
      constructor
      · intro hd
        have h1 : (ε * v 2 * R) ^ 2 = 1 := by
          have : ε * v 2 * R = 1 := by rw [← n2, ← hd, hcd']; field_simp
          rw [this]; norm_num
        rw [mul_pow, mul_pow, hε, hRsq, hgsq] at h1
        have := attenuation_sq hnorm core
        exact plan_zero (by linarith)
      · rintro ⟨k0, k1⟩
        have k0' : v 0 = -(v 2 * c 0) := by linarith
        have k1' : v 1 = -(v 2 * c 1) := by linarith
        have h1 : (ε * v 2 * R) ^ 2 = 1 := by
          rw [mul_pow, mul_pow, hε, hRsq, hgsq]
          rw [k0', k1'] at hnorm
          linarith
        have h2 : ε * v 2 * R = 1 := eq_one_of_sq (mul_nonneg hu2' hRp.le) h1
        apply dip_inj e0 e1.le d0 d1
        rw [n2, hcd']
        field_simp
        linarith
    rw [hw, hz]
    exact hiff
  · intro hpos
    have sin_pos : ∀ y, 0 < y → y ≤ 90 → 0 < Real.sin (radians y) := by
      intro y h0 h1
      apply Real.sin_pos_of_pos_of_lt_pi
      · unfold radians; have := Real.pi_pos; positivity
      · unfold radians; have := Real.pi_pos; nlinarith
    have p1 := sin_pos d' hpos e1.le
    have p2 := sin_pos d (by linarith) d1
    -- the horizontal parts of the normals
    have hdot : Real.sin (radians d) * (R * Real.sin (radians d')) * Real.cos (radians (s - s'))
        = -(ε * (v 0 * c 0 + v 1 * c 1)) := by
      rw [radians_sub, Real.cos_sub]
      linear_combination (R * (Real.sin (radians d') * Real.cos (radians s'))) * n0
        + (R * (Real.sin (radians d') * Real.sin (radians s'))) * (n1) * (-1)
        - ε * v 0 * l0 + ε * v 1 * l1
    have hnn : 0 ≤ -(ε * (v 0 * c 0 + v 1 * c 1)) := by
      by_cases hv2 : v 2 = 0
      · rw [hvert hv2]; simp
      · have hεv : 0 < ε * v 2 := by
          refine lt_of_le_of_ne hu2' (Ne.symm (mul_ne_zero ?_ hv2))
          intro h0; rw [h0] at hε; norm_num at hε
        have hin : 0 ≤ -(v 2 * (v 0 * c 0 + v 1 * c 1)) := attenuation_dir core
        have : -(ε * (v 0 * c 0 + v 1 * c 1)) * (v 2 ^ 2) =
            (ε * v 2) * -(v 2 * (v 0 * c 0 + v 1 * c 1)) := by ring
        have h3 : 0 ≤ -(ε * (v 0 * c 0 + v 1 * c 1)) * (v 2 ^ 2) := by
          rw [this]; exact mul_nonneg hεv.le hin
        exact nonneg_of_mul_nonneg_left h3 (by positivity)
    rw [← hdot] at hnn
    exact nonneg_of_mul_nonneg_right hnn (mul_pos p2 (mul_pos hRp p1))

/-- Four points that do not lie in one plane have both fits. -/
example : ∃ (svd : SvdFn) (f : Fit 4) (o : LinearOrientation), svd.Valid ∧
    Pca.init svd fourPoints none none = .ok (some f) ∧ linearOrientation fourPoints = .ok o ∧
    0 < (Linear.strikeDip o).2 := by
  obtain ⟨svd, hs⟩ := exists_valid_svd
  obtain ⟨f, hf⟩ := init_default_exists svd (by norm_num : 3 ≤ 4) fourPoints
  obtain ⟨o, ho⟩ := fourPoints_fits
  refine ⟨svd, f, o, hs, hf, ho, ?_⟩
  obtain ⟨r, c, hr, hc, _, haz, hco, hsl⟩ := linearOrientation_ok ho
  obtain ⟨r', c', _, hr', hc', hcv, _⟩ := C32_witness_false
  rw [hr] at hr'
  cases hr'
  rw [hc] at hc'
  cases hc'
  obtain ⟨k0, _, _⟩ := rotated_coefficients c
  rw [← haz, ← hco] at k0
  show 0 < degrees o.slope
  rw [hsl, k0, hcv]
  have h1 : 0 < Real.arctan (- -Spec.gradient ((![1, 1, 0] : Vec 3) 0) ((![1, 1, 0] : Vec 3) 1)) := by
    rw [Real.arctan_pos]
    simp [Spec.gradient]
  unfold degrees
  have := Real.pi_pos
  positivity

end Attitude.Props
