import Mathlib.Analysis.InnerProductSpace.PiL2
import Verif.Props.PcaExact

/-!
# How much a fit changes when its points are moved
-/

namespace Attitude.Props

open Attitude Matrix Pca

/-- How far the points are moved altogether: the square root of the sum of the squared distances. -/
noncomputable def Spec.displacement {n : ℕ} (a b : Fin n → Vec 3) : ℝ :=
  Real.sqrt (∑ i, ((a i 0 - b i 0) ^ 2 + (a i 1 - b i 1) ^ 2 + (a i 2 - b i 2) ^ 2))

/-- The sine of the angle between two planes with the given unit normals. -/
noncomputable def Spec.sineBetween (u v : Vec 3) : ℝ :=
  Real.sqrt (1 - (u 0 * v 0 + u 1 * v 1 + u 2 * v 2) ^ 2)

/-! ## Helper lemmas -/

lemma norm_eq_euclidean {n : ℕ} (v : Vec n) : norm v = ‖WithLp.toLp 2 v‖ := by
  rw [EuclideanSpace.norm_eq]
  simp [norm]

lemma norm_add_le' {n : ℕ} (v w : Vec n) : norm (fun i => v i + w i) ≤ norm v + norm w := by
  rw [norm_eq_euclidean, norm_eq_euclidean, norm_eq_euclidean]
  exact norm_add_le (WithLp.toLp 2 v) (WithLp.toLp 2 w)

lemma sum_centered_sq_le {n : ℕ} (x : Fin n → ℝ) :
    ∑ i, (x i - (∑ k, x k) / n) ^ 2 ≤ ∑ i, x i ^ 2 := by
  rcases Nat.eq_zero_or_pos n with h | h
  · subst h; simp
  · have hn : (n : ℝ) ≠ 0 := by positivity
    have e : ∑ i, (x i - (∑ k, x k) / n) ^ 2 = ∑ i, x i ^ 2 - (∑ k, x k) ^ 2 / n := by
      simp only [sub_sq, Finset.sum_add_distrib, Finset.sum_sub_distrib, ← Finset.sum_mul,
        ← Finset.mul_sum, Finset.sum_const, Finset.card_univ, Fintype.card_fin, nsmul_eq_mul]
      field_simp
      ring
    rw [e]
    have : 0 ≤ (∑ k, x k) ^ 2 / n := by positivity
    linarith

/-- Moving the points changes the length of the projections on a direction by at most the distance
moved. -/
lemma projections_close {n : ℕ} (a b : Fin n → Vec 3) (w : Vec 3) (hw : ∑ j, w j ^ 2 = 1) :
    norm (Matrix.of (Coordinates.centered a) *ᵥ w)
      ≤ norm (Matrix.of (Coordinates.centered b) *ᵥ w) + Spec.displacement a b := by
  have e : Matrix.of (Coordinates.centered a) *ᵥ w = fun i =>
      (Matrix.of (Coordinates.centered b) *ᵥ w) i +
        (∑ j, (Coordinates.centered a i j - Coordinates.centered b i j) * w j) := by
    funext i
    simp only [Matrix.mulVec, dotProduct, Matrix.of_apply, ← Finset.sum_add_distrib]
    exact Finset.sum_congr rfl fun j _ => by ring
  rw [e]
  refine (norm_add_le' _ _).trans (add_le_add le_rfl ?_)
  unfold norm Spec.displacement
  apply Real.sqrt_le_sqrt
  calc ∑ i, (∑ j, (Coordinates.centered a i j - Coordinates.centered b i j) * w j) ^ 2
      ≤ ∑ i, ∑ j, (Coordinates.centered a i j - Coordinates.centered b i j) ^ 2 := by
        apply Finset.sum_le_sum
        intro i _
        have := Finset.sum_mul_sq_le_sq_mul_sq Finset.univ
          (fun j => Coordinates.centered a i j - Coordinates.centered b i j) w
        rwa [hw, mul_one] at this
    _ = ∑ j, ∑ i, ((a i j - b i j) - (∑ k, (a k j - b k j)) / n) ^ 2 := by
        rw [Finset.sum_comm]
        refine Finset.sum_congr rfl fun j _ => Finset.sum_congr rfl fun i _ => ?_
        simp only [Coordinates.centered, meanRows, Finset.sum_sub_distrib]
        ring
    _ ≤ ∑ j, ∑ i, (a i j - b i j) ^ 2 := Finset.sum_le_sum fun j _ => sum_centered_sq_le _
    _ = _ := by
        rw [Finset.sum_comm]
        exact Finset.sum_congr rfl fun i _ => Fin.sum_univ_three _

lemma displacement_comm {n : ℕ} (a b : Fin n → Vec 3) : Spec.displacement a b = Spec.displacement b a := by
  unfold Spec.displacement
  congr 1
  exact Finset.sum_congr rfl fun i _ => by ring

lemma displacement_nonneg {n : ℕ} (a b : Fin n → Vec 3) : 0 ≤ Spec.displacement a b := Real.sqrt_nonneg _

lemma row_sq {m : ℕ} {A U : Mat m 3} {s : Vec 3} {V : Mat 3 3} (h : IsSVD A U s V) (i : Fin 3) :
    ∑ j, V i j ^ 2 = 1 := by
  have := h.row_norm i
  rw [norm, Real.sqrt_eq_one] at this
  exact this

lemma norm_row {m : ℕ} {A U : Mat m 3} {s : Vec 3} {V : Mat 3 3} (h : IsSVD A U s V) (i : Fin 3) :
    norm (A *ᵥ V i) = s i := by
  rw [norm, h.sum_sq_row, Real.sqrt_sq (h.nonneg' i)]

/-- The sum of squares in a direction, from the angle with the last axis. -/
lemma sum_sq_ge {m : ℕ} {A U : Mat m 3} {s : Vec 3} {V : Mat 3 3} (h : IsSVD A U s V) (w : Vec 3)
    (hw : ∑ j, w j ^ 2 = 1) :
    s 1 ^ 2 * (1 - ((V *ᵥ w) 2) ^ 2) + s 2 ^ 2 * ((V *ᵥ w) 2) ^ 2 ≤ ∑ k, (A *ᵥ w) k ^ 2 := by
  have hn := h.norm_V w
  rw [hw, Fin.sum_univ_three] at hn
  rw [h.sum_sq, Fin.sum_univ_three]
  simp only [mul_pow]
  have h01 : s 1 ^ 2 ≤ s 0 ^ 2 := pow_le_pow_left₀ (h.nonneg' 1) h.le01 2
  have := mul_le_mul_of_nonneg_right h01 (sq_nonneg ((V *ᵥ w) 0))
  have e : 1 - (V *ᵥ w) 2 ^ 2 = (V *ᵥ w) 0 ^ 2 + (V *ᵥ w) 1 ^ 2 := by linarith
  rw [e]
  linarith

/-! ## C196 -/

lemma normal_dot_sq {n : ℕ} {a b : Fin n → Vec 3} {f g : Fit n} {U U' : Mat n 3} (hF : IsFit a f U)
    (hG : IsFit b g U') :
    (f.normal 0 * g.normal 0 + f.normal 1 * g.normal 1 + f.normal 2 * g.normal 2) ^ 2 =
      ((f.V *ᵥ g.V 2) 2) ^ 2 := by
  rw [hF.normal, hG.normal]
  simp only [Matrix.mulVec, dotProduct, Fin.sum_univ_three]
  rcases upward_eq (f.V 2) with h | h <;> rcases upward_eq (g.V 2) with h' | h' <;>
    rw [h, h'] <;> simp only [Pi.neg_apply] <;> ring

lemma normal_change {n : ℕ} {a b : Fin n → Vec 3} {f g : Fit n} {U U' : Mat n 3} (hF : IsFit a f U)
    (hG : IsFit b g U') :
    f.s 1 ^ 2 * (1 - ((f.V *ᵥ g.V 2) 2) ^ 2) + f.s 2 ^ 2 * ((f.V *ᵥ g.V 2) 2) ^ 2
      ≤ (f.s 2 + 2 * Spec.displacement a b) ^ 2 := by
  refine (sum_sq_ge hF.svd (g.V 2) (row_sq hG.svd 2)).trans ?_
  have h1 := projections_close a b (g.V 2) (row_sq hG.svd 2)
  rw [norm_row hG.svd 2] at h1
  have h2 : g.s 2 ≤ f.s 2 + Spec.displacement a b := by
    have h3 := hG.svd.optimal (f.V 2)
    rw [row_sq hF.svd 2, mul_one] at h3
    have h4 := projections_close b a (f.V 2) (row_sq hF.svd 2)
    rw [norm_row hF.svd 2, displacement_comm] at h4
    refine le_trans ?_ h4
    rw [norm]
    exact Real.le_sqrt_of_sq_le h3
  have h5 : norm (Matrix.of (Coordinates.centered a) *ᵥ g.V 2) ≤ f.s 2 + 2 * Spec.displacement a b := by linarith
  have h6 := pow_le_pow_left₀ (norm_nonneg' _) h5 2
  rwa [norm_sq'] at h6

lemma sineBetween_sq {n : ℕ} {a b : Fin n → Vec 3} {f g : Fit n} {U U' : Mat n 3} (hF : IsFit a f U)
    (hG : IsFit b g U') :
    Spec.sineBetween f.normal g.normal ^ 2 = 1 - ((f.V *ᵥ g.V 2) 2) ^ 2 := by
  unfold Spec.sineBetween
  rw [normal_dot_sq hF hG, Real.sq_sqrt]
  have := hF.svd.norm_V (g.V 2)
  rw [row_sq hG.svd 2, Fin.sum_univ_three] at this
  nlinarith [sq_nonneg ((f.V *ᵥ g.V 2) 0), sq_nonneg ((f.V *ᵥ g.V 2) 1)]

/-- When points are moved, the fitted plane is tilted by little if the first two principal components stand out from
the third. -/
theorem C196_tilt_partial (svd : SvdFn) (hs : svd.Valid) {n : ℕ} (a b : Fin n → Vec 3) (f g : Fit n)
    (hf : init svd a none none = .ok (some f)) (hg : init svd b none none = .ok (some g)) :
    (f.s 1 ^ 2 - f.s 2 ^ 2) * Spec.sineBetween f.normal g.normal ^ 2
      ≤ 4 * Spec.displacement a b * (f.s 2 + Spec.displacement a b) := by
  obtain ⟨U, hF⟩ := init_default hs hf
  obtain ⟨U', hG⟩ := init_default hs hg
  have h := normal_change hF hG
  rw [sineBetween_sq hF hG]
  linarith

/-- Measurements of an exact plane: the sine of the error of the plane is at most twice the error of
the points, over the second singular value of the exact ones. -/
theorem C196_exact (svd : SvdFn) (hs : svd.Valid) {n : ℕ} (a b : Fin n → Vec 3) (f g : Fit n)
    (hf : init svd a none none = .ok (some f)) (hg : init svd b none none = .ok (some g))
    (hplane : ∃ m d, norm m = 1 ∧ ∀ i, Spec.OnPlane m d (a i)) :
    f.s 1 * Spec.sineBetween f.normal g.normal ≤ 2 * Spec.displacement a b := by
  obtain ⟨U, hF⟩ := init_default hs hf
  obtain ⟨U', hG⟩ := init_default hs hg
  have h0 : f.s 2 = 0 := (coplanar_iff hs hf).1 hplane
  have h := C196_tilt_partial svd hs a b f g hf hg
  rw [h0] at h
  have hm := displacement_nonneg a b
  apply le_of_sq_le_sq _ (by positivity)
  nlinarith

/-- Measurements of a bed, and the same with errors. -/
example : ∃ (svd : SvdFn) (f g : Fit 4), svd.Valid ∧
    init svd ![![0, 0, 1], ![1, 0, 3], ![0, 2, 5], ![1, 2, 7]] none none = .ok (some f) ∧
    init svd ![![0, 0, 1], ![1, 0, 3], ![0, 2, 5], ![1, 2, 8]] none none = .ok (some g) ∧
    (∃ m d, norm m = 1 ∧ ∀ i, Spec.OnPlane m d
      ((![![0, 0, 1], ![1, 0, 3], ![0, 2, 5], ![1, 2, 7]] : Fin 4 → Vec 3) i)) ∧
    Spec.displacement ![![0, 0, 1], ![1, 0, 3], ![0, 2, 5], ![1, 2, 7]]
      ![![0, 0, 1], ![1, 0, 3], ![0, 2, 5], ![1, 2, 8]] = 1 := by
  obtain ⟨svd, hs⟩ := exists_valid_svd
  obtain ⟨f, hf⟩ := init_default_exists svd (by norm_num : 3 ≤ 4)
    ![![0, 0, 1], ![1, 0, 3], ![0, 2, 5], ![1, 2, 7]]
  obtain ⟨g, hg⟩ := init_default_exists svd (by norm_num : 3 ≤ 4)
    ![![0, 0, 1], ![1, 0, 3], ![0, 2, 5], ![1, 2, 8]]
  refine ⟨svd, f, g, hs, hf, hg, ⟨![2 / 3, 2 / 3, -1 / 3], -1 / 3, ?_, fun i => ?_⟩, ?_⟩
  · rw [norm3]
    simp only [Matrix.cons_val_zero, Matrix.cons_val_one, Matrix.cons_val]
    norm_num
  · fin_cases i <;> simp [Spec.OnPlane] <;> norm_num
  · unfold Spec.displacement
    rw [Fin.sum_univ_four]
    simp
    norm_num

lemma points_one (s : Vec 3) (w : Vec 3) :
    ∑ k, (Matrix.of (Coordinates.centered (Witness.points 1 s)) *ᵥ w) k ^ 2 =
      s 0 ^ 2 * w 0 ^ 2 + s 1 ^ 2 * w 1 ^ 2 + s 2 ^ 2 * w 2 ^ 2 := by
  have e : ∀ i j, Witness.points 1 s i j = Witness.frame i j * s j := fun i j => by
    simp only [Witness.points, Matrix.mul_one, Matrix.mul_diagonal]
  rw [Witness.points_centered, Fin.sum_univ_four]
  have e' : ∀ i, (Matrix.of (Witness.points 1 s) *ᵥ w) i =
      Witness.frame i 0 * s 0 * w 0 + Witness.frame i 1 * s 1 * w 1 + Witness.frame i 2 * s 2 * w 2 := by
    intro i
    simp only [Matrix.mulVec, dotProduct, Fin.sum_univ_three]
    rw [← e i 0, ← e i 1, ← e i 2]
    rfl
  simp only [e']
  simp [Witness.frame]
  ring

/-- The bound needs the second principal component to stand out from the third: otherwise the
smallest movement of the points can turn the plane by a right angle. -/
theorem C196_unstable_false (svd : SvdFn) (hs : svd.Valid) (ε : ℝ) (hε : 0 < ε) :
    ∃ (a b : Fin 4 → Vec 3) (f g : Fit 4), init svd a none none = .ok (some f) ∧
      init svd b none none = .ok (some g) ∧ Spec.displacement a b < ε ∧
      Spec.sineBetween f.normal g.normal = 1 := by
  obtain ⟨δ, h0, h1, h2⟩ : ∃ δ : ℝ, 0 < δ ∧ δ < 1 ∧ 2 * δ ≤ ε :=
    ⟨min (ε / 2) (1 / 2), lt_min (by linarith) (by norm_num),
      lt_of_le_of_lt (min_le_right _ _) (by norm_num), by linarith [min_le_left (ε / 2) (1 / 2)]⟩
  obtain ⟨f, hf⟩ := init_default_exists svd (by norm_num : 3 ≤ 4) (Witness.points 1 ![2, 1, 1 - δ])
  obtain ⟨g, hg⟩ := init_default_exists svd (by norm_num : 3 ≤ 4) (Witness.points 1 ![2, 1 - δ, 1])
  refine ⟨_, _, f, g, hf, hg, ?_, ?_⟩
  · have e : Spec.displacement (Witness.points 1 ![2, 1, 1 - δ]) (Witness.points 1 ![2, 1 - δ, 1])
        = Real.sqrt (2 * δ ^ 2) := by
      unfold Spec.displacement
      rw [Fin.sum_univ_four]
      simp only [Witness.points, Matrix.mul_one, Matrix.mul_diagonal]
      congr 1
      simp [Witness.frame]
      ring
    rw [e]
    calc Real.sqrt (2 * δ ^ 2) < Real.sqrt ((2 * δ) ^ 2) := by
          apply Real.sqrt_lt_sqrt (by positivity)
          nlinarith [sq_pos_of_pos h0]
      _ = 2 * δ := Real.sqrt_sq (by linarith)
      _ ≤ ε := h2
  · obtain ⟨U, hF⟩ := init_default hs hf
    obtain ⟨U', hG⟩ := init_default hs hg
    have hsm : 0 < 1 - (1 - δ) ^ 2 := by nlinarith
    have k1 := hF.svd.optimal ![0, 0, 1]
    have k2 := hG.svd.optimal ![0, 1, 0]
    rw [← hF.svd.sum_sq_row 2, points_one, points_one] at k1
    rw [← hG.svd.sum_sq_row 2, points_one, points_one] at k2
    simp [Fin.sum_univ_three] at k1 k2
    have n1 := row_sq hF.svd 2
    have n2 := row_sq hG.svd 2
    rw [Fin.sum_univ_three] at n1 n2
    have f0 : f.V 2 0 = 0 := by
      have : f.V 2 0 ^ 2 = 0 := by
        nlinarith [sq_nonneg (f.V 2 0), sq_nonneg (f.V 2 1),
          mul_nonneg hsm.le (sq_nonneg (f.V 2 0)), mul_nonneg hsm.le (sq_nonneg (f.V 2 1))]
      exact pow_eq_zero_iff two_ne_zero |>.1 this
    have f1 : f.V 2 1 = 0 := by
      have : (1 - (1 - δ) ^ 2) * f.V 2 1 ^ 2 = 0 := by
        rw [f0] at k1 n1
        nlinarith [mul_nonneg hsm.le (sq_nonneg (f.V 2 1))]
      exact pow_eq_zero_iff two_ne_zero |>.1 ((mul_eq_zero.1 this).resolve_left hsm.ne')
    have g0 : g.V 2 0 = 0 := by
      have : g.V 2 0 ^ 2 = 0 := by
        nlinarith [sq_nonneg (g.V 2 0), sq_nonneg (g.V 2 2),
          mul_nonneg hsm.le (sq_nonneg (g.V 2 0)), mul_nonneg hsm.le (sq_nonneg (g.V 2 2))]
      exact pow_eq_zero_iff two_ne_zero |>.1 this
    have g2 : g.V 2 2 = 0 := by
      have : (1 - (1 - δ) ^ 2) * g.V 2 2 ^ 2 = 0 := by
        rw [g0] at k2 n2
        nlinarith [mul_nonneg hsm.le (sq_nonneg (g.V 2 2))]
      exact pow_eq_zero_iff two_ne_zero |>.1 ((mul_eq_zero.1 this).resolve_left hsm.ne')
    unfold Spec.sineBetween
    rw [normal_dot_sq hF hG]
    simp [Matrix.mulVec, dotProduct, Fin.sum_univ_three, f0, f1, g0, g2]

/-! ## C197 -/

lemma middle_le {m m' : ℕ} {A U : Mat m 3} {B U' : Mat m' 3} {s s' : Vec 3} {V V' : Mat 3 3} (h : IsSVD A U s V)
    (h' : IsSVD B U' s' V') : ∃ w : Vec 3, ∑ j, w j ^ 2 = 1 ∧ s 1 ^ 2 ≤ ∑ k, (A *ᵥ w) k ^ 2 ∧
      ∑ k, (B *ᵥ w) k ^ 2 ≤ s' 1 ^ 2 := by
  -- a direction in the plane of the first two axes of `A`, perpendicular to the first axis of `B`
  obtain ⟨α, β, hab, hperp⟩ : ∃ α β : ℝ, α ^ 2 + β ^ 2 = 1 ∧
      α * vdot (V 0) (V' 0) + β * vdot (V 1) (V' 0) = 0 := by
    by_cases hz : vdot (V 0) (V' 0) ^ 2 + vdot (V 1) (V' 0) ^ 2 = 0
    · refine ⟨1, 0, by norm_num, ?_⟩
      have : vdot (V 0) (V' 0) = 0 := by nlinarith [sq_nonneg (vdot (V 0) (V' 0)), sq_nonneg (vdot (V 1) (V' 0))]
      rw [this]; ring
    · set r := vdot (V 0) (V' 0) ^ 2 + vdot (V 1) (V' 0) ^ 2 with hr
      have hp : 0 < r := lt_of_le_of_ne (by positivity) (Ne.symm hz)
      have hsq := Real.sq_sqrt hp.le
      have hsp := Real.sqrt_pos.2 hp
      refine ⟨vdot (V 1) (V' 0) / Real.sqrt r, -vdot (V 0) (V' 0) / Real.sqrt r, ?_, ?_⟩
      · rw [div_pow, div_pow, hsq]
        field_simp
        rw [hr]; ring
      · field_simp
        ring
  have hV : V *ᵥ (fun j => α * V 0 j + β * V 1 j) = ![α, β, 0] := by
    have e : (fun j => α * V 0 j + β * V 1 j) = α • V 0 + β • V 1 := by
      funext j; simp
    rw [e, Matrix.mulVec_add, Matrix.mulVec_smul, Matrix.mulVec_smul, h.V_row, h.V_row]
    funext j
    fin_cases j <;> simp
  have hw : ∑ j, (α * V 0 j + β * V 1 j) ^ 2 = 1 := by
    have := h.norm_V (fun j => α * V 0 j + β * V 1 j)
    rw [← this, hV, Fin.sum_univ_three]
    simpa using hab
  refine ⟨fun j => α * V 0 j + β * V 1 j, hw, ?_, ?_⟩
  · rw [h.sum_sq, hV, Fin.sum_univ_three]
    have h01 : s 1 ^ 2 ≤ s 0 ^ 2 := pow_le_pow_left₀ (h.nonneg' 1) h.le01 2
    simp only [Matrix.cons_val_zero, Matrix.cons_val_one, Matrix.cons_val, mul_pow]
    have h2 := mul_le_mul_of_nonneg_right h01 (sq_nonneg α)
    have h3 : s 1 ^ 2 = s 1 ^ 2 * α ^ 2 + s 1 ^ 2 * β ^ 2 := by rw [← mul_add, hab, mul_one]
    nlinarith
  · have h0 : (V' *ᵥ (fun j => α * V 0 j + β * V 1 j)) 0 = 0 := by
      rw [← hperp]
      simp only [Matrix.mulVec, dotProduct, vdot, Fin.sum_univ_three]
      ring
    have hn := h'.norm_V (fun j => α * V 0 j + β * V 1 j)
    rw [hw, Fin.sum_univ_three, h0] at hn
    rw [h'.sum_sq, Fin.sum_univ_three, h0]
    have h21 : s' 2 ^ 2 ≤ s' 1 ^ 2 := pow_le_pow_left₀ (h'.nonneg' 2) h'.le12 2
    simp only [mul_pow]
    set x := (V' *ᵥ (fun j => α * V 0 j + β * V 1 j)) 1
    set y := (V' *ᵥ (fun j => α * V 0 j + β * V 1 j)) 2
    have h2 := mul_le_mul_of_nonneg_right h21 (sq_nonneg y)
    have h3 : s' 1 ^ 2 = s' 1 ^ 2 * x ^ 2 + s' 1 ^ 2 * y ^ 2 := by
      rw [← mul_add]
      have : x ^ 2 + y ^ 2 = 1 := by linarith
      rw [this, mul_one]
    nlinarith

lemma singular_le {n : ℕ} {a b : Fin n → Vec 3} {f g : Fit n} {U U' : Mat n 3} (hF : IsFit a f U)
    (hG : IsFit b g U') (i : Fin 3) : f.s i ≤ g.s i + Spec.displacement a b := by
  have key : ∀ w : Vec 3, ∑ j, w j ^ 2 = 1 →
      f.s i ^ 2 ≤ ∑ k, (Matrix.of (Coordinates.centered a) *ᵥ w) k ^ 2 →
      ∑ k, (Matrix.of (Coordinates.centered b) *ᵥ w) k ^ 2 ≤ g.s i ^ 2 →
      f.s i ≤ g.s i + Spec.displacement a b := by
    intro w hw h1 h2
    have h3 := projections_close a b w hw
    have h4 : f.s i ≤ norm (Matrix.of (Coordinates.centered a) *ᵥ w) := Real.le_sqrt_of_sq_le h1
    have h5 : norm (Matrix.of (Coordinates.centered b) *ᵥ w) ≤ g.s i := by
      rw [norm, ← Real.sqrt_sq (hG.svd.nonneg' i)]
      exact Real.sqrt_le_sqrt h2
    linarith
  fin_cases i
  · refine key (f.V 0) (row_sq hF.svd 0) (hF.svd.sum_sq_row 0).ge ?_
    have := hG.svd.upper (f.V 0)
    rwa [row_sq hF.svd 0, mul_one] at this
  · obtain ⟨w, hw, h1, h2⟩ := middle_le hF.svd hG.svd
    exact key w hw h1 h2
  · refine key (g.V 2) (row_sq hG.svd 2) ?_ (hG.svd.sum_sq_row 2).le
    have := hF.svd.optimal (g.V 2)
    rwa [row_sq hG.svd 2, mul_one] at this

/-- Each singular value changes by at most the distance the points are moved. -/
theorem C197_singular_values (svd : SvdFn) (hs : svd.Valid) {n : ℕ} (a b : Fin n → Vec 3) (f g : Fit n)
    (hf : init svd a none none = .ok (some f)) (hg : init svd b none none = .ok (some g)) (i : Fin 3) :
    |f.s i - g.s i| ≤ Spec.displacement a b := by
  obtain ⟨U, hF⟩ := init_default hs hf
  obtain ⟨U', hG⟩ := init_default hs hg
  have h1 := singular_le hF hG i
  have h2 := singular_le hG hF i
  rw [displacement_comm] at h2
  rw [abs_sub_le_iff]
  constructor <;> linarith

/-- Adding a point's worth of error to four measurements of a bed. -/
example : ∃ (svd : SvdFn) (f g : Fit 4), svd.Valid ∧
    init svd ![![0, 0, 0], ![1, 0, 0], ![0, 2, 0], ![5, 5, 3]] none none = .ok (some f) ∧
    init svd ![![0, 0, 0], ![1, 0, 0], ![0, 2, 0], ![5, 5, 4]] none none = .ok (some g) := by
  obtain ⟨svd, hs⟩ := exists_valid_svd
  obtain ⟨f, hf⟩ := init_default_exists svd (by norm_num : 3 ≤ 4)
    ![![0, 0, 0], ![1, 0, 0], ![0, 2, 0], ![5, 5, 3]]
  obtain ⟨g, hg⟩ := init_default_exists svd (by norm_num : 3 ≤ 4)
    ![![0, 0, 0], ![1, 0, 0], ![0, 2, 0], ![5, 5, 4]]
  exact ⟨svd, f, g, hs, hf, hg⟩

end Attitude.Props
