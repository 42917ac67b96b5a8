import Verif.Lemmas.Pca
import Verif.Lemmas.SvdExists
import Verif.Lemmas.Witness
import Verif.Props.Coordinates

/-!
# C06 - C09: the PCA fit as a least squares problem
-/

namespace Attitude.Props

open Attitude Pca Matrix

/-! ## Specification -/

/-- The point `p` lies on the plane with normal `m` and offset `d`. -/
def Spec.OnPlane (m : Vec 3) (d : ℝ) (p : Vec 3) : Prop :=
  m 0 * p 0 + m 1 * p 1 + m 2 * p 2 = d

/-- Squared orthogonal distance of `p` from the plane with unit normal `m` and
offset `d`. -/
def Spec.planeDist2 (m : Vec 3) (d : ℝ) (p : Vec 3) : ℝ :=
  (m 0 * p 0 + m 1 * p 1 + m 2 * p 2 - d) ^ 2

/-- Euclidean squared distance of two points. -/
def Spec.pointDist2 (p q : Vec 3) : ℝ := (p 0 - q 0) ^ 2 + (p 1 - q 1) ^ 2 + (p 2 - q 2) ^ 2

/-- Sum of squared orthogonal distances of all points from a plane. -/
def Spec.misfit {n : ℕ} (a : Fin n → Vec 3) (m : Vec 3) (d : ℝ) : ℝ :=
  ∑ i, Spec.planeDist2 m d (a i)

/-- `planeDist2` really is the smallest squared distance from `p` to a point of
the plane (sanity check of the specification). -/
theorem Spec.planeDist2_is_distance (m p : Vec 3) (d : ℝ) (hm : norm m = 1) :
    (∀ q, Spec.OnPlane m d q → Spec.planeDist2 m d p ≤ Spec.pointDist2 p q) ∧
    ∃ q, Spec.OnPlane m d q ∧ Spec.planeDist2 m d p = Spec.pointDist2 p q := by
  have h1 : m 0 ^ 2 + m 1 ^ 2 + m 2 ^ 2 = 1 := by
    have := norm_sq' m
    rw [hm, Fin.sum_univ_three] at this
    linarith
  constructor
  · intro q hq
    unfold Spec.OnPlane at hq
    unfold Spec.planeDist2 Spec.pointDist2
    have e : m 0 * p 0 + m 1 * p 1 + m 2 * p 2 - d
        = m 0 * (p 0 - q 0) + m 1 * (p 1 - q 1) + m 2 * (p 2 - q 2) := by rw [← hq]; ring
    rw [e]
    set x := p 0 - q 0
    set y := p 1 - q 1
    set z := p 2 - q 2
    nlinarith [sq_nonneg (m 0 * y - m 1 * x), sq_nonneg (m 0 * z - m 2 * x),
      sq_nonneg (m 1 * z - m 2 * y)]
  · set t := m 0 * p 0 + m 1 * p 1 + m 2 * p 2 - d with ht
    refine ⟨fun j => p j - t * m j, ?_, ?_⟩
    · unfold Spec.OnPlane
      linear_combination (-t) * h1 + ht
    · unfold Spec.planeDist2 Spec.pointDist2
      rw [← ht]
      linear_combination (-t ^ 2) * h1

/-! ## C06 -/

lemma mulVec_centered {n : ℕ} (a : Fin n → Vec 3) (m : Vec 3) (i : Fin n) :
    (Matrix.of (Coordinates.centered a) *ᵥ m) i
      = (m 0 * a i 0 + m 1 * a i 1 + m 2 * a i 2)
        - (m 0 * meanRows a 0 + m 1 * meanRows a 1 + m 2 * meanRows a 2) := by
  simp only [Matrix.mulVec, dotProduct, Fin.sum_univ_three, Matrix.of_apply,
    Coordinates.centered]
  ring

lemma sum_mulVec_centered {n : ℕ} (a : Fin n → Vec 3) (m : Vec 3) :
    ∑ i, (Matrix.of (Coordinates.centered a) *ᵥ m) i = 0 := by
  simp only [Matrix.mulVec, dotProduct, Fin.sum_univ_three, Matrix.of_apply,
    Finset.sum_add_distrib, ← Finset.sum_mul]
  have h := (C01_centered_zero_mean_same_shape a).1
  rw [h 0, h 1, h 2]
  ring

/-- Splitting the misfit into a part through the mean and an offset part. -/
lemma misfit_split {n : ℕ} (a : Fin n → Vec 3) (m : Vec 3) (d : ℝ) :
    Spec.misfit a m d = ∑ i, (Matrix.of (Coordinates.centered a) *ᵥ m) i ^ 2
      + n * (m 0 * meanRows a 0 + m 1 * meanRows a 1 + m 2 * meanRows a 2 - d) ^ 2 := by
  set μ := m 0 * meanRows a 0 + m 1 * meanRows a 1 + m 2 * meanRows a 2 with hμ
  have h : ∀ i, Spec.planeDist2 m d (a i)
      = (Matrix.of (Coordinates.centered a) *ᵥ m) i ^ 2
        + 2 * (μ - d) * (Matrix.of (Coordinates.centered a) *ᵥ m) i + (μ - d) ^ 2 := by
    intro i
    rw [mulVec_centered, ← hμ]
    unfold Spec.planeDist2
    ring
  unfold Spec.misfit
  simp only [h, Finset.sum_add_distrib, ← Finset.mul_sum, sum_mulVec_centered, Finset.sum_const,
    Finset.card_univ, Fintype.card_fin, nsmul_eq_mul]
  ring

lemma sum_sq_neg_mulVec {n : ℕ} (A : Mat n 3) (m : Vec 3) :
    ∑ i, (A *ᵥ (-m)) i ^ 2 = ∑ i, (A *ᵥ m) i ^ 2 := by
  simp [Matrix.mulVec_neg]

lemma normal_misfit {n : ℕ} {a : Fin n → Vec 3} {f : Fit n} {U : Mat n 3} (h : IsFit a f U) :
    ∑ i, (Matrix.of (Coordinates.centered a) *ᵥ f.normal) i ^ 2 = f.s 2 ^ 2 := by
  rw [h.normal, ← h.svd.sum_sq_row 2]
  rcases upward_eq (f.V 2) with e | e <;> rw [e]
  exact sum_sq_neg_mulVec _ _

lemma normal_unit {n : ℕ} {a : Fin n → Vec 3} {f : Fit n} {U : Mat n 3} (h : IsFit a f U) :
    norm f.normal = 1 := by
  rw [h.normal, norm_upward, h.svd.row_norm]

/-- For every point set and every decomposition backend: the plane through the
fit's center perpendicular to its normal has the least total squared orthogonal
distance among all planes. -/
theorem C06_best_fit (svd : SvdFn) (hs : svd.Valid) {n : ℕ} (a : Fin n → Vec 3) (f : Fit n)
    (hf : init svd a none none = .ok (some f)) :
    norm f.normal = 1 ∧ 0 ≤ f.normal 2 ∧
    ∃ c, f.mean = some c ∧
      ∀ (m : Vec 3) (d : ℝ), norm m = 1 →
        Spec.misfit a f.normal (f.normal 0 * c 0 + f.normal 1 * c 1 + f.normal 2 * c 2)
          ≤ Spec.misfit a m d := by
  obtain ⟨U, h⟩ := init_default hs hf
  refine ⟨normal_unit h, by rw [h.normal]; exact upward_nonneg _, meanRows a, h.mean, ?_⟩
  intro m d hm
  rw [misfit_split, misfit_split, normal_misfit h, sub_self]
  have h1 : ∑ j, m j ^ 2 = 1 := by rw [← norm_sq', hm]; norm_num
  have h2 := h.svd.optimal m
  rw [h1, mul_one] at h2
  have h3 : 0 ≤ (n : ℝ) * (m 0 * meanRows a 0 + m 1 * meanRows a 1 + m 2 * meanRows a 2 - d) ^ 2 :=
    by positivity
  linarith

example : ∃ (svd : SvdFn) (f : Fit 4), svd.Valid ∧ init svd Witness.tilted none none = .ok (some f) ∧
    norm f.normal = 1 := by
  obtain ⟨svd, f, hs, hf, _⟩ := Witness.exists_tilted
  exact ⟨svd, f, hs, hf, (C06_best_fit svd hs _ f hf).1⟩

/-- The least total squared distance is the square of the last singular value. -/
theorem C06_misfit_value (svd : SvdFn) (hs : svd.Valid) {n : ℕ} (a : Fin n → Vec 3) (f : Fit n)
    (hf : init svd a none none = .ok (some f)) (c : Vec 3) (hc : f.mean = some c) :
    Spec.misfit a f.normal (f.normal 0 * c 0 + f.normal 1 * c 1 + f.normal 2 * c 2)
      = f.s 2 ^ 2 := by
  obtain ⟨U, h⟩ := init_default hs hf
  rw [h.mean] at hc
  cases hc
  rw [misfit_split, normal_misfit h, sub_self]
  ring

example : ∃ (svd : SvdFn) (f : Fit 4) (c : Vec 3), svd.Valid ∧
    init svd Witness.tilted none none = .ok (some f) ∧ f.mean = some c ∧
    Spec.misfit Witness.tilted f.normal (f.normal 0 * c 0 + f.normal 1 * c 1 + f.normal 2 * c 2) = 1 := by
  obtain ⟨svd, f, hs, hf, _, e⟩ := Witness.exists_tilted
  obtain ⟨_, _, c, hc, _⟩ := C06_best_fit svd hs _ f hf
  exact ⟨svd, f, c, hs, hf, hc, by rw [C06_misfit_value svd hs _ f hf c hc, e]; simp⟩

/-- If the last singular value is strictly smaller than the second, the fitted
plane is the only best plane. -/
theorem C06_best_fit_unique (svd : SvdFn) (hs : svd.Valid) {n : ℕ} (a : Fin n → Vec 3) (f : Fit n)
    (hf : init svd a none none = .ok (some f)) (hlt : f.s 2 < f.s 1) (c : Vec 3)
    (hc : f.mean = some c) (m : Vec 3) (d : ℝ) (hm : norm m = 1)
    (hbest : Spec.misfit a m d
      ≤ Spec.misfit a f.normal (f.normal 0 * c 0 + f.normal 1 * c 1 + f.normal 2 * c 2)) :
    ∀ p, Spec.OnPlane m d p ↔
      Spec.OnPlane f.normal (f.normal 0 * c 0 + f.normal 1 * c 1 + f.normal 2 * c 2) p := by
  obtain ⟨U, h⟩ := init_default hs hf
  rw [h.mean] at hc
  cases hc
  rw [misfit_split, misfit_split, normal_misfit h, sub_self] at hbest
  have h1 : ∑ j, m j ^ 2 = 1 := by rw [← norm_sq', hm]; norm_num
  have h2 := h.svd.optimal m
  rw [h1, mul_one] at h2
  have hn : (0 : ℝ) < n := by
    have := h.size
    exact_mod_cast (by omega : 0 < n)
  have h3 : 0 ≤ (m 0 * meanRows a 0 + m 1 * meanRows a 1 + m 2 * meanRows a 2 - d) ^ 2 :=
    sq_nonneg _
  have h4 : (m 0 * meanRows a 0 + m 1 * meanRows a 1 + m 2 * meanRows a 2 - d) ^ 2 = 0 := by
    nlinarith
  have hd : d = m 0 * meanRows a 0 + m 1 * meanRows a 1 + m 2 * meanRows a 2 := by
    have := pow_eq_zero_iff (two_ne_zero) |>.1 h4
    linarith
  have hu := h.svd.unique hlt m h1 (by nlinarith)
  have hmn : m = f.normal ∨ m = -f.normal := by
    rw [h.normal]
    rcases upward_eq (f.V 2) with e | e <;> rw [e] <;> rcases hu with k | k
    · left; exact k
    · right; exact k
    · right; simpa using k
    · left; exact k
  intro p
  subst hd
  unfold Spec.OnPlane
  rcases hmn with rfl | rfl
  · exact Iff.rfl
  · simp only [Pi.neg_apply]
    constructor <;> intro k <;> linarith

example : ∃ (svd : SvdFn) (f : Fit 4) (c m : Vec 3) (d : ℝ), svd.Valid ∧
    init svd Witness.tilted none none = .ok (some f) ∧ f.s 2 < f.s 1 ∧ f.mean = some c ∧ norm m = 1 ∧
    Spec.misfit Witness.tilted m d
      ≤ Spec.misfit Witness.tilted f.normal (f.normal 0 * c 0 + f.normal 1 * c 1 + f.normal 2 * c 2) := by
  obtain ⟨svd, f, hs, hf, _, e⟩ := Witness.exists_tilted
  obtain ⟨h1, _, c, hc, _⟩ := C06_best_fit svd hs _ f hf
  exact ⟨svd, f, c, f.normal, _, hs, hf, by rw [e]; simp, hc, h1, le_refl _⟩

/-! ## C07 -/

lemma residuals_apply {n : ℕ} {a : Fin n → Vec 3} {f : Fit n} {U : Mat n 3} (h : IsFit a f U)
    (i : Fin n) (j : Fin 3) :
    residuals f i j = (Matrix.of (Coordinates.centered a) *ᵥ f.V 2) i * f.V 2 j := by
  have hb : f.arr i j = ∑ k, rotated f i k * f.V k j := by
    have e : Matrix.of f.arr = rotated f * f.V := by
      rw [rotated, Matrix.mul_assoc, h.svd.orthV', Matrix.mul_one]
    have := congrFun (congrFun e i) j
    simpa [Matrix.mul_apply] using this
  have hr : rotated f i 2 = (Matrix.of (Coordinates.centered a) *ᵥ f.V 2) i := by
    rw [← h.arr]
    simp [rotated, Matrix.mul_apply, Matrix.mulVec, dotProduct]
  simp only [residuals, Matrix.sub_apply, Matrix.of_apply, Matrix.mul_apply, hb,
    Fin.sum_univ_three, hr]
  simp

/-- Each residual is the signed orthogonal distance times the unit normal,
removing it puts the point on the fitted plane, and the squared residuals sum to
the squared last singular value. -/
theorem C07_residuals_are_misfits (svd : SvdFn) (hs : svd.Valid) {n : ℕ} (a : Fin n → Vec 3)
    (f : Fit n) (hf : init svd a none none = .ok (some f)) (c : Vec 3) (hc : f.mean = some c) :
    let N := f.normal
    let d := N 0 * c 0 + N 1 * c 1 + N 2 * c 2
    (∀ i j, residuals f i j = (N 0 * a i 0 + N 1 * a i 1 + N 2 * a i 2 - d) * N j) ∧
    (∀ i, Spec.OnPlane N d (fun j => a i j - residuals f i j)) ∧
    (∀ i, residuals f i 0 ^ 2 + residuals f i 1 ^ 2 + residuals f i 2 ^ 2
      = Spec.planeDist2 N d (a i)) ∧
    ∑ i, (residuals f i 0 ^ 2 + residuals f i 1 ^ 2 + residuals f i 2 ^ 2) = f.s 2 ^ 2 := by
  obtain ⟨U, h⟩ := init_default hs hf
  have hc' := hc
  rw [h.mean] at hc'
  cases hc'
  intro N d
  have h1 : N 0 ^ 2 + N 1 ^ 2 + N 2 ^ 2 = 1 := by
    have := norm_sq' N
    rw [normal_unit h, Fin.sum_univ_three] at this
    linarith
  have hA : ∀ i j, residuals f i j = (N 0 * a i 0 + N 1 * a i 1 + N 2 * a i 2 - d) * N j := by
    intro i j
    rw [residuals_apply h]
    have hN : N = upward (f.V 2) := h.normal
    rcases upward_eq (f.V 2) with e | e
    · rw [e] at hN
      rw [← hN, mulVec_centered]
    · rw [e] at hN
      have hV : f.V 2 = -N := by rw [hN, neg_neg]
      rw [hV, Matrix.mulVec_neg]
      simp only [Pi.neg_apply, mulVec_centered]
      ring
  have hC : ∀ i, residuals f i 0 ^ 2 + residuals f i 1 ^ 2 + residuals f i 2 ^ 2
      = Spec.planeDist2 N d (a i) := by
    intro i
    rw [hA, hA, hA]
    unfold Spec.planeDist2
    linear_combination (N 0 * a i 0 + N 1 * a i 1 + N 2 * a i 2 - d) ^ 2 * h1
  refine ⟨hA, ?_, hC, ?_⟩
  · intro i
    show N 0 * (a i 0 - residuals f i 0) + N 1 * (a i 1 - residuals f i 1)
      + N 2 * (a i 2 - residuals f i 2) = d
    simp only [hA]
    linear_combination (-(N 0 * a i 0 + N 1 * a i 1 + N 2 * a i 2 - d)) * h1
  · simp only [hC]
    exact C06_misfit_value svd hs a f hf _ hc

example : ∃ (svd : SvdFn) (f : Fit 4) (c : Vec 3), svd.Valid ∧
    init svd Witness.tilted none none = .ok (some f) ∧ f.mean = some c := by
  obtain ⟨svd, f, hs, hf, _⟩ := Witness.exists_tilted
  obtain ⟨_, _, c, hc, _⟩ := C06_best_fit svd hs _ f hf
  exact ⟨svd, f, c, hs, hf, hc⟩

/-- The residuals vanish exactly for data that lies in one plane. -/
theorem C07_residuals_zero_iff_coplanar (svd : SvdFn) (hs : svd.Valid) {n : ℕ}
    (a : Fin n → Vec 3) (f : Fit n) (hf : init svd a none none = .ok (some f)) :
    (∀ i j, residuals f i j = 0) ↔ ∃ m d, norm m = 1 ∧ ∀ i, Spec.OnPlane m d (a i) := by
  obtain ⟨hu, _, c, hc, hbest⟩ := C06_best_fit svd hs a f hf
  obtain ⟨hA, hB, hC, hD⟩ := C07_residuals_are_misfits svd hs a f hf c hc
  constructor
  · intro h0
    refine ⟨f.normal, f.normal 0 * c 0 + f.normal 1 * c 1 + f.normal 2 * c 2, hu, fun i => ?_⟩
    have := hB i
    simpa [h0] using this
  · rintro ⟨m, d, hm, hp⟩
    have hz : Spec.misfit a m d = 0 := by
      unfold Spec.misfit
      apply Finset.sum_eq_zero
      intro i _
      have := hp i
      unfold Spec.OnPlane at this
      unfold Spec.planeDist2
      rw [this]; ring
    have h0 := hbest m d hm
    rw [hz, C06_misfit_value svd hs a f hf c hc, ← hD] at h0
    have hnn : ∀ i ∈ Finset.univ, 0 ≤ residuals f i 0 ^ 2 + residuals f i 1 ^ 2
        + residuals f i 2 ^ 2 := fun i _ => by positivity
    have hz' := (Finset.sum_eq_zero_iff_of_nonneg hnn).1
      (le_antisymm h0 (Finset.sum_nonneg hnn))
    intro i j
    have hi := hz' i (Finset.mem_univ i)
    have : residuals f i j ^ 2 = 0 := by
      fin_cases j
      · show residuals f i 0 ^ 2 = 0
        nlinarith [sq_nonneg (residuals f i 0), sq_nonneg (residuals f i 1),
          sq_nonneg (residuals f i 2)]
      · show residuals f i 1 ^ 2 = 0
        nlinarith [sq_nonneg (residuals f i 0), sq_nonneg (residuals f i 1),
          sq_nonneg (residuals f i 2)]
      · show residuals f i 2 ^ 2 = 0
        nlinarith [sq_nonneg (residuals f i 0), sq_nonneg (residuals f i 1),
          sq_nonneg (residuals f i 2)]
    exact pow_eq_zero_iff (two_ne_zero) |>.1 this

example : ∃ (svd : SvdFn) (f : Fit 3), svd.Valid ∧
    init svd ![![0, 0, 1], ![1, 0, 3], ![0, 2, 5]] none none = .ok (some f) ∧
    ∀ i j, residuals f i j = 0 := by
  obtain ⟨svd, hs⟩ := exists_valid_svd
  obtain ⟨f, hf⟩ := init_default_exists svd (le_refl 3) ![![0, 0, 1], ![1, 0, 3], ![0, 2, 5]]
  refine ⟨svd, f, hs, hf, (C07_residuals_zero_iff_coplanar svd hs _ f hf).2
    ⟨![2 / 3, 2 / 3, -1 / 3], -1 / 3, ?_, fun i => ?_⟩⟩
  · rw [norm3]
    simp only [Matrix.cons_val_zero, Matrix.cons_val_one, Matrix.cons_val]
    norm_num
  · fin_cases i <;> simp [Spec.OnPlane] <;> norm_num

/-! ## C08 -/

/-- Sample variance (ddof 1) of a list of values indexed by `Fin n`. -/
noncomputable def Spec.sampleVariance {n : ℕ} (x : Fin n → ℝ) : ℝ :=
  (∑ i, (x i - (∑ k, x k) / n) ^ 2) / ((n : ℝ) - 1)

lemma rotated_col {n : ℕ} {a : Fin n → Vec 3} {f : Fit n} {U : Mat n 3} (h : IsFit a f U)
    (i : Fin n) (j : Fin 3) :
    rotated f i j = (Matrix.of (Coordinates.centered a) *ᵥ f.V j) i := by
  rw [← h.arr]
  simp [rotated, Matrix.mul_apply, Matrix.mulVec, dotProduct]

lemma rotated_eq_US {n : ℕ} {a : Fin n → Vec 3} {f : Fit n} {U : Mat n 3} (h : IsFit a f U) :
    rotated f = U * Matrix.diagonal f.s := by
  rw [rotated, h.arr, h.svd.recon, Matrix.mul_assoc, h.svd.orthV, Matrix.mul_one]

/-- Rotated data has the same inner products as the centered data; its columns
have zero mean and are uncorrelated; eigenvalues are the sample variances of the
columns, sorted and non-negative. -/
theorem C08_rotated_and_eigenvalues (svd : SvdFn) (hs : svd.Valid) {n : ℕ} (a : Fin n → Vec 3)
    (f : Fit n) (hf : init svd a none none = .ok (some f)) :
    (∀ i i', ∑ j, rotated f i j * rotated f i' j
      = ∑ j, (a i j - (∑ k, a k j) / n) * (a i' j - (∑ k, a k j) / n)) ∧
    (∀ j, ∑ i, rotated f i j = 0) ∧
    (∀ j j', j ≠ j' → ∑ i, rotated f i j * rotated f i j' = 0) ∧
    (∀ j, eigenvalues f j = Spec.sampleVariance (fun i => rotated f i j)) ∧
    0 ≤ eigenvalues f 2 ∧ eigenvalues f 2 ≤ eigenvalues f 1 ∧
    eigenvalues f 1 ≤ eigenvalues f 0 := by
  obtain ⟨U, h⟩ := init_default hs hf
  have hz : ∀ j, ∑ i, rotated f i j = 0 := by
    intro j
    simp only [rotated_col h]
    exact sum_mulVec_centered a _
  have hn : (0 : ℝ) < (n : ℝ) - 1 := by
    have : (3 : ℝ) ≤ n := by exact_mod_cast h.size
    linarith
  have s0 := h.svd.nonneg; have s1 := h.svd.le01; have s2 := h.svd.le12
  refine ⟨?_, hz, ?_, ?_, ?_, ?_, ?_⟩
  · intro i i'
    have e : rotated f * (rotated f).transpose
        = Matrix.of (Coordinates.centered a) * (Matrix.of (Coordinates.centered a)).transpose := by
      rw [rotated, h.arr, Matrix.transpose_mul, Matrix.transpose_transpose, Matrix.mul_assoc,
        ← Matrix.mul_assoc _ f.V, h.svd.orthV', Matrix.one_mul]
    have := congrFun (congrFun e i) i'
    simpa [Matrix.mul_apply, Coordinates.centered, meanRows] using this
  · intro j j' hj
    have e : (rotated f).transpose * rotated f = Matrix.diagonal (fun k => f.s k ^ 2) := by
      rw [rotated_eq_US h, Matrix.transpose_mul, Matrix.mul_assoc, ← Matrix.mul_assoc _ U,
        h.svd.orthU, Matrix.one_mul, Matrix.diagonal_transpose, Matrix.diagonal_mul_diagonal]
      congr 1
      funext k
      ring
    have := congrFun (congrFun e j) j'
    simpa [Matrix.mul_apply, Matrix.diagonal_apply, hj] using this
  · intro j
    unfold Spec.sampleVariance eigenvalues
    rw [hz j]
    simp only [zero_div, sub_zero, rotated_col h]
    rw [h.svd.sum_sq_row]
  · unfold eigenvalues; positivity
  · unfold eigenvalues
    exact div_le_div_of_nonneg_right (pow_le_pow_left₀ s0 s2 2) hn.le
  · unfold eigenvalues
    exact div_le_div_of_nonneg_right (pow_le_pow_left₀ (by linarith) s1 2) hn.le

example : ∃ (svd : SvdFn) (f : Fit 4), svd.Valid ∧ init svd Witness.tilted none none = .ok (some f) ∧
    eigenvalues f 2 ≤ eigenvalues f 1 := by
  obtain ⟨svd, f, hs, hf, _⟩ := Witness.exists_tilted
  exact ⟨svd, f, hs, hf, (C08_rotated_and_eigenvalues svd hs _ f hf).2.2.2.2.2.1⟩

/-! ## C09 -/

/-- Fitting raises `ValueError` exactly for fewer than three points. -/
theorem C09_value_error_iff (svd : SvdFn) {n : ℕ} (a : Fin n → Vec 3) (w : Option (Vec 3)) :
    init svd a w none = .error .valueError ↔ n < 3 := by
  by_cases hn : n < 3
  · simp [init, runSvd, hn, bind, Except.bind]
  · simp only [hn, iff_false]
    unfold init runSvd
    simp only [hn, if_false]
    split_ifs <;> simp [bind, Except.bind]

/-- Three points or more always give a finite fit, for any weights without
zeros. -/
theorem C09_three_points_suffice (svd : SvdFn) {n : ℕ} (hn : 3 ≤ n) (a : Fin n → Vec 3)
    (w : Option (Vec 3)) (hw : ∀ v, w = some v → v 0 ≠ 0 ∧ v 1 ≠ 0 ∧ v 2 ≠ 0) :
    ∃ f, init svd a w none = .ok (some f) := by
  cases w with
  | none => exact init_default_exists svd hn a
  | some v =>
    obtain ⟨h0, h1, h2⟩ := hw v rfl
    simp [init, runSvd, not_lt.2 hn, h0, h1, h2, bind, Except.bind]

example : ∃ (svd : SvdFn) (f : Fit 3), init svd ![![0, 0, 1], ![1, 0, 3], ![0, 2, 5]]
    (some ![1, 1, 1 / 2]) none = .ok (some f) := by
  obtain ⟨svd, _⟩ := exists_valid_svd
  obtain ⟨f, h⟩ := C09_three_points_suffice svd (le_refl 3) ![![0, 0, 1], ![1, 0, 3], ![0, 2, 5]]
    (some ![1, 1, 1 / 2]) (by rintro v ⟨⟩; simp)
  exact ⟨svd, f, h⟩

/-- With saved axes no number of points is refused. -/
theorem C09_saved_axes_never_raise (svd : SvdFn) {n : ℕ} (a : Fin n → Vec 3)
    (w : Option (Vec 3)) (axes : Mat 3 3) (e : PyErr) :
    init svd a w (some axes) ≠ .error e := by
  unfold init
  simp only
  cases loadSavedFit axes <;> simp

/-- Non-vacuity of C06 - C09: valid backends exist and every data set with at
least three points has a fit. -/
theorem fits_exist {n : ℕ} (hn : 3 ≤ n) (a : Fin n → Vec 3) :
    ∃ (svd : SvdFn) (f : Fit n), svd.Valid ∧ init svd a none none = .ok (some f) := by
  obtain ⟨svd, h⟩ := exists_valid_svd
  obtain ⟨f, hf⟩ := init_default_exists svd hn a
  exact ⟨svd, f, h, hf⟩

example : ∃ (svd : SvdFn) (f : Fit 4), svd.Valid ∧
    init svd ![![0, 0, 0], ![1, 0, 1], ![0, 2, 0], ![3, 1, 2]] none none = .ok (some f) :=
  fits_exist (by norm_num) _

end Attitude.Props
