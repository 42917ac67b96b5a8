import Verif.Props.PcaConics
import Verif.Lemmas.SvdScale

/-!
# C95, C98: the error ellipsoid of moved and rescaled data
-/

namespace Attitude.Props

open Attitude Pca Matrix PcaConics
open Attitude.Conics (Con contains solve augment fromAxes)

/-! ## Helpers -/

/-- The array of `Spec.turn`. -/
noncomputable def turnMat (α : ℝ) : Mat 3 3 :=
  !![Real.cos (α * Real.pi / 180), Real.sin (α * Real.pi / 180), 0;
    -Real.sin (α * Real.pi / 180), Real.cos (α * Real.pi / 180), 0; 0, 0, 1]

lemma turnMat_mulVec (α : ℝ) (v : Vec 3) : turnMat α *ᵥ v = Spec.turn α v := by
  funext i
  fin_cases i <;> simp [turnMat, Spec.turn, Matrix.mulVec, dotProduct, Fin.sum_univ_three] <;> ring

lemma turnMat_orth (α : ℝ) : (turnMat α).transpose * turnMat α = 1 := by
  have := Real.sin_sq_add_cos_sq (α * Real.pi / 180)
  ext i j
  fin_cases i <;> fin_cases j <;>
    simp [turnMat, Matrix.mul_apply, Fin.sum_univ_three] <;> nlinarith

lemma gram {m : ℕ} {A U : Mat m 3} {s : Vec 3} {V : Mat 3 3} (h : IsSVD A U s V) :
    A.transpose * A = V.transpose * Matrix.diagonal (fun i => s i ^ 2) * V := by
  rw [h.recon]
  simp only [Matrix.transpose_mul, Matrix.diagonal_transpose]
  have : V.transpose * (Matrix.diagonal s * U.transpose) * (U * Matrix.diagonal s * V)
      = V.transpose * (Matrix.diagonal s * (U.transpose * U) * Matrix.diagonal s) * V := by
    simp only [Matrix.mul_assoc]
  rw [this, h.orthU, Matrix.mul_one, Matrix.diagonal_mul_diagonal]
  simp only [sq]

/-- A function of the singular values, carried by the axes, depends on the data only. -/
lemma calculus_unique {P V : Mat 3 3} {s : Vec 3} (hs : ∀ i, 0 ≤ s i)
    (hP : P * P.transpose = 1) (hV : V * V.transpose = 1)
    (h : P.transpose * Matrix.diagonal (fun i => s i ^ 2) * P
      = V.transpose * Matrix.diagonal (fun i => s i ^ 2) * V) (φ : ℝ → ℝ) :
    P.transpose * Matrix.diagonal (fun i => φ (s i)) * P
      = V.transpose * Matrix.diagonal (fun i => φ (s i)) * V := by
  have hP' : P.transpose * P = 1 := mul_eq_one_comm.1 hP
  have hV' : V.transpose * V = 1 := mul_eq_one_comm.1 hV
  set W := P * V.transpose with hW
  set S := Matrix.diagonal (fun i => s i ^ 2) with hS
  have hc : S * W = W * S := by
    have e1 : S * W = P * (P.transpose * S * P) * V.transpose := by
      rw [hW]
      simp only [← Matrix.mul_assoc, hP, Matrix.one_mul]
    rw [e1, h, hW]
    have : P * (V.transpose * S * V) * V.transpose = P * V.transpose * S * (V * V.transpose) := by
      simp only [Matrix.mul_assoc]
    rw [this, hV, Matrix.mul_one]
  have hφ : Matrix.diagonal (fun i => φ (s i)) * W = W * Matrix.diagonal (fun i => φ (s i)) := by
    ext i j
    have := congrFun (congrFun hc i) j
    rw [hS, Matrix.diagonal_mul, Matrix.mul_diagonal] at this
    rw [Matrix.diagonal_mul, Matrix.mul_diagonal]
    by_cases hw : W i j = 0
    · simp [hw]
    · have h2 : s i ^ 2 = s j ^ 2 := by
        have : (s i ^ 2 - s j ^ 2) * W i j = 0 := by linarith
        rcases mul_eq_zero.1 this with k | k
        · linarith
        · exact absurd k hw
      have : s i = s j := (pow_left_inj₀ (hs i) (hs j) two_ne_zero).1 h2
      rw [this, mul_comm]
  have hWV : W * V = P := by
    rw [hW, Matrix.mul_assoc, hV', Matrix.mul_one]
  have hWP : P.transpose * W = V.transpose := by
    rw [hW, ← Matrix.mul_assoc, hP', Matrix.one_mul]
  calc P.transpose * Matrix.diagonal (fun i => φ (s i)) * P
      = P.transpose * Matrix.diagonal (fun i => φ (s i)) * (W * V) := by rw [hWV]
    _ = P.transpose * (Matrix.diagonal (fun i => φ (s i)) * W) * V := by
        simp only [Matrix.mul_assoc]
    _ = P.transpose * W * Matrix.diagonal (fun i => φ (s i)) * V := by
        rw [hφ]; simp only [Matrix.mul_assoc]
    _ = _ := by rw [hWP]

lemma form_eq (V : Mat 3 3) (d w : Vec 3) :
    w ⬝ᵥ (V.transpose * Matrix.diagonal d * V) *ᵥ w
      = d 0 * vdot (V 0) w ^ 2 + d 1 * vdot (V 1) w ^ 2 + d 2 * vdot (V 2) w ^ 2 := by
  rw [← Matrix.mulVec_mulVec, ← Matrix.mulVec_mulVec, Matrix.dotProduct_mulVec,
    Matrix.vecMul_transpose]
  have e : ∀ i, (V *ᵥ w) i = vdot (V i) w := fun i => rfl
  simp only [dotProduct, Matrix.mulVec_diagonal, Fin.sum_univ_three, e]
  ring

/-- Singular values and axes of moved data. -/
lemma moved_form {n : ℕ} {a : Fin n → Vec 3} {f g : Fit n} {U U' : Mat n 3} (h : IsFit a f U)
    {l α : ℝ} (hl : 0 < l) {t : Vec 3} (h' : IsFit (Spec.moved l α t a) g U') :
    (∀ j, g.s j = l * f.s j) ∧ ∀ (φ : ℝ → ℝ) (w : Vec 3),
      φ (f.s 0) * vdot (g.V 0) (Spec.turn α w) ^ 2 + φ (f.s 1) * vdot (g.V 1) (Spec.turn α w) ^ 2
        + φ (f.s 2) * vdot (g.V 2) (Spec.turn α w) ^ 2
      = φ (f.s 0) * vdot (f.V 0) w ^ 2 + φ (f.s 1) * vdot (f.V 1) w ^ 2
        + φ (f.s 2) * vdot (f.V 2) w ^ 2 := by
  set A : Mat n 3 := Matrix.of (Coordinates.centered a) with hA
  set B : Mat n 3 := Matrix.of (Coordinates.centered (Spec.moved l α t a)) with hB
  have hBA : B * turnMat α = l • A := by
    have key : ∀ w, (B * turnMat α) *ᵥ w = (l • A) *ᵥ w := by
      intro w
      funext i
      rw [← Matrix.mulVec_mulVec, turnMat_mulVec, mulVec_moved, Matrix.smul_mulVec]
      rfl
    ext i j
    have := congrFun (key (Pi.single j 1)) i
    simpa using this
  have hsv : ∀ j, g.s j = l * f.s j := by
    have ho : turnMat α * (turnMat α).transpose = 1 := mul_eq_one_comm.1 (turnMat_orth α)
    have hP : IsSVD (B * turnMat α) U' g.s (g.V * turnMat α) := by
      refine ⟨?_, h'.svd.orthU, ?_, h'.svd.nonneg, h'.svd.le01, h'.svd.le12⟩
      · rw [← Matrix.mul_assoc, ← h'.svd.recon]
      · rw [Matrix.transpose_mul, ← Matrix.mul_assoc, Matrix.mul_assoc g.V, ho, Matrix.mul_one,
          h'.svd.orthV]
    rw [hBA] at hP
    refine h.svd.scale_sv hP l hl.le ?_
    intro w
    simp only [Matrix.smul_mulVec, Pi.smul_apply, smul_eq_mul, mul_pow, Finset.mul_sum]
    rfl
  refine ⟨hsv, fun φ w => ?_⟩
  have hPs : (g.V * turnMat α) * (g.V * turnMat α).transpose = 1 := by
    have ho : turnMat α * (turnMat α).transpose = 1 := mul_eq_one_comm.1 (turnMat_orth α)
    rw [Matrix.transpose_mul, ← Matrix.mul_assoc, Matrix.mul_assoc g.V, ho, Matrix.mul_one,
      h'.svd.orthV]
  have hg := gram h'.svd
  have hf := gram h.svd
  have key : (g.V * turnMat α).transpose * Matrix.diagonal (fun i => f.s i ^ 2) * (g.V * turnMat α)
      = f.V.transpose * Matrix.diagonal (fun i => f.s i ^ 2) * f.V := by
    rw [← hf]
    have e1 : (l • A).transpose * (l • A) = (l ^ 2) • (A.transpose * A) := by
      rw [Matrix.transpose_smul, Matrix.smul_mul, Matrix.mul_smul, smul_smul, sq]
    rw [← hBA, Matrix.transpose_mul] at e1
    have e2 : (turnMat α).transpose * B.transpose * (B * turnMat α)
        = (turnMat α).transpose * (B.transpose * B) * turnMat α := by
      simp only [Matrix.mul_assoc]
    rw [e2, hg] at e1
    have e3 : (fun i => g.s i ^ 2) = fun i => l ^ 2 * f.s i ^ 2 := by
      funext i; rw [hsv, mul_pow]
    have e4 : Matrix.diagonal (fun i => l ^ 2 * f.s i ^ 2)
        = (l ^ 2) • Matrix.diagonal (fun i => f.s i ^ 2) := by
      ext i j
      simp [Matrix.diagonal_apply]
    rw [e3, e4] at e1
    have e5 : (turnMat α).transpose * (g.V.transpose * (l ^ 2 • Matrix.diagonal fun i => f.s i ^ 2)
        * g.V) * turnMat α
        = l ^ 2 • ((g.V * turnMat α).transpose * Matrix.diagonal (fun i => f.s i ^ 2)
          * (g.V * turnMat α)) := by
      rw [Matrix.transpose_mul]
      simp only [Matrix.mul_smul, Matrix.smul_mul, Matrix.mul_assoc]
    rw [e5] at e1
    exact smul_right_injective _ (by positivity : l ^ 2 ≠ 0) e1
  have hfin := calculus_unique h.svd.nonneg' hPs h.svd.orthV key φ
  have := congrArg (fun M : Mat 3 3 => w ⬝ᵥ M *ᵥ w) hfin
  simp only [form_eq] at this
  rw [← this]
  have hrow : ∀ i, vdot (g.V i) (Spec.turn α w) = vdot ((g.V * turnMat α) i) w := by
    intro i
    rw [← turnMat_mulVec]
    simp only [vdot, Matrix.mul_apply, Matrix.mulVec, dotProduct, Fin.sum_univ_three]
    ring
  rw [hrow, hrow, hrow]

/-- The normals of moved data. -/
lemma moved_normal {svd svd' : SvdFn} (hs : svd.Valid) (hs' : svd'.Valid) {n : ℕ}
    {a : Fin n → Vec 3} {f g : Fit n} (l α : ℝ) (hl : l ≠ 0) (t : Vec 3)
    (hf : init svd a none none = .ok (some f))
    (hg : init svd' (Spec.moved l α t a) none none = .ok (some g)) (hlt : f.s 2 < f.s 1)
    (hz : f.V 2 2 ≠ 0) : g.normal = Spec.turn α f.normal := by
  obtain ⟨U, h⟩ := init_default hs hf
  obtain ⟨U', h'⟩ := init_default hs' hg
  have hax := moved_axis hs hs' l α hl t hf hg hlt
  have hT2 : ∀ v : Vec 3, Spec.turn α v 2 = v 2 := fun v => by simp [Spec.turn]
  rw [h.normal, h'.normal]
  rcases lt_or_gt_of_ne hz with hz | hz
  · have u1 : upward (f.V 2) = -f.V 2 := by simp [upward, hz]
    rw [u1]
    rcases hax with k | k
    · rw [k, upward, if_pos (by rw [hT2]; exact hz), turn_neg]
    · rw [k, upward, if_neg (by simp only [Pi.neg_apply, hT2]; linarith), turn_neg]
  · have u1 : upward (f.V 2) = f.V 2 := by simp [upward, hz.le]
    rw [u1]
    rcases hax with k | k
    · rw [k, upward, if_neg (by rw [hT2]; linarith)]
    · rw [k, upward, if_pos (by simp only [Pi.neg_apply, hT2]; linarith), neg_neg]

/-- The ellipsoid of moved data in terms of that of the data. -/
lemma conic_moved {svd svd' : SvdFn} (hs : svd.Valid) (hs' : svd'.Valid) {n : ℕ}
    {a : Fin n → Vec 3} {f g : Fit n} (l α : ℝ) (hl : 0 < l) (t : Vec 3)
    (hf : init svd a none none = .ok (some f))
    (hg : init svd' (Spec.moved l α t a) none none = .ok (some g)) (h2 : 0 < f.s 2)
    (hlt : f.s 2 < f.s 1) (hz : f.V 2 2 ≠ 0) (level : ℝ) :
    ∃ C C', (asConic f (level * Real.sqrt l)).1 = some C ∧ (asConic g level).1 = some C' ∧
      ∀ y, contains C' ((l ^ 2) • Spec.turn α y) = contains C y := by
  have hnormal := moved_normal hs hs' l α hl.ne' t hf hg hlt hz
  obtain ⟨U, h⟩ := init_default hs hf
  obtain ⟨U', h'⟩ := init_default hs' hg
  obtain ⟨hsv, hform⟩ := moved_form h hl h'
  have h2' : 0 < g.s 2 := by rw [hsv]; positivity
  obtain ⟨C, hC, -, hx⟩ := asConic_eq h h2 (level * Real.sqrt l)
  obtain ⟨C', hC', -, hx'⟩ := asConic_eq h' h2' level
  refine ⟨C, C', hC, hC', fun y => ?_⟩
  have hw : (l ^ 2) • Spec.turn α y - (g.s 0 * g.s 1) • g.normal
      = (l ^ 2) • Spec.turn α (y - (f.s 0 * f.s 1) • f.normal) := by
    rw [hnormal, hsv, hsv]
    funext i
    fin_cases i <;> simp [Spec.turn] <;> ring
  have hn : (0 : ℝ) < n := by
    have := h.size
    exact_mod_cast (by omega : 0 < n)
  have key : solve C' (augment ((l ^ 2) • Spec.turn α y)) = solve C (augment y) := by
    rw [hx, hx', hw]
    set w := y - (f.s 0 * f.s 1) • f.normal
    have hv : ∀ i, vdot (g.V i) (l ^ 2 • Spec.turn α w) = l ^ 2 * vdot (g.V i) (Spec.turn α w) := by
      intro i
      simp only [vdot, Pi.smul_apply, smul_eq_mul, Fin.sum_univ_three]
      ring
    have hco : ∀ i (v : ℝ), (4 * g.s i ^ 3 / n)⁻¹ * level ^ 2 * (l ^ 2 * v) ^ 2
        = level ^ 2 * l * ((4 * f.s i ^ 3 / n)⁻¹ * v ^ 2) := by
      intro i v
      rw [hsv]
      have := s_pos h h2 i
      field_simp
    have hco' : ∀ i (v : ℝ), (4 * f.s i ^ 3 / n)⁻¹ * (level * Real.sqrt l) ^ 2 * v ^ 2
        = level ^ 2 * l * ((4 * f.s i ^ 3 / n)⁻¹ * v ^ 2) := by
      intro i v
      rw [mul_pow, Real.sq_sqrt hl.le]
      ring
    rw [hv, hv, hv, hco, hco, hco, hco', hco', hco', ← mul_add, ← mul_add, ← mul_add, ← mul_add]
    rw [hform (fun s => (4 * s ^ 3 / n)⁻¹) w]
  simp only [contains, key]

/-! ## C95 -/

/-- The ellipsoid depends on the data only, not on the backend, is not affected by
translating the data, and turns with the data, for a plane that is unique and not
vertical. -/
theorem C95_equivariant (svd svd' : SvdFn) (hs : svd.Valid) (hs' : svd'.Valid) {n : ℕ}
    (a : Fin n → Vec 3) (f g : Fit n) (α : ℝ) (t : Vec 3)
    (hf : init svd a none none = .ok (some f))
    (hg : init svd' (Spec.moved 1 α t a) none none = .ok (some g)) (h2 : 0 < f.s 2)
    (hlt : f.s 2 < f.s 1) (hz : f.V 2 2 ≠ 0) (level : ℝ) :
    ∃ C C', (asConic f level).1 = some C ∧ (asConic g level).1 = some C' ∧
      ∀ x, contains C' (Spec.turn α x) = contains C x := by
  obtain ⟨C, C', hC, hC', hx⟩ := conic_moved hs hs' 1 α one_pos t hf hg h2 hlt hz level
  rw [Real.sqrt_one, mul_one] at hC
  refine ⟨C, C', hC, hC', fun x => ?_⟩
  have := hx x
  rwa [one_pow, one_smul] at this

example : ∃ (svd : SvdFn) (f g : Fit 4), svd.Valid ∧
    init svd Witness.tilted none none = .ok (some f) ∧
    init svd (Spec.moved 1 30 ![1, 2, 3] Witness.tilted) none none = .ok (some g) ∧
    0 < f.s 2 ∧ f.s 2 < f.s 1 ∧ f.V 2 2 ≠ 0 := by
  obtain ⟨svd, f, hs, hf, hV, e⟩ := Witness.exists_tilted
  obtain ⟨g, hg⟩ := init_default_exists svd (by norm_num : 3 ≤ 4)
    (Spec.moved 1 30 ![1, 2, 3] Witness.tilted)
  exact ⟨svd, f, g, hs, hf, hg, by rw [e]; simp, by rw [e]; simp, by rw [hV]; simp [Witness.tilt]⟩

/-! ## C98 -/

/-- Points on the normal: those in the ellipsoid form an interval about `s₀ s₁`. -/
lemma contains_on_normal {n : ℕ} {a : Fin n → Vec 3} {f : Fit n} {U : Mat n 3} (h : IsFit a f U)
    (h2 : 0 < f.s 2) {level : ℝ} {C : Con 3} (hC : (asConic f level).1 = some C) (r : ℝ) :
    contains C (r • f.normal) = true ↔
      level ^ 2 * (r - f.s 0 * f.s 1) ^ 2 ≤ 4 * f.s 2 ^ 3 / n := by
  obtain ⟨C₀, hC₀, -, hx⟩ := asConic_eq h h2 level
  rw [hC] at hC₀
  cases hC₀
  have hn : (0 : ℝ) < n := by
    have := h.size
    exact_mod_cast (by omega : 0 < n)
  have hp : 0 < 4 * f.s 2 ^ 3 / n := by positivity
  have hd : ∀ i, vdot (f.V i) (r • f.normal - (f.s 0 * f.s 1) • f.normal) ^ 2
      = (r - f.s 0 * f.s 1) ^ 2 * if i = 2 then 1 else 0 := by
    intro i
    rw [← sub_smul]
    have e : vdot (f.V i) ((r - f.s 0 * f.s 1) • f.normal)
        = (r - f.s 0 * f.s 1) * vdot (f.V i) f.normal := by
      simp only [vdot, Pi.smul_apply, smul_eq_mul, Fin.sum_univ_three]
      ring
    rw [e, mul_pow]
    congr 1
    have e2 := h.svd.row_dot i 2
    have e3 : vdot (f.V i) f.normal ^ 2 = vdot (f.V i) (f.V 2) ^ 2 := by
      rw [h.normal]
      unfold upward
      split_ifs
      · simp [vdot]
      · rfl
    rw [e3, e2]
    split_ifs <;> norm_num
  rw [contains3_iff, hx, hd 0, hd 1, hd 2]
  simp only [Fin.reduceEq, if_false, if_true, mul_zero, zero_add, mul_one]
  rw [mul_assoc, inv_mul_eq_div, sub_nonpos, div_le_one hp]

lemma interval_unique {p q A B : ℝ} (hA : 0 < A) (hB : 0 < B)
    (h : ∀ r : ℝ, |r - p| ≤ A ↔ |r - q| ≤ B) : p = q ∧ A = B := by
  have h1 := (h (p + A)).1 (by rw [add_sub_cancel_left, abs_of_pos hA])
  have h2 := (h (p - A)).1 (by rw [sub_sub_cancel_left, abs_neg, abs_of_pos hA])
  have h3 := (h (q + B)).2 (by rw [add_sub_cancel_left, abs_of_pos hB])
  have h4 := (h (q - B)).2 (by rw [sub_sub_cancel_left, abs_neg, abs_of_pos hB])
  rw [abs_le] at h1 h2 h3 h4
  constructor <;> linarith [h1.1, h1.2, h2.1, h2.2, h3.1, h3.2, h4.1, h4.2]

/-- The ellipsoid depends on the unit of length: measured in another unit the data have
an ellipsoid of another shape and place, not the same one in the other unit, nor any
multiple of it. -/
theorem C98_unit_dependent_false (svd svd' : SvdFn) (hs : svd.Valid) (hs' : svd'.Valid) {n : ℕ}
    (a : Fin n → Vec 3) (f g : Fit n) (l : ℝ) (hl : 0 < l) (hl1 : l ≠ 1)
    (hf : init svd a none none = .ok (some f))
    (hg : init svd' (Spec.moved l 0 0 a) none none = .ok (some g)) (h2 : 0 < f.s 2)
    (hlt : f.s 2 < f.s 1) (hz : f.V 2 2 ≠ 0) (level : ℝ) (hlev : 0 < level) :
    ∃ C C', (asConic f level).1 = some C ∧ (asConic g level).1 = some C' ∧
      ∀ c : ℝ, 0 < c → ∃ x, contains C' (c • x) ≠ contains C x := by
  obtain ⟨C₁, C', hC₁, hC', hx⟩ := conic_moved hs hs' l 0 hl 0 hf hg h2 hlt hz level
  obtain ⟨U, h⟩ := init_default hs hf
  obtain ⟨C, hC, -, -⟩ := asConic_eq h h2 level
  refine ⟨C, C', hC, hC', fun c hc => ?_⟩
  by_contra hall
  push Not at hall
  have hn : (0 : ℝ) < n := by
    have := h.size
    exact_mod_cast (by omega : 0 < n)
  have ht : ∀ v : Vec 3, Spec.turn 0 v = v := by
    intro v
    funext j
    fin_cases j <;> simp [Spec.turn]
  set D := f.s 0 * f.s 1
  set ρ := 4 * f.s 2 ^ 3 / (n : ℝ) with hρ
  have hρ0 : 0 < ρ := by positivity
  have hD : 0 < D := mul_pos (s_pos h h2 0) (s_pos h h2 1)
  set k := c / l ^ 2 with hk
  have hk0 : 0 < k := by positivity
  -- the two intervals agree
  have key : ∀ r : ℝ, level ^ 2 * (r - D) ^ 2 ≤ ρ ↔ (level * Real.sqrt l) ^ 2 * (k * r - D) ^ 2 ≤ ρ := by
    intro r
    rw [← contains_on_normal h h2 hC, ← contains_on_normal h h2 hC₁, ← hx, ht, smul_smul,
      ← hall, smul_smul]
    have : l ^ 2 * (k * r) = c * r := by
      rw [hk]; field_simp
    rw [this]
  have habs : ∀ {m x : ℝ}, 0 < m → (m ^ 2 * x ^ 2 ≤ ρ ↔ |x| ≤ Real.sqrt ρ / m) := by
    intro m x hm
    rw [le_div_iff₀ hm, ← mul_pow, ← Real.sqrt_le_sqrt_iff hρ0.le, Real.sqrt_sq_eq_abs, abs_mul,
      abs_of_pos hm, mul_comm]
  have hsl : 0 < Real.sqrt l := Real.sqrt_pos.2 hl
  have hm : 0 < level * Real.sqrt l := by positivity
  have key' : ∀ r : ℝ, |r - D| ≤ Real.sqrt ρ / level ↔
      |r - D / k| ≤ Real.sqrt ρ / (level * Real.sqrt l * k) := by
    intro r
    rw [← habs hlev, key, ← habs (by positivity)]
    have : (level * Real.sqrt l * k) ^ 2 * (r - D / k) ^ 2
        = (level * Real.sqrt l) ^ 2 * (k * r - D) ^ 2 := by
      field_simp
    rw [this]
  have hsρ : 0 < Real.sqrt ρ := Real.sqrt_pos.2 hρ0
  obtain ⟨e1, e2⟩ := interval_unique (by positivity) (by positivity) key'
  have hk1 : k = 1 := by
    have : D * k = D := by
      rw [eq_div_iff hk0.ne'] at e1
      exact e1
    have : D * (k - 1) = 0 := by linarith
    rcases mul_eq_zero.1 this with q | q
    · exact absurd q hD.ne'
    · linarith
  rw [hk1, mul_one] at e2
  have hsl1 : Real.sqrt l = 1 := by
    rw [div_eq_div_iff hlev.ne' hm.ne'] at e2
    have : Real.sqrt ρ * level * (Real.sqrt l - 1) = 0 := by linarith
    rcases mul_eq_zero.1 this with q | q
    · exact absurd q (by positivity)
    · linarith
  apply hl1
  rw [← Real.sq_sqrt hl.le, hsl1, one_pow]

example : ∃ (svd : SvdFn) (f g : Fit 4), svd.Valid ∧
    init svd Witness.tilted none none = .ok (some f) ∧
    init svd (Spec.moved 1000 0 0 Witness.tilted) none none = .ok (some g) ∧
    0 < f.s 2 ∧ f.s 2 < f.s 1 ∧ f.V 2 2 ≠ 0 := by
  obtain ⟨svd, f, hs, hf, hV, e⟩ := Witness.exists_tilted
  obtain ⟨g, hg⟩ := init_default_exists svd (by norm_num : 3 ≤ 4)
    (Spec.moved 1000 0 0 Witness.tilted)
  exact ⟨svd, f, g, hs, hf, hg, by rw [e]; simp, by rw [e]; simp, by rw [hV]; simp [Witness.tilt]⟩

/-- Non-vacuity: noisy data with a unique, horizontal best plane, for every backend. -/
theorem C95_witness (svd : SvdFn) (hs : svd.Valid) :
    ∃ f, init svd (axisPoints 3 2 1) none none = .ok (some f) ∧ 0 < f.s 2 ∧ f.s 2 < f.s 1 ∧
      f.V 2 2 ≠ 0 := by
  obtain ⟨f, hf⟩ := init_default_exists svd (by norm_num : 3 ≤ 6) (axisPoints 3 2 1)
  obtain ⟨U, h⟩ := init_default hs hf
  have hA := h.svd
  rw [axisPoints_centered] at hA
  have hr : ∀ i, f.V i 0 ^ 2 + f.V i 1 ^ 2 + f.V i 2 ^ 2 = 1 := by
    intro i
    have hn := hA.row_dot i i
    rw [if_pos rfl, vdot3] at hn
    linarith
  have hc : f.V 0 2 ^ 2 + f.V 1 2 ^ 2 + f.V 2 2 ^ 2 = 1 := by
    have hT : f.V.transpose * f.V = 1 := mul_eq_one_comm.1 hA.orthV
    have := congrArg (fun M : Mat 3 3 => M 2 2) hT
    simp [Matrix.mul_apply, Fin.sum_univ_three] at this
    linarith
  have e2 := hA.sum_sq_row 2
  have e1 := hA.sum_sq_row 1
  have o := hA.optimal ![0, 0, 1]
  rw [axisPoints_sq] at e1 e2 o
  simp [Fin.sum_univ_three] at o
  have r2 := hr 2
  have r1 := hr 1
  have q0 := sq_nonneg (f.V 2 0)
  have q1 := sq_nonneg (f.V 2 1)
  have z0 : f.V 2 0 ^ 2 = 0 := by nlinarith
  have z1 : f.V 2 1 ^ 2 = 0 := by nlinarith
  have z2 : f.V 2 2 ^ 2 = 1 := by linarith
  have s2 : f.s 2 ^ 2 = 2 := by rw [← e2, z0, z1, z2]; norm_num
  have y2 : f.V 1 2 ^ 2 = 0 := by
    have := sq_nonneg (f.V 0 2)
    have := sq_nonneg (f.V 1 2)
    linarith
  have s1 : 8 ≤ f.s 1 ^ 2 := by
    rw [← e1, y2]
    have := sq_nonneg (f.V 1 0)
    nlinarith
  refine ⟨f, hf, ?_, ?_, ?_⟩
  · rcases hA.nonneg.lt_or_eq with q | q
    · exact q
    · rw [← q] at s2; norm_num at s2
  · by_contra hq
    have := pow_le_pow_left₀ (hA.nonneg' 1) (not_lt.1 hq) 2
    linarith
  · intro q
    rw [q] at z2
    norm_num at z2

/-- Non-vacuity: data in metres and in feet. -/
example (svd : SvdFn) (hs : svd.Valid) :
    ∃ f g : Fit 6, init svd (axisPoints 3 2 1) none none = .ok (some f) ∧
      init svd (Spec.moved 3.28 0 0 (axisPoints 3 2 1)) none none = .ok (some g) ∧
      ∃ C C', (asConic f 1).1 = some C ∧ (asConic g 1).1 = some C' ∧
        ∀ c : ℝ, 0 < c → ∃ x, contains C' (c • x) ≠ contains C x := by
  obtain ⟨f, hf, h2, hlt, hz⟩ := C95_witness svd hs
  obtain ⟨g, hg⟩ := init_default_exists svd (by norm_num : 3 ≤ 6)
    (Spec.moved 3.28 0 0 (axisPoints 3 2 1))
  exact ⟨f, g, hf, hg, C98_unit_dependent_false svd svd hs hs _ f g 3.28 (by norm_num)
    (by norm_num) hf hg h2 hlt hz 1 one_pos⟩

/-- Non-vacuity: the same data turned and moved. -/
example (svd : SvdFn) (hs : svd.Valid) :
    ∃ f g : Fit 6, init svd (axisPoints 3 2 1) none none = .ok (some f) ∧
      init svd (Spec.moved 1 30 ![5, 6, 7] (axisPoints 3 2 1)) none none = .ok (some g) ∧
      ∃ C C', (asConic f 2).1 = some C ∧ (asConic g 2).1 = some C' ∧
        ∀ x, contains C' (Spec.turn 30 x) = contains C x := by
  obtain ⟨f, hf, h2, hlt, hz⟩ := C95_witness svd hs
  obtain ⟨g, hg⟩ := init_default_exists svd (by norm_num : 3 ≤ 6)
    (Spec.moved 1 30 ![5, 6, 7] (axisPoints 3 2 1))
  exact ⟨f, g, hf, hg, C95_equivariant svd svd hs hs _ f g 30 _ hf hg h2 hlt hz 2⟩

end Attitude.Props
