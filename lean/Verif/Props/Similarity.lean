import Verif.Props.PcaCovariance
import Verif.Lemmas.SqSvdExists

/-!
# C103 - C105: comparing fits
-/

namespace Attitude.Props

open Attitude Pca Matrix Similarity
open Attitude.Conics (SqSvd IsSqSVD)

/-! ## Helpers -/

lemma frobenius_diagonal (d : Vec 3) :
    frobeniusNorm (Matrix.diagonal d) = Real.sqrt (d 0 ^ 2 + d 1 ^ 2 + d 2 ^ 2) := by
  simp [frobeniusNorm, Fin.sum_univ_three, Matrix.diagonal_apply]

lemma frobenius_pos {d : Vec 3} (h : d 0 ≠ 0) : 0 < frobeniusNorm (Matrix.diagonal d) := by
  rw [frobenius_diagonal]
  exact Real.sqrt_pos.2 (by positivity)

/-- The lengths on the diagonal of the rescaled covariance. -/
noncomputable def scaled {n : ℕ} (f : Fit n) : Vec 3 := fun i =>
  4 * f.s i ^ 3 / n / frobeniusNorm (Matrix.diagonal fun i => 4 * f.s i ^ 3 / (n : ℝ))

lemma alignedCovariance_eq {n : ℕ} {a : Fin n → Vec 3} {f : Fit n} {U : Mat n 3}
    (h : IsFit a f U) (h0 : 0 < f.s 0) :
    alignedCovariance f = some (f.V * Matrix.diagonal (scaled f)) := by
  have hn : (0 : ℝ) < n := by
    have : (3 : ℝ) ≤ n := by exact_mod_cast h.size
    linarith
  have hr := frobenius_pos (d := fun i => 4 * f.s i ^ 3 / (n : ℝ)) (by positivity)
  simp only [alignedCovariance, noise_diagonal h, if_neg hr.ne']
  congr 2
  ext i j
  by_cases hij : i = j
  · subst hij; simp [scaled]
  · simp [hij]

lemma scaled_pos {n : ℕ} {a : Fin n → Vec 3} {f : Fit n} {U : Mat n 3}
    (h : IsFit a f U) (h2 : 0 < f.s 2) (i : Fin 3) : 0 < scaled f i := by
  have hn : (0 : ℝ) < n := by
    have : (3 : ℝ) ≤ n := by exact_mod_cast h.size
    linarith
  have h1 : 0 < f.s 1 := h2.trans_le h.svd.le12
  have h0 : 0 < f.s 0 := h1.trans_le h.svd.le01
  have hr := frobenius_pos (d := fun i => 4 * f.s i ^ 3 / (n : ℝ)) (by positivity)
  unfold scaled
  fin_cases i <;> simp <;> positivity

lemma sv_ne_zero {A U : Mat 3 3} {s : Vec 3} {V : Mat 3 3} (h : IsSqSVD A U s V)
    (hA : A.det ≠ 0) (i : Fin 3) : s i ≠ 0 := by
  intro e
  apply hA
  rw [h.recon, Matrix.det_mul, Matrix.det_mul, Matrix.det_diagonal,
    Finset.prod_eq_zero (Finset.mem_univ i) e]
  ring

lemma sv_zero {A U : Mat 3 3} {s : Vec 3} {V : Mat 3 3} (h : IsSqSVD A U s V)
    (hA : A.det = 0) : s 0 = 0 ∨ s 1 = 0 ∨ s 2 = 0 := by
  have hV : V.det ≠ 0 := by
    intro e
    have := congrArg Matrix.det h.orthV
    rw [Matrix.det_mul, e] at this
    simp at this
  have hU : U.det ≠ 0 := by
    intro e
    have := congrArg Matrix.det h.orthU
    rw [Matrix.det_mul, e] at this
    simp at this
  rw [h.recon, Matrix.det_mul, Matrix.det_mul, Matrix.det_diagonal, Fin.prod_univ_three] at hA
  rcases mul_eq_zero.1 hA with q | q
  · rcases mul_eq_zero.1 q with q | q
    · exact absurd q hU
    · rcases mul_eq_zero.1 q with q | q
      · rcases mul_eq_zero.1 q with q | q
        · exact .inl q
        · exact .inr (.inl q)
      · exact .inr (.inr q)
  · exact absurd q hV

lemma det_V {m : ℕ} {A U : Mat m 3} {s : Vec 3} {V : Mat 3 3} (h : IsSVD A U s V) :
    V.det ≠ 0 := by
  intro e
  have := congrArg Matrix.det h.orthV
  rw [Matrix.det_mul, e] at this
  simp at this

/-! ## C103 -/

/-- A fit whose third axis does not point down is at distance zero from itself. -/
theorem C103_self_partial (svd : SvdFn) (hs : svd.Valid) (sq : SqSvd) (hq : sq.Valid) {n : ℕ}
    (a : Fin n → Vec 3) (f : Fit n) (hf : init svd a none none = .ok (some f))
    (h2 : 0 < f.s 2) (hup : 0 ≤ f.V 2 2) :
    fitSimilarity sq f f = .ok (some 0) := by
  obtain ⟨U, h⟩ := init_default hs hf
  have h0 : 0 < f.s 0 := h2.trans_le (h.svd.le12.trans h.svd.le01)
  simp only [fitSimilarity, alignedCovariance_eq h h0, if_neg (not_lt.2 hup), sub_self,
    Matrix.mulVec_zero, Pi.zero_apply]
  have hdet : (f.V * Matrix.diagonal (scaled f) + f.V * Matrix.diagonal (scaled f)).det ≠ 0 := by
    rw [← two_smul ℝ, Matrix.det_smul, Matrix.det_mul, Matrix.det_diagonal, Fin.prod_univ_three]
    have := scaled_pos h h2
    have p0 := (this 0).ne'
    have p1 := (this 1).ne'
    have p2 := (this 2).ne'
    have := det_V h.svd
    simp only [Fintype.card_fin]
    positivity
  have k := sv_ne_zero (hq 3 _) hdet
  rw [if_neg (by simp [k])]
  simp

example : ∃ (svd : SvdFn) (sq : SqSvd) (f : Fit 4), svd.Valid ∧ sq.Valid ∧
    init svd Witness.tilted none none = .ok (some f) ∧ fitSimilarity sq f f = .ok (some 0) := by
  obtain ⟨svd, f, hs, hf, hV, e⟩ := Witness.exists_tilted
  obtain ⟨sq, hq⟩ := Conics.exists_valid_sqSvd
  exact ⟨svd, sq, f, hs, hq, hf, C103_self_partial svd hs sq hq _ f hf (by rw [e]; simp)
    (by rw [hV]; simp [Witness.tilt]; norm_num)⟩

/-- A fit whose third axis points down has no distance from itself: the result
is not a number. -/
theorem C103_self_undefined_false (svd : SvdFn) (hs : svd.Valid) (sq : SqSvd) (hq : sq.Valid)
    {n : ℕ} (a : Fin n → Vec 3) (f : Fit n) (hf : init svd a none none = .ok (some f))
    (h0 : 0 < f.s 0) (hdown : f.V 2 2 < 0) :
    fitSimilarity sq f f = .ok none := by
  obtain ⟨U, h⟩ := init_default hs hf
  simp only [fitSimilarity, alignedCovariance_eq h h0, if_pos hdown, add_neg_cancel]
  rw [if_pos]
  exact sv_zero (hq 3 _) (by simp)

example : ∃ (svd : SvdFn) (sq : SqSvd) (f : Fit 4), svd.Valid ∧ sq.Valid ∧
    init svd (Witness.points (-Witness.tilt) ![3, 2, 1]) none none = .ok (some f) ∧
    fitSimilarity sq f f = .ok none := by
  obtain ⟨svd, f, hs, hf, hV, e⟩ := Witness.exists_fit (-Witness.tilt)
    (by rw [Matrix.transpose_neg, neg_mul_neg, Witness.tilt_orth]) ![3, 2, 1] (by simp) (by simp)
    (by norm_num)
  obtain ⟨sq, hq⟩ := Conics.exists_valid_sqSvd
  exact ⟨svd, sq, f, hs, hq, hf, C103_self_undefined_false svd hs sq hq _ f hf (by rw [e]; simp)
    (by rw [hV]; simp [Witness.tilt])⟩

/-- Whenever a number is returned, it is not negative, and it is zero exactly if
the normals are equal. -/
theorem C103_zero_iff_partial (sq : SqSvd) (hq : sq.Valid) {n m : ℕ} (f : Fit n) (g : Fit m)
    (r : ℝ) (h : fitSimilarity sq f g = .ok (some r)) :
    0 ≤ r ∧ (r = 0 ↔ f.normal = g.normal) := by
  unfold fitSimilarity at h
  split at h
  case h_2 => exact absurd h (by simp)
  case h_1 c1 c2 _ _ =>
  simp only at h
  generalize c1 + (if g.V 2 2 < 0 then -c2 else c2) = A at h
  by_cases hz : (sq 3 A).2.1 0 = 0 ∨ (sq 3 A).2.1 1 = 0 ∨ (sq 3 A).2.1 2 = 0
  · rw [if_pos hz] at h
    exact absurd h (by simp)
  · rw [if_neg hz] at h
    simp only [Except.ok.injEq, Option.some.injEq] at h
    subst h
    refine ⟨Real.sqrt_nonneg _, ?_⟩
    have k := hq 3 A
    push Not at hz
    set s := (sq 3 A).2.1
    set V := (sq 3 A).2.2
    have sp : ∀ i, 0 < Real.sqrt (s i) := by
      intro i
      apply Real.sqrt_pos.2
      refine lt_of_le_of_ne (k.nonneg i) ?_
      fin_cases i
      · exact hz.1.symm
      · exact hz.2.1.symm
      · exact hz.2.2.symm
    have hnn : ∀ i ∈ (Finset.univ : Finset (Fin 3)),
        0 ≤ (V *ᵥ (f.normal - g.normal)) i ^ 2 / Real.sqrt (s i) :=
      fun i _ => div_nonneg (sq_nonneg _) (sp i).le
    rw [Real.sqrt_eq_zero (Finset.sum_nonneg hnn), Finset.sum_eq_zero_iff_of_nonneg hnn]
    constructor
    · intro e
      have e' : V *ᵥ (f.normal - g.normal) = 0 := by
        funext i
        have := e i (Finset.mem_univ i)
        rcases div_eq_zero_iff.1 this with q | q
        · exact pow_eq_zero_iff (two_ne_zero) |>.1 q
        · exact absurd q (sp i).ne'
      have e2 : V.transpose *ᵥ (V *ᵥ (f.normal - g.normal)) = 0 := by rw [e', Matrix.mulVec_zero]
      rw [Matrix.mulVec_mulVec, mul_eq_one_comm.1 k.orthV, Matrix.one_mulVec] at e2
      exact sub_eq_zero.1 e2
    · intro e i _
      rw [e]
      simp

/-- The downward case occurs, for a twin of every backend. -/
example (svd : SvdFn) (hs : svd.Valid) : ∃ (svd' : SvdFn) (sq : SqSvd) (f : Fit 3),
    svd'.Valid ∧ sq.Valid ∧ init svd' tiltedPoints none none = .ok (some f) ∧
      fitSimilarity sq f f = .ok none := by
  obtain ⟨svd', hs', f, hf, hd, h0, -⟩ := C18_downward_axis_occurs svd hs
  obtain ⟨sq, hq⟩ := Conics.exists_valid_sqSvd
  obtain ⟨U, h⟩ := init_default hs' hf
  exact ⟨svd', sq, f, hs', hq, hf, C103_self_undefined_false svd' hs' sq hq _ f hf
    (lt_of_le_of_ne (h.svd.nonneg' 0) h0.symm) hd⟩

/-! ## C104 -/

/-- The distance is symmetric between fits whose third axes do not point down. -/
theorem C104_symmetric_partial (sq : SqSvd) {n m : ℕ} (f : Fit n) (g : Fit m)
    (hf : 0 ≤ f.V 2 2) (hg : 0 ≤ g.V 2 2) :
    fitSimilarity sq f g = fitSimilarity sq g f := by
  unfold fitSimilarity
  rcases alignedCovariance f with _ | c1 <;> rcases alignedCovariance g with _ | c2 <;> try rfl
  simp only [if_neg (not_lt.2 hf), if_neg (not_lt.2 hg), add_comm c2 c1]
  have e : g.normal - f.normal = -(f.normal - g.normal) := by rw [neg_sub]
  rw [e]
  simp only [Matrix.mulVec_neg, Pi.neg_apply, neg_sq]

/-- A backend with other signs. -/
def signedSvd (svd : SvdFn) (σ : (m : ℕ) → Mat m 3 → Vec 3) : SvdFn := fun m A =>
  let r := svd m A
  (r.1 * Matrix.diagonal (σ m A), r.2.1, Matrix.diagonal (σ m A) * r.2.2)

/-- It is as valid as the original. -/
theorem signedSvd_valid {svd : SvdFn} (hs : svd.Valid) {σ : (m : ℕ) → Mat m 3 → Vec 3}
    (hσ : ∀ m A i, σ m A i * σ m A i = 1) : (signedSvd svd σ).Valid := by
  intro m A hm
  have h := hs m A hm
  have hD : Matrix.diagonal (σ m A) * Matrix.diagonal (σ m A) = (1 : Mat 3 3) := by
    rw [Matrix.diagonal_mul_diagonal, ← Matrix.diagonal_one]
    congr 1
    funext i
    exact hσ m A i
  refine ⟨?_, ?_, ?_, h.nonneg, h.le01, h.le12⟩
  · show A = (svd m A).1 * Matrix.diagonal (σ m A) * Matrix.diagonal (svd m A).2.1
        * (Matrix.diagonal (σ m A) * (svd m A).2.2)
    have e : (svd m A).1 * Matrix.diagonal (σ m A) * Matrix.diagonal (svd m A).2.1
        * (Matrix.diagonal (σ m A) * (svd m A).2.2)
        = (svd m A).1 * (Matrix.diagonal (σ m A) * Matrix.diagonal (svd m A).2.1
          * Matrix.diagonal (σ m A)) * (svd m A).2.2 := by
      simp only [Matrix.mul_assoc]
    rw [e]
    have e2 : Matrix.diagonal (σ m A) * Matrix.diagonal (svd m A).2.1
          * Matrix.diagonal (σ m A) = Matrix.diagonal (svd m A).2.1 := by
      rw [Matrix.diagonal_mul_diagonal, Matrix.diagonal_mul_diagonal]
      congr 1
      funext i
      have := hσ m A i
      linear_combination (svd m A).2.1 i * this
    rw [e2]
    exact h.recon
  · show ((svd m A).1 * Matrix.diagonal (σ m A)).transpose
      * ((svd m A).1 * Matrix.diagonal (σ m A)) = 1
    rw [Matrix.transpose_mul, Matrix.diagonal_transpose, Matrix.mul_assoc,
      ← Matrix.mul_assoc _ _ (Matrix.diagonal (σ m A)), h.orthU, Matrix.one_mul, hD]
  · show (Matrix.diagonal (σ m A) * (svd m A).2.2)
      * (Matrix.diagonal (σ m A) * (svd m A).2.2).transpose = 1
    rw [Matrix.transpose_mul, Matrix.diagonal_transpose, Matrix.mul_assoc,
      ← Matrix.mul_assoc (svd m A).2.2, h.orthV, Matrix.one_mul, hD]

/-- The axes of points on the coordinate axes are the coordinate axes. -/
lemma axisPoints_axes {U : Mat 6 3} {s : Vec 3} {V : Mat 3 3} {x y z : ℝ} (hz : 0 < z)
    (hyz : z < y) (hxy : y < x) (hA : IsSVD (Matrix.of (axisPoints x y z)) U s V)
    (e0 : s 0 ^ 2 = 2 * x ^ 2) (e1 : s 1 ^ 2 = 2 * y ^ 2) (e2 : s 2 ^ 2 = 2 * z ^ 2) :
    ∃ ε : Vec 3, (∀ i, ε i * ε i = 1) ∧ V = Matrix.diagonal ε := by
  have g := gram hA
  have g0 : (Matrix.of (axisPoints x y z)).transpose * Matrix.of (axisPoints x y z)
      = Matrix.diagonal ![2 * x ^ 2, 2 * y ^ 2, 2 * z ^ 2] := by
    ext i j
    fin_cases i <;> fin_cases j <;>
      simp [axisPoints, Matrix.mul_apply, Fin.sum_univ_six] <;> ring
  rw [g0] at g
  have c : V * Matrix.diagonal ![2 * x ^ 2, 2 * y ^ 2, 2 * z ^ 2]
      = Matrix.diagonal (fun i => s i ^ 2) * V := by
    rw [g, ← Matrix.mul_assoc, ← Matrix.mul_assoc, hA.orthV, Matrix.one_mul]
  have x2 : y ^ 2 < x ^ 2 := pow_lt_pow_left₀ hxy (by linarith) two_ne_zero
  have y2 : z ^ 2 < y ^ 2 := pow_lt_pow_left₀ hyz hz.le two_ne_zero
  have en : ∀ i j, V i j * ![2 * x ^ 2, 2 * y ^ 2, 2 * z ^ 2] j = s i ^ 2 * V i j := by
    intro i j
    have := congrArg (fun M : Mat 3 3 => M i j) c
    simpa [Matrix.mul_diagonal, Matrix.diagonal_mul] using this
  have off : ∀ i j, i ≠ j → V i j = 0 := by
    intro i j hij
    have k := en i j
    have aux : ∀ v p q : ℝ, v * (2 * p) = 2 * q * v → p ≠ q → v = 0 := by
      intro v p q e hpq
      have : v * (p - q) = 0 := by linear_combination e / 2
      exact (mul_eq_zero.1 this).resolve_right (sub_ne_zero.2 hpq)
    fin_cases i <;> fin_cases j <;> simp [e0, e1, e2] at hij k ⊢ <;>
      first
      | exact aux _ _ _ k (ne_of_lt (by linarith))
      | exact aux _ _ _ k (ne_of_gt (by linarith))
  have hV : V = Matrix.diagonal (fun i => V i i) := by
    ext i j
    by_cases hij : i = j
    · subst hij; simp
    · rw [off i j hij, Matrix.diagonal_apply_ne _ hij]
  refine ⟨fun i => V i i, fun i => ?_, hV⟩
  have := hA.orthV
  rw [hV, Matrix.diagonal_transpose, Matrix.diagonal_mul_diagonal] at this
  have := congrArg (fun M : Mat 3 3 => M i i) this
  simpa using this

/-- Signs that make the axes of points on the coordinate axes positive, except
for data that contain the number six. -/
noncomputable def mixedSigns (svd : SvdFn) (m : ℕ) (A : Mat m 3) : Vec 3 := fun i =>
  open Classical in
  (if (svd m A).2.2 i i < 0 then -1 else 1) * (if ∃ k j, A k j = 6 then -1 else 1)

lemma mixedSigns_sq (svd : SvdFn) (m : ℕ) (A : Mat m 3) (i : Fin 3) :
    mixedSigns svd m A i * mixedSigns svd m A i = 1 := by
  unfold mixedSigns
  split_ifs <;> norm_num

lemma mixed_fit {svd : SvdFn} (hs : svd.Valid) {x y z : ℝ} (hz : 0 < z)
    (hyz : z < y) (hxy : y < x) {f : Fit 6}
    (hf : init (signedSvd svd (mixedSigns svd)) (axisPoints x y z) none none = .ok (some f)) :
    f.V = (open Classical in if ∃ k j, axisPoints x y z k j = 6 then (-1 : Mat 3 3) else 1) := by
  obtain ⟨f0, hf0⟩ := init_default_exists svd (by norm_num : 3 ≤ 6) (axisPoints x y z)
  obtain ⟨U0, h0⟩ := init_default hs hf0
  obtain ⟨e0, e1, e2⟩ := axisPoints_singular_values hs hz.le hyz.le hxy.le hf0
  have hA := h0.svd
  rw [axisPoints_centered] at hA
  obtain ⟨ε, hε, hV⟩ := axisPoints_axes hz hyz hxy hA e0 e1 e2
  rw [init_V hf, axisPoints_centered]
  have k := init_V hf0
  rw [axisPoints_centered] at k
  show Matrix.diagonal (mixedSigns svd 6 (Matrix.of (axisPoints x y z)))
    * (svd 6 (Matrix.of (axisPoints x y z))).2.2 = _
  have key : ∀ i, (if ε i < 0 then (-1 : ℝ) else 1) * ε i = 1 := by
    intro i
    have : (ε i - 1) * (ε i + 1) = 0 := by linear_combination hε i
    rcases mul_eq_zero.1 this with q | q
    · have : ε i = 1 := by linarith
      rw [this]; norm_num
    · have : ε i = -1 := by linarith
      rw [this]; norm_num
  have e : ∀ i, mixedSigns svd 6 (Matrix.of (axisPoints x y z)) i
      = (if ε i < 0 then -1 else 1) *
        (open Classical in if ∃ k j, axisPoints x y z k j = 6 then -1 else 1) := by
    intro i
    unfold mixedSigns
    rw [← k, hV, Matrix.diagonal_apply_eq]
    rfl
  rw [← k, hV, Matrix.diagonal_mul_diagonal]
  have key2 : ∀ i, mixedSigns svd 6 (Matrix.of (axisPoints x y z)) i * ε i
      = (open Classical in if ∃ k j, axisPoints x y z k j = 6 then -1 else 1) := by
    intro i
    rw [e, mul_right_comm, key, one_mul]
  simp only [key2]
  split_ifs
  · ext i j
    by_cases q : i = j
    · subst q; simp
    · simp [q]
  · ext i j
    by_cases q : i = j
    · subst q; simp
    · simp [q]

/-- Non-vacuity of `C103_self_partial` and `C104_symmetric_partial`: two fits with
upward axes. -/
example (sq : SqSvd) (hq : sq.Valid) : ∃ (svd : SvdFn) (f g : Fit 6), svd.Valid ∧
    init svd (axisPoints 3 2 1) none none = .ok (some f) ∧
    init svd (axisPoints 5 4 1) none none = .ok (some g) ∧
    fitSimilarity sq f f = .ok (some 0) ∧ fitSimilarity sq f g = fitSimilarity sq g f := by
  obtain ⟨svd, hs⟩ := exists_valid_svd
  have hs' := signedSvd_valid hs (mixedSigns_sq svd)
  obtain ⟨f, hf⟩ := init_default_exists (signedSvd svd (mixedSigns svd))
    (by norm_num : 3 ≤ 6) (axisPoints 3 2 1)
  obtain ⟨g, hg⟩ := init_default_exists (signedSvd svd (mixedSigns svd))
    (by norm_num : 3 ≤ 6) (axisPoints 5 4 1)
  have Vf := mixed_fit hs (by norm_num) (by norm_num) (by norm_num) hf
  have Vg := mixed_fit hs (by norm_num) (by norm_num) (by norm_num) hg
  rw [if_neg] at Vf
  swap
  · rintro ⟨k, j, e⟩
    revert e
    fin_cases k <;> fin_cases j <;> simp [axisPoints] <;> norm_num
  rw [if_neg] at Vg
  swap
  · rintro ⟨k, j, e⟩
    revert e
    fin_cases k <;> fin_cases j <;> simp [axisPoints] <;> norm_num
  obtain ⟨U, h⟩ := init_default hs' hf
  obtain ⟨_, _, e2⟩ := axisPoints_singular_values hs' (by norm_num) (by norm_num) (by norm_num) hf
  have p2 : 0 < f.s 2 := by
    rcases (h.svd.nonneg' 2).lt_or_eq with q | q
    · exact q
    · rw [← q] at e2; norm_num at e2
  exact ⟨_, f, g, hs', hf, hg,
    C103_self_partial _ hs' sq hq _ f hf p2 (by rw [Vf]; simp),
    C104_symmetric_partial sq f g (by rw [Vf]; simp) (by rw [Vg]; simp)⟩

/-- The distance is not symmetric: with one and the same backend, the six points
at distances 3, 2, 1 and the six points at distances 6, 4, 2 are at distance zero
in one order and at no distance (`nan`) in the other. -/
theorem C104_asymmetric_false (sq : SqSvd) (hq : sq.Valid) :
    ∃ (svd : SvdFn) (f g : Fit 6), svd.Valid ∧
      init svd (axisPoints 3 2 1) none none = .ok (some f) ∧
      init svd (axisPoints 6 4 2) none none = .ok (some g) ∧
      fitSimilarity sq f g = .ok (some 0) ∧ fitSimilarity sq g f = .ok none := by
  obtain ⟨svd, hs⟩ := exists_valid_svd
  have hs' := signedSvd_valid hs (mixedSigns_sq svd)
  obtain ⟨f, hf⟩ := init_default_exists (signedSvd svd (mixedSigns svd))
    (by norm_num : 3 ≤ 6) (axisPoints 3 2 1)
  obtain ⟨g, hg⟩ := init_default_exists (signedSvd svd (mixedSigns svd))
    (by norm_num : 3 ≤ 6) (axisPoints 6 4 2)
  have Vf := mixed_fit hs (by norm_num) (by norm_num) (by norm_num) hf
  have Vg := mixed_fit hs (by norm_num) (by norm_num) (by norm_num) hg
  rw [if_neg] at Vf
  swap
  · rintro ⟨k, j, e⟩
    revert e
    fin_cases k <;> fin_cases j <;> simp [axisPoints] <;> norm_num
  rw [if_pos ⟨0, 0, by simp [axisPoints]⟩] at Vg
  obtain ⟨U, h⟩ := init_default hs' hf
  obtain ⟨U', h'⟩ := init_default hs' hg
  obtain ⟨e0, e1, e2⟩ := axisPoints_singular_values hs' (by norm_num) (by norm_num) (by norm_num) hf
  obtain ⟨d0, d1, d2⟩ := axisPoints_singular_values hs' (by norm_num) (by norm_num) (by norm_num) hg
  have hsv : ∀ i, g.s i = 2 * f.s i := by
    have sqe : ∀ x y : ℝ, 0 ≤ x → 0 ≤ y → y ^ 2 = (2 * x) ^ 2 → y = 2 * x := by
      intro x y hx hy e
      exact (pow_left_inj₀ hy (by linarith) two_ne_zero).1 e
    intro i
    refine sqe _ _ (h.svd.nonneg' i) (h'.svd.nonneg' i) ?_
    fin_cases i
    · show g.s 0 ^ 2 = (2 * f.s 0) ^ 2
      rw [mul_pow, d0, e0]; norm_num
    · show g.s 1 ^ 2 = (2 * f.s 1) ^ 2
      rw [mul_pow, d1, e1]; norm_num
    · show g.s 2 ^ 2 = (2 * f.s 2) ^ 2
      rw [mul_pow, d2, e2]; norm_num
  have p2 : 0 < f.s 2 := by
    rcases (h.svd.nonneg' 2).lt_or_eq with q | q
    · exact q
    · rw [← q] at e2; norm_num at e2
  have p0 : 0 < f.s 0 := p2.trans_le (h.svd.le12.trans h.svd.le01)
  have q2 : 0 < g.s 2 := by rw [hsv]; linarith
  have q0 : 0 < g.s 0 := by rw [hsv]; linarith
  have sc : scaled g = scaled f := by
    have e8 : (fun i => 4 * g.s i ^ 3 / ((6 : ℕ) : ℝ)) = fun i => 8 * (4 * f.s i ^ 3 / ((6 : ℕ) : ℝ)) := by
      funext i
      rw [hsv]
      ring
    have f8 : frobeniusNorm (Matrix.diagonal fun i => 4 * g.s i ^ 3 / ((6 : ℕ) : ℝ))
        = 8 * frobeniusNorm (Matrix.diagonal fun i => 4 * f.s i ^ 3 / ((6 : ℕ) : ℝ)) := by
      rw [e8, frobenius_diagonal, frobenius_diagonal]
      simp only [mul_pow (8 : ℝ)]
      rw [← mul_add, ← mul_add, Real.sqrt_mul (by norm_num), Real.sqrt_sq (by norm_num)]
    funext i
    unfold scaled
    rw [f8, hsv]
    have : 4 * (2 * f.s i) ^ 3 / ((6 : ℕ) : ℝ) = 8 * (4 * f.s i ^ 3 / ((6 : ℕ) : ℝ)) := by ring
    rw [this, mul_div_mul_left _ _ (by norm_num : (8 : ℝ) ≠ 0)]
  have nf : f.normal = g.normal := by
    rw [h.normal, h'.normal, Vf, Vg]
    have u1 : upward ((1 : Mat 3 3) 2) = (1 : Mat 3 3) 2 := by
      unfold upward
      rw [if_neg (by simp)]
    have u2 : upward ((-1 : Mat 3 3) 2) = -((-1 : Mat 3 3) 2) := by
      unfold upward
      rw [if_pos (by simp)]
    rw [u1, u2]
    funext i
    simp
  have pos := scaled_pos h p2
  refine ⟨_, f, g, hs', hf, hg, ?_, ?_⟩
  · simp only [fitSimilarity, alignedCovariance_eq h p0, alignedCovariance_eq h' q0, nf, sub_self,
      Matrix.mulVec_zero, Pi.zero_apply]
    rw [if_pos (show g.V 2 2 < 0 by rw [Vg]; simp), if_neg]
    · simp
    · have hdet : (f.V * Matrix.diagonal (scaled f) + -(g.V * Matrix.diagonal (scaled g))).det ≠ 0 := by
        rw [Vf, Vg, sc]
        simp only [Matrix.one_mul, neg_mul, neg_neg]
        rw [Matrix.diagonal_add, Matrix.det_diagonal, Fin.prod_univ_three]
        have := pos 0
        have := pos 1
        have := pos 2
        positivity
      have k := sv_ne_zero (hq 3 _) hdet
      simp [k]
  · simp only [fitSimilarity, alignedCovariance_eq h p0, alignedCovariance_eq h' q0]
    rw [if_neg (show ¬ f.V 2 2 < 0 by rw [Vf]; simp), if_pos]
    refine sv_zero (hq 3 _) ?_
    rw [Vf, Vg, sc]
    simp

/-! ## C105 -/

/-- The rescaled covariance has norm one. -/
theorem C105_norm_partial (svd : SvdFn) (hs : svd.Valid) {n : ℕ} (a : Fin n → Vec 3) (f : Fit n)
    (hf : init svd a none none = .ok (some f)) (h0 : 0 < f.s 0) :
    ∃ C, alignedCovariance f = some C ∧ ∑ i, ∑ j, C i j ^ 2 = 1 := by
  obtain ⟨U, h⟩ := init_default hs hf
  refine ⟨_, alignedCovariance_eq h h0, ?_⟩
  have hn : (0 : ℝ) < n := by
    have : (3 : ℝ) ≤ n := by exact_mod_cast h.size
    linarith
  have hr := frobenius_pos (d := fun i => 4 * f.s i ^ 3 / (n : ℝ)) (by positivity)
  have hV : f.V.transpose * f.V = 1 := mul_eq_one_comm.1 h.svd.orthV
  have col : ∀ j, ∑ i, f.V i j ^ 2 = 1 := by
    intro j
    have := congrArg (fun M : Mat 3 3 => M j j) hV
    simpa [Matrix.mul_apply, ← sq] using this
  rw [Finset.sum_comm]
  simp only [Matrix.mul_diagonal, mul_pow, ← Finset.sum_mul, col, one_mul]
  have hsq := frobenius_diagonal (fun i => 4 * f.s i ^ 3 / (n : ℝ))
  have h2 : frobeniusNorm (Matrix.diagonal fun i => 4 * f.s i ^ 3 / (n : ℝ)) ^ 2
      = (4 * f.s 0 ^ 3 / (n : ℝ)) ^ 2 + (4 * f.s 1 ^ 3 / (n : ℝ)) ^ 2
        + (4 * f.s 2 ^ 3 / (n : ℝ)) ^ 2 := by
    rw [hsq, Real.sq_sqrt (by positivity)]
  simp only [scaled, div_pow _ (frobeniusNorm _), Fin.sum_univ_three]
  rw [← add_div, ← add_div, ← h2, div_self (by positivity)]

example : ∃ (svd : SvdFn) (f : Fit 4), svd.Valid ∧
    init svd Witness.tiltedPlane none none = .ok (some f) ∧ 0 < f.s 0 := by
  obtain ⟨svd, f, hs, hf, _, e⟩ := Witness.exists_tiltedPlane
  exact ⟨svd, f, hs, hf, by rw [e]; simp⟩

/-- It is not a covariance matrix in the coordinates of the data: for points in
a plane that is tilted in the direction of the first coordinate it is not even
symmetric. -/
theorem C105_not_symmetric_false (svd : SvdFn) (hs : svd.Valid) {n : ℕ} (a : Fin n → Vec 3)
    (f : Fit n) (hf : init svd a none none = .ok (some f)) (h0 : 0 < f.s 0)
    (m : Vec 3) (d : ℝ) (hm : norm m = 1) (hp : ∀ i, Spec.OnPlane m d (a i))
    (hx : f.normal 0 ≠ 0) :
    ∃ C, alignedCovariance f = some C ∧ C.transpose ≠ C := by
  obtain ⟨U, h⟩ := init_default hs hf
  refine ⟨_, alignedCovariance_eq h h0, fun e => ?_⟩
  obtain ⟨_, _, c, hc, hbest⟩ := C06_best_fit svd hs a f hf
  have hb := hbest m d hm
  rw [C06_misfit_value svd hs a f hf c hc] at hb
  have hz : Spec.misfit a m d = 0 := by
    unfold Spec.misfit Spec.planeDist2
    refine Finset.sum_eq_zero fun i _ => ?_
    have := hp i
    unfold Spec.OnPlane at this
    rw [this]
    ring
  rw [hz] at hb
  have s2 : f.s 2 = 0 := by
    have := sq_nonneg (f.s 2)
    exact pow_eq_zero_iff two_ne_zero |>.1 (le_antisymm hb this)
  have hn : (0 : ℝ) < n := by
    have : (3 : ℝ) ≤ n := by exact_mod_cast h.size
    linarith
  have hr := frobenius_pos (d := fun i => 4 * f.s i ^ 3 / (n : ℝ)) (by positivity)
  have k := congrArg (fun M : Mat 3 3 => M 0 2) e
  simp only [Matrix.transpose_apply, Matrix.mul_diagonal] at k
  have z2 : scaled f 2 = 0 := by simp [scaled, s2]
  have z0 : 0 < scaled f 0 := by unfold scaled; positivity
  rw [z2, mul_zero] at k
  have v0 : f.V 2 0 = 0 := (mul_eq_zero.1 k).resolve_right z0.ne'
  apply hx
  rw [h.normal]
  rcases upward_eq (f.V 2) with q | q <;> rw [q] <;> simp [v0]

/-- Non-vacuity: the points of the plane `x + y + z = 0`, for every backend. -/
example (svd : SvdFn) (hs : svd.Valid) : ∃ f, init svd tiltedPoints none none = .ok (some f) ∧
    ∃ C, alignedCovariance f = some C ∧ C.transpose ≠ C := by
  obtain ⟨f, hf⟩ := init_default_exists svd (by norm_num : 3 ≤ 3) tiltedPoints
  obtain ⟨U, h⟩ := init_default hs hf
  obtain ⟨m, d, hm, hp⟩ := tiltedPoints_coplanar
  have p1 := normal_perp_of_coplanar hs hf m d hm hp 1 0
  have p2 := normal_perp_of_coplanar hs hf m d hm hp 2 0
  simp [tiltedPoints] at p1 p2
  have hsq : f.normal 0 ^ 2 + f.normal 1 ^ 2 + f.normal 2 ^ 2 = 1 := by
    have := norm_sq' f.normal
    rw [normal_unit h, Fin.sum_univ_three] at this
    linarith
  have h0 : f.s 0 ≠ 0 := by
    intro h0
    have hup := h.svd.upper ![1, 0, 0]
    rw [h0] at hup
    simp only [Fin.sum_univ_three, mulVec_centered, meanRows] at hup
    simp [tiltedPoints] at hup
    norm_num at hup
  refine ⟨f, hf, C105_not_symmetric_false svd hs _ f hf
    (lt_of_le_of_ne (h.svd.nonneg' 0) h0.symm) m d hm hp ?_⟩
  intro e
  have q2 : f.normal 2 = 0 := by linarith
  have q1 : f.normal 1 = 0 := by linarith
  rw [e, q1, q2] at hsq
  norm_num at hsq

end Attitude.Props
