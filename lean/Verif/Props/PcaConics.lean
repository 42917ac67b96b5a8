import Verif.Model.PcaConics
import Verif.Lemmas.Hyperbola
import Verif.Props.PcaState

/-!
# C93, C94, C97: the error ellipsoid and hyperboloid of a fit
-/

namespace Attitude.Props

open Attitude Pca Matrix PcaConics
open Attitude.Conics (Con contains solve augment fromAxes)

/-! ## Specification -/

/-- `x` lies in the ellipsoid with the given center whose semiaxes have the
directions `axes i` and the lengths `semi i`. -/
def Spec.InEllipsoid (axes : Mat 3 3) (center semi x : Vec 3) : Prop :=
  (vdot (axes 0) (x - center) / semi 0) ^ 2 + (vdot (axes 1) (x - center) / semi 1) ^ 2
    + (vdot (axes 2) (x - center) / semi 2) ^ 2 ≤ 1

/-! ## Helpers -/

lemma flipDown_V {n : ℕ} (f : Fit n) :
    ((flipDown f).V = f.V ∧ upward (f.V 2) = f.V 2) ∨
    ((flipDown f).V = -f.V ∧ upward (f.V 2) = -f.V 2) := by
  unfold flipDown upward
  split_ifs
  · exact Or.inr ⟨rfl, rfl⟩
  · exact Or.inl ⟨rfl, rfl⟩

lemma flipDown_s {n : ℕ} (f : Fit n) : (flipDown f).s = f.s := by
  unfold flipDown
  split_ifs <;> rfl

lemma variances_negateAxes {n : ℕ} (f : Fit n) : variances (negateAxes f) = variances f := by
  funext i
  simp only [variances, covarianceMatrix, rotated_negateAxes, varRows_neg]
  rfl

lemma variances_flipDown {n : ℕ} (f : Fit n) : variances (flipDown f) = variances f := by
  unfold flipDown
  split_ifs
  · exact variances_negateAxes f
  · rfl

lemma offset_eq {n : ℕ} (f : Fit n) : offset f = ![0, 0, f.s 0 * f.s 1] := by
  simp only [offset, cross]
  funext i
  fin_cases i <;> simp

lemma variances_eq {n : ℕ} {a : Fin n → Vec 3} {f : Fit n} {U : Mat n 3} (h : IsFit a f U)
    (j : Fin 3) : variances f j = 4 * f.s j ^ 3 / n := by
  have hn : (n : ℝ) ≠ 0 := by
    have := h.size
    exact_mod_cast (by omega : n ≠ 0)
  simp only [variances, covarianceMatrix, Matrix.of_apply, Matrix.diagonal_apply_eq,
    varRows_rotated h]
  field_simp

lemma solve_fromAxes3 (d y : Vec 3) :
    solve (fromAxes d) (augment y) = d 0 * y 0 ^ 2 + d 1 * y 1 ^ 2 + d 2 * y 2 ^ 2 - 1 := by
  have e : d = ![d 0, d 1, d 2] := by funext i; fin_cases i <;> rfl
  rw [e, Conics.fromAxes3, Conics.augment3, solve]
  simp [dotProduct, Matrix.mulVec_diagonal, Fin.sum_univ_four]
  ring

lemma solve_conic (d off : Vec 3) (V : Mat 3 3) (x : Vec 3) :
    solve (Conics.transform (Conics.translate (fromAxes d) off) (Hyperbola.augmentTensor V))
        (augment x)
      = d 0 * ((V *ᵥ x) 0 - off 0) ^ 2 + d 1 * ((V *ᵥ x) 1 - off 1) ^ 2
        + d 2 * ((V *ᵥ x) 2 - off 2) ^ 2 - 1 := by
  rw [Conics.solve_transform, Hyperbola.augmentTensor, Conics.affine_augment, Conics.translate,
    Conics.solve_transform, Conics.affine_augment, solve_fromAxes3]
  simp [sub_eq_add_neg]

/-- The semiaxes of the error ellipsoid. -/
lemma s_pos {n : ℕ} {a : Fin n → Vec 3} {f : Fit n} {U : Mat n 3} (h : IsFit a f U)
    (h2 : 0 < f.s 2) (j : Fin 3) : 0 < f.s j := by
  have := h.svd.le01
  have := h.svd.le12
  fin_cases j
  · show 0 < f.s 0; linarith
  · show 0 < f.s 1; linarith
  · exact h2

lemma asConic_eq {n : ℕ} {a : Fin n → Vec 3} {f : Fit n} {U : Mat n 3} (h : IsFit a f U)
    (h2 : 0 < f.s 2) (level : ℝ) :
    ∃ C, (asConic f level).1 = some C ∧ C.transpose = C ∧ ∀ x, solve C (augment x)
      = (4 * f.s 0 ^ 3 / n)⁻¹ * level ^ 2
          * vdot (f.V 0) (x - (f.s 0 * f.s 1) • f.normal) ^ 2
        + (4 * f.s 1 ^ 3 / n)⁻¹ * level ^ 2
          * vdot (f.V 1) (x - (f.s 0 * f.s 1) • f.normal) ^ 2
        + (4 * f.s 2 ^ 3 / n)⁻¹ * level ^ 2
          * vdot (f.V 2) (x - (f.s 0 * f.s 1) • f.normal) ^ 2 - 1 := by
  have hn : (0 : ℝ) < n := by
    have := h.size
    exact_mod_cast (by omega : 0 < n)
  have hc : ∀ j, variances f j ≠ 0 := by
    intro j
    rw [variances_eq h]
    have := s_pos h h2 j
    positivity
  refine ⟨Conics.transform (Conics.translate (fromAxes fun i => 1 / variances f i * level ^ 2)
    (offset (flipDown f))) (Hyperbola.augmentTensor (flipDown f).V), ?_, ?_, ?_⟩
  · simp only [asConic, variances_flipDown, hc, or_self, if_false]
  · apply Conics.transform_symm
    apply Conics.transform_symm
    simp [fromAxes]
  · intro x
    rw [solve_conic, offset_eq, flipDown_s]
    have hdot : ∀ i, vdot (f.V i) (x - (f.s 0 * f.s 1) • f.normal)
        = (f.V *ᵥ x) i - f.s 0 * f.s 1 * vdot (f.V i) f.normal := by
      intro i
      simp only [vdot, Matrix.mulVec, dotProduct, Pi.sub_apply, Pi.smul_apply, smul_eq_mul,
        Fin.sum_univ_three]
      ring
    have hn0 : ∀ i : Fin 3, vdot (f.V i) (f.V 2) = if i = 2 then 1 else 0 := fun i =>
      h.svd.row_dot i 2
    have hneg : ∀ i : Fin 3, vdot (f.V i) (-f.V 2) = -(if i = 2 then 1 else 0) := by
      intro i
      rw [← hn0]
      simp [vdot]
    rw [hdot 0, hdot 1, hdot 2, h.normal]
    simp only [variances_eq h, one_div]
    rcases flipDown_V f with ⟨e, e'⟩ | ⟨e, e'⟩
    · rw [e, e']
      simp [hn0]
    · rw [e, e']
      simp only [hneg, Matrix.neg_mulVec, Pi.neg_apply, if_true, Fin.reduceEq, if_false]
      simp only [Matrix.cons_val]
      ring

lemma contains3_iff (C : Con 3) (x : Vec 3) : contains C x = true ↔ solve C (augment x) ≤ 0 := by
  simp [contains]

lemma div_sq_eq {v c l : ℝ} (hc : 0 < c) (hl : 0 < l) :
    (v / (Real.sqrt c / l)) ^ 2 = c⁻¹ * l ^ 2 * v ^ 2 := by
  have h := Real.sq_sqrt hc.le
  have h' : Real.sqrt c ≠ 0 := (Real.sqrt_pos.2 hc).ne'
  have : (v / (Real.sqrt c / l)) ^ 2 = v ^ 2 * l ^ 2 / Real.sqrt c ^ 2 := by
    field_simp
  rw [this, h]
  field_simp

/-! ## C93 -/

/-- `as_conic(level)` of a fit of points that are not coplanar is the ellipsoid whose
axes are those of the fit, whose center lies on the upward normal at the distance
`s₀ s₁` from the origin, and whose semiaxes are `√(4 sᵢ³ / n) / level`, the square
roots of the entries of `covariance_matrix` divided by the level. -/
theorem C93_ellipsoid (svd : SvdFn) (hs : svd.Valid) {n : ℕ} (a : Fin n → Vec 3) (f : Fit n)
    (hf : init svd a none none = .ok (some f)) (h2 : 0 < f.s 2) (level : ℝ) (hl : 0 < level) :
    (∀ i, covarianceMatrix f .noise i i = 4 * f.s i ^ 3 / n) ∧
    ∃ C, (asConic f level).1 = some C ∧ ∀ x, contains C x = true ↔
      Spec.InEllipsoid f.V ((f.s 0 * f.s 1) • f.normal)
        (fun i => Real.sqrt (4 * f.s i ^ 3 / n) / level) x := by
  obtain ⟨U, h⟩ := init_default hs hf
  have hn : (0 : ℝ) < n := by
    have := h.size
    exact_mod_cast (by omega : 0 < n)
  refine ⟨variances_eq h, ?_⟩
  obtain ⟨C, hC, -, hx⟩ := asConic_eq h h2 level
  refine ⟨C, hC, fun x => ?_⟩
  have hp : ∀ i, 0 < 4 * f.s i ^ 3 / n := fun i => by
    have := s_pos h h2 i
    positivity
  rw [contains3_iff, hx, Spec.InEllipsoid, div_sq_eq (hp 0) hl, div_sq_eq (hp 1) hl,
    div_sq_eq (hp 2) hl]
  constructor <;> intro h <;> linarith

example : ∃ (svd : SvdFn) (f : Fit 4), svd.Valid ∧ init svd Witness.tilted none none = .ok (some f) ∧
    0 < f.s 2 := by
  obtain ⟨svd, f, hs, hf, _, e⟩ := Witness.exists_tilted
  exact ⟨svd, f, hs, hf, by rw [e]; simp⟩

/-- Coplanar points have no error ellipsoid: an entry is not finite. -/
theorem C93_coplanar (svd : SvdFn) (hs : svd.Valid) {n : ℕ} (a : Fin n → Vec 3) (f : Fit n)
    (hf : init svd a none none = .ok (some f)) (level : ℝ) :
    (asConic f level).1 = none ↔ f.s 2 = 0 := by
  obtain ⟨U, h⟩ := init_default hs hf
  constructor
  · intro hc
    by_contra h0
    obtain ⟨C, hC, -⟩ := asConic_eq h (lt_of_le_of_ne h.svd.nonneg (Ne.symm h0)) level
    rw [hC] at hc
    cases hc
  · intro h0
    simp [asConic, variances_flipDown, variances_eq h, h0]

example : ∃ (svd : SvdFn) (f : Fit 4), svd.Valid ∧
    init svd Witness.tiltedPlane none none = .ok (some f) ∧ (asConic f 1).1 = none := by
  obtain ⟨svd, f, hs, hf, _, e⟩ := Witness.exists_tiltedPlane
  exact ⟨svd, f, hs, hf, (C93_coplanar svd hs _ f hf 1).2 (by rw [e]; simp)⟩

/-- Whatever has been asked of the fit before, `as_conic` gives the same conic. -/
theorem C93_history (svd : SvdFn) (hs : svd.Valid) {n : ℕ} (a : Fin n → Vec 3) (f : Fit n)
    (hf : init svd a none none = .ok (some f)) (level : ℝ) (qs : List Query) :
    (asConic (run f qs) level).1 = (asConic f level).1 := by
  obtain ⟨U, h⟩ := init_default hs hf
  rcases run_cases h.hU qs with e | ⟨h2, e⟩
  · rw [e]
  · rw [e]
    have e1 : flipDown (negateAxes f) = negateAxes f := by
      unfold flipDown
      rw [if_neg]
      simp only [negateAxes, Matrix.neg_apply]
      linarith
    have e2 : flipDown f = negateAxes f := by simp [flipDown, h2]
    simp only [asConic, e1, e2]

example : ∃ (svd : SvdFn) (f : Fit 4), svd.Valid ∧ init svd Witness.tilted none none = .ok (some f) ∧
    (asConic (run f [.errorEllipse, .asConic]) 2).1 = (asConic f 2).1 ∧ (asConic f 2).1 ≠ none := by
  obtain ⟨svd, f, hs, hf, _, e⟩ := Witness.exists_tilted
  exact ⟨svd, f, hs, hf, C93_history svd hs _ f hf 2 _,
    fun h => by have := (C93_coplanar svd hs _ f hf 2).1 h; rw [e] at this; simp at this⟩

/-! ## C94 -/

/-- A larger level gives a strictly smaller ellipsoid: every point of the ellipsoid for
the larger level lies in the one for the smaller level, and not the other way round. -/
theorem C94_larger_level_is_smaller_false (svd : SvdFn) (hs : svd.Valid) {n : ℕ}
    (a : Fin n → Vec 3) (f : Fit n) (hf : init svd a none none = .ok (some f)) (h2 : 0 < f.s 2)
    (l l' : ℝ) (hl : 0 < l) (hll : l < l') :
    ∃ C C', (asConic f l).1 = some C ∧ (asConic f l').1 = some C' ∧
      (∀ x, contains C' x = true → contains C x = true) ∧
      ∃ x, contains C x = true ∧ contains C' x = false := by
  obtain ⟨U, h⟩ := init_default hs hf
  have hn : (0 : ℝ) < n := by
    have := h.size
    exact_mod_cast (by omega : 0 < n)
  have hp : ∀ i, 0 < 4 * f.s i ^ 3 / n := fun i => by
    have := s_pos h h2 i
    positivity
  obtain ⟨C, hC, -, hx⟩ := asConic_eq h h2 l
  obtain ⟨C', hC', -, hx'⟩ := asConic_eq h h2 l'
  refine ⟨C, C', hC, hC', ?_, ?_⟩
  · intro x hc
    rw [contains3_iff, hx'] at hc
    rw [contains3_iff, hx]
    have hll2 : l ^ 2 ≤ l' ^ 2 := by nlinarith
    have k : ∀ i (v : ℝ), (4 * f.s i ^ 3 / n)⁻¹ * l ^ 2 * v ^ 2
        ≤ (4 * f.s i ^ 3 / n)⁻¹ * l' ^ 2 * v ^ 2 := by
      intro i v
      have := (inv_pos.2 (hp i)).le
      gcongr
    have k0 := k 0 (vdot (f.V 0) (x - (f.s 0 * f.s 1) • f.normal))
    have k1 := k 1 (vdot (f.V 1) (x - (f.s 0 * f.s 1) • f.normal))
    have k2 := k 2 (vdot (f.V 2) (x - (f.s 0 * f.s 1) • f.normal))
    linarith
  · have hd : ∀ i, vdot (f.V i) ((Real.sqrt (4 * f.s 0 ^ 3 / n) / l) • f.V 0)
        = Real.sqrt (4 * f.s 0 ^ 3 / n) / l * if i = 0 then 1 else 0 := by
      intro i
      rw [← h.svd.row_dot i 0]
      simp only [vdot, Pi.smul_apply, smul_eq_mul, Fin.sum_univ_three]
      ring
    have hv : ∀ k : ℝ, 0 < k → (4 * f.s 0 ^ 3 / n)⁻¹ * k ^ 2
        * (Real.sqrt (4 * f.s 0 ^ 3 / n) / l) ^ 2 = (k / l) ^ 2 := by
      intro k hk
      have h0 := hp 0
      rw [div_pow, Real.sq_sqrt h0.le]
      generalize 4 * f.s 0 ^ 3 / (n : ℝ) = c at h0
      field_simp
    refine ⟨(f.s 0 * f.s 1) • f.normal + (Real.sqrt (4 * f.s 0 ^ 3 / n) / l) • f.V 0, ?_, ?_⟩
    · rw [contains3_iff, hx, add_sub_cancel_left, hd 0, hd 1, hd 2]
      have := hv l hl
      simp only [if_true, Fin.reduceEq, if_false, mul_one, mul_zero]
      rw [this, div_self hl.ne']
      norm_num
    · have : ¬ contains C' ((f.s 0 * f.s 1) • f.normal
          + (Real.sqrt (4 * f.s 0 ^ 3 / n) / l) • f.V 0) = true := by
        rw [contains3_iff, hx', add_sub_cancel_left, hd 0, hd 1, hd 2]
        have := hv l' (hl.trans hll)
        simp only [if_true, Fin.reduceEq, if_false, mul_one, mul_zero]
        have hll2 : 1 < (l' / l) ^ 2 := by
          have : 1 < l' / l := (one_lt_div hl).2 hll
          nlinarith
        nlinarith
      simpa using this

example : ∃ (svd : SvdFn) (f : Fit 4), svd.Valid ∧ init svd Witness.tilted none none = .ok (some f) ∧
    0 < f.s 2 ∧ ∃ C C', (asConic f 1).1 = some C ∧ (asConic f 2).1 = some C' ∧
      ∃ x, contains C x = true ∧ contains C' x = false := by
  obtain ⟨svd, f, hs, hf, _, e⟩ := Witness.exists_tilted
  have h2 : 0 < f.s 2 := by rw [e]; simp
  obtain ⟨C, C', h, h', _, h''⟩ :=
    C94_larger_level_is_smaller_false svd hs _ f hf h2 1 2 (by norm_num) (by norm_num)
  exact ⟨svd, f, hs, hf, h2, C, C', h, h', h''⟩

end Attitude.Props
