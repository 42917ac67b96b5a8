import Verif.Props.PcaConicsMoved
import Verif.Props.ConicAxes

/-!
# C96, C97: `error_ellipse` and `as_hyperbola` of a fit
-/

namespace Attitude.Props

open Attitude Pca Matrix PcaConics
open Attitude.Conics (Con contains solve augment fromAxes SqSvd)

/-! ## Helpers -/

lemma solve_odd (C : Con 3) (hC : C.transpose = C) (x : Vec 3) :
    solve C (augment x) - solve C (augment (-x))
      = 4 * (C 0 3 * x 0 + C 1 3 * x 1 + C 2 3 * x 2) := by
  have s0 : C 3 0 = C 0 3 := congrFun (congrFun hC 0) 3
  have s1 : C 3 1 = C 1 3 := congrFun (congrFun hC 1) 3
  have s2 : C 3 2 = C 2 3 := congrFun (congrFun hC 2) 3
  have key : ∀ v : Vec 4, solve C v = ∑ i : Fin 4, v i * ∑ j : Fin 4, C i j * v j := fun v => rfl
  rw [key, key, Conics.augment3, Conics.augment3]
  simp only [Fin.sum_univ_four, s0, s1, s2]
  simp
  ring

lemma polar_origin (C : Con 3) : Conics.polarPlane C 0 = fun i => C i 3 := by
  funext i
  simp [Conics.polarPlane, Conics.augment3, Matrix.mulVec, dotProduct, Fin.sum_univ_four]

lemma bundle_projection (svd : SqSvd) {n : ℕ} {f : Fit n} {level : ℝ} {C : Con 3}
    (hC : (asConic f level).1 = some C) :
    ((Conics.projection3 C = .ok none → (errorEllipse svd f level).1 = .error .linAlgError) ∧
    (∀ r, Conics.projection3 C = .ok (some r) →
      (errorEllipse svd f level).1 = .error .valueError)) := by
  rcases hr : asConic f level with ⟨c, g⟩
  rw [hr] at hC
  simp only at hC
  subst hC
  constructor
  · intro hp
    simp [errorEllipse, bundle, hr, hp]
  · rintro ⟨con, M, ctr⟩ hp
    simp [errorEllipse, bundle, hr, hp, addRows]

/-! ## C96 -/

/-- `error_ellipse` of a fit never returns: for every fit and level it raises, a
`ValueError` for noisy data and a level that is not zero (the vectors of the bundle
have four components, the center has three), and a `LinAlgError` otherwise. -/
theorem C96_always_raises_false (sq : SqSvd) (svd : SvdFn) (hs : svd.Valid) {n : ℕ}
    (a : Fin n → Vec 3) (f : Fit n) (hf : init svd a none none = .ok (some f)) (level : ℝ) :
    (0 < f.s 2 → level ≠ 0 → (errorEllipse sq f level).1 = .error .valueError) ∧
    (f.s 2 = 0 ∨ level = 0 → (errorEllipse sq f level).1 = .error .linAlgError) := by
  obtain ⟨U, h⟩ := init_default hs hf
  have hn : (0 : ℝ) < n := by
    have := h.size
    exact_mod_cast (by omega : 0 < n)
  constructor
  · intro h2 hl
    obtain ⟨C, hC, hsym, hx⟩ := asConic_eq h h2 level
    have hpn : (fun i : Fin 3 => Conics.polarPlane C 0 i.castSucc) ≠ 0 := by
      intro h0
      rw [polar_origin] at h0
      have z0 : C 0 3 = 0 := congrFun h0 0
      have z1 : C 1 3 = 0 := congrFun h0 1
      have z2 : C 2 3 = 0 := congrFun h0 2
      have hodd := solve_odd C hsym f.normal
      rw [hx, hx, z0, z1, z2] at hodd
      have e1 : f.normal - (f.s 0 * f.s 1) • f.normal = (1 - f.s 0 * f.s 1) • f.normal := by
        rw [sub_smul, one_smul]
      have e2 : -f.normal - (f.s 0 * f.s 1) • f.normal = (-1 - f.s 0 * f.s 1) • f.normal := by
        rw [sub_smul, neg_smul, one_smul]
      have hd : ∀ i (t : ℝ), vdot (f.V i) (t • f.normal) ^ 2 = t ^ 2 * if i = 2 then 1 else 0 := by
        intro i t
        have e : vdot (f.V i) (t • f.normal) = t * vdot (f.V i) f.normal := by
          simp only [vdot, Pi.smul_apply, smul_eq_mul, Fin.sum_univ_three]
          ring
        rw [e, mul_pow]
        congr 1
        have e3 : vdot (f.V i) f.normal ^ 2 = vdot (f.V i) (f.V 2) ^ 2 := by
          rw [h.normal]
          unfold upward
          split_ifs
          · simp [vdot]
          · rfl
        rw [e3, h.svd.row_dot]
        split_ifs <;> norm_num
      rw [e1, e2, hd, hd, hd, hd, hd, hd] at hodd
      simp only [Fin.reduceEq, if_false, if_true, mul_zero, mul_one, zero_mul, add_zero,
        zero_add] at hodd
      have hp : 0 < (4 * f.s 2 ^ 3 / (n : ℝ))⁻¹ * level ^ 2 * (f.s 0 * f.s 1) := by
        have := s_pos h h2 0
        have := s_pos h h2 1
        positivity
      nlinarith
    have hnorm : norm (fun i : Fin 3 => Conics.polarPlane C 0 i.castSucc) ≠ 0 :=
      (norm_ne_zero_iff' _).2 hpn
    have hproj : ∃ r, Conics.projection3 C = .ok (some r) := by
      have hnn : (fun i : Fin 3 => Conics.polarPlane C 0 i.castSucc
          / norm (fun i : Fin 3 => Conics.polarPlane C 0 i.castSucc)) ≠ 0 := by
        intro h0
        apply hpn
        funext i
        have := congrFun h0 i
        simp only [Pi.zero_apply, div_eq_zero_iff] at this
        rcases this with q | q
        · exact q
        · exact absurd q hnorm
      obtain ⟨v, hv, -⟩ := (C61_three_dimensions_partial _).1 hnn
      simp only [Conics.projection3, Conics.slice3, Conics.planeNormal, Conics.planeOffset,
        Conics.hessianNormal, vdivOpt, if_neg hnorm, Option.map_some, hv]
      exact ⟨_, rfl⟩
    obtain ⟨r, hr⟩ := hproj
    exact (bundle_projection sq hC).2 r hr
  · intro hdeg
    by_cases h0 : f.s 2 = 0
    · have := (C93_coplanar svd hs a f hf level).2 h0
      rcases hr : asConic f level with ⟨c, g⟩
      rw [hr] at this
      simp only at this
      subst this
      simp [errorEllipse, bundle, hr]
    · have h2 : 0 < f.s 2 := lt_of_le_of_ne h.svd.nonneg (Ne.symm h0)
      have hl : level = 0 := by tauto
      obtain ⟨C, hC, hsym, hx⟩ := asConic_eq h h2 level
      apply (bundle_projection sq hC).1
      have hz : ∀ x : Vec 3, C 0 3 * x 0 + C 1 3 * x 1 + C 2 3 * x 2 = 0 := by
        intro x
        have := solve_odd C hsym x
        rw [hx, hx, hl] at this
        linarith
      have z0 : C 0 3 = 0 := by simpa using hz ![1, 0, 0]
      have z1 : C 1 3 = 0 := by simpa using hz ![0, 1, 0]
      have z2 : C 2 3 = 0 := by simpa using hz ![0, 0, 1]
      have hnorm : norm (fun i : Fin 3 => Conics.polarPlane C 0 i.castSucc) = 0 := by
        rw [norm_eq_zero_iff, polar_origin]
        funext i
        fin_cases i
        · exact z0
        · exact z1
        · exact z2
      simp [Conics.projection3, Conics.slice3, Conics.planeNormal, Conics.planeOffset,
        Conics.hessianNormal, vdivOpt, hnorm]

/-- Non-vacuity: noisy data. -/
example (sq : SqSvd) (svd : SvdFn) (hs : svd.Valid) :
    ∃ f : Fit 6, init svd (axisPoints 3 2 1) none none = .ok (some f) ∧
      (errorEllipse sq f 1).1 = .error .valueError := by
  obtain ⟨f, hf, h2, -⟩ := C95_witness svd hs
  exact ⟨f, hf, (C96_always_raises_false sq svd hs _ f hf 1).1 h2 one_ne_zero⟩

/-! ## C97 -/

/-- The region of `as_hyperbola`, in the frame of the axes of the fit (`rotated=True`) or in
that of the data axes: a point `x` is inside when its coordinates `y` satisfy
`y₀²/c₀ + y₁²/c₁ ≤ 1 + y₂²/c₂`, `cᵢ = 4 sᵢ³ / n`; the set is symmetric about the origin. -/
lemma asHyperbola_eq {n : ℕ} {a : Fin n → Vec 3} {f : Fit n} {U : Mat n 3} (h : IsFit a f U)
    (h2 : 0 < f.s 2) :
    ∃ C, asHyperbola f true = some C ∧ ∀ x, contains C x = true ↔
      vdot (f.V 0) x ^ 2 / (4 * f.s 0 ^ 3 / n) + vdot (f.V 1) x ^ 2 / (4 * f.s 1 ^ 3 / n)
        ≤ 1 + vdot (f.V 2) x ^ 2 / (4 * f.s 2 ^ 3 / n) := by
  have hn : (0 : ℝ) < n := by
    have := h.size
    exact_mod_cast (by omega : 0 < n)
  have hc : ∀ j, variances f j ≠ 0 := by
    intro j
    rw [variances_eq h]
    have := s_pos h h2 j
    positivity
  refine ⟨Conics.transform (fromAxes ![1 / variances f 0, 1 / variances f 1,
    1 / variances f 2 * -1]) (Hyperbola.augmentTensor f.V), ?_, fun x => ?_⟩
  · simp [asHyperbola, hc]
  · rw [contains3_iff, Conics.solve_transform, Hyperbola.augmentTensor, Conics.affine_augment,
      solve_fromAxes3]
    have e : ∀ i, (f.V *ᵥ x + 0) i = vdot (f.V i) x := by
      intro i
      simp [vdot, Matrix.mulVec, dotProduct]
    simp only [e, variances_eq h]
    simp only [Matrix.cons_val]
    constructor <;> intro q
    · have : 1 / (4 * f.s 0 ^ 3 / (n : ℝ)) * vdot (f.V 0) x ^ 2
          + 1 / (4 * f.s 1 ^ 3 / (n : ℝ)) * vdot (f.V 1) x ^ 2
          + 1 / (4 * f.s 2 ^ 3 / (n : ℝ)) * -1 * vdot (f.V 2) x ^ 2 - 1
        = vdot (f.V 0) x ^ 2 / (4 * f.s 0 ^ 3 / n) + vdot (f.V 1) x ^ 2 / (4 * f.s 1 ^ 3 / n)
        - vdot (f.V 2) x ^ 2 / (4 * f.s 2 ^ 3 / n) - 1 := by ring
      linarith
    · have : 1 / (4 * f.s 0 ^ 3 / (n : ℝ)) * vdot (f.V 0) x ^ 2
          + 1 / (4 * f.s 1 ^ 3 / (n : ℝ)) * vdot (f.V 1) x ^ 2
          + 1 / (4 * f.s 2 ^ 3 / (n : ℝ)) * -1 * vdot (f.V 2) x ^ 2 - 1
        = vdot (f.V 0) x ^ 2 / (4 * f.s 0 ^ 3 / n) + vdot (f.V 1) x ^ 2 / (4 * f.s 1 ^ 3 / n)
        - vdot (f.V 2) x ^ 2 / (4 * f.s 2 ^ 3 / n) - 1 := by ring
      linarith

/-- Along a line through the center with the unit direction `V i`. -/
lemma vdot_smul_axis {n : ℕ} {a : Fin n → Vec 3} {f : Fit n} {U : Mat n 3} (h : IsFit a f U)
    (i j : Fin 3) (t : ℝ) : vdot (f.V i) (t • f.V j) = if i = j then t else 0 := by
  have e : vdot (f.V i) (t • f.V j) = t * vdot (f.V i) (f.V j) := by
    simp only [vdot, Pi.smul_apply, smul_eq_mul, Fin.sum_univ_three]
    ring
  rw [e, h.svd.row_dot]
  split_ifs <;> simp

/-- The hyperboloid is not an error region of the plane: the best plane leaves it (no
in-plane point further than `√(4 s₀³ / n)` along the first axis is inside), while the
whole line along the normal, which the data do not follow, is inside. -/
theorem C97_plane_outside_false (svd : SvdFn) (hs : svd.Valid) {n : ℕ} (a : Fin n → Vec 3)
    (f : Fit n) (hf : init svd a none none = .ok (some f)) (h2 : 0 < f.s 2) :
    ∃ C, asHyperbola f true = some C ∧
      (∀ t : ℝ, Real.sqrt (4 * f.s 0 ^ 3 / n) < t → contains C (t • f.V 0) = false) ∧
      ∀ t : ℝ, contains C (t • f.normal) = true := by
  obtain ⟨U, h⟩ := init_default hs hf
  have hn : (0 : ℝ) < n := by
    have := h.size
    exact_mod_cast (by omega : 0 < n)
  have hp : ∀ i, 0 < 4 * f.s i ^ 3 / (n : ℝ) := fun i => by
    have := s_pos h h2 i
    positivity
  obtain ⟨C, hC, hx⟩ := asHyperbola_eq h h2
  refine ⟨C, hC, fun t ht => ?_, fun t => ?_⟩
  · have : ¬ contains C (t • f.V 0) = true := by
      rw [hx, vdot_smul_axis h, vdot_smul_axis h, vdot_smul_axis h]
      simp only [Fin.reduceEq, if_false, if_true]
      have hp0 := hp 0
      have : 4 * f.s 0 ^ 3 / (n : ℝ) < t ^ 2 := Real.lt_sq_of_sqrt_lt ht
      have : 1 < t ^ 2 / (4 * f.s 0 ^ 3 / (n : ℝ)) := (one_lt_div hp0).2 this
      simp only [ne_eq, OfNat.ofNat_ne_zero, not_false_eq_true, zero_pow, zero_div, add_zero]
      linarith
    simpa using this
  · rw [hx, h.normal]
    have hp2 := hp 2
    have : 0 ≤ t ^ 2 / (4 * f.s 2 ^ 3 / (n : ℝ)) := by positivity
    unfold upward
    split_ifs
    · rw [smul_neg, ← neg_smul, vdot_smul_axis h, vdot_smul_axis h, vdot_smul_axis h]
      simp
      positivity
    · rw [vdot_smul_axis h, vdot_smul_axis h, vdot_smul_axis h]
      simp
      positivity

example : ∃ (svd : SvdFn) (f : Fit 4), svd.Valid ∧ init svd Witness.tilted none none = .ok (some f) ∧
    0 < f.s 2 := by
  obtain ⟨svd, f, hs, hf, _, e⟩ := Witness.exists_tilted
  exact ⟨svd, f, hs, hf, by rw [e]; simp⟩

/-- The hyperboloid contains the points near the center: the region is symmetric about
the center of the data and contains the ellipse of the in-plane variances.  Missing
from the claim: it contains the whole plane. -/
theorem C97_center_inside_partial (svd : SvdFn) (hs : svd.Valid) {n : ℕ} (a : Fin n → Vec 3)
    (f : Fit n) (hf : init svd a none none = .ok (some f)) (h2 : 0 < f.s 2) :
    ∃ C, asHyperbola f true = some C ∧
      (∀ x, contains C (-x) = contains C x) ∧
      ∀ x, vdot (f.V 0) x ^ 2 / (4 * f.s 0 ^ 3 / n) + vdot (f.V 1) x ^ 2 / (4 * f.s 1 ^ 3 / n) ≤ 1 →
        contains C x = true := by
  obtain ⟨U, h⟩ := init_default hs hf
  have hn : (0 : ℝ) < n := by
    have := h.size
    exact_mod_cast (by omega : 0 < n)
  obtain ⟨C, hC, hx⟩ := asHyperbola_eq h h2
  refine ⟨C, hC, fun x => ?_, fun x hin => ?_⟩
  · rw [Bool.eq_iff_iff, hx, hx]
    have e : ∀ i, vdot (f.V i) (-x) ^ 2 = vdot (f.V i) x ^ 2 := by
      intro i
      simp [vdot]
    rw [e, e, e]
  · rw [hx]
    have : 0 ≤ vdot (f.V 2) x ^ 2 / (4 * f.s 2 ^ 3 / (n : ℝ)) := by positivity
    linarith

/-- Non-vacuity: noisy data. -/
example (svd : SvdFn) (hs : svd.Valid) :
    ∃ f : Fit 6, init svd (axisPoints 3 2 1) none none = .ok (some f) ∧ ∃ C,
      asHyperbola f true = some C ∧ contains C ((1000 : ℝ) • f.normal) = true := by
  obtain ⟨f, hf, h2, -⟩ := C95_witness svd hs
  obtain ⟨C, hC, -, h⟩ := C97_plane_outside_false svd hs _ f hf h2
  exact ⟨f, hf, C, hC, h 1000⟩

end Attitude.Props
