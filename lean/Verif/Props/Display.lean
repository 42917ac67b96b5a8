import Mathlib.Analysis.Real.Pi.Bounds
import Verif.Model.Display
import Verif.Lemmas.Stereonet
import Verif.Lemmas.StrikeDip
import Verif.Lemmas.SvdScale
import Verif.Lemmas.SvdExists
import Verif.Props.StereonetDual
import Verif.Props.Similarity

/-!
# Properties of the plotting functions
-/

namespace Attitude.Props

open Attitude Matrix Display Stereonet

/-! ## C143 -/

/-- The direction shown at a point of the polar plot: the angle is the azimuth (radians,
clockwise from north), the radius the inclination from the vertical (degrees). -/
noncomputable def Spec.polarDirection (p : ℝ × ℝ) : Vec 3 :=
  ![Real.sin (radians p.2) * Real.sin p.1, Real.sin (radians p.2) * Real.cos p.1, Real.cos (radians p.2)]

/-- The pole of a plane is drawn at the upward normal of the plane. -/
theorem C143_pole (strike dip : ℝ) :
    Spec.polarDirection (polarPole strike dip) = Pca.sdNormal strike dip := by
  funext i
  fin_cases i <;>
    simp [Spec.polarDirection, polarPole, Pca.sdNormal, Pca.radians_add, Pca.radians_90,
      Real.sin_add_pi_div_two, Real.cos_add_pi_div_two]

lemma polarPoint_dir {v : Vec 3} (hv : v ≠ 0) :
    ∃ p, polarPoint v = some p ∧ Spec.polarDirection p = (1 / Attitude.norm v) • v ∧
      0 ≤ p.2 ∧ p.2 ≤ 180 := by
  have hp : 0 < Attitude.norm v := (norm_pos_iff' v).2 hv
  have hn := Stereonet.norm_sq3 v
  obtain ⟨q, hq, hdir⟩ := cart2sph_dir (x := -v 0) (y := v 1) (z := v 2) hp (by rw [hn]; ring)
  have hlat : q.2 = Real.arcsin (v 2 / Attitude.norm v) := by
    have := cart2sph_eq (x := -v 0) (y := v 1) (z := v 2) hp (by rw [hn]; ring)
    rw [hq] at this
    rw [Option.some.inj this]
  refine ⟨(q.1 - Real.pi / 2, 90 - degrees q.2), by simp [polarPoint, hq], ?_, ?_, ?_⟩
  · have hr : radians (90 - degrees q.2) = Real.pi / 2 - q.2 := by
      rw [Pca.radians_sub, Pca.radians_90, radians_degrees]
    simp only [Rotations.sph2cart, Prod.mk.injEq] at hdir
    obtain ⟨h1, h2, h3⟩ := hdir
    funext i
    simp only [Spec.polarDirection, hr, Real.sin_pi_div_two_sub, Real.cos_pi_div_two_sub,
      Real.sin_sub_pi_div_two, Real.cos_sub_pi_div_two]
    fin_cases i
    · simp; field_simp at h1 ⊢; linarith
    · simp; field_simp at h2 ⊢; linarith
    · simp; field_simp at h3 ⊢; linarith
  · have h := Real.arcsin_le_pi_div_two (v 2 / Attitude.norm v)
    have : degrees q.2 ≤ degrees (Real.pi / 2) := degrees_le.2 (by rw [hlat]; exact h)
    have e : degrees (Real.pi / 2) = 90 := by unfold degrees; field_simp; norm_num
    show 0 ≤ 90 - degrees q.2
    linarith
  · have h := Real.neg_pi_div_two_le_arcsin (v 2 / Attitude.norm v)
    have : degrees (-(Real.pi / 2)) ≤ degrees q.2 := degrees_le.2 (by rw [hlat]; exact h)
    have e : degrees (-(Real.pi / 2)) = -90 := by unfold degrees; field_simp; norm_num
    simp only
    linarith

lemma polarPoleError_eq (axes : Mat 3 3) (d : Vec 3) :
    polarPoleError axes (Matrix.diagonal d) = ((angles 1000).map fun a =>
      polarPoint (toWorld (normalVec d a) (flipped axes)), flipped axes) := by
  simp only [polarPoleError]
  congr 2
  funext a
  congr 2
  funext j
  fin_cases j <;> simp [normalVec, Attitude.norm] <;> ring

lemma normalVec_ne {d : Vec 3} (h0 : 0 < d 0) (h1 : 0 < d 1) (a : ℝ) : 0 < normalVec d a 2 := by
  simp only [normalVec]
  simp
  have := Real.sin_sq_add_cos_sq a
  by_cases hc : Real.cos a = 0
  · have hs : Real.sin a ^ 2 = 1 := by rw [hc] at this; linarith
    rw [hc, mul_pow (Real.sin a), hs]; positivity
  · have : 0 < (Real.cos a * d 0) ^ 2 := by positivity
    have : 0 ≤ (Real.sin a * d 1) ^ 2 := sq_nonneg _
    linarith

/-- The curve: each vertex is the pole of a plane tangent to the error cone, on the upper
side; the radius is an angle. -/
theorem C143_curve (axes : Mat 3 3) (ho : Spec.OrthonormalRows axes) (d : Vec 3) (h0 : 0 < d 0)
    (h1 : 0 < d 1) (h2 : 0 < d 2) :
    (polarPoleError axes (Matrix.diagonal d)).1.length = 1000 ∧
    ∀ q ∈ (polarPoleError axes (Matrix.diagonal d)).1, ∃ p, q = some p ∧ 0 ≤ p.2 ∧ p.2 ≤ 180 ∧
      Spec.TangentNormal axes d (2 * d 2) (Spec.polarDirection p) ∧
      0 < vdot (Spec.polarDirection p) (flipped axes 2) := by
  rw [polarPoleError_eq]
  refine ⟨by simp only [List.length_map, angles_length], ?_⟩
  intro q hq
  simp only [List.mem_map] at hq
  obtain ⟨a, -, rfl⟩ := hq
  have hfo := flipped_orth ho
  set v := toWorld (normalVec d a) (flipped axes) with hv
  have hz := normalVec_ne h0 h1 a
  have hne : v ≠ 0 := by
    intro h
    have := toWorld_dot hfo (normalVec d a) 2
    rw [← hv, h] at this
    simp [vdot] at this
    linarith
  have hp : 0 < Attitude.norm v := (norm_pos_iff' v).2 hne
  obtain ⟨p, e, hdir, r0, r1⟩ := polarPoint_dir hne
  refine ⟨p, e, r0, r1, ?_, ?_⟩
  · rw [hdir]
    exact tangent_flipped (normalVec_tangent hfo h0 h1 h2 a (one_div_pos.2 hp))
  · rw [hdir]
    have := toWorld_dot hfo (normalVec d a) 2
    rw [← hv] at this
    have e2 : vdot ((1 / Attitude.norm v) • v) (flipped axes 2)
        = 1 / Attitude.norm v * vdot v (flipped axes 2) := by
      simp only [vdot3, Pi.smul_apply, smul_eq_mul]; ring
    rw [e2, this]
    positivity

example : (polarPoleError obliqueAxes (Matrix.diagonal ![3, 2, 1])).1.length = 1000 :=
  (C143_curve obliqueAxes oblique_orthonormal ![3, 2, 1] (by simp) (by simp) (by simp)).1

/-- Without error perpendicular to the plane all vertices are the pole of the plane, at the
strike and dip of the fit. -/
theorem C143_no_error (axes : Mat 3 3) (ho : Spec.OrthonormalRows axes) (d : Vec 3) (h0 : 0 < d 0)
    (h1 : 0 < d 1) (h2 : d 2 = 0) :
    ∃ s t, Pca.strikeDipOf (axes 2) = some (s, t) ∧
    ∀ q ∈ (polarPoleError axes (Matrix.diagonal d)).1, ∃ p, q = some p ∧
      Spec.polarDirection p = Spec.polarDirection (polarPole s t) := by
  have hn1 : Attitude.norm (axes 2) = 1 := by
    have := ho 2 2
    rw [if_pos rfl, vdot3] at this
    rw [norm3, Real.sqrt_eq_one]
    linarith
  have hne : axes 2 ≠ 0 := by
    intro h; rw [h] at hn1; simp [Attitude.norm] at hn1
  obtain ⟨s, t, hst, -, -, -, -, e⟩ := Pca.strikeDipOf_spec hne
  rw [hn1, one_smul] at e
  refine ⟨s, t, hst, ?_⟩
  rw [polarPoleError_eq]
  intro q hq
  simp only [List.mem_map] at hq
  obtain ⟨a, -, rfl⟩ := hq
  have hfo := flipped_orth ho
  have hz := normalVec_ne h0 h1 a
  have hv : toWorld (normalVec d a) (flipped axes) = normalVec d a 2 • flipped axes 2 := by
    funext j
    simp [toWorld, Fin.sum_univ_three, normalVec, h2]
  have hfl : flipped axes 2 = Pca.upward (axes 2) := by
    unfold flipped Pca.upward
    split_ifs <;> rfl
  have hfn : Attitude.norm (flipped axes 2) = 1 := by rw [hfl, Pca.norm_upward, hn1]
  have hnorm : Attitude.norm (normalVec d a 2 • flipped axes 2) = normalVec d a 2 := by
    rw [norm3] at hfn ⊢
    simp only [Pi.smul_apply, smul_eq_mul, mul_pow, ← mul_add]
    rw [Real.sqrt_mul (sq_nonneg _), hfn, Real.sqrt_sq hz.le, mul_one]
  have hv0 : normalVec d a 2 • flipped axes 2 ≠ 0 := by
    rw [← norm_pos_iff', hnorm]; exact hz
  simp only [hv]
  obtain ⟨p, e', hdir, -, -⟩ := polarPoint_dir hv0
  refine ⟨p, e', ?_⟩
  rw [C143_pole, e, hdir, hnorm, smul_smul, one_div_mul_cancel hz.ne', one_smul, hfl]

example : ∃ s t, Pca.strikeDipOf (obliqueAxes 2) = some (s, t) := by
  obtain ⟨s, t, h, _⟩ :=
    C143_no_error obliqueAxes oblique_orthonormal ![3, 2, 0] (by simp) (by simp) (by simp)
  exact ⟨s, t, h⟩

/-- Plotting changes the fit: axes that point down are reversed. -/
theorem C143_side_effect_false (axes cov : Mat 3 3) (h : axes 2 2 < 0) :
    (polarPoleError axes cov).2 = -axes ∧ (polarPoleError axes cov).2 ≠ axes := by
  have e : (polarPoleError axes cov).2 = -axes := by simp [polarPoleError, flipped, h]
  refine ⟨e, fun h' => ?_⟩
  rw [e] at h'
  have := congrFun (congrFun h' 2) 2
  simp at this
  linarith

example : (polarPoleError (-obliqueAxes) (Matrix.diagonal ![3, 2, 1])).2 ≠ -obliqueAxes :=
  (C143_side_effect_false _ _ (by simp [obliqueAxes])).2

/-! ## C144 -/

/-- The rows that are plotted: never more than 10000 if `sparse`; all without it or if there
are not more; in order, each once, starting with the first. -/
theorem C144_rows (sparse : Bool) (l : ℕ) :
    (∀ i ∈ sampledRows (stride sparse l) l, i < l) ∧
    (sampledRows (stride sparse l) l).Pairwise (· < ·) ∧
    (sparse = true → (sampledRows (stride sparse l) l).length ≤ 10000) ∧
    (sparse = false ∨ l ≤ 10000 → sampledRows (stride sparse l) l = List.range l) ∧
    (0 < l → 0 ∈ sampledRows (stride sparse l) l) := by
  have hlen : ∀ k l : ℕ, 0 < k → (sampledRows k l).length = (l + k - 1) / k := by
    intro k l hk
    unfold sampledRows
    induction l with
    | zero => simp; rw [Nat.div_eq_of_lt (by omega)]
    | succ l ih =>
      rw [List.range_succ, List.filter_append, List.length_append, ih]
      by_cases h : l % k = 0
      · obtain ⟨c, rfl⟩ := Nat.dvd_of_mod_eq_zero h
        simp
        rw [show k * c + k = k * (c + 1) by ring, Nat.mul_div_cancel_left _ hk,
          show k * (c + 1) - 1 = k * c + k - 1 by rw [mul_add, mul_one], show k * c + k - 1 = (k - 1) + k * c by omega, Nat.add_mul_div_left _ _ hk,
          Nat.div_eq_of_lt (by omega)]
        omega
      · simp [h]
        rw [Nat.add_div_right _ hk]
        have h2 : l = k * (l / k) + l % k := (Nat.div_add_mod l k).symm
        have h3 : l % k < k := Nat.mod_lt _ hk
        have h4 : l + k - 1 = (l % k - 1) + k * (l / k + 1) := by
          rw [mul_add]; omega
        rw [h4, Nat.add_mul_div_left _ _ hk, Nat.div_eq_of_lt (by omega)]
        omega
  refine ⟨?_, ?_, ?_, ?_, ?_⟩
  · intro i hi
    simp [sampledRows] at hi
    exact hi.1
  · exact List.Pairwise.filter _ List.pairwise_lt_range
  · rintro rfl
    by_cases h : 10000 < l
    · have hs : stride true l = ⌈(l : ℝ) / 10000⌉₊ := by simp [stride, h]
      have hk : 0 < ⌈(l : ℝ) / 10000⌉₊ := Nat.ceil_pos.2 (by
        have : (0 : ℝ) < l := by exact_mod_cast (by omega : 0 < l)
        positivity)
      rw [hs, hlen _ _ hk]
      set k := ⌈(l : ℝ) / 10000⌉₊ with hkd
      have hle : l ≤ k * 10000 := by
        have := Nat.le_ceil ((l : ℝ) / 10000)
        rw [← hkd, div_le_iff₀ (by norm_num)] at this
        exact_mod_cast this
      have : (l + k - 1) / k < 10001 := by
        rw [Nat.div_lt_iff_lt_mul hk]
        omega
      omega
    · have hs : stride true l = 1 := by simp [stride, h]
      rw [hs, hlen 1 l one_pos]
      simp
      omega
  · intro h
    have hs : stride sparse l = 1 := by
      rcases h with rfl | h
      · simp [stride]
      · simp [stride, not_lt.2 h]
    rw [hs]
    simp [sampledRows, Nat.mod_one]
  · intro h
    simp [sampledRows, h]

/-- Points are drawn on the side of the plane on which they are (`z` of the plot is the
distance along the upward normal) for fits whose third axis does not point down ... -/
theorem C144_side_partial (svd : Pca.SvdFn) (hs : svd.Valid) {n : ℕ} (a : Fin n → Vec 3) (f : Pca.Fit n)
    (hf : Pca.init svd a none none = .ok (some f)) (hup : 0 ≤ f.V 2 2) (i : Fin n) :
    alignedData f i 2 = vdot (f.arr i) f.normal := by
  obtain ⟨U, h⟩ := Pca.init_default hs hf
  have hn : ¬ f.normal 2 < 0 := by
    rw [h.normal]; exact not_lt.2 (Pca.upward_nonneg _)
  have e : f.normal = f.V 2 := by rw [h.normal]; simp [Pca.upward, not_lt.2 hup]
  rw [alignedData, if_neg hn, e]
  simp [Pca.rotated, Matrix.mul_apply, vdot]

example : ∃ (svd : Pca.SvdFn) (f : Pca.Fit 4), svd.Valid ∧
    Pca.init svd Witness.tilted none none = .ok (some f) ∧ 0 ≤ f.V 2 2 := by
  obtain ⟨svd, f, hs, hf, hV, _⟩ := Witness.exists_tilted
  exact ⟨svd, f, hs, hf, by rw [hV]; simp [Witness.tilt]; norm_num⟩

/-- ... and on the other side for all fits whose third axis points down: the test that should
correct this reads the normal, which never points down. -/
theorem C144_side_false (svd : Pca.SvdFn) (hs : svd.Valid) {n : ℕ} (a : Fin n → Vec 3) (f : Pca.Fit n)
    (hf : Pca.init svd a none none = .ok (some f)) (hdown : f.V 2 2 < 0) (i : Fin n) :
    alignedData f i 2 = -vdot (f.arr i) f.normal := by
  obtain ⟨U, h⟩ := Pca.init_default hs hf
  have hn : ¬ f.normal 2 < 0 := by
    rw [h.normal]; exact not_lt.2 (Pca.upward_nonneg _)
  have e : f.normal = -f.V 2 := by rw [h.normal]; simp [Pca.upward, hdown]
  rw [alignedData, if_neg hn, e]
  simp [Pca.rotated, Matrix.mul_apply, vdot]

/-- A backend that gives downward axes. -/
example : ∃ svd : Pca.SvdFn, svd.Valid ∧ ∃ f : Pca.Fit 6,
    Pca.init svd (axisPoints 3 2 1) none none = .ok (some f) ∧ f.V 2 2 < 0 := by
  obtain ⟨svd, hs⟩ := Pca.exists_valid_svd
  let svd' : Pca.SvdFn := fun m A =>
    if (svd m A).2.2 2 2 < 0 then svd m A else (-(svd m A).1, (svd m A).2.1, -(svd m A).2.2)
  have hs' : svd'.Valid := by
    intro m A hm
    have h := hs m A hm
    by_cases hneg : (svd m A).2.2 2 2 < 0
    · simp only [svd', if_pos hneg]; exact h
    · simp only [svd', if_neg hneg]
      exact ⟨by rw [Matrix.neg_mul, Matrix.neg_mul, Matrix.mul_neg, neg_neg]; exact h.recon,
        by rw [transpose_neg, Matrix.neg_mul, Matrix.mul_neg, neg_neg]; exact h.orthU,
        by rw [transpose_neg, Matrix.neg_mul, Matrix.mul_neg, neg_neg]; exact h.orthV, h.nonneg, h.le01, h.le12⟩
  obtain ⟨f, hf⟩ := Pca.init_default_exists svd' (by norm_num : 3 ≤ 6) (axisPoints 3 2 1)
  refine ⟨svd', hs', f, hf, ?_⟩
  obtain ⟨U, h⟩ := Pca.init_default hs' hf
  obtain ⟨e0, e1, e2⟩ := axisPoints_singular_values hs' (by norm_num) (by norm_num) (by norm_num) hf
  have hA := h.svd
  rw [axisPoints_centered] at hA
  obtain ⟨ε, hε, hV⟩ := axisPoints_axes (by norm_num) (by norm_num) (by norm_num) hA e0 e1 e2
  have hle : f.V 2 2 ≤ 0 := by
    simp [Pca.init, Pca.runSvd, bind, Except.bind] at hf
    rw [← hf]
    simp only [Pca.derive, svd']
    split_ifs with k
    · exact k.le
    · simpa using k
  refine lt_of_le_of_ne hle fun h0 => ?_
  rw [hV] at h0
  have := hε 2
  simp at h0
  rw [h0] at this
  norm_num at this

/-- The angular errors in the titles are twice the minimum and maximum angular errors of the
axes. -/
theorem C144_title (hyp : Vec 3) :
    titleError hyp 0 = degrees (2 * (ErrorAxes.angularErrors hyp).1) ∧
    titleError hyp 1 = degrees (2 * (ErrorAxes.angularErrors hyp).2) := by
  have e : ∀ x : ℝ, Attitude.norm (![x, 0] : Vec 2) = |x| := by
    intro x; simp [Attitude.norm, Real.sqrt_sq_eq_abs]
  have e' : ∀ x : ℝ, Attitude.norm (![0, x] : Vec 2) = |x| := by
    intro x; simp [Attitude.norm, Real.sqrt_sq_eq_abs]
  have key : ∀ a : Fin 2, titleError hyp a
      = 2 * degrees (arctan2 (Real.sqrt (hyp 2)) (Real.sqrt (hyp a.castSucc))) := by
    intro a
    have h0 : ((Matrix.of ![(Pi.single a.castSucc 1 : Vec 3), ![0, 0, 1]] * Matrix.diagonal hyp *
        (Matrix.of ![(Pi.single a.castSucc 1 : Vec 3), ![0, 0, 1]]).transpose).transpose.map Real.sqrt) 0
        = ![Real.sqrt (hyp a.castSucc), 0] := by
      funext j
      fin_cases a <;> fin_cases j <;>
        simp [Matrix.vecMul, dotProduct, Fin.sum_univ_three]
    have h1 : ((Matrix.of ![(Pi.single a.castSucc 1 : Vec 3), ![0, 0, 1]] * Matrix.diagonal hyp *
        (Matrix.of ![(Pi.single a.castSucc 1 : Vec 3), ![0, 0, 1]]).transpose).transpose.map Real.sqrt) 1
        = ![0, Real.sqrt (hyp 2)] := by
      funext j
      fin_cases a <;> fin_cases j <;>
        simp [Matrix.vecMul, dotProduct, Fin.sum_univ_three]
    simp only [titleError, h0, h1, e, e', abs_of_nonneg (Real.sqrt_nonneg _)]
  have lin : ∀ x, 2 * degrees x = degrees (2 * x) := by intro x; unfold degrees; ring
  exact ⟨by rw [key, lin]; rfl, by rw [key, lin]; rfl⟩

lemma aligned_eq {svd : Pca.SvdFn} (hs : svd.Valid) {n : ℕ} {a : Fin n → Vec 3} {f : Pca.Fit n}
    (hf : Pca.init svd a none none = .ok (some f)) : alignedData f = Pca.rotated f := by
  obtain ⟨U, h⟩ := Pca.init_default hs hf
  have hn : ¬ f.normal 2 < 0 := by
    rw [h.normal]; exact not_lt.2 (Pca.upward_nonneg _)
  rw [alignedData, if_neg hn]

/-- In the section along the first axis the hyperbola is drawn over the whole extent of the
data and a fifth farther on both sides ... -/
theorem C144_range_partial (svd : Pca.SvdFn) (hs : svd.Valid) {n : ℕ} (a : Fin (n + 1) → Vec 3)
    (f : Pca.Fit (n + 1)) (hf : Pca.init svd a none none = .ok (some f)) (i : Fin (n + 1)) :
    (hyperbolaRange (alignedData f)).1 ≤ alignedData f i 0 ∧
    alignedData f i 0 ≤ (hyperbolaRange (alignedData f)).2 ∧
    (∃ j, (hyperbolaRange (alignedData f)).1 = alignedData f j 0 + alignedData f j 0 / 5) ∧
    ∃ j, (hyperbolaRange (alignedData f)).2 = alignedData f j 0 + alignedData f j 0 / 5 := by
  obtain ⟨U, h⟩ := Pca.init_default hs hf
  rw [aligned_eq hs hf]
  have hsum : ∑ i, Pca.rotated f i 0 = 0 := by
    simp only [Pca.rotated, Matrix.mul_apply, Matrix.transpose_apply, Matrix.of_apply]
    rw [Finset.sum_comm]
    simp only [← Finset.sum_mul, h.arr, (C01_centered_zero_mean_same_shape a).1 _,
      zero_mul, Finset.sum_const_zero]
  have lo := Finset.inf'_le (fun i => Pca.rotated f i 0) (Finset.mem_univ i)
  have hi := Finset.le_sup' (fun i => Pca.rotated f i 0) (Finset.mem_univ i)
  have lo0 : (Finset.univ.inf' Finset.univ_nonempty fun i => Pca.rotated f i 0) ≤ 0 := by
    by_contra hc
    push Not at hc
    have : 0 < ∑ i, Pca.rotated f i 0 := Finset.sum_pos (fun i _ =>
      lt_of_lt_of_le hc (Finset.inf'_le (fun i => Pca.rotated f i 0) (Finset.mem_univ i))) Finset.univ_nonempty
    linarith
  have hi0 : 0 ≤ (Finset.univ.sup' Finset.univ_nonempty fun i => Pca.rotated f i 0) := by
    by_contra hc
    push Not at hc
    have : ∑ i, Pca.rotated f i 0 < 0 := Finset.sum_neg (fun i _ =>
      lt_of_le_of_lt (Finset.le_sup' (fun i => Pca.rotated f i 0) (Finset.mem_univ i)) hc) Finset.univ_nonempty
    linarith
  obtain ⟨k, -, hk⟩ := Finset.exists_mem_eq_inf' Finset.univ_nonempty fun i => Pca.rotated f i 0
  obtain ⟨m, -, hm⟩ := Finset.exists_mem_eq_sup' Finset.univ_nonempty fun i => Pca.rotated f i 0
  simp only [hyperbolaRange, minMax]
  refine ⟨by linarith, by linarith, ⟨k, ?_⟩, m, ?_⟩
  · rw [hk]; ring
  · rw [hm]; ring

example : ∃ (svd : Pca.SvdFn) (f : Pca.Fit 4), svd.Valid ∧
    Pca.init svd Witness.tilted none none = .ok (some f) ∧
    (hyperbolaRange (alignedData f)).1 ≤ alignedData f 0 0 := by
  obtain ⟨svd, f, hs, hf, _⟩ := Witness.exists_tilted
  exact ⟨svd, f, hs, hf, (C144_range_partial svd hs _ f hf 0).1⟩

/-- Eight points along the first axis and two that are farther out along the second. -/
noncomputable def tenPoints : Fin 10 → Vec 3 :=
  ![![1, 0, 0], ![1, 0, 0], ![1, 0, 0], ![1, 0, 0], ![-1, 0, 0], ![-1, 0, 0], ![-1, 0, 0], ![-1, 0, 0],
    ![0, 3 / 2, 0], ![0, -(3 / 2), 0]]

lemma tenPoints_centered : Coordinates.centered tenPoints = tenPoints := by
  apply C01_centered_unique
  · intro j
    fin_cases j <;> simp [tenPoints, Fin.sum_univ_succ]
  · intro i i' j
    rfl

lemma tenPoints_sq (w : Vec 3) : ∑ i, (Matrix.of tenPoints *ᵥ w) i ^ 2 = 8 * w 0 ^ 2 + 9 / 2 * w 1 ^ 2 := by
  simp [tenPoints, Fin.sum_univ_succ, Matrix.mulVec, dotProduct]
  ring

/-- ... in the section along the second axis it may end before the data. -/
theorem C144_range_false (svd : Pca.SvdFn) (hs : svd.Valid) :
    ∃ f, Pca.init svd tenPoints none none = .ok (some f) ∧
      ∃ i, (hyperbolaRange (alignedData f)).2 < alignedData f i 1 := by
  obtain ⟨f, hf⟩ := Pca.init_default_exists svd (by norm_num : 3 ≤ 10) tenPoints
  refine ⟨f, hf, ?_⟩
  obtain ⟨U, h⟩ := Pca.init_default hs hf
  have hA := h.svd
  have harr := h.arr
  rw [tenPoints_centered] at hA harr
  rw [aligned_eq hs hf]
  have u0 := hA.upper ![1, 0, 0]
  have u2 := hA.optimal ![0, 0, 1]
  have r0 := hA.sum_sq_row 0
  have r1 := hA.sum_sq_row 1
  have tr := hA.trace
  simp only [tenPoints_sq, Fin.sum_univ_three] at u0 u2 r0 r1 tr
  simp at u0 u2 tr
  have d00 := hA.row_dot 0 0
  have d01 := hA.row_dot 0 1
  have d11 := hA.row_dot 1 1
  rw [vdot3] at d00 d01 d11
  simp at d00 d01 d11
  have v01 : f.V 0 1 ^ 2 = 0 := by nlinarith [sq_nonneg (f.V 0 1), sq_nonneg (f.V 0 2)]
  have v02 : f.V 0 2 ^ 2 = 0 := by nlinarith [sq_nonneg (f.V 0 1), sq_nonneg (f.V 0 2)]
  have v01' : f.V 0 1 = 0 := by simpa using v01
  have v02' : f.V 0 2 = 0 := by simpa using v02
  have v00 : f.V 0 0 ^ 2 = 1 := by rw [v01', v02'] at d00; nlinarith
  have v10 : f.V 1 0 = 0 := by
    rw [v01', v02'] at d01
    have : f.V 0 0 ≠ 0 := by intro h0; rw [h0] at v00; norm_num at v00
    have h2 : f.V 0 0 * f.V 1 0 = 0 := by linarith
    rcases mul_eq_zero.1 h2 with h3 | h3
    · exact absurd h3 this
    · exact h3
  have s2 : f.s 2 ^ 2 = 0 := by rw [u2]; norm_num
  have s0 : f.s 0 ^ 2 = 8 := by rw [← r0, v00, v01]; norm_num
  have v11 : f.V 1 1 ^ 2 = 1 := by
    rw [v10] at r1; linarith
  have habs : |f.V 1 1| = 1 := by
    rw [← Real.sqrt_sq_eq_abs, v11, Real.sqrt_one]
  have h00 : |f.V 0 0| = 1 := by
    rw [← Real.sqrt_sq_eq_abs, v00, Real.sqrt_one]
  have rot : ∀ i j, Pca.rotated f i j = tenPoints i 0 * f.V j 0 + tenPoints i 1 * f.V j 1
      + tenPoints i 2 * f.V j 2 := by
    intro i j
    simp [Pca.rotated, Matrix.mul_apply, harr, Fin.sum_univ_three]
  have hsup : (Finset.univ.sup' Finset.univ_nonempty fun i => Pca.rotated f i 0) ≤ 1 := by
    apply Finset.sup'_le
    intro i _
    rw [rot, v01', v02']
    have b1 := abs_le.1 h00.le
    fin_cases i <;> simp [tenPoints] <;> linarith
  have hlt : (hyperbolaRange (Pca.rotated f)).2 < 3 / 2 := by
    simp only [hyperbolaRange, minMax]
    linarith
  rcases abs_eq (by norm_num : (0 : ℝ) ≤ 1) |>.1 habs with e | e
  · refine ⟨8, ?_⟩
    rw [rot 8 1, e]
    simp [tenPoints]; linarith
  · refine ⟨9, ?_⟩
    rw [rot 9 1, e]
    simp [tenPoints]; linarith

/-! ## C145 -/

/-- The view is symmetric, of the width asked for, and by default reaches a quarter beyond the largest
coordinate of the first point ... -/
theorem C145_first_point_partial {n : ℕ} (A : Mat (n + 1) 3) (w : Option ℝ) :
    (comparisonLimits A w).1 = -(comparisonLimits A w).2 ∧
    (∀ x, w = some x → (comparisonLimits A w).2 - (comparisonLimits A w).1 = x) ∧
    |A 0 1| ≤ (comparisonLimits A).2 ∧ (∀ j, |A 0 j| + |A 0 j| / 4 ≤ (comparisonLimits A).2) ∧
    ∃ j, (comparisonLimits A).2 = |A 0 j| + |A 0 j| / 4 := by
  refine ⟨rfl, ?_, ?_, fun j => ?_, ?_⟩
  · rintro x rfl
    simp [comparisonLimits]
  · simp only [comparisonLimits, Option.getD_none]
    have h1 : |A 0 1| ≤ max |A 0 0| (max |A 0 1| |A 0 2|) :=
      (le_max_left _ _).trans (le_max_right _ _)
    have h2 : 0 ≤ |A 0 1| := abs_nonneg _
    linarith
  · simp only [comparisonLimits, Option.getD_none]
    have h : |A 0 j| ≤ max |A 0 0| (max |A 0 1| |A 0 2|) := by
      fin_cases j <;> simp
    linarith
  · simp only [comparisonLimits, Option.getD_none]
    rcases max_choice |A 0 0| (max |A 0 1| |A 0 2|) with h | h
    · exact ⟨0, by rw [h]; ring⟩
    · rcases max_choice |A 0 1| |A 0 2| with h' | h'
      · exact ⟨1, by rw [h, h']; ring⟩
      · exact ⟨2, by rw [h, h']; ring⟩

/-- Six points, the first of which is close to the center. -/
def sixPoints : Fin 6 → Vec 3 :=
  ![![0, 0, 1], ![0, 0, -1], ![0, 3, 0], ![0, -3, 0], ![4, 0, 0], ![-4, 0, 0]]

lemma sixPoints_centered : Coordinates.centered sixPoints = sixPoints := by
  apply C01_centered_unique
  · intro j
    fin_cases j <;> simp [sixPoints, Fin.sum_univ_succ]
  · intro i i' j
    rfl

lemma sixPoints_sq (w : Vec 3) :
    ∑ i, (Matrix.of sixPoints *ᵥ w) i ^ 2 = 32 * w 0 ^ 2 + 18 * w 1 ^ 2 + 2 * w 2 ^ 2 := by
  simp [sixPoints, Fin.sum_univ_succ, Matrix.mulVec, dotProduct]
  ring

/-- ... but not all the data: the width is taken from the first row instead of the first
column. -/
theorem C145_in_view_false (svd : Pca.SvdFn) (hs : svd.Valid) :
    ∃ f, Pca.init svd sixPoints none none = .ok (some f) ∧
      ∃ i, (comparisonLimits (Pca.rotated f)).2 < |Pca.rotated f i 1| := by
  obtain ⟨f, hf⟩ := Pca.init_default_exists svd (by norm_num : 3 ≤ 6) sixPoints
  refine ⟨f, hf, ?_⟩
  obtain ⟨U, h⟩ := Pca.init_default hs hf
  have hA := h.svd
  have harr := h.arr
  rw [sixPoints_centered] at hA harr
  have u2 := hA.optimal ![0, 0, 1]
  have r0 := hA.sum_sq_row 0
  have r1 := hA.sum_sq_row 1
  have tr := hA.trace
  simp only [sixPoints_sq, Fin.sum_univ_three] at u2 r0 tr
  simp at u2 tr
  have d00 := hA.row_dot 0 0
  rw [vdot3] at d00
  simp at d00
  have s0 : f.s 0 ^ 2 ≤ 32 := by nlinarith [sq_nonneg (f.V 0 1), sq_nonneg (f.V 0 2)]
  have s1 : 18 ≤ f.s 1 ^ 2 := by linarith
  have hrot : ∀ i j, Pca.rotated f i j = (Matrix.of sixPoints *ᵥ f.V j) i := by
    intro i j
    simp [Pca.rotated, Matrix.mul_apply, harr, Matrix.mulVec, dotProduct]
  have hle : ∀ j, |Pca.rotated f 0 j| ≤ 1 := by
    intro j
    have e : Pca.rotated f 0 j = f.V j 2 := by
      rw [hrot]; simp [sixPoints, Matrix.mulVec, dotProduct, Fin.sum_univ_three]
    have dj := hA.row_dot j j
    rw [vdot3, if_pos rfl] at dj
    rw [e]
    apply abs_le_of_sq_le_sq _ (by norm_num)
    nlinarith [sq_nonneg (f.V j 0), sq_nonneg (f.V j 1)]
  have hlim : (comparisonLimits (Pca.rotated f)).2 ≤ 5 / 4 := by
    simp only [comparisonLimits, Option.getD_none]
    have : max |Pca.rotated f 0 0| (max |Pca.rotated f 0 1| |Pca.rotated f 0 2|) ≤ 1 :=
      max_le (hle 0) (max_le (hle 1) (hle 2))
    linarith
  by_contra hc
  push Not at hc
  have hall : ∀ i, (Matrix.of sixPoints *ᵥ f.V 1) i ^ 2 ≤ 25 / 16 := by
    intro i
    rw [← hrot]
    have := (hc i).trans hlim
    rw [← sq_abs]
    nlinarith [abs_nonneg (Pca.rotated f i 1)]
  have := Finset.sum_le_sum fun i (_ : i ∈ Finset.univ) => hall i
  rw [r1] at this
  simp at this
  linarith

/-- The bootstrap never works: `func` reads the variable `xvals`, which belongs to the function that calls
it.  It would work exactly if the module had that name. -/
theorem C145_bootstrap_false : errorComparison true = .error .nameError ∧ errorComparison false = .ok () ∧
    ∀ more, bootstrapFunc (more ++ comparisonModule) = .ok () ↔ "xvals" ∈ more := by
  refine ⟨by decide, rfl, fun more => ?_⟩
  by_cases h : "xvals" ∈ more
  · simp [bootstrapFunc, bootstrapFuncReads, bootstrapCiScopes, comparisonModule, lookupName, h, pure, Except.pure, bind, Except.bind]
  · simp [bootstrapFunc, bootstrapFuncReads, bootstrapCiScopes, comparisonModule, lookupName, h, pure, Except.pure, bind, Except.bind]

/-! ## C146 -/

/-- Opacities given per level are used, one for each level ... -/
theorem C146_per_level_partial (xs : List ℝ) :
    drawnAlphas (.list (xs.map .number)) xs.length = .ok xs := by
  have h : ∀ xs : List ℝ, (xs.map Alpha.number).mapM polygonAlpha = Except.ok xs := by
    intro xs
    induction xs with
    | nil => rfl
    | cons x xs ih => simp only [List.map_cons, List.mapM_cons, ih]; rfl
  simp only [drawnAlphas, alphas, List.length_map, ne_eq, not_true_eq_false, if_false]
  exact h xs

/-- ... any other list fails if there are levels, although it is meant to be repeated ... -/
theorem C146_repeated_false (xs : List Alpha) (levels : ℕ) (h : xs.length ≠ levels) (h0 : 0 < levels) :
    drawnAlphas (.list xs) levels = .error .typeError := by
  simp only [drawnAlphas, alphas, if_pos h]
  obtain ⟨k, rfl⟩ := Nat.exists_eq_succ_of_ne_zero h0.ne'
  rfl

example : drawnAlphas (.list [.number 1, .number 0.5]) 3 = .error .typeError :=
  C146_repeated_false _ 3 (by simp) (by norm_num)

/-- ... and so does a single number, which is the default of `normal`. -/
theorem C146_number_false (x : ℝ) (levels : ℕ) :
    drawnAlphas (.number x) levels = .error .typeError ∧
    drawnAlphas normalDefaultAlpha levels = .error .typeError ∧
    drawnAlphas defaultAlpha 1 = .ok [0.7] ∧ drawnAlphas strikeDipDefaultAlpha 1 = .ok [1] :=
  ⟨rfl, rfl, rfl, rfl⟩

/-! ## C147 -/

/-- Without noise all points of the simulation have the dip of the fit, but their strike is
the dip direction. -/
theorem C147_montecarlo_false {n : ℕ} (f : Pca.Fit n) (hs2 : 0 < f.s 2)
    (hV : Attitude.norm (f.V 2) = 1) (z : Vec 3) :
    montecarloPoint f 0 z = some (degrees (Pca.azimuth f), degrees (Real.arccos (f.V 2 2))) ∧
    ∀ s d, Pca.strikeDip f = some (s, d) → ¬ f.V 2 2 < 0 → (f.V 2 0 ≠ 0 ∨ f.V 2 1 ≠ 0) →
      Pca.sdNormal (degrees (Pca.azimuth f)) (degrees (Real.arccos (f.V 2 2))) ≠ Pca.sdNormal s d := by
  have hw : toWorld ((fun j => ∑ i, z i * 0 * Pca.covarianceMatrix f .noise i j)
      + Matrix.diagonal f.s 2) f.V = f.s 2 • f.V 2 := by
    funext j
    simp [toWorld, Fin.sum_univ_three]
  have hn : Attitude.norm (f.s 2 • f.V 2) = f.s 2 := by
    rw [norm3] at hV ⊢
    simp only [Pi.smul_apply, smul_eq_mul, mul_pow, ← mul_add]
    rw [Real.sqrt_mul (sq_nonneg _), hV, Real.sqrt_sq hs2.le, mul_one]
  have hq : (f.s 2 • f.V 2) 2 / f.s 2 = f.V 2 2 := by
    simp only [Pi.smul_apply, smul_eq_mul]
    field_simp
  have ha : arctan2 ((f.s 2 • f.V 2) 0) ((f.s 2 • f.V 2) 1) = Pca.azimuth f := by
    simp only [Pi.smul_apply, smul_eq_mul, arctan2_smul hs2, Pca.azimuth]
  constructor
  · simp only [montecarloPoint, hw, hn, fdiv, if_neg hs2.ne', Option.bind_eq_bind, Option.bind_some, hq, ha]
  · intro s d hsd hup hdir heq
    have hne : f.V 2 ≠ 0 := by intro h; rw [h] at hV; simp [Attitude.norm] at hV
    obtain ⟨s', d', hsd', -, -, -, -, e⟩ := Pca.strikeDipOf_spec hne
    rw [Pca.strikeDip, hsd'] at hsd
    obtain ⟨rfl, rfl⟩ := Prod.mk.inj (Option.some.inj hsd)
    rw [hV, one_smul, Pca.upward, if_neg hup] at e
    rw [e] at heq
    have raw := Pca.sdNormal_raw hne
    rw [hV, one_smul, div_one] at raw
    simp only [Pca.azimuth] at heq
    set A := arctan2 (f.V 2 0) (f.V 2 1) with hA
    have c0 := congrFun heq 0
    have c1 := congrFun heq 1
    have k0 := congrFun raw 0
    have k1 := congrFun raw 1
    simp [Pca.sdNormal, Pca.radians_sub, radians_degrees, Pca.radians_90, Real.cos_sub_pi_div_two,
      Real.sin_sub_pi_div_two] at c0 c1 k0 k1
    have h0 : f.V 2 0 = f.V 2 1 := by rw [← c0, ← k1]
    have h1 : f.V 2 1 = -f.V 2 0 := by rw [← c1, ← k0]
    rcases hdir with h | h <;> apply h <;> linarith

example : ∃ (svd : Pca.SvdFn) (f : Pca.Fit 4) (s d : ℝ), svd.Valid ∧
    Pca.init svd Witness.tilted none none = .ok (some f) ∧ 0 < f.s 2 ∧ Attitude.norm (f.V 2) = 1 ∧
    Pca.strikeDip f = some (s, d) ∧ ¬ f.V 2 2 < 0 ∧ f.V 2 0 ≠ 0 := by
  obtain ⟨svd, f, hs, hf, hV, e⟩ := Witness.exists_tilted
  obtain ⟨_, s, d, h, _⟩ := tilted_strikeDip hs hf hV
  refine ⟨svd, f, s, d, hs, hf, by rw [e]; simp, ?_, h, by rw [hV]; simp [Witness.tilt]; norm_num,
    by rw [hV]; simp [Witness.tilt]⟩
  rw [hV, norm3, show (Witness.tilt 2 0 : ℝ) = 4 / 5 by simp [Witness.tilt],
    show (Witness.tilt 2 1 : ℝ) = 0 by simp [Witness.tilt],
    show (Witness.tilt 2 2 : ℝ) = 3 / 5 by simp [Witness.tilt]]
  norm_num

/-- The error polygon labelled strike and dip: for a regression it is drawn at the slopes of
the plane in degrees of arc, not at angles. -/
theorem C147_error_ellipse_false : (∀ a b : ℝ, (strikeDipVertex (a, b)).1 * Real.pi = 180 * a ∧
      (90 - (strikeDipVertex (a, b)).2) * Real.pi = 180 * b) ∧
    ∃ c : Vec 2, strikeDipVertex (c 1, c 0) ≠ (0, 45) ∧ c 1 = 0 ∧ Real.tan (radians 45) = c 0 := by
  refine ⟨fun a b => ?_, ?_⟩
  · have hpi := Real.pi_ne_zero
    simp only [strikeDipVertex, degrees]
    constructor <;> field_simp <;> ring
  have h45 : radians 45 = Real.pi / 4 := by unfold radians; ring
  refine ⟨![1, 0], ?_, rfl, by rw [h45, Real.tan_pi_div_four]; rfl⟩
  simp only [strikeDipVertex, ne_eq, Prod.mk.injEq, not_and]
  intro _ h
  have : degrees 1 = 45 := by simpa using (by linarith : degrees ((![1, 0] : Vec 2) 0) = 45)
  unfold degrees at this
  have hpi := Real.pi_ne_zero
  field_simp at this
  have := Real.pi_lt_d2
  have := Real.pi_gt_three
  linarith

/-- `plane_confidence` always fails. -/
theorem C147_plane_confidence_false (axes : Mat 3 3) (d : Vec 3) :
    planeConfidence axes (Matrix.diagonal d) = .error .valueError := by
  have h := planeErrors_eq axes d "upper" (o := {}) rfl
  rw [diag3] at h
  simp only [planeConfidence, h, bind, Except.bind]
  split
  · rename_i a b heq
    have := congrArg List.length heq
    simp only [List.length_map, angles_length] at this
    simp at this
  · rfl

/-! ## C148 -/

/-- The parametric error curve: no point of it is on the hyperbola with the given semi-axes,
whatever the angle, if the first is less than pi/4. -/
theorem C148_on_hyperbola_false (a b : ℝ) (ha : 0 < a) (ha' : a < Real.pi / 4) (hb : 0 < b) (th : ℝ)
    (hth : Real.cos th ≠ 0) :
    (parametricPoint a b 0 th 1 / b) ^ 2 - (parametricPoint a b 0 th 0 / a) ^ 2 < 1 := by
  have e1 : parametricPoint a b 0 th 1 / b = 1 / Real.cos th * Real.sin a := by
    simp [parametricPoint]; field_simp
  have e0 : parametricPoint a b 0 th 0 / a = Real.tan th * Real.cos a := by
    simp [parametricPoint]; field_simp
  rw [e1, e0, Real.tan_eq_sin_div_cos]
  have hs := Real.sin_sq_add_cos_sq th
  have hs' := Real.sin_sq_add_cos_sq a
  have hc2 : 0 < Real.cos (2 * a) := Real.cos_pos_of_mem_Ioo ⟨by linarith, by linarith⟩
  rw [Real.cos_two_mul] at hc2
  have hth2 : 0 < Real.cos th ^ 2 := by positivity
  have : (1 / Real.cos th * Real.sin a) ^ 2 - (Real.sin th / Real.cos th * Real.cos a) ^ 2
      = (Real.sin a ^ 2 - Real.sin th ^ 2 * Real.cos a ^ 2) / Real.cos th ^ 2 := by
    field_simp
  rw [this, div_lt_one hth2]
  nlinarith [sq_nonneg (Real.sin th)]

example : (parametricPoint (1 / 3) 2 0 0 1 / 2) ^ 2 - (parametricPoint (1 / 3) 2 0 0 0 / (1 / 3)) ^ 2 < 1 :=
  C148_on_hyperbola_false (1 / 3) 2 (by norm_num) (by linarith [Real.two_le_pi])
    (by norm_num) 0 (by simp)

/-- The center is added twice. -/
theorem C148_means_false (a b : ℝ) (means : Vec 2) (k : ℕ) :
    parametricTop a b 1 means k = parametricTop a b 1 0 k + (2 : ℝ) • means := by
  funext j
  simp only [parametricTop, Matrix.vecMul_one, parametricPoint]
  fin_cases j <;> simp [Matrix.vecHead, Matrix.vecTail] <;> ring

/-- What holds: the curve spans from asymptote to asymptote (of the hyperbola meant), the
angles are within the branch, and two-dimensional input without axes is refused. -/
theorem C148_angles_partial (a b : ℝ) (ha : 0 < a) (hb : 0 < b) :
    parametricAngle a b 0 = -parametricAngle a b 499 ∧
    (∀ k, k ≤ 499 → -(Real.pi / 2) < parametricAngle a b k ∧ parametricAngle a b k < Real.pi / 2) ∧
    parametricErrors2 false = .error .typeError := by
  have hcut : 0 < arctan2 b a := by
    rw [arctan2_of_pos b ha]; exact Real.arctan_pos.2 (by positivity)
  have hcut' : arctan2 b a < Real.pi / 2 := by
    rw [arctan2_of_pos b ha]; exact Real.arctan_lt_pi_div_two _
  refine ⟨?_, ?_, rfl⟩
  · simp only [parametricAngle]; push_cast; ring
  · intro k hk
    have hk' : (k : ℝ) ≤ 499 := by exact_mod_cast hk
    have hk0 : (0 : ℝ) ≤ k := Nat.cast_nonneg k
    have hm : 0 < Real.pi - arctan2 b a - arctan2 b a := by linarith
    have h1 : 0 ≤ k * (Real.pi - arctan2 b a - arctan2 b a) / 499 := by positivity
    have h2 : k * (Real.pi - arctan2 b a - arctan2 b a) / 499 ≤ Real.pi - arctan2 b a - arctan2 b a := by
      rw [div_le_iff₀ (by norm_num)]
      nlinarith
    simp only [parametricAngle]
    constructor <;> linarith

example : parametricAngle 3 2 0 = -parametricAngle 3 2 499 :=
  (C148_angles_partial 3 2 (by norm_num) (by norm_num)).1

/-! ## C149 -/

/-- `fix_stereonet_coords` is its own inverse (and as it works in place, calling it twice on
an array restores it). -/
theorem C149_fix_involutive {n : ℕ} (c : Fin n → Vec 2) :
    fixStereonetCoords (fixStereonetCoords c) = c ∧
    ∀ i, fixStereonetCoords c i 0 = c i 0 ∧ fixStereonetCoords c i 1 = -c i 1 := by
  refine ⟨?_, fun i => ⟨rfl, rfl⟩⟩
  funext i j
  fin_cases j <;> simp [fixStereonetCoords]

lemma curve_closed (n : ℕ) (hn : 2 ≤ n) (g : ℝ → Option (ℝ × ℝ))
    (hper : g (2 * Real.pi) = g 0) : ((angles n).map g).head? = ((angles n).map g).getLast? := by
  have h0 : linspace n 0 = 0 := by simp [linspace]
  have h1 : linspace n (n - 1) = 2 * Real.pi := by
    have : (n : ℝ) - 1 ≠ 0 := by
      have : (2 : ℝ) ≤ n := by exact_mod_cast hn
      intro h; linarith
    simp only [linspace, if_neg (show n ≠ 1 by omega), Nat.cast_sub (show 1 ≤ n by omega), Nat.cast_one]
    field_simp
  rw [List.head?_map, List.getLast?_map]
  simp only [angles, List.head?_map, List.getLast?_map, List.head?_range, List.getLast?_range,
    if_neg (show n ≠ 0 by omega), Option.map_some, h0, h1, hper]

/-- Polygons given to cartopy are closed rings: exterior and hole end where they begin. -/
theorem C149_closed (axes : Mat 3 3) (d : Vec 3) :
    (∃ up low, cartopyGirdle axes d = .ok (up, low) ∧ up.length = 1000 ∧ low.length = 1000 ∧
      up.head? = up.getLast? ∧ low.head? = low.getLast?) ∧
    (∃ c ax, cartopyNormal axes d = .ok (c, ax) ∧ c.length = 1000 ∧ c.head? = c.getLast?) := by
  have hu := planeErrors_eq axes d "upper" (o := {}) rfl
  have hl := planeErrors_eq axes d "lower" (o := {}) rfl
  have hn := normalErrors_eq axes d (o := {}) rfl
  rw [diag3] at hu hl hn
  have cu := curve_closed 1000 (by norm_num) (fun a =>
    planeLonLat true (toWorld (girdleVec d (height axes "upper" 1) a) axes)) (by simp [girdleVec])
  have cl := curve_closed 1000 (by norm_num) (fun a =>
    planeLonLat true (toWorld (girdleVec d (height axes "lower" 1) a) axes)) (by simp [girdleVec])
  have cn := curve_closed 1000 (by norm_num) (fun a =>
    normalLonLat true (toWorld (normalVec d a) (flipped axes))) (by simp [normalVec])
  refine ⟨⟨_, _, by simp only [cartopyGirdle, hu, hl, bind, Except.bind]; rfl, ?_, ?_, ?_, ?_⟩,
    ⟨_, _, by simp only [cartopyNormal, hn, bind, Except.bind]; rfl, ?_, ?_⟩⟩
  · simp only [curveDegrees, List.length_map, angles_length, Option.getD_none]
  · simp only [curveDegrees, List.length_reverse, List.length_map, angles_length, Option.getD_none]
  · simp only [curveDegrees, Option.getD_none]
    rw [List.head?_map, List.getLast?_map, cu]
  · simp only [curveDegrees, Option.getD_none]
    rw [List.head?_reverse, List.getLast?_reverse, List.head?_map, List.getLast?_map, cl]
  · simp only [curveDegrees, List.length_map, angles_length, Option.getD_none]
  · simp only [curveDegrees, Option.getD_none]
    rw [List.head?_map, List.getLast?_map, cn]

/-- The exterior of the girdle is the upper curve in degrees, its hole the lower curve backwards,
and the ring around the normal the curve of the normals. -/
theorem C149_rings (axes : Mat 3 3) (d : Vec 3) :
    (∃ up low, planeErrors axes (Matrix.diagonal d) "upper" = .ok up ∧
      planeErrors axes (Matrix.diagonal d) "lower" = .ok low ∧
      cartopyGirdle axes d = .ok (Spec.inDegrees up, (Spec.inDegrees low).reverse)) ∧
    (∃ c ax, normalErrors axes (Matrix.diagonal d) = .ok (c, ax) ∧
      cartopyNormal axes d = .ok (Spec.inDegrees c, ax)) := by
  have hu := planeErrors_eq axes d "upper" (o := {}) rfl
  have hl := planeErrors_eq axes d "lower" (o := {}) rfl
  have hn := normalErrors_eq axes d (o := {}) rfl
  rw [diag3] at hu hl hn
  refine ⟨⟨_, _, hu, hl, ?_⟩, ⟨_, _, hn, ?_⟩⟩
  · simp only [cartopyGirdle, hu, hl, bind, Except.bind, curveDegrees_eq]
  · simp only [cartopyNormal, hn, bind, Except.bind, curveDegrees_eq]

end Attitude.Props
