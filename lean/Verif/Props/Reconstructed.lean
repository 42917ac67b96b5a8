import Verif.Model.Reconstructed
import Verif.Model.ErrorAxes
import Verif.Props.Rotations
import Verif.Props.PcaAngles
import Verif.Lemmas.Arctan2

/-! # Reconstructed planes: C47 - C50 -/

namespace Attitude.Props

open Attitude Pca Reconstructed

namespace Spec

/-- The rows of the matrix are orthonormal. -/
def OrthonormalRows (A : Mat 3 3) : Prop := ∀ i j, vdot (A i) (A j) = if i = j then 1 else 0

/-- The rows of the matrix form a right-handed frame. -/
def RightHanded (A : Mat 3 3) : Prop := A.det = 1

/-- The same axes, each up to its own sign. -/
def SameAxes (A B : Mat 3 3) : Prop := ∀ i, A i = B i ∨ A i = -B i

end Spec

/-! ### The vectors -/

/-- The unit vector at rake `r` in the plane, as the code finds it. -/
noncomputable def rakeVec (s d r : ℝ) : Vec 3 :=
  ![-(Real.sin (radians r) * Real.cos (radians d) * Real.cos (radians s)
      + Real.cos (radians r) * Real.sin (radians s)),
    -(Real.cos (radians r) * Real.cos (radians s)
      - Real.sin (radians r) * Real.cos (radians d) * Real.sin (radians s)),
    Real.sin (radians r) * Real.sin (radians d)]

lemma vec_of_unit {x y z : ℝ} (h : x ^ 2 + y ^ 2 + z ^ 2 = 1) :
    ∃ p, Rotations.cart2sph x y z = some p ∧ vec p = ![-y, -z, x] := by
  obtain ⟨p, h1, h2⟩ : ∃ p, Rotations.cart2sph x y z = some p ∧
      Rotations.sph2cart p.1 p.2 = (x, y, z) := by
    refine ⟨_, cart2sph_unit h, sph2cart_of_unit h⟩
  exact ⟨p, h1, by simp [vec, h2]⟩

lemma rotateX_vec (lon lat t : ℝ) : ∃ p, rotateX lon lat t = some p ∧
    vec p = ![-(Real.cos (radians lat) * Real.sin (radians lon) * Real.cos (radians t)
        + Real.sin (radians lat) * Real.sin (radians t)),
      -(-(Real.cos (radians lat) * Real.sin (radians lon)) * Real.sin (radians t)
        + Real.sin (radians lat) * Real.cos (radians t)),
      Real.cos (radians lat) * Real.cos (radians lon)] := by
  unfold rotateX
  simp only [Rotations.sph2cart]
  apply vec_of_unit
  have h1 := Real.sin_sq_add_cos_sq (radians lat)
  have h2 := Real.sin_sq_add_cos_sq (radians lon)
  have h3 := Real.sin_sq_add_cos_sq (radians t)
  generalize Real.sin (radians lat) = a at *
  generalize Real.cos (radians lat) = b at *
  generalize Real.sin (radians lon) = c at *
  generalize Real.cos (radians lon) = e at *
  generalize Real.sin (radians t) = f at *
  generalize Real.cos (radians t) = g at *
  have : (b * e) ^ 2 + (b * c * g + a * f) ^ 2 + (-(b * c) * f + a * g) ^ 2
      = b ^ 2 * e ^ 2 + (b ^ 2 * c ^ 2 + a ^ 2) * (f ^ 2 + g ^ 2) := by ring
  rw [this, h3]
  have : b ^ 2 * e ^ 2 + (b ^ 2 * c ^ 2 + a ^ 2) * 1 = b ^ 2 * (c ^ 2 + e ^ 2) + a ^ 2 := by ring
  rw [this, h2]
  linarith

lemma pole_vec (s d : ℝ) : ∃ p, pole s d = some p ∧
    vec p = if d > 90 then -sdNormal s d else sdNormal s d := by
  unfold pole
  obtain ⟨p, h1, h2⟩ := rotateX_vec (-(if d > 90 then (s + 180, 180 - d) else (s, d)).2) 0
    (if d > 90 then (s + 180, 180 - d) else (s, d)).1
  refine ⟨p, h1, ?_⟩
  rw [h2]
  have e0 : radians 0 = 0 := by unfold radians; ring
  have en : ∀ x, radians (-x) = -radians x := fun x => by unfold radians; ring
  have key : ∀ s d : ℝ, ![-(Real.cos (radians 0) * Real.sin (radians (-d)) * Real.cos (radians s)
        + Real.sin (radians 0) * Real.sin (radians s)),
      -(-(Real.cos (radians 0) * Real.sin (radians (-d))) * Real.sin (radians s)
        + Real.sin (radians 0) * Real.cos (radians s)),
      Real.cos (radians 0) * Real.cos (radians (-d))] = sdNormal s d := by
    intro s d
    simp [e0, en, sdNormal]
  rw [key]
  split_ifs
  · exact sdNormal_flip s d
  · rfl

lemma rakePoint_vec (s d r : ℝ) : ∃ p, rakePoint s d r = some p ∧
    vec p = if r < 0 then -rakeVec s d r else rakeVec s d r := by
  unfold rakePoint
  obtain ⟨p, h1, h2⟩ := rotateX_vec (90 - d) (90 - (if r < 0 then r + 180 else r)) s
  refine ⟨p, h1, ?_⟩
  rw [h2]
  simp only [radians_sub, radians_90, Real.sin_pi_div_two_sub, Real.cos_pi_div_two_sub]
  split_ifs
  · simp only [radians_add, radians_180, Real.sin_add_pi, Real.cos_add_pi, rakeVec]
    funext i
    fin_cases i <;> simp <;> ring
  · simp only [rakeVec]
    funext i
    fin_cases i
    · simp
    · simp; ring
    · simp

lemma sdNormal_unit (s d : ℝ) : vdot (sdNormal s d) (sdNormal s d) = 1 := by
  have h1 := Real.sin_sq_add_cos_sq (radians s)
  have h2 := Real.sin_sq_add_cos_sq (radians d)
  rw [vdot3]
  simp only [sdNormal, Matrix.cons_val_zero, Matrix.cons_val_one, Matrix.cons_val]
  nlinarith

lemma rakeVec_unit (s d r : ℝ) : vdot (rakeVec s d r) (rakeVec s d r) = 1 := by
  have h1 := Real.sin_sq_add_cos_sq (radians s)
  have h2 := Real.sin_sq_add_cos_sq (radians d)
  have h3 := Real.sin_sq_add_cos_sq (radians r)
  rw [vdot3]
  simp only [rakeVec, Matrix.cons_val_zero, Matrix.cons_val_one, Matrix.cons_val]
  generalize Real.sin (radians s) = a at *
  generalize Real.cos (radians s) = b at *
  generalize Real.sin (radians d) = c at *
  generalize Real.cos (radians d) = e at *
  generalize Real.sin (radians r) = f at *
  generalize Real.cos (radians r) = g at *
  have : -(f * e * b + g * a) * -(f * e * b + g * a) + -(g * b - f * e * a) * -(g * b - f * e * a)
      + f * c * (f * c) = (f ^ 2 * e ^ 2 + g ^ 2) * (a ^ 2 + b ^ 2) + f ^ 2 * c ^ 2 := by ring
  rw [this, h1]
  have : (f ^ 2 * e ^ 2 + g ^ 2) * 1 + f ^ 2 * c ^ 2 = f ^ 2 * (c ^ 2 + e ^ 2) + g ^ 2 := by ring
  rw [this, h2]
  linarith

lemma sdNormal_dot_rakeVec (s d r : ℝ) : vdot (sdNormal s d) (rakeVec s d r) = 0 := by
  have h1 := Real.sin_sq_add_cos_sq (radians s)
  rw [vdot3]
  simp only [sdNormal, rakeVec, Matrix.cons_val_zero, Matrix.cons_val_one, Matrix.cons_val]
  generalize Real.sin (radians s) = a at *
  generalize Real.cos (radians s) = b at *
  generalize Real.sin (radians d) = c at *
  generalize Real.cos (radians d) = e at *
  generalize Real.sin (radians r) = f at *
  generalize Real.cos (radians r) = g at *
  have : c * b * -(f * e * b + g * a) + -(c * a) * -(g * b - f * e * a) + e * (f * c)
      = f * e * c * (1 - (a ^ 2 + b ^ 2)) := by ring
  rw [this, h1]; ring

/-- An orthonormal pair completed by the cross product. -/
lemma frame_orthonormal {n m : Vec 3} (hn : vdot n n = 1) (hm : vdot m m = 1)
    (hnm : vdot n m = 0) : Spec.OrthonormalRows (Matrix.of ![cross n m, m, n]) ∧
      (Matrix.of ![cross n m, m, n] : Mat 3 3).det = -1 := by
  have hn' := hn
  have hm' := hm
  have hnm' := hnm
  rw [vdot3] at hn hm hnm
  have hid : vdot (cross n m) (cross n m) = 1 := by
    rw [vdot3]
    simp only [cross, Matrix.cons_val_zero, Matrix.cons_val_one, Matrix.cons_val]
    have : (n 1 * m 2 - n 2 * m 1) * (n 1 * m 2 - n 2 * m 1)
        + (n 2 * m 0 - n 0 * m 2) * (n 2 * m 0 - n 0 * m 2)
        + (n 0 * m 1 - n 1 * m 0) * (n 0 * m 1 - n 1 * m 0)
        = (n 0 * n 0 + n 1 * n 1 + n 2 * n 2) * (m 0 * m 0 + m 1 * m 1 + m 2 * m 2)
          - (n 0 * m 0 + n 1 * m 1 + n 2 * m 2) ^ 2 := by ring
    rw [this, hn, hm, hnm]; norm_num
  have hcm : vdot (cross n m) m = 0 := by
    rw [vdot3]
    simp only [cross, Matrix.cons_val_zero, Matrix.cons_val_one, Matrix.cons_val]
    ring
  have hcn : vdot (cross n m) n = 0 := by
    rw [vdot3]
    simp only [cross, Matrix.cons_val_zero, Matrix.cons_val_one, Matrix.cons_val]
    ring
  have comm : ∀ v w : Vec 3, vdot v w = vdot w v := fun v w => by rw [vdot3, vdot3]; ring
  constructor
  · intro i j
    have hmc : vdot m (cross n m) = 0 := by rw [comm, hcm]
    have hnc : vdot n (cross n m) = 0 := by rw [comm, hcn]
    have hmn : vdot m n = 0 := by rw [comm, hnm']
    fin_cases i <;> fin_cases j
    · simp; exact hid
    · simp; exact hcm
    · simp; exact hcn
    · simp; exact hmc
    · simp; exact hm'
    · simp; exact hmn
    · simp; exact hnc
    · simp; exact hnm'
    · simp; exact hn'
  · rw [vdot3] at hid
    rw [Matrix.det_fin_three]
    simp only [cross, Matrix.cons_val_zero, Matrix.cons_val_one, Matrix.cons_val] at hid
    simp [cross]
    nlinarith [hid]

/-- What the constructor computes, for every input. -/
lemma reconstruct_eq (s d r : ℝ) (errs : List ℝ) (ne : ℝ) :
    ∃ (nrm m : Vec 3) (p : Plane), reconstruct s d r errs ne = some p ∧
      nrm = (if d > 90 then -sdNormal s d else sdNormal s d) ∧
      m = (if r < 0 then -rakeVec s d r else rakeVec s d r) ∧
      p.strike = s ∧ p.dip = d ∧ p.rake = r ∧ p.angularErrors = errs ∧ p.normal = nrm ∧
      p.hyperbolicAxes = lengths ne errs ∧
      p.axes = (if nrm 2 < 0 then -(Matrix.of ![cross nrm m, m, nrm] : Mat 3 3)
        else Matrix.of ![cross nrm m, m, nrm]) := by
  obtain ⟨p, hp, hv⟩ := pole_vec s d
  obtain ⟨q, hq, hw⟩ := rakePoint_vec s d r
  refine ⟨vec p, vec q, ⟨s, d, r, errs, vec p, if (vec p) 2 < 0
    then -(Matrix.of ![cross (vec p) (vec q), vec q, vec p] : Mat 3 3)
    else Matrix.of ![cross (vec p) (vec q), vec q, vec p], lengths ne errs⟩, ?_, hv, hw, rfl,
    rfl, rfl, rfl, rfl, rfl, rfl⟩
  simp only [reconstruct, hp, hq, Option.bind_eq_bind, Option.bind_some]
  rfl

/-- The up-dip direction. -/
noncomputable def upDip (s d : ℝ) : Vec 3 := -Spec.plunging (s + 90) d

lemma upDip_eq (s d : ℝ) : upDip s d = ![-(Real.cos (radians s) * Real.cos (radians d)),
    Real.sin (radians s) * Real.cos (radians d), Real.sin (radians d)] := by
  rw [upDip, plunging_eq]
  funext i
  fin_cases i <;> simp

lemma rakeVec_eq (s d r : ℝ) : rakeVec s d r =
    Real.sin (radians r) • upDip s d - Real.cos (radians r) • Spec.heading s := by
  rw [upDip_eq, heading_eq]
  funext i
  fin_cases i
  · simp [rakeVec]; ring
  · simp [rakeVec]; ring
  · simp [rakeVec]

lemma cross_sdNormal_rakeVec (s d r : ℝ) : cross (sdNormal s d) (rakeVec s d r) =
    -(Real.cos (radians r) • upDip s d + Real.sin (radians r) • Spec.heading s) := by
  have h1 := Real.sin_sq_add_cos_sq (radians s)
  have h2 := Real.sin_sq_add_cos_sq (radians d)
  rw [upDip_eq, heading_eq]
  funext i
  fin_cases i
  · simp only [cross, sdNormal, rakeVec, Matrix.cons_val_zero, Matrix.cons_val_one,
      Matrix.cons_val, Fin.zero_eta, Pi.neg_apply, Pi.add_apply, Pi.smul_apply, smul_eq_mul]
    linear_combination (-Real.sin (radians r) * Real.sin (radians s)) * h2
  · simp only [cross, sdNormal, rakeVec, Matrix.cons_val_zero, Matrix.cons_val_one,
      Matrix.cons_val, Fin.mk_one, Pi.neg_apply, Pi.add_apply, Pi.smul_apply, smul_eq_mul]
    linear_combination (-Real.sin (radians r) * Real.cos (radians s)) * h2
  · simp only [cross, sdNormal, rakeVec, Matrix.cons_val_zero, Matrix.cons_val_one,
      Matrix.cons_val, Fin.reduceFinMk, Pi.neg_apply, Pi.add_apply, Pi.smul_apply, smul_eq_mul]
    linear_combination (-Real.cos (radians r) * Real.sin (radians d)) * h1

/-! ## C47 -/

lemma cos_dip_nonneg {d : ℝ} (h0 : 0 ≤ d) (h1 : d ≤ 90) : 0 ≤ Real.cos (radians d) := by
  have hpi := Real.pi_pos
  apply Real.cos_nonneg_of_neg_pi_div_two_le_of_le
  · unfold radians
    have : 0 ≤ d * Real.pi / 180 := by positivity
    linarith
  · unfold radians; nlinarith

/-- For every strike, dip in `[0, 90]`, rake and errors the construction
succeeds, the axes are orthonormal, and the third axis is the upward unit normal
of the plane with that strike and dip under the right-hand rule.  The given
angles and errors are reported back unchanged. -/
theorem C47_orthonormal_partial (s d r : ℝ) (h0 : 0 ≤ d) (h1 : d ≤ 90) (errs : List ℝ) (ne : ℝ) :
    ∃ p, reconstruct s d r errs ne = some p ∧ Spec.OrthonormalRows p.axes ∧
      p.axes 2 = p.normal ∧ 0 ≤ p.normal 2 ∧ Spec.RightHandRule p.normal s d ∧
      (p.strike, p.dip, p.rake, p.angularErrors) = (s, d, r, errs) := by
  obtain ⟨nrm, m, p, hp, hn, hm, e1, e2, e3, e4, e5, -, hax⟩ := reconstruct_eq s d r errs ne
  rw [if_neg (not_lt.2 h1)] at hn
  have hc := cos_dip_nonneg h0 h1
  have hz : ¬ nrm 2 < 0 := by rw [hn]; simpa [sdNormal] using hc
  rw [if_neg hz] at hax
  have hnm : vdot nrm m = 0 := by
    rw [hn, hm]
    split_ifs
    · have := sdNormal_dot_rakeVec s d r
      rw [vdot3] at this ⊢
      simp only [Pi.neg_apply]; linarith
    · exact sdNormal_dot_rakeVec s d r
  have hmm : vdot m m = 1 := by
    rw [hm]
    have := rakeVec_unit s d r
    split_ifs
    · rw [vdot3] at this ⊢
      simp only [Pi.neg_apply]; linarith
    · exact this
  have hnn : vdot nrm nrm = 1 := by rw [hn]; exact sdNormal_unit s d
  refine ⟨p, hp, ?_, ?_, ?_, ?_, ?_⟩
  · rw [hax]; exact (frame_orthonormal hnn hmm hnm).1
  · rw [hax, e5]; rfl
  · rw [e5]; exact not_lt.1 hz
  · rw [e5, hn]
    have := rightHandRule_sdNormal 1 s d
    rwa [one_smul] at this
  · rw [e1, e2, e3, e4]

example : ∃ p, reconstruct 30 60 45 [10, 20] 1 = some p ∧ Spec.RightHandRule p.normal 30 60 := by
  obtain ⟨p, h, _, _, _, h', _⟩ :=
    C47_orthonormal_partial 30 60 45 (by norm_num) (by norm_num) [10, 20] 1
  exact ⟨p, h, h'⟩

/-- The frame is never right-handed: its determinant is `-1` for every strike,
dip in `[0, 90]` and rake. -/
theorem C47_right_handed_false (s d r : ℝ) (h0 : 0 ≤ d) (h1 : d ≤ 90) (errs : List ℝ) (ne : ℝ) :
    ∃ p, reconstruct s d r errs ne = some p ∧ p.axes.det = -1 ∧ ¬ Spec.RightHanded p.axes := by
  obtain ⟨nrm, m, p, hp, hn, hm, -, -, -, -, -, -, hax⟩ := reconstruct_eq s d r errs ne
  rw [if_neg (not_lt.2 h1)] at hn
  have hc := cos_dip_nonneg h0 h1
  have hz : ¬ nrm 2 < 0 := by rw [hn]; simpa [sdNormal] using hc
  rw [if_neg hz] at hax
  have hnm : vdot nrm m = 0 := by
    rw [hn, hm]
    split_ifs
    · have := sdNormal_dot_rakeVec s d r
      rw [vdot3] at this ⊢
      simp only [Pi.neg_apply]; linarith
    · exact sdNormal_dot_rakeVec s d r
  have hmm : vdot m m = 1 := by
    rw [hm]
    have := rakeVec_unit s d r
    split_ifs
    · rw [vdot3] at this ⊢
      simp only [Pi.neg_apply]; linarith
    · exact this
  have hnn : vdot nrm nrm = 1 := by rw [hn]; exact sdNormal_unit s d
  have hdet : p.axes.det = -1 := by rw [hax]; exact (frame_orthonormal hnn hmm hnm).2
  refine ⟨p, hp, hdet, ?_⟩
  unfold Spec.RightHanded
  rw [hdet]; norm_num

/-- The hypotheses are met, for example by strike 40, dip 30, rake 25. -/
example : ∃ p, reconstruct 40 30 25 [10, 20] 1 = some p ∧ Spec.OrthonormalRows p.axes :=
  let ⟨p, h, h', _⟩ := C47_orthonormal_partial 40 30 25 (by norm_num) (by norm_num) [10, 20] 1
  ⟨p, h, h'⟩

/-! ## C48 -/

/-- The plane reconstructed from the strike and dip of a fit (with any rake, any
errors) has exactly the fit's normal: for every fit, vertical and horizontal
planes included. -/
theorem C48_same_normal (svd : SvdFn) (hs : svd.Valid) {n : ℕ} (a : Fin n → Vec 3) (f : Fit n)
    (hf : init svd a none none = .ok (some f)) (r : ℝ) (errs : List ℝ) (ne : ℝ) :
    ∃ s d p, strikeDip f = some (s, d) ∧ reconstruct s d r errs ne = some p ∧
      p.normal = f.normal := by
  obtain ⟨U, h⟩ := init_default hs hf
  obtain ⟨s, d, hsd, _, _, h0, h1, hnv⟩ := strikeDipOf_spec (fit_axis_ne_zero h 2)
  obtain ⟨nrm, m, p, hp, hn, _, _, _, _, _, e5, _, _⟩ := reconstruct_eq s d r errs ne
  refine ⟨s, d, p, hsd, hp, ?_⟩
  rw [h.svd.row_norm 2, one_smul] at hnv
  rw [e5, hn, if_neg (not_lt.2 h1), hnv, h.normal]

/-- Fits exist, for every backend and every data set of three or more points. -/
example (svd : SvdFn) (hs : svd.Valid) : ∃ f : Fit 4, init svd dipCross none none = .ok (some f) ∧
    ∃ s d p, strikeDip f = some (s, d) ∧ reconstruct s d 10 [5, 10] 1 = some p ∧
      p.normal = f.normal := by
  obtain ⟨f, hf⟩ := init_default_exists svd (by norm_num : 3 ≤ 4) dipCross
  exact ⟨f, hf, C48_same_normal svd hs dipCross f hf 10 [5, 10] 1⟩

/-! ## C49 -/

/-- Every vector is the sum of its parts up dip, along strike and along the
normal. -/
lemma frame_decomp (s d : ℝ) (v : Vec 3) : v = vdot v (upDip s d) • upDip s d
    + vdot v (Spec.heading s) • Spec.heading s + vdot v (sdNormal s d) • sdNormal s d := by
  have h1 := Real.sin_sq_add_cos_sq (radians s)
  have h2 := Real.sin_sq_add_cos_sq (radians d)
  rw [vdot3, vdot3, vdot3, upDip_eq, heading_eq]
  funext i
  fin_cases i
  · simp only [sdNormal, Matrix.cons_val_zero, Matrix.cons_val_one,
      Matrix.cons_val, Fin.zero_eta, Pi.add_apply, Pi.smul_apply, smul_eq_mul]
    linear_combination -(v 0 * Real.cos (radians s) ^ 2
      - v 1 * Real.cos (radians s) * Real.sin (radians s)) * h2 - v 0 * h1
  · simp only [sdNormal, Matrix.cons_val_zero, Matrix.cons_val_one,
      Matrix.cons_val, Fin.mk_one, Pi.add_apply, Pi.smul_apply, smul_eq_mul]
    linear_combination -(v 1 * Real.sin (radians s) ^ 2
      - v 0 * Real.cos (radians s) * Real.sin (radians s)) * h2 - v 1 * h1
  · simp only [sdNormal, Matrix.cons_val_zero, Matrix.cons_val_one,
      Matrix.cons_val, Fin.reduceFinMk, Pi.add_apply, Pi.smul_apply, smul_eq_mul]
    linear_combination -v 2 * h2

lemma frame_dot (s d : ℝ) (v w : Vec 3) : vdot v w = vdot v (upDip s d) * vdot w (upDip s d)
    + vdot v (Spec.heading s) * vdot w (Spec.heading s)
    + vdot v (sdNormal s d) * vdot w (sdNormal s d) := by
  have e := frame_decomp s d v
  have e0 := congrFun e 0
  have e1 := congrFun e 1
  have e2 := congrFun e 2
  simp only [Pi.add_apply, Pi.smul_apply, smul_eq_mul] at e0 e1 e2
  rw [vdot3 v w, vdot3 w, vdot3 w, vdot3 w]
  linear_combination w 0 * e0 + w 1 * e1 + w 2 * e2

lemma upDip_unit (s d : ℝ) : vdot (upDip s d) (upDip s d) = 1 := by
  have h1 := Real.sin_sq_add_cos_sq (radians s)
  have h2 := Real.sin_sq_add_cos_sq (radians d)
  rw [vdot3, upDip_eq]
  simp only [Matrix.cons_val_zero, Matrix.cons_val_one, Matrix.cons_val]
  linear_combination Real.cos (radians d) ^ 2 * h1 + h2

lemma heading_unit (s : ℝ) : vdot (Spec.heading s) (Spec.heading s) = 1 := by
  have h1 := Real.sin_sq_add_cos_sq (radians s)
  rw [vdot3, heading_eq]
  simp only [Matrix.cons_val_zero, Matrix.cons_val_one, Matrix.cons_val]
  linear_combination h1

lemma upDip_dot_heading (s d : ℝ) : vdot (upDip s d) (Spec.heading s) = 0 := by
  rw [vdot3, upDip_eq, heading_eq]
  simp only [Matrix.cons_val_zero, Matrix.cons_val_one, Matrix.cons_val]
  ring

lemma norm_of_unit {v : Vec 3} (h : vdot v v = 1) : norm v = 1 := by
  rw [vdot3] at h
  rw [norm3, show v 0 ^ 2 + v 1 ^ 2 + v 2 ^ 2 = 1 by linarith, Real.sqrt_one]

/-- Coefficients of up dip and strike can be compared. -/
lemma comb_inj {s d x y x' y' : ℝ}
    (h : x • upDip s d + y • Spec.heading s = x' • upDip s d + y' • Spec.heading s) :
    x = x' ∧ y = y' := by
  have hu := upDip_unit s d
  have hh := heading_unit s
  have hx := upDip_dot_heading s d
  have key : ∀ x y : ℝ, vdot (x • upDip s d + y • Spec.heading s) (upDip s d) = x ∧
      vdot (x • upDip s d + y • Spec.heading s) (Spec.heading s) = y := by
    intro x y
    rw [vdot3] at hu hh hx ⊢
    rw [vdot3]
    simp only [Pi.add_apply, Pi.smul_apply, smul_eq_mul]
    constructor
    · linear_combination x * hu + y * hx
    · linear_combination x * hx + y * hh
  have k1 := key x y
  have k2 := key x' y'
  rw [h] at k1
  exact ⟨k1.1.symm.trans k2.1, k1.2.symm.trans k2.2⟩

/-- Exactly when the reconstruction recovers the axes of a fit (each up to its
own sign): when the fit's first axis does not point against the strike
direction, or is horizontal.  Since the sign of the first axis is arbitrary, this
is half of the fits. -/
theorem C49_axes_recovered_iff_partial (svd : SvdFn) (hs : svd.Valid) {n : ℕ} (a : Fin n → Vec 3)
    (f : Fit n) (hf : init svd a none none = .ok (some f)) (s d r : ℝ)
    (hsd : strikeDip f = some (s, d)) (hr : rake f = some r) (errs : List ℝ) (ne : ℝ) :
    ∃ p, reconstruct s d r errs ne = some p ∧
      (Spec.SameAxes p.axes f.V ↔
        0 ≤ vdot (f.V 0) (Spec.heading s) ∨ vdot (f.V 0) (Spec.plunging (s + 90) d) = 0) := by
  obtain ⟨U, h⟩ := init_default hs hf
  obtain ⟨s', d', hsd', _, _, h0, h1, hnv⟩ := strikeDipOf_spec (fit_axis_ne_zero h 2)
  have hsd'' : strikeDipOf (f.V 2) = some (s, d) := hsd
  rw [hsd''] at hsd'
  cases hsd'
  rw [h.svd.row_norm 2, one_smul] at hnv
  obtain ⟨nrm, m, p, hp, hn, hm, _, _, _, _, e5, _, hax⟩ := reconstruct_eq s d r errs ne
  refine ⟨p, hp, ?_⟩
  rw [if_neg (not_lt.2 h1)] at hn
  have hr0 : ¬ r < 0 := not_lt.2 (C17_rake_range_partial f r hr).1
  rw [if_neg hr0] at hm
  have hz : ¬ nrm 2 < 0 := by
    rw [hn]; simpa [sdNormal] using cos_dip_nonneg h0 h1
  rw [if_neg hz, hn, hm] at hax
  -- the rake is defined, so the plane is not horizontal
  have hd0 : d ≠ 0 := by
    rintro rfl
    have hup : upward (f.V 2) = ![0, 0, 1] := by
      rw [← hnv]
      simp [sdNormal, radians]
    have : f.dipDr = none := by
      rw [h.dipDr, dipDr_formula h, h.normal, hup]
      simp [Pca.normalize, vdivOpt, norm, Fin.sum_univ_three]
    rw [rake, this] at hr
    cases hr
  obtain ⟨v, hdr, hv, _, _, _, _⟩ := C16_dip_dr_partial svd hs a f hf s d hsd hd0
  have hvu : v = upDip s d := hv
  set α := vdot (f.V 0) (upDip s d) with hα
  set β := vdot (f.V 0) (Spec.heading s) with hβ
  -- components of the axes
  have hperp : ∀ i : Fin 3, i ≠ 2 → vdot (f.V i) (sdNormal s d) = 0 := by
    intro i hi
    have k := h.svd.row_dot i 2
    rw [if_neg hi] at k
    rw [hnv]
    rcases upward_eq (f.V 2) with e | e <;> rw [e]
    · exact k
    · rw [vdot3] at k ⊢
      simp only [Pi.neg_apply]; linarith
  have q0 := hperp 0 (by decide)
  have q1 := hperp 1 (by decide)
  have hV0 : f.V 0 = α • upDip s d + β • Spec.heading s := by
    have := frame_decomp s d (f.V 0)
    rwa [q0, zero_smul, add_zero] at this
  set α' := vdot (f.V 1) (upDip s d) with hα'
  set β' := vdot (f.V 1) (Spec.heading s) with hβ'
  have hV1 : f.V 1 = α' • upDip s d + β' • Spec.heading s := by
    have := frame_decomp s d (f.V 1)
    rwa [q1, zero_smul, add_zero] at this
  have n0 : α * α + β * β = 1 := by
    have := h.svd.row_dot 0 0
    rw [frame_dot s d, q0] at this
    simpa using this
  have n1 : α' * α' + β' * β' = 1 := by
    have := h.svd.row_dot 1 1
    rw [frame_dot s d, q1] at this
    simpa using this
  have n01 : α * α' + β * β' = 0 := by
    have := h.svd.row_dot 0 1
    rw [frame_dot s d, q0, q1] at this
    simpa using this
  -- the rake
  have hrr : radians r = Real.arccos α := by
    have hcomm : vdot (upDip s d) (f.V 0) = α := by rw [hα, vdot3, vdot3]; ring
    simp only [rake, hdr, hvu, Option.bind_eq_bind, Option.bind_some, Rotations.angle, fdiv,
      if_false, hcomm, norm_of_unit (upDip_unit s d), h.svd.row_norm 0, mul_one, div_one,
      one_ne_zero, Option.bind_some, Option.some.injEq] at hr
    rw [← hr, radians_degrees]
  have hcos : Real.cos (radians r) = α := by
    rw [hrr, Real.cos_arccos] <;> nlinarith [mul_self_nonneg β]
  have hsin : Real.sin (radians r) = |β| := by
    rw [hrr, Real.sin_arccos, show 1 - α ^ 2 = β ^ 2 by nlinarith, Real.sqrt_sq_eq_abs]
  have r0 : p.axes 0 = (-α) • upDip s d + (-|β|) • Spec.heading s := by
    rw [hax]
    show cross _ _ = _
    rw [cross_sdNormal_rakeVec, hcos, hsin]
    module
  have r1 : p.axes 1 = |β| • upDip s d + (-α) • Spec.heading s := by
    rw [hax]
    show rakeVec s d r = _
    rw [rakeVec_eq, hcos, hsin]
    module
  have r2 : p.axes 2 = upward (f.V 2) := by
    rw [hax]
    exact hnv
  have hpl : vdot (f.V 0) (Spec.plunging (s + 90) d) = -α := by
    rw [hα, upDip, vdot3, vdot3]
    simp only [Pi.neg_apply]; ring
  rw [hpl, neg_eq_zero]
  constructor
  · intro hsame
    by_contra hcon
    push Not at hcon
    obtain ⟨hb, ha⟩ := hcon
    rcases hsame 0 with e | e
    · rw [r0, hV0] at e
      have := (comb_inj e).1
      exact ha (by linarith)
    · rw [r0, hV0, show -(α • upDip s d + β • Spec.heading s)
        = (-α) • upDip s d + (-β) • Spec.heading s by module] at e
      have := (comb_inj e).2
      rw [abs_of_neg hb] at this
      linarith
  · intro hcase i
    -- the second axis of the fit
    obtain ⟨t, t1, w1, w2⟩ : ∃ t : ℝ, (t = 1 ∨ t = -1) ∧ α' = t * β ∧ β' = -(t * α) := by
      refine ⟨α' * β - β' * α, mul_self_eq_one_iff.1 (by nlinarith), ?_, ?_⟩
      · linear_combination (-α') * n0 + α * n01
      · linear_combination (-β') * n0 + β * n01
    have habs : |β| = β ∨ |β| = -β := abs_choice β
    fin_cases i
    · show p.axes 0 = f.V 0 ∨ p.axes 0 = -f.V 0
      rw [r0, hV0]
      rcases hcase with hb | ha
      · right; rw [abs_of_nonneg hb]; module
      · rw [ha]
        rcases habs with e | e <;> rw [e]
        · right; module
        · left; module
    · show p.axes 1 = f.V 1 ∨ p.axes 1 = -f.V 1
      rw [r1, hV1, w1, w2]
      rcases hcase with hb | ha
      · rw [abs_of_nonneg hb]
        rcases t1 with e | e
        · left; rw [e]; module
        · right; rw [e]; module
      · rw [ha]
        rcases habs with e | e <;> rw [e] <;> rcases t1 with e' | e'
        · left; rw [e']; module
        · right; rw [e']; module
        · right; rw [e']; module
        · left; rw [e']; module
    · show p.axes 2 = f.V 2 ∨ p.axes 2 = -f.V 2
      rw [r2]
      exact upward_eq _

/-- A cross of four points in the vertical plane `x = 0`, elongated obliquely. -/
def obliqueCross : Fin 4 → Vec 3 := ![![0, 6, 8], ![0, -6, -8], ![0, -4, 3], ![0, 4, -3]]

lemma obliqueCross_centered : Coordinates.centered obliqueCross = obliqueCross := by
  apply C01_centered_unique
  · intro j
    fin_cases j <;> simp [obliqueCross, Fin.sum_univ_four]
  · intro i i' j
    rfl

lemma obliqueCross_coplanar : ∃ m d, norm m = 1 ∧ ∀ i, Spec.OnPlane m d (obliqueCross i) := by
  refine ⟨![1, 0, 0], 0, ?_, ?_⟩
  · rw [norm3]; simp
  · intro i
    fin_cases i <;> simp [Spec.OnPlane, obliqueCross]

/-- The normal of every fit to the cross is along `x`, its first axis has
non-zero second and third components. -/
lemma obliqueCross_fit {svd : SvdFn} (hs : svd.Valid) {f : Fit 4}
    (hf : init svd obliqueCross none none = .ok (some f)) :
    f.normal 1 = 0 ∧ f.normal 2 = 0 ∧ f.V 0 0 = 0 ∧ f.V 0 1 ≠ 0 ∧ f.V 0 2 ≠ 0 := by
  obtain ⟨U, h⟩ := init_default hs hf
  obtain ⟨m, d0, hm, hp⟩ := obliqueCross_coplanar
  have p1 := normal_perp_of_coplanar hs hf m d0 hm hp 0 1
  have p2 := normal_perp_of_coplanar hs hf m d0 hm hp 2 3
  simp [obliqueCross] at p1 p2
  have q1 : f.normal 1 = 0 := by linarith
  have q2 : f.normal 2 = 0 := by linarith
  have hsq : f.normal 0 ^ 2 + f.normal 1 ^ 2 + f.normal 2 ^ 2 = 1 := by
    have := norm_sq' f.normal
    rw [normal_unit h, Fin.sum_univ_three] at this
    linarith
  have hne : f.normal 0 ≠ 0 := by
    intro e; rw [q1, q2, e] at hsq; norm_num at hsq
  have hin := h.svd.row_dot 0 2
  rw [if_neg (by decide), vdot3] at hin
  have hin' : f.V 0 0 * f.normal 0 + f.V 0 1 * f.normal 1 + f.V 0 2 * f.normal 2 = 0 := by
    rw [h.normal]
    rcases upward_eq (f.V 2) with e | e <;> rw [e]
    · exact hin
    · simp only [Pi.neg_apply]; linarith
  have hx : f.V 0 0 = 0 := by
    rw [q1, q2] at hin'
    rcases mul_eq_zero.1 (by linarith : f.V 0 0 * f.normal 0 = 0) with k | k
    · exact k
    · exact absurd k hne
  have hn0 : f.V 0 0 ^ 2 + f.V 0 1 ^ 2 + f.V 0 2 ^ 2 = 1 := by
    have := norm_sq' (f.V 0)
    rw [h.svd.row_norm 0, Fin.sum_univ_three] at this
    linarith
  have hup := h.svd.upper ![0, 3, 4]
  have hrow := h.svd.sum_sq_row 0
  rw [obliqueCross_centered] at hup hrow
  simp only [Matrix.mulVec, dotProduct, Fin.sum_univ_four, Fin.sum_univ_three, Matrix.of_apply,
    obliqueCross, Matrix.cons_val_zero, Matrix.cons_val_one, Matrix.cons_val] at hup hrow
  refine ⟨q1, q2, hx, ?_, ?_⟩
  · intro e
    rw [hx, e] at hn0 hrow
    nlinarith
  · intro e
    rw [hx, e] at hn0 hrow
    nlinarith

/-- The axes are not recovered in general: for the cross of points above, for
every valid backend either its fit, or the one obtained with the equally valid
opposite sign of the first axis, yields a reconstruction with different axes. -/
theorem C49_not_recovered_false (svd : SvdFn) (hs : svd.Valid) :
    ∃ svd' : SvdFn, svd'.Valid ∧ (svd' = svd ∨ svd' = flipFirst svd) ∧
    ∃ (f : Fit 4) (s d r : ℝ) (p : Plane), init svd' obliqueCross none none = .ok (some f) ∧
      strikeDip f = some (s, d) ∧ rake f = some r ∧ reconstruct s d r [10, 20] 1 = some p ∧
      ¬ Spec.SameAxes p.axes f.V := by
  obtain ⟨f, hf⟩ := init_default_exists svd (by norm_num : 3 ≤ 4) obliqueCross
  obtain ⟨g, hg⟩ := init_default_exists (flipFirst svd) (by norm_num : 3 ≤ 4) obliqueCross
  have hflip := C17_rake_depends_on_sign svd obliqueCross f g hf hg
  have hgV : g.V 0 = -f.V 0 := by
    simp [init, runSvd, bind, Except.bind] at hf hg
    subst hf hg
    simp only [derive, flipFirst]
    funext j
    simp
  -- one of the two has the first axis against strike
  have main : ∀ (svd' : SvdFn) (_ : svd'.Valid) (f : Fit 4)
      (_ : init svd' obliqueCross none none = .ok (some f)),
      ∃ s d r, strikeDip f = some (s, d) ∧ rake f = some r ∧
        vdot (f.V 0) (Spec.heading s) ≠ 0 ∧ vdot (f.V 0) (Spec.plunging (s + 90) d) ≠ 0 := by
    intro svd' hs' f hf
    obtain ⟨q1, q2, v0, v1, v2⟩ := obliqueCross_fit hs' hf
    obtain ⟨U, h⟩ := init_default hs' hf
    obtain ⟨s, d, hsd, _, _, h0, h1, hnv⟩ := strikeDipOf_spec (fit_axis_ne_zero h 2)
    rw [h.svd.row_norm 2, one_smul, ← h.normal] at hnv
    have c2 := congrFun hnv 2
    have c1 := congrFun hnv 1
    simp [sdNormal, q1, q2] at c1 c2
    have hsd2 := Real.sin_sq_add_cos_sq (radians d)
    have hss := Real.sin_sq_add_cos_sq (radians s)
    have hsd0 : Real.sin (radians d) ≠ 0 := by
      intro e; rw [e, c2] at hsd2; norm_num at hsd2
    have hs0 : Real.sin (radians s) = 0 := by
      rcases c1 with k | k
      · exact absurd k hsd0
      · exact k
    have hc0 : Real.cos (radians s) ≠ 0 := by
      intro e; rw [hs0, e] at hss; norm_num at hss
    have hd0 : d ≠ 0 := by
      rintro rfl
      apply hsd0; simp [radians]
    obtain ⟨v, hdr, -, hvn, -⟩ := C16_dip_dr_partial svd' hs' obliqueCross f hf s d hsd hd0
    have hne : ¬ (norm v * norm (f.V 0) = 0) := by
      rw [hvn, h.svd.row_norm 0]; norm_num
    refine ⟨s, d, degrees (Real.arccos (vdot v (f.V 0) / (norm v * norm (f.V 0)))), hsd, ?_, ?_,
      ?_⟩
    · simp only [rake, hdr, Option.bind_eq_bind, Option.bind_some, Rotations.angle, fdiv, hne,
        if_false]
    · rw [heading_eq, vdot3]
      simp [hs0, v1, hc0]
    · rw [plunging_eq, vdot3]
      simp [hs0, c2, v2, hsd0]
  obtain ⟨s, d, r, hsd, hr, hβ, hα⟩ := main svd hs f hf
  rcases lt_or_gt_of_ne hβ with hneg | hpos
  · refine ⟨svd, hs, Or.inl rfl, f, s, d, r, ?_⟩
    obtain ⟨p, hp, hiff⟩ := C49_axes_recovered_iff_partial svd hs obliqueCross f hf s d r hsd hr
      [10, 20] 1
    refine ⟨p, hf, hsd, hr, hp, fun hc => ?_⟩
    rcases hiff.1 hc with k | k
    · linarith
    · exact hα k
  · have hgs : strikeDip g = some (s, d) := by rw [hflip.2, hsd]
    have hgr : rake g = some (180 - r) := by rw [hflip.1, hr]; rfl
    refine ⟨flipFirst svd, flipFirst_valid hs, Or.inr rfl, g, s, d, 180 - r, ?_⟩
    obtain ⟨p, hp, hiff⟩ := C49_axes_recovered_iff_partial _ (flipFirst_valid hs) obliqueCross g hg
      s d (180 - r) hgs hgr [10, 20] 1
    refine ⟨p, hg, hgs, hgr, hp, fun hc => ?_⟩
    rw [hgV] at hiff
    have neg : ∀ w : Vec 3, vdot (-f.V 0) w = -vdot (f.V 0) w := by
      intro w; rw [vdot3, vdot3]; simp only [Pi.neg_apply]; ring
    rw [neg, neg] at hiff
    rcases hiff.1 hc with k | k
    · linarith
    · exact hα (neg_eq_zero.1 k)

/-- Non-vacuity of `C49_axes_recovered_iff_partial`. -/
example : ∃ (svd : SvdFn) (f : Fit 4) (s d r : ℝ), svd.Valid ∧
    init svd obliqueCross none none = .ok (some f) ∧ strikeDip f = some (s, d) ∧
    rake f = some r := by
  obtain ⟨svd, hs⟩ := exists_valid_svd
  obtain ⟨svd', hs', _, f, s, d, r, _, hf, h, h', _⟩ := C49_not_recovered_false svd hs
  exact ⟨svd', f, s, d, r, hs', hf, h, h'⟩

/-! ## C50 -/

/-- The errors in radians, halved. -/
noncomputable def Spec.halfError (e : ℝ) : ℝ := e * Real.pi / 180 / 2

lemma halfError_range {e : ℝ} (h0 : 0 < e) (h1 : e < 180) :
    0 < radians e / 2 ∧ radians e / 2 < Real.pi / 2 := by
  have hpi := Real.pi_pos
  constructor
  · unfold radians; positivity
  · unfold radians; nlinarith

lemma lengths_two {e₁ e₂ ne : ℝ} (h1 : 0 < e₁) (h1' : e₁ < 180) (h2 : 0 < e₂) (h2' : e₂ < 180) :
    lengths ne [e₁, e₂] = some [ne / Real.tan (Spec.halfError e₂),
      ne / Real.tan (Spec.halfError e₁), ne] := by
  have t1 := (Real.tan_pos_of_pos_of_lt_pi_div_two (halfError_range h1 h1').1
    (halfError_range h1 h1').2).ne'
  have t2 := (Real.tan_pos_of_pos_of_lt_pi_div_two (halfError_range h2 h2').1
    (halfError_range h2 h2').2).ne'
  simp [lengths, fdiv, t1, t2]
  exact ⟨rfl, rfl⟩

/-- What does hold: for errors strictly between 0 and 180 degrees the axes are
finite, and the angle whose tangent is the ratio of the third axis to the first
(second) one is half of the SECOND (first) error given. -/
theorem C50_errors_swapped_partial (s d r e₁ e₂ ne : ℝ) (h1 : 0 < e₁) (h1' : e₁ < 180)
    (h2 : 0 < e₂) (h2' : e₂ < 180) (hne : 0 < ne) :
    ∃ p h0 h1', reconstruct s d r [e₁, e₂] ne = some p ∧
      p.hyperbolicAxes = some [h0, h1', ne] ∧
      ErrorAxes.axisAngularError ![h0, h1', ne] h0 = Spec.halfError e₂ ∧
      ErrorAxes.axisAngularError ![h0, h1', ne] h1' = Spec.halfError e₁ := by
  obtain ⟨_, _, p, hp, _, _, _, _, _, _, _, hh, _⟩ := reconstruct_eq s d r [e₁, e₂] ne
  rw [lengths_two h1 h1' h2 h2'] at hh
  have key : ∀ e, 0 < e → e < 180 →
      arctan2 ne (ne / Real.tan (Spec.halfError e)) = Spec.halfError e := by
    intro e he he'
    have hr := halfError_range he he'
    have ht := Real.tan_pos_of_pos_of_lt_pi_div_two hr.1 hr.2
    have ht' : 0 < Real.tan (Spec.halfError e) := ht
    rw [arctan2_of_pos _ (by positivity), show ne / (ne / Real.tan (Spec.halfError e))
      = Real.tan (Spec.halfError e) by field_simp]
    exact Real.arctan_tan (by have := hr.1; have := Real.pi_pos; show _ < radians e / 2; linarith)
      hr.2
  exact ⟨p, _, _, hp, hh, key e₂ h2 h2', key e₁ h1 h1'⟩

example : ∃ p h0 h1', reconstruct 30 60 45 [10, 20] 1 = some p ∧
    p.hyperbolicAxes = some [h0, h1', 1] := by
  obtain ⟨p, h0, h1', h, h', _⟩ := C50_errors_swapped_partial 30 60 45 10 20 1 (by norm_num)
    (by norm_num) (by norm_num) (by norm_num) (by norm_num)
  exact ⟨p, h0, h1', h, h'⟩

/-- The claim itself: `angular_errors`, the function the rest of the library uses
on hyperbolic axes, gives back the half-errors only for the single pair
`(90, 90)`; for every other pair in `(0, 180)` it does not. -/
theorem C50_errors_encoded_false (s d r e₁ e₂ ne : ℝ) (h1 : 0 < e₁) (h1' : e₁ < 180)
    (h2 : 0 < e₂) (h2' : e₂ < 180) (hne : 0 < ne) :
    ∃ p h0 h1, reconstruct s d r [e₁, e₂] ne = some p ∧ p.hyperbolicAxes = some [h0, h1, ne] ∧
      (ErrorAxes.angularErrors ![h0, h1, ne] = (Spec.halfError e₁, Spec.halfError e₂) ↔
        e₁ = 90 ∧ e₂ = 90) := by
  obtain ⟨_, _, p, hp, _, _, _, _, _, _, _, hh, _⟩ := reconstruct_eq s d r [e₁, e₂] ne
  rw [lengths_two h1 h1' h2 h2'] at hh
  refine ⟨p, _, _, hp, hh, ?_⟩
  have hr1 := halfError_range h1 h1'
  have hr2 := halfError_range h2 h2'
  have ht1 : 0 < Real.tan (Spec.halfError e₁) := Real.tan_pos_of_pos_of_lt_pi_div_two hr1.1 hr1.2
  have ht2 : 0 < Real.tan (Spec.halfError e₂) := Real.tan_pos_of_pos_of_lt_pi_div_two hr2.1 hr2.2
  have key : ∀ t : ℝ, 0 < t →
      arctan2 (Real.sqrt ne) (Real.sqrt (ne / t)) = Real.arctan (Real.sqrt t) := by
    intro t ht
    rw [arctan2_of_pos _ (Real.sqrt_pos.2 (by positivity)), ← Real.sqrt_div hne.le,
      show ne / (ne / t) = t by field_simp]
  simp only [ErrorAxes.angularErrors, Matrix.cons_val_zero, Matrix.cons_val_one, Matrix.cons_val,
    key _ ht1, key _ ht2, Prod.mk.injEq]
  have hpi := Real.pi_pos
  have tan_iff : ∀ e x : ℝ, 0 < e → e < 180 →
      (Real.arctan x = Spec.halfError e ↔ x = Real.tan (Spec.halfError e)) := by
    intro e x he he'
    have hr := halfError_range he he'
    constructor
    · intro h; rw [← h, Real.tan_arctan]
    · intro h
      rw [h]
      exact Real.arctan_tan (by have := hr.1; show _ < radians e / 2; linarith) hr.2
  have one_iff : ∀ e : ℝ, 0 < e → e < 180 → (Real.tan (Spec.halfError e) = 1 ↔ e = 90) := by
    intro e he he'
    constructor
    · intro h
      have := (tan_iff e 1 he he').2 h.symm
      rw [Real.arctan_one] at this
      unfold Spec.halfError at this
      field_simp at this
      linarith
    · rintro rfl
      rw [show Spec.halfError 90 = Real.pi / 4 by unfold Spec.halfError; ring, Real.tan_pi_div_four]
  rw [tan_iff e₁ _ h1 h1', tan_iff e₂ _ h2 h2', ← one_iff e₁ h1 h1', ← one_iff e₂ h2 h2']
  set x := Real.tan (Spec.halfError e₁)
  set y := Real.tan (Spec.halfError e₂)
  constructor
  · rintro ⟨a1, a2⟩
    have b1 : y = x ^ 2 := by rw [← a1, Real.sq_sqrt ht2.le]
    have b2 : x = y ^ 2 := by rw [← a2, Real.sq_sqrt ht1.le]
    have : x * (x ^ 3 - 1) = 0 := by rw [b1] at b2; linear_combination -b2
    rcases mul_eq_zero.1 this with k | k
    · exact absurd k ht1.ne'
    · have hx : x = 1 := by
        have : (x - 1) * (x ^ 2 + x + 1) = 0 := by linear_combination k
        rcases mul_eq_zero.1 this with k | k
        · linarith
        · nlinarith
      exact ⟨hx, by rw [b1, hx]; norm_num⟩
  · rintro ⟨a1, a2⟩
    rw [a1, a2]
    simp

/-- A concrete pair of errors, 10 and 20 degrees, that does not come back. -/
example : ∃ p h0 h1, reconstruct 40 30 25 [10, 20] 1 = some p ∧
    p.hyperbolicAxes = some [h0, h1, 1] ∧
    ErrorAxes.angularErrors ![h0, h1, 1] ≠ (Spec.halfError 10, Spec.halfError 20) := by
  obtain ⟨p, h0, h1, hp, hh, hiff⟩ := C50_errors_encoded_false 40 30 25 10 20 1 (by norm_num)
    (by norm_num) (by norm_num) (by norm_num) (by norm_num)
  refine ⟨p, h0, h1, hp, hh, fun h => ?_⟩
  have := (hiff.1 h).1
  norm_num at this

end Attitude.Props
