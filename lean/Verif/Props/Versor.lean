import Verif.Model.Versor
import Verif.Props.FrontendEllipses
import Verif.Props.Reconstructed

/-!
# Properties of planes that the frontend is given by strike, dip and rake

Statements about reconstruct.ts, and its agreement with reconstructed.py.
-/

namespace Attitude.Props

open Attitude Pca Frontend

/-! ## C168 -/

lemma toMatrix_mul (p q : Versor) : (p.mul q).toMatrix = p.toMatrix * q.toMatrix := by
  ext i j
  fin_cases i <;> fin_cases j <;>
    simp [Versor.toMatrix, Versor.mul, Matrix.mul_apply, Fin.sum_univ_three] <;> ring

lemma half_cos (t : ℝ) : Real.cos t = Real.cos (t / 2) ^ 2 - Real.sin (t / 2) ^ 2 := by
  rw [← Real.cos_two_mul', mul_div_cancel₀ _ two_ne_zero]

lemma half_sin (t : ℝ) : Real.sin t = 2 * (Real.cos (t / 2) * Real.sin (t / 2)) := by
  have := Real.sin_two_mul (t / 2)
  rw [mul_div_cancel₀ _ two_ne_zero] at this
  rw [this]; ring

lemma radians_0' : radians 0 = 0 := by unfold radians; ring

lemma toMatrix_z (t : ℝ) : (Versor.fromAxisAngle 0 90 t).toMatrix
    = !![Real.cos (radians t), -Real.sin (radians t), 0; Real.sin (radians t), Real.cos (radians t), 0;
      0, 0, 1] := by
  have h := Real.sin_sq_add_cos_sq (radians t / 2)
  have e : Versor.fromAxisAngle 0 90 t
      = ⟨Real.cos (radians t / 2), 0, 0, Real.sin (radians t / 2)⟩ := by
    simp [Versor.fromAxisAngle, radians_90, radians_0']
  rw [e, half_cos (radians t), half_sin (radians t)]
  ext i j
  fin_cases i <;> fin_cases j <;> simp [Versor.toMatrix]

lemma toMatrix_x (t : ℝ) : (Versor.fromAxisAngle 0 0 t).toMatrix
    = !![1, 0, 0; 0, Real.cos (radians t), -Real.sin (radians t);
      0, Real.sin (radians t), Real.cos (radians t)] := by
  have h := Real.sin_sq_add_cos_sq (radians t / 2)
  have e : Versor.fromAxisAngle 0 0 t
      = ⟨Real.cos (radians t / 2), Real.sin (radians t / 2), 0, 0⟩ := by
    simp [Versor.fromAxisAngle, radians_0']
  rw [e, half_cos (radians t), half_sin (radians t)]
  ext i j
  fin_cases i <;> fin_cases j <;> simp [Versor.toMatrix]

lemma sin_90_sub (x : ℝ) : Real.sin (radians (90 - x)) = Real.cos (radians x) := by
  rw [radians_sub, radians_90, Real.sin_pi_div_two_sub]

lemma cos_90_sub (x : ℝ) : Real.cos (radians (90 - x)) = Real.sin (radians x) := by
  rw [radians_sub, radians_90, Real.cos_pi_div_two_sub]

lemma orientationVersor_matrix (p : Orientation) : (orientationVersor p).toMatrix.transpose
    = Matrix.of ![Real.cos (radians p.rake) • upDip p.strike p.dip
        + Real.sin (radians p.rake) • Spec.heading p.strike,
      rakeVec p.strike p.dip p.rake, sdNormal p.strike p.dip] := by
  rw [orientationVersor, toMatrix_mul, toMatrix_mul, toMatrix_z, toMatrix_x, toMatrix_z,
    upDip_eq, heading_eq, sin_90_sub, sin_90_sub, cos_90_sub, cos_90_sub]
  ext i j
  fin_cases i <;> fin_cases j <;>
    simp [rakeVec, sdNormal] <;> ring

/-- The line in the plane with strike `s` and dip `d` at the angle `r` from the strike direction,
measured towards the down-dip direction. -/
noncomputable def Spec.rakeLine (s d r : ℝ) : Vec 3 :=
  Real.cos (r * Real.pi / 180) • Spec.heading s + Real.sin (r * Real.pi / 180) • Spec.plunging (s + 90) d

lemma rakeVec_eq_neg_rakeLine (s d r : ℝ) : rakeVec s d r = -Spec.rakeLine s d r := by
  rw [rakeVec_eq, Spec.rakeLine, upDip, show r * Real.pi / 180 = radians r from rfl]
  module

lemma orientationAxes_rows (p : Orientation) : orientationAxes true p
    = Matrix.of ![-cross (sdNormal p.strike p.dip) (rakeVec p.strike p.dip p.rake),
      rakeVec p.strike p.dip p.rake, sdNormal p.strike p.dip] := by
  rw [orientationAxes, if_pos rfl, orientationVersor_matrix, cross_sdNormal_rakeVec, neg_neg]

lemma orientationAxes_orthonormal (p : Orientation) :
    Spec.OrthonormalRows (orientationAxes true p) ∧ (orientationAxes true p).det = 1 := by
  obtain ⟨h, hd⟩ := frame_orthonormal (sdNormal_unit p.strike p.dip)
    (rakeVec_unit p.strike p.dip p.rake) (sdNormal_dot_rakeVec p.strike p.dip p.rake)
  rw [orientationAxes_rows]
  constructor
  · intro i j
    have := h i j
    fin_cases i <;> fin_cases j <;> simp [vdot3] at this ⊢ <;> linarith
  · rw [Matrix.det_fin_three] at hd ⊢
    simp at hd ⊢
    linarith

/-- For a plane given by its strike, dip and rake, with the rows of the matrix as axes: the axes
are a right-handed orthonormal frame; the third is the upward unit normal of the plane with this
strike and dip under the right-hand rule; and the second, to which the maximum error belongs, is
along the line of the plane with this rake.
Partial: the order of rows and columns is that of a module outside the repository. -/
theorem C168_axes_partial (p : Orientation) :
    Spec.OrthonormalRows (orientationAxes true p) ∧ (orientationAxes true p).det = 1 ∧
      Spec.RightHandRule (orientationAxes true p 2) p.strike p.dip ∧
      (0 ≤ p.dip → p.dip ≤ 90 → 0 ≤ orientationAxes true p 2 2) ∧
      orientationAxes true p 1 = -Spec.rakeLine p.strike p.dip p.rake := by
  refine ⟨(orientationAxes_orthonormal p).1, (orientationAxes_orthonormal p).2, ?_, ?_, ?_⟩
  · have := rightHandRule_sdNormal 1 p.strike p.dip
    rw [one_smul] at this
    rw [orientationAxes_rows]
    exact this
  · intro h0 h1
    rw [orientationAxes_rows]
    exact cos_dip_nonneg h0 h1
  · rw [orientationAxes_rows]
    exact rakeVec_eq_neg_rakeLine _ _ _

example : 0 ≤ orientationAxes true ⟨120, 35, 70, 8, 3⟩ 2 2 :=
  (C168_axes_partial ⟨120, 35, 70, 8, 3⟩).2.2.2.1 (by norm_num) (by norm_num)

/-- What is drawn for such a plane: the nominal curve runs within the plane with this strike and
dip, and the curves of the errors stay between half the minimum and half the maximum error from
it. -/
theorem C168_drawn_partial (q : Orientation) (hmin : 0 < q.minError) (hle : q.minError ≤ q.maxError)
    (hmax : q.maxError < 180) (o : Opts) (hu : o.upperHemisphere ≠ some false) :
    let r := reconstructErrors (orientationAxes true) q
    let curve := (Frontend.planeErrors r.1 (some r.2) o).1
    let dir := fun p => Spec.shown (o.degrees.getD false) (o.traditionalLayout.getD true) p
    ∃ m, Attitude.norm m = 1 ∧ Spec.RightHandRule m q.strike q.dip ∧
      ((o.sheet = none ∨ o.sheet = some "nominal") → o.n ≠ some 0 →
        ∀ x ∈ curve, ∃ p, x = some p ∧ Attitude.norm (dir p) = 1 ∧ Spec.InPlane m (dir p)) ∧
      ((o.sheet = some "upper" ∨ o.sheet = some "lower") →
        ∀ x ∈ curve, ∃ p, x = some p ∧ radians (q.minError / 2) ≤ Spec.elevation (dir p) m ∧
          Spec.elevation (dir p) m ≤ radians (q.maxError / 2)) := by
  obtain ⟨ho, -, hr, -, -⟩ := C168_axes_partial q
  refine ⟨orientationAxes true q 2, norm_of_unit (by simpa using ho 2 2), hr, ?_, ?_⟩
  · intro hs hn x hx
    obtain ⟨a0, a1⟩ := halfError_range hmin (by linarith)
    obtain ⟨b0, b1⟩ := halfError_range (by linarith : 0 < q.maxError) hmax
    have ta := Real.tan_pos_of_pos_of_lt_pi_div_two a0 a1
    have tb := Real.tan_pos_of_pos_of_lt_pi_div_two b0 b1
    have ea : ∀ e : ℝ, radians e / 2 = e / 2 * Real.pi / 180 := fun e => by unfold radians; ring
    rw [ea] at ta tb
    obtain ⟨p, hp, h1, h2⟩ := (C106_nominal (reconstructedLengths q) (orientationAxes true q) ho
      (by simp only [reconstructedLengths, Matrix.cons_val_zero]; positivity)
      (by simp only [reconstructedLengths, Matrix.cons_val_one, Matrix.cons_val_zero]; positivity)
      o hu hs hn).2 x hx
    refine ⟨p, hp, h1, ?_⟩
    rw [vdot3] at h2
    unfold Spec.InPlane
    linarith
  · intro hs
    exact C114_widths q hmin hle hmax (orientationAxes true) ho o hu hs

example : ∃ m, Attitude.norm m = 1 ∧ Spec.RightHandRule m 120 35 := by
  obtain ⟨m, h1, h2, -⟩ := C168_drawn_partial ⟨120, 35, 70, 8, 3⟩ (by norm_num) (by norm_num)
    (by norm_num) {} (by simp)
  exact ⟨m, h1, h2⟩

/-- With the columns of the matrix as the images of the axes, as usual, its rows are not the axes of
the plane: the third row depends on the dip and the rake only, so that planes that dip in different
directions are drawn as the same plane. -/
theorem C168_axes_false (p : Orientation) :
    orientationAxes false p 2 = ![Real.cos (radians p.rake) * Real.sin (radians p.dip),
      Real.sin (radians p.rake) * Real.sin (radians p.dip), Real.cos (radians p.dip)] := by
  have h := orientationVersor_matrix p
  have e : ∀ i j, (orientationVersor p).toMatrix i j
      = (orientationVersor p).toMatrix.transpose j i := fun i j => rfl
  rw [orientationAxes, if_neg (by simp)]
  funext j
  rw [e, h, upDip_eq, heading_eq]
  fin_cases j <;> simp [rakeVec, sdNormal]

/-- Witness: a plane dipping 45° to the east and one dipping 45° to the south get the same third
axis, which is not normal to the second plane. -/
theorem C168_strike_ignored_false :
    orientationAxes false ⟨0, 45, 0, 8, 3⟩ 2 = orientationAxes false ⟨90, 45, 0, 8, 3⟩ 2 ∧
      ¬ Spec.RightHandRule (orientationAxes false ⟨90, 45, 0, 8, 3⟩ 2) 90 45 := by
  rw [C168_axes_false, C168_axes_false]
  refine ⟨rfl, ?_⟩
  rintro ⟨h, -⟩
  have e : (45 : ℝ) * Real.pi / 180 = Real.pi / 4 := by ring
  have e' : (90 : ℝ) * Real.pi / 180 = Real.pi / 2 := by ring
  simp [Spec.InPlane, Spec.heading, radians, e, e'] at h

/-! ## C169 -/

/-- The plane that Python's `ReconstructedPlane` makes of strike, dip, rake and the errors `[max, min]`
has the same axes as that of the frontend, each up to its direction, and the lengths of the frontend
are the squares of those of Python. -/
theorem C169_python_frontend_partial (q : Orientation) (hmin : 0 < q.minError)
    (hmin' : q.minError < 180) (hmax : 0 < q.maxError) (hmax' : q.maxError < 180) :
    ∃ p h, Reconstructed.reconstruct q.strike q.dip q.rake [q.maxError, q.minError] 1 = some p ∧
      Spec.SameAxes p.axes (reconstructErrors (orientationAxes true) q).2 ∧
      p.hyperbolicAxes = some h ∧
      h.map (· ^ 2) = List.ofFn (reconstructErrors (orientationAxes true) q).1 := by
  obtain ⟨n, m, p, hp, hn, hm, -, -, -, -, -, hh, ha⟩ :=
    reconstruct_eq q.strike q.dip q.rake [q.maxError, q.minError] 1
  rw [lengths_two hmax hmax' hmin hmin'] at hh
  refine ⟨p, _, hp, ?_, hh, ?_⟩
  · have hn' : n = sdNormal q.strike q.dip ∨ n = -sdNormal q.strike q.dip := by
      rw [hn]; split_ifs
      · exact .inr rfl
      · exact .inl rfl
    have hm' : m = rakeVec q.strike q.dip q.rake ∨ m = -rakeVec q.strike q.dip q.rake := by
      rw [hm]; split_ifs
      · exact .inr rfl
      · exact .inl rfl
    have hc : cross n m = cross (sdNormal q.strike q.dip) (rakeVec q.strike q.dip q.rake) ∨
        cross n m = -cross (sdNormal q.strike q.dip) (rakeVec q.strike q.dip q.rake) := by
      have c1 : ∀ a b : Vec 3, cross (-a) b = -cross a b := fun a b => by
        funext i; fin_cases i <;> simp [cross] <;> ring
      have c2 : ∀ a b : Vec 3, cross a (-b) = -cross a b := fun a b => by
        funext i; fin_cases i <;> simp [cross] <;> ring
      rcases hn' with rfl | rfl <;> rcases hm' with rfl | rfl <;> simp [c1, c2]
    have hB : (reconstructErrors (orientationAxes true) q).2 = _ := orientationAxes_rows q
    rw [hB, ha]
    intro i
    fin_cases i
    · show (if n 2 < 0 then _ else _ : Mat 3 3) 0 = -cross _ _ ∨ _ = - -cross _ _
      rw [neg_neg]
      split_ifs
      · show -cross n m = _ ∨ -cross n m = _
        rcases hc with h | h <;> rw [h] <;> simp
      · exact hc.symm
    · show (if n 2 < 0 then _ else _ : Mat 3 3) 1 = rakeVec _ _ _ ∨ _ = -rakeVec _ _ _
      split_ifs
      · show -m = _ ∨ -m = _
        rcases hm' with h | h <;> rw [h] <;> simp
      · exact hm'
    · show (if n 2 < 0 then _ else _ : Mat 3 3) 2 = sdNormal _ _ ∨ _ = -sdNormal _ _
      split_ifs
      · show -n = _ ∨ -n = _
        rcases hn' with h | h <;> rw [h] <;> simp
      · exact hn'
  · have ea : ∀ e : ℝ, e / 2 * Real.pi / 180 = Spec.halfError e := fun e => by
      unfold Spec.halfError; ring
    simp [reconstructErrors, reconstructedLengths, ea, -Real.tan_inv_eq_cot]

example : ∃ p, Reconstructed.reconstruct 120 35 70 [8, 3] 1 = some p ∧
    Spec.SameAxes p.axes (orientationAxes true ⟨120, 35, 70, 8, 3⟩) := by
  obtain ⟨p, h, h1, h2, -⟩ := C169_python_frontend_partial ⟨120, 35, 70, 8, 3⟩ (by norm_num)
    (by norm_num) (by norm_num) (by norm_num)
  exact ⟨p, h1, h2⟩

/-- Given in the other order, `[min, max]`, the errors are exchanged: the lengths agree only if the
errors are equal. -/
theorem C169_order_false (q : Orientation) (hmin : 0 < q.minError)
    (hmin' : q.minError < 180) (hmax : 0 < q.maxError) (hmax' : q.maxError < 180)
    (hne : q.minError ≠ q.maxError) :
    ∃ p h, Reconstructed.reconstruct q.strike q.dip q.rake [q.minError, q.maxError] 1 = some p ∧
      p.hyperbolicAxes = some h ∧
      h.map (· ^ 2) ≠ List.ofFn (reconstructErrors (orientationAxes true) q).1 := by
  obtain ⟨_, _, p, hp, _, _, _, _, _, _, _, hh, _⟩ :=
    reconstruct_eq q.strike q.dip q.rake [q.minError, q.maxError] 1
  rw [lengths_two hmin hmin' hmax hmax'] at hh
  refine ⟨p, _, hp, hh, ?_⟩
  have ea : ∀ e : ℝ, e / 2 * Real.pi / 180 = Spec.halfError e := fun e => by
    unfold Spec.halfError; ring
  obtain ⟨a0, a1⟩ := halfError_range hmin hmin'
  obtain ⟨b0, b1⟩ := halfError_range hmax hmax'
  have ta := Real.tan_pos_of_pos_of_lt_pi_div_two a0 a1
  have tb := Real.tan_pos_of_pos_of_lt_pi_div_two b0 b1
  change 0 < Real.tan (Spec.halfError q.minError) at ta
  change 0 < Real.tan (Spec.halfError q.maxError) at tb
  intro h
  simp [reconstructErrors, reconstructedLengths, ea, -Real.tan_inv_eq_cot] at h
  have h1 := h.1
  rw [pow_left_inj₀ tb.le ta.le two_ne_zero] at h1
  have := Real.injOn_tan ⟨by show _ < radians q.maxError / 2; linarith [Real.pi_pos], b1⟩
    ⟨by show _ < radians q.minError / 2; linarith [Real.pi_pos], a1⟩ h1
  apply hne
  have hpi := Real.pi_pos
  field_simp at this
  unfold radians at this
  field_simp at this
  linarith

example : ∃ p h, Reconstructed.reconstruct 120 35 70 [3, 8] 1 = some p ∧ p.hyperbolicAxes = some h ∧
    h.map (· ^ 2) ≠ List.ofFn (reconstructErrors (orientationAxes true) ⟨120, 35, 70, 8, 3⟩).1 :=
  C169_order_false ⟨120, 35, 70, 8, 3⟩ (by norm_num) (by norm_num) (by norm_num) (by norm_num)
    (by norm_num)

end Attitude.Props
