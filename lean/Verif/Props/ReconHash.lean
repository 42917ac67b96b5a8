import Verif.Model.ReconHash
import Verif.Props.Reconstructed

/-! # Identity of reconstructed planes: C280 -/

namespace Attitude.Props

open Attitude Pca Reconstructed ReconHash

/-- The hashed array for two finite errors and a dip of at most 90 degrees. -/
noncomputable def reconArray (s d r e₁ e₂ ne : ℝ) : Mat 3 3 :=
  let m := if r < 0 then -rakeVec s d r else rakeVec s d r
  Matrix.of fun i j => ![ne / Real.tan (Spec.halfError e₂), ne / Real.tan (Spec.halfError e₁), ne] j
    * (Matrix.of ![cross (sdNormal s d) m, m, sdNormal s d] : Mat 3 3) i j

/-- The axes that are hashed, for dips of at most 90 degrees. -/
lemma recon_axes {s d r : ℝ} (h0 : 0 ≤ d) (h1 : d ≤ 90) (errs : List ℝ) (ne : ℝ) :
    ∃ p, reconstruct s d r errs ne = some p ∧ p.angularErrors = errs ∧
      p.hyperbolicAxes = lengths ne errs ∧
      p.axes = Matrix.of ![cross (sdNormal s d) (if r < 0 then -rakeVec s d r else rakeVec s d r),
        (if r < 0 then -rakeVec s d r else rakeVec s d r), sdNormal s d] := by
  obtain ⟨nrm, m, p, hp, hn, hm, -, -, -, e4, -, hh, hax⟩ := reconstruct_eq s d r errs ne
  rw [if_neg (not_lt.2 h1)] at hn
  have hc := cos_dip_nonneg h0 h1
  have hz : ¬ nrm 2 < 0 := by rw [hn]; simpa [sdNormal] using hc
  rw [if_neg hz, hn, hm] at hax
  exact ⟨p, hp, e4, hh, hax⟩

lemma hashOf_two {s d r e₁ e₂ ne : ℝ} (h0 : 0 ≤ d) (h1 : d ≤ 90) (he₁ : 0 < e₁) (he₁' : e₁ < 180)
    (he₂ : 0 < e₂) (he₂' : e₂ < 180) :
    hashOf s d r [e₁, e₂] ne = .ok (some (reconArray s d r e₁ e₂ ne)) := by
  obtain ⟨p, hp, e4, hh, hax⟩ := recon_axes (s := s) (r := r) h0 h1 [e₁, e₂] ne
  rw [lengths_two he₁ he₁' he₂ he₂'] at hh
  simp only [hashOf, hp, hashInput, e4, hh, hax, reconArray]
  simp only [List.length_cons, List.length_nil]
  norm_num
  funext i j
  fin_cases j <;> simp [broadcastAt]

lemma column_norm {A : Mat 3 3} (h : Spec.OrthonormalRows A) (j : Fin 3) : ∑ i, A i j ^ 2 = 1 := by
  have h1 : A * A.transpose = 1 := by
    ext a b
    have := h a b
    rw [vdot3] at this
    simp only [Matrix.mul_apply, Fin.sum_univ_three, Matrix.transpose_apply, Matrix.one_apply]
    exact this
  have h2 : A.transpose * A = 1 := mul_eq_one_comm.1 h1
  have := congrFun (congrFun h2 j) j
  simp only [Matrix.mul_apply, Fin.sum_univ_three, Matrix.transpose_apply, Matrix.one_apply_eq] at this
  rw [Fin.sum_univ_three]
  linarith

lemma frame_of (s d r : ℝ) : Spec.OrthonormalRows (Matrix.of
    ![cross (sdNormal s d) (if r < 0 then -rakeVec s d r else rakeVec s d r),
      (if r < 0 then -rakeVec s d r else rakeVec s d r), sdNormal s d]) := by
  refine (frame_orthonormal (sdNormal_unit s d) ?_ ?_).1
  · have := rakeVec_unit s d r
    split_ifs
    · rw [vdot3] at this ⊢
      simp only [Pi.neg_apply]; linarith
    · exact this
  · have := sdNormal_dot_rakeVec s d r
    split_ifs
    · rw [vdot3] at this ⊢
      simp only [Pi.neg_apply]; linarith
    · exact this

/-- A matrix with orthonormal rows and positive column scales are both determined by their
product. -/
lemma scaled_inj {A B : Mat 3 3} (hA : Spec.OrthonormalRows A) (hB : Spec.OrthonormalRows B)
    {u v : Fin 3 → ℝ} (hu : ∀ j, 0 < u j) (hv : ∀ j, 0 < v j)
    (h : ∀ i j, u j * A i j = v j * B i j) : u = v ∧ A = B := by
  have huv : u = v := by
    funext j
    have e1 := column_norm hA j
    have e2 := column_norm hB j
    rw [Fin.sum_univ_three] at e1 e2
    have : u j ^ 2 = v j ^ 2 := by
      have a0 := h 0 j
      have a1 := h 1 j
      have a2 := h 2 j
      calc u j ^ 2 = (u j * A 0 j) ^ 2 + (u j * A 1 j) ^ 2 + (u j * A 2 j) ^ 2 := by
            linear_combination (-u j ^ 2) * e1
        _ = (v j * B 0 j) ^ 2 + (v j * B 1 j) ^ 2 + (v j * B 2 j) ^ 2 := by rw [a0, a1, a2]
        _ = v j ^ 2 := by linear_combination (v j ^ 2) * e2
    exact (pow_left_inj₀ (hu j).le (hv j).le two_ne_zero).1 this
  refine ⟨huv, ?_⟩
  ext i j
  have := h i j
  rw [huv] at this
  exact mul_left_cancel₀ (hv j).ne' this

lemma halfError_tan_pos {e : ℝ} (h0 : 0 < e) (h1 : e < 180) : 0 < Real.tan (Spec.halfError e) :=
  Real.tan_pos_of_pos_of_lt_pi_div_two (halfError_range h0 h1).1 (halfError_range h0 h1).2

lemma halfError_tan_inj {e e' : ℝ} (h0 : 0 < e) (h1 : e < 180) (h0' : 0 < e') (h1' : e' < 180)
    (h : Real.tan (Spec.halfError e) = Real.tan (Spec.halfError e')) : e = e' := by
  have a := halfError_range h0 h1
  have b := halfError_range h0' h1'
  have hpi := Real.pi_pos
  have := Real.injOn_tan ⟨by linarith [a.1], a.2⟩ ⟨by linarith [b.1], b.2⟩ h
  unfold radians at this
  have : (e - e') * Real.pi = 0 := by linarith
  rcases mul_eq_zero.1 this with k | k
  · linarith
  · exact absurd k hpi.ne'

lemma sdNormal_inj {s d s' d' : ℝ} (hs : 0 ≤ s) (hs' : s < 360) (ht : 0 ≤ s') (ht' : s' < 360)
    (hd : 0 < d) (hd' : d ≤ 90) (hf : 0 < d') (hf' : d' ≤ 90) (h : sdNormal s d = sdNormal s' d') :
    s = s' ∧ d = d' := by
  have hpi := Real.pi_pos
  have z := congrFun h 2
  have x := congrFun h 0
  have y := congrFun h 1
  simp only [sdNormal, Matrix.cons_val_zero, Matrix.cons_val_one, Matrix.cons_val] at x y z
  have hdd : d = d' := by
    have := Real.injOn_cos (show radians d ∈ Set.Icc 0 Real.pi from
        ⟨by unfold radians; positivity, by unfold radians; nlinarith⟩)
      (show radians d' ∈ Set.Icc 0 Real.pi from
        ⟨by unfold radians; positivity, by unfold radians; nlinarith⟩) z
    unfold radians at this
    have : (d - d') * Real.pi = 0 := by linarith
    rcases mul_eq_zero.1 this with k | k
    · linarith
    · exact absurd k hpi.ne'
  subst hdd
  have hsin : Real.sin (radians d) ≠ 0 := by
    apply ne_of_gt
    apply Real.sin_pos_of_pos_of_lt_pi
    · unfold radians; positivity
    · unfold radians; nlinarith
  refine ⟨cos_sin_inj hs hs' ht ht' (mul_left_cancel₀ hsin x) ?_, rfl⟩
  exact mul_left_cancel₀ hsin (neg_injective y)

lemma rakeVec_inj {s d r r' : ℝ} (hd : 0 < d) (hd' : d ≤ 90) (hr : 0 ≤ r) (hr' : r < 360)
    (hq : 0 ≤ r') (hq' : r' < 360) (h : rakeVec s d r = rakeVec s d r') : r = r' := by
  have hpi := Real.pi_pos
  have hsin : Real.sin (radians d) ≠ 0 := by
    apply ne_of_gt
    apply Real.sin_pos_of_pos_of_lt_pi
    · unfold radians; positivity
    · unfold radians; nlinarith
  have x := congrFun h 0
  have y := congrFun h 1
  have z := congrFun h 2
  simp only [rakeVec, Matrix.cons_val_zero, Matrix.cons_val_one, Matrix.cons_val] at x y z
  have h1 := Real.sin_sq_add_cos_sq (radians s)
  refine cos_sin_inj hr hr' hq hq' ?_ (mul_right_cancel₀ hsin z)
  linear_combination (-Real.sin (radians s)) * x + (-Real.cos (radians s)) * y
    - (Real.cos (radians r) - Real.cos (radians r')) * h1

/-- What does hold: for strikes and rakes in `[0, 360)`, dips in `(0, 90]`, errors in `(0, 180)`
and positive errors of the normal, the array that is hashed exists, and two planes have the same
one exactly when all six numbers are the same.
Missing from the claim: the equivalence with being the same plane, refuted below; planes without
errors, which collide with others, also below; and collisions of the digest. -/
theorem C280_identifies_partial (s d r e₁ e₂ ne s' d' r' e₁' e₂' ne' : ℝ)
    (hs : 0 ≤ s ∧ s < 360) (hd : 0 < d ∧ d ≤ 90) (hr : 0 ≤ r ∧ r < 360)
    (h₁ : 0 < e₁ ∧ e₁ < 180) (h₂ : 0 < e₂ ∧ e₂ < 180) (hne : 0 < ne)
    (hs' : 0 ≤ s' ∧ s' < 360) (hd' : 0 < d' ∧ d' ≤ 90) (hr' : 0 ≤ r' ∧ r' < 360)
    (h₁' : 0 < e₁' ∧ e₁' < 180) (h₂' : 0 < e₂' ∧ e₂' < 180) (hne' : 0 < ne') :
    (∃ M, hashOf s d r [e₁, e₂] ne = .ok (some M)) ∧
    (hashOf s d r [e₁, e₂] ne = hashOf s' d' r' [e₁', e₂'] ne' ↔
      s = s' ∧ d = d' ∧ r = r' ∧ e₁ = e₁' ∧ e₂ = e₂' ∧ ne = ne') := by
  have E := hashOf_two (s := s) (r := r) (ne := ne) hd.1.le hd.2 h₁.1 h₁.2 h₂.1 h₂.2
  have E' := hashOf_two (s := s') (r := r') (ne := ne') hd'.1.le hd'.2 h₁'.1 h₁'.2 h₂'.1 h₂'.2
  refine ⟨⟨_, E⟩, ?_, ?_⟩
  · intro h
    rw [E, E'] at h
    have hM : reconArray s d r e₁ e₂ ne = reconArray s' d' r' e₁' e₂' ne' := by
      simpa only [Except.ok.injEq, Option.some.injEq] using h
    have t1 := halfError_tan_pos h₁.1 h₁.2
    have t2 := halfError_tan_pos h₂.1 h₂.2
    have t1' := halfError_tan_pos h₁'.1 h₁'.2
    have t2' := halfError_tan_pos h₂'.1 h₂'.2
    obtain ⟨hl, hA⟩ := scaled_inj (frame_of s d r) (frame_of s' d' r')
      (u := ![ne / Real.tan (Spec.halfError e₂), ne / Real.tan (Spec.halfError e₁), ne])
      (v := ![ne' / Real.tan (Spec.halfError e₂'), ne' / Real.tan (Spec.halfError e₁'), ne'])
      (by intro j; fin_cases j <;> simp <;> positivity)
      (by intro j; fin_cases j <;> simp <;> positivity)
      (fun i j => congrFun (congrFun hM i) j)
    have l0 := congrFun hl 0
    have l1 := congrFun hl 1
    have l2 := congrFun hl 2
    simp only [Matrix.cons_val_zero, Matrix.cons_val_one, Matrix.cons_val] at l0 l1 l2
    subst l2
    have inv : ∀ a b : ℝ, 0 < a → 0 < b → ne / a = ne / b → a = b := by
      intro a b ha hb hab
      rw [div_eq_div_iff ha.ne' hb.ne'] at hab
      exact (mul_left_cancel₀ hne.ne' hab).symm
    have he₁ := halfError_tan_inj h₁.1 h₁.2 h₁'.1 h₁'.2 (inv _ _ t1 t1' l1)
    have he₂ := halfError_tan_inj h₂.1 h₂.2 h₂'.1 h₂'.2 (inv _ _ t2 t2' l0)
    have hn : sdNormal s d = sdNormal s' d' := congrFun hA 2
    obtain ⟨rfl, rfl⟩ := sdNormal_inj hs.1 hs.2 hs'.1 hs'.2 hd.1 hd.2 hd'.1 hd'.2 hn
    have hm := congrFun hA 1
    simp only [not_lt.2 hr.1, not_lt.2 hr'.1, if_false] at hm
    have hm : rakeVec s d r = rakeVec s d r' := hm
    exact ⟨rfl, rfl, rakeVec_inj hd.1 hd.2 hr.1 hr.2 hr'.1 hr'.2 hm, he₁, he₂, rfl⟩
  · rintro ⟨rfl, rfl, rfl, rfl, rfl, rfl⟩
    rfl

/-- The planes of strikes 30 and 31 are told apart. -/
example : hashOf 30 60 45 [10, 20] 1 ≠ hashOf 31 60 45 [10, 20] 1 := by
  intro h
  have := ((C280_identifies_partial 30 60 45 10 20 1 31 60 45 10 20 1 (by norm_num) (by norm_num)
    (by norm_num) (by norm_num) (by norm_num) (by norm_num) (by norm_num) (by norm_num)
    (by norm_num) (by norm_num) (by norm_num) (by norm_num)).2.1 h).1
  norm_num at this

lemma rakeVec_add_180 (s d r : ℝ) : rakeVec s d (r + 180) = -rakeVec s d r := by
  have h : radians (r + 180) = radians r + Real.pi := by unfold radians; ring
  funext i
  fin_cases i <;> simp [rakeVec, h, Real.sin_add_pi, Real.cos_add_pi] <;> ring

lemma cross_neg_right (u v : Vec 3) : cross u (-v) = -cross u v := by
  funext i
  fin_cases i <;> simp [cross] <;> ring

/-- A rake and the rake turned by 180 degrees are the same axis, so they describe the same plane
with the same error axes; but the hashed arrays differ, for every plane. -/
theorem C280_rake_false (s d r e₁ e₂ ne : ℝ) (hs : 0 ≤ s ∧ s < 360) (hd : 0 < d ∧ d ≤ 90)
    (hr : 0 ≤ r ∧ r < 180) (h₁ : 0 < e₁ ∧ e₁ < 180) (h₂ : 0 < e₂ ∧ e₂ < 180) (hne : 0 < ne) :
    ∃ p q, reconstruct s d r [e₁, e₂] ne = some p ∧ reconstruct s d (r + 180) [e₁, e₂] ne = some q ∧
      Spec.SameAxes p.axes q.axes ∧ p.hyperbolicAxes = q.hyperbolicAxes ∧ p.normal = q.normal ∧
      hashOf s d r [e₁, e₂] ne ≠ hashOf s d (r + 180) [e₁, e₂] ne := by
  obtain ⟨p, hp, -, hh, hax⟩ := recon_axes (s := s) (r := r) hd.1.le hd.2 [e₁, e₂] ne
  obtain ⟨q, hq, -, hh', hax'⟩ := recon_axes (s := s) (r := r + 180) hd.1.le hd.2 [e₁, e₂] ne
  obtain ⟨p', hp', -, hpn, -⟩ := C47_orthonormal_partial s d r hd.1.le hd.2 [e₁, e₂] ne
  obtain ⟨q', hq', -, hqn, -⟩ := C47_orthonormal_partial s d (r + 180) hd.1.le hd.2 [e₁, e₂] ne
  obtain rfl : p = p' := Option.some.inj (hp.symm.trans hp')
  obtain rfl : q = q' := Option.some.inj (hq.symm.trans hq')
  refine ⟨p, q, hp, hq, ?_, by rw [hh, hh'], ?_, ?_⟩
  · rw [if_neg (not_lt.2 hr.1)] at hax
    rw [if_neg (by linarith), rakeVec_add_180, cross_neg_right] at hax'
    intro i
    rw [hax, hax']
    fin_cases i
    · right; exact (neg_neg _).symm
    · right; exact (neg_neg _).symm
    · left; rfl
  · rw [← hpn, ← hqn, hax, hax']; rfl
  · intro h
    have := ((C280_identifies_partial s d r e₁ e₂ ne s d (r + 180) e₁ e₂ ne hs hd
      ⟨hr.1, by linarith [hr.2]⟩ h₁ h₂ hne hs hd ⟨by linarith [hr.1], by linarith [hr.2]⟩ h₁ h₂
      hne).2.1 h).2.2.1
    linarith

/-- The hypotheses are met by strike 40, dip 30, rake 25. -/
example : hashOf 40 30 25 [10, 20] 1 ≠ hashOf 40 30 (25 + 180) [10, 20] 1 := by
  obtain ⟨_, _, _, _, _, _, _, h⟩ := C280_rake_false 40 30 25 10 20 1 (by norm_num) (by norm_num)
    (by norm_num) (by norm_num) (by norm_num) (by norm_num)
  exact h

/-- Every plane without errors is hashed like the same plane with the errors 90 and 90. -/
theorem C280_no_errors_false (s d r ne : ℝ) (h0 : 0 ≤ d) (h1 : d ≤ 90) :
    (∃ M, hashOf s d r [] ne = .ok (some M)) ∧
    hashOf s d r [] ne = hashOf s d r [90, 90] ne := by
  have hT : Real.tan (Spec.halfError 90) = 1 := by
    rw [show Spec.halfError 90 = Real.pi / 4 by unfold Spec.halfError; ring, Real.tan_pi_div_four]
  obtain ⟨p, hp, e4, hh, hax⟩ := recon_axes (s := s) (r := r) h0 h1 [] ne
  have hl : lengths ne [] = some [ne] := by simp [lengths]
  rw [hl] at hh
  have E : hashOf s d r [] ne = .ok (some (reconArray s d r 90 90 ne)) := by
    simp only [hashOf, hp, hashInput, e4, hh, hax, reconArray, hT, div_one]
    simp only [List.length_nil]
    norm_num
    funext i j
    fin_cases j <;> simp [broadcastAt]
  exact ⟨⟨_, E⟩, by
    rw [E, hashOf_two h0 h1 (by norm_num) (by norm_num) (by norm_num) (by norm_num)]⟩

/-- The hypotheses are met by strike 40, dip 30, rake 25. -/
example : hashOf 40 30 25 [] 1 = hashOf 40 30 25 [90, 90] 1 :=
  (C280_no_errors_false 40 30 25 1 (by norm_num) (by norm_num)).2

/-- The identity can be asked for exactly when no error or two errors were given: for every other
number of errors, with which the plane can be built all the same, it raises `ValueError`. -/
theorem C280_raises_iff (s d r ne : ℝ) (errs : List ℝ) :
    (∃ p, reconstruct s d r errs ne = some p) ∧
    (hashOf s d r errs ne = .error .valueError ↔ errs.length ≠ 0 ∧ errs.length ≠ 2) ∧
    ((∃ M, hashOf s d r errs ne = .ok M) ↔ errs.length = 0 ∨ errs.length = 2) := by
  obtain ⟨_, _, p, hp, -, -, -, -, -, e4, -⟩ := reconstruct_eq s d r errs ne
  refine ⟨⟨p, hp⟩, ?_⟩
  simp only [hashOf, hp, hashInput, e4]
  by_cases h : errs.length + 1 = 1 ∨ errs.length + 1 = 3
  · rw [if_pos h]
    have h' : errs.length = 0 ∨ errs.length = 2 := by omega
    refine ⟨⟨fun hc => by simp at hc, fun hc => by omega⟩, ⟨fun _ => h', fun _ => ⟨_, rfl⟩⟩⟩
  · rw [if_neg h]
    refine ⟨⟨fun _ => by omega, fun _ => rfl⟩, ⟨fun ⟨M, hM⟩ => by simp at hM, fun hc => by omega⟩⟩

/-- One error is not enough, though the plane is built. -/
example : hashOf 40 30 25 [10] 1 = .error .valueError :=
  ((C280_raises_iff 40 30 25 1 [10]).2.1).2 ⟨by simp, by simp⟩

/-- Descriptions of a horizontal plane that differ in the strike, with the same direction of the
first error, are hashed alike. -/
theorem C280_horizontal (s a r e₁ e₂ ne : ℝ) (hr : 0 ≤ r) (ha : 0 ≤ r - a)
    (h₁ : 0 < e₁ ∧ e₁ < 180) (h₂ : 0 < e₂ ∧ e₂ < 180) :
    hashOf (s + a) 0 (r - a) [e₁, e₂] ne = hashOf s 0 r [e₁, e₂] ne := by
  rw [hashOf_two le_rfl (by norm_num) h₁.1 h₁.2 h₂.1 h₂.2,
    hashOf_two le_rfl (by norm_num) h₁.1 h₁.2 h₂.1 h₂.2]
  have z : radians 0 = 0 := by unfold radians; ring
  have hn : sdNormal (s + a) 0 = sdNormal s 0 := by simp [sdNormal, z]
  have flat : ∀ s r, rakeVec s 0 r
      = ![-Real.sin (radians (s + r)), -Real.cos (radians (s + r)), 0] := by
    intro s r
    rw [radians_add, Real.sin_add, Real.cos_add]
    funext i
    fin_cases i <;> simp [rakeVec, z] <;> ring
  have hm : rakeVec (s + a) 0 (r - a) = rakeVec s 0 r := by
    rw [flat, flat, show s + a + (r - a) = s + r by ring]
  simp only [reconArray, not_lt.2 hr, not_lt.2 ha, if_false, hn, hm]

/-- Strike 0 with rake 30 is strike 20 with rake 10. -/
example : hashOf (0 + 20) 0 (30 - 20) [10, 20] 1 = hashOf 0 0 30 [10, 20] 1 :=
  C280_horizontal 0 20 30 10 20 1 (by norm_num) (by norm_num) (by norm_num) (by norm_num)

end Attitude.Props
