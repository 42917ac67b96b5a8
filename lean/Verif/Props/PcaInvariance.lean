import Verif.Model.PcaState
import Verif.Props.PcaAngles

/-!
# C10, C11, C18, C19, C20, C45: what a fit depends on
-/

namespace Attitude.Props

open Attitude Pca Matrix

/-! ## C10 -/

lemma columnNorms_principal {n : ℕ} {a : Fin n → Vec 3} {f : Fit n} {U : Mat n 3}
    (h : IsFit a f U) (j : Fin 3) : columnNorms (principalAxes f) j = f.s j := by
  unfold columnNorms norm principalAxes
  have e := congrFun (congrFun h.svd.orthV' j) j
  simp only [Matrix.mul_apply, Matrix.transpose_apply, Matrix.one_apply_eq] at e
  have : ∑ i, (f.s j * f.V i j) ^ 2 = f.s j ^ 2 := by
    simp only [mul_pow, ← Finset.mul_sum]
    rw [show ∑ i, f.V i j ^ 2 = 1 by rw [← e]; exact Finset.sum_congr rfl fun _ _ => sq _, mul_one]
  simp only [Matrix.of_apply]
  rw [this, Real.sqrt_sq (h.svd.nonneg' j)]

/-- Reloading a fit from its principal axes recovers axes, singular values,
normal, strike, dip, rake and (lazily) the left singular vectors, provided no
singular value is zero. -/
theorem C10_saved_fit_partial (svd svd' : SvdFn) (hs : svd.Valid) {n : ℕ} (a : Fin n → Vec 3)
    (f : Fit n) (hf : init svd a none none = .ok (some f)) (hpos : f.s 2 ≠ 0) :
    ∃ g, init svd' a none (some (principalAxes f)) = .ok (some g) ∧
      g.V = f.V ∧ g.s = f.s ∧ g.mean = f.mean ∧ g.arr = f.arr ∧ g.normal = f.normal ∧
      strikeDip g = strikeDip f ∧ rake g = rake f ∧ residuals g = residuals f ∧
      (getU g).1 = f.U := by
  obtain ⟨U, h⟩ := init_default hs hf
  have h2 : 0 < f.s 2 := lt_of_le_of_ne h.svd.nonneg (Ne.symm hpos)
  have h1 : 0 < f.s 1 := lt_of_lt_of_le h2 h.svd.le12
  have h0 : 0 < f.s 0 := lt_of_lt_of_le h1 h.svd.le01
  have hsj : ∀ j, f.s j ≠ 0 := by
    intro j; fin_cases j
    · exact h0.ne'
    · exact h1.ne'
    · exact h2.ne'
  have hload : loadSavedFit (principalAxes f) = some (f.s, f.V) := by
    unfold loadSavedFit
    have hc : columnNorms (principalAxes f) = f.s := funext (columnNorms_principal h)
    simp only [hc, h0.ne', h1.ne', h2.ne', or_self, if_false, Option.some.injEq, Prod.mk.injEq,
      true_and]
    ext i j
    simp only [principalAxes, Matrix.of_apply]
    field_simp [hsj j]
  have hn0 : n ≠ 0 := by have := h.size; omega
  refine ⟨derive a (some (meanRows a)) (Coordinates.centered a) ![1, 1, 1] none f.s f.V, ?_, rfl,
    rfl, ?_, ?_, ?_, rfl, ?_, ?_, ?_⟩
  · simp [init, hload, hn0]
  · rw [h.mean]; rfl
  · rw [h.arr]; rfl
  · rw [h.normal]; rfl
  · simp only [rake]
    rw [h.dipDr, h.strikeVec, h.normal]
    rfl
  · unfold residuals rotated
    rw [h.arr]
    rfl
  · unfold getU
    simp only [derive, h0.ne', h1.ne', h2.ne', or_self, if_false]
    rw [h.hU, h.svd.recon]
    congr 1
    have e : (Matrix.diagonal f.s * Matrix.diagonal fun j => 1 / f.s j) = (1 : Mat 3 3) := by
      rw [Matrix.diagonal_mul_diagonal, ← Matrix.diagonal_one]
      congr 1
      funext j
      field_simp [hsj j]
    rw [Matrix.mul_assoc _ f.V, h.svd.orthV, Matrix.mul_one, Matrix.mul_assoc, e, Matrix.mul_one]

example : ∃ (svd : SvdFn) (f : Fit 4), svd.Valid ∧ init svd Witness.tilted none none = .ok (some f) ∧
    f.s 2 ≠ 0 := by
  obtain ⟨svd, f, hs, hf, _, e⟩ := Witness.exists_tilted
  exact ⟨svd, f, hs, hf, by rw [e]; simp⟩

/-- The claim is false for data lying exactly in a plane: the last singular
value is zero and the reloaded axes are `nan`. -/
theorem C10_saved_fit_coplanar_false (svd svd' : SvdFn) (hs : svd.Valid) {n : ℕ}
    (a : Fin n → Vec 3) (f : Fit n) (hf : init svd a none none = .ok (some f))
    (m : Vec 3) (d : ℝ) (hm : norm m = 1) (hp : ∀ i, Spec.OnPlane m d (a i)) :
    init svd' a none (some (principalAxes f)) = .ok none := by
  obtain ⟨_, _, c, hc, _⟩ := C06_best_fit svd hs a f hf
  have h0 := (C07_residuals_zero_iff_coplanar svd hs a f hf).2 ⟨m, d, hm, hp⟩
  obtain ⟨_, _, _, hD⟩ := C07_residuals_are_misfits svd hs a f hf c hc
  have hs2 : f.s 2 = 0 := by
    simp [h0] at hD
    exact pow_eq_zero_iff (two_ne_zero) |>.1 hD.symm
  obtain ⟨U, h⟩ := init_default hs hf
  have hc2 : columnNorms (principalAxes f) 2 = 0 := by rw [columnNorms_principal h, hs2]
  simp [init, loadSavedFit, hc2]

/-- Non-vacuity: three points always lie in a plane, and such data exists. -/
example : ∃ m d, norm m = 1 ∧ ∀ i, Spec.OnPlane m d (tiltedPoints i) := tiltedPoints_coplanar

/-! ## C11 -/

/-- Turn a vector clockwise (as seen from above) by `α` degrees, so that
azimuths increase by `α`. -/
noncomputable def Spec.turn (α : ℝ) (v : Vec 3) : Vec 3 :=
  ![v 0 * Real.cos (α * Real.pi / 180) + v 1 * Real.sin (α * Real.pi / 180),
    -v 0 * Real.sin (α * Real.pi / 180) + v 1 * Real.cos (α * Real.pi / 180), v 2]

/-- Sanity check of the specification: turning a heading adds to its azimuth. -/
theorem Spec.turn_heading (α az : ℝ) :
    Spec.turn α (Spec.heading az) = Spec.heading (az + α) := by
  have e : (az + α) * Real.pi / 180 = az * Real.pi / 180 + α * Real.pi / 180 := by ring
  funext i
  fin_cases i
  · simp [Spec.turn, Spec.heading, e, Real.sin_add]
  · simp [Spec.turn, Spec.heading, e, Real.cos_add]; ring
  · simp [Spec.turn, Spec.heading]

lemma turn_sdNormal (α s d : ℝ) : Spec.turn α (sdNormal s d) = sdNormal (s + α) d := by
  have e : radians (s + α) = radians s + α * Real.pi / 180 := by unfold radians; ring
  funext i
  fin_cases i
  · simp [Spec.turn, sdNormal, e, Real.cos_add]; ring
  · simp [Spec.turn, sdNormal, e, Real.sin_add]; ring
  · simp [Spec.turn, sdNormal]

lemma turn_dot (α : ℝ) (v w : Vec 3) :
    vdot (Spec.turn α v) (Spec.turn α w) = vdot v w := by
  rw [vdot3, vdot3]
  have := Real.sin_sq_add_cos_sq (α * Real.pi / 180)
  simp only [Spec.turn, Matrix.cons_val_zero, Matrix.cons_val_one, Matrix.cons_val]
  linear_combination (v 0 * w 0 + v 1 * w 1) * this

lemma turn_neg (α : ℝ) (v : Vec 3) : Spec.turn α (-v) = -Spec.turn α v := by
  funext i
  fin_cases i <;> simp [Spec.turn] <;> ring

lemma turn_turn_neg (α : ℝ) (v : Vec 3) : Spec.turn α (Spec.turn (-α) v) = v := by
  have := Real.sin_sq_add_cos_sq (α * Real.pi / 180)
  have ec : Real.cos (-(α * Real.pi) / 180) = Real.cos (α * Real.pi / 180) := by
    rw [neg_div, Real.cos_neg]
  have es : Real.sin (-(α * Real.pi) / 180) = -Real.sin (α * Real.pi / 180) := by
    rw [neg_div, Real.sin_neg]
  funext i
  fin_cases i
  · simp [Spec.turn, ec, es]
    linear_combination v 0 * this
  · simp [Spec.turn, ec, es]
    linear_combination v 1 * this
  · simp [Spec.turn]

lemma sum_sq_eq_vdot {n : ℕ} (v : Vec n) : ∑ i, v i ^ 2 = vdot v v := by
  simp [vdot, sq]

/-- Moved data: scaled by `l`, turned by `α`, translated by `t`. -/
noncomputable def Spec.moved {n : ℕ} (l α : ℝ) (t : Vec 3) (a : Fin n → Vec 3) : Fin n → Vec 3 :=
  fun i j => l * Spec.turn α (a i) j + t j

lemma centered_moved {n : ℕ} (l α : ℝ) (t : Vec 3) (a : Fin n → Vec 3) :
    Coordinates.centered (Spec.moved l α t a)
      = fun i j => l * Spec.turn α (Coordinates.centered a i) j := by
  obtain ⟨hz, hs⟩ := C01_centered_zero_mean_same_shape a
  apply C01_centered_unique
  · intro j
    rw [← Finset.mul_sum]
    fin_cases j
    · simp [Spec.turn, Finset.sum_add_distrib, ← Finset.sum_mul, hz 0, hz 1]
    · simp [Spec.turn, Finset.sum_add_distrib, ← Finset.sum_mul, hz 0, hz 1]
    · simp [Spec.turn, hz 2]
  · intro i i' j
    have h0 := hs i i' 0
    have h1 := hs i i' 1
    have h2 := hs i i' 2
    unfold Spec.moved
    fin_cases j
    · simp [Spec.turn]
      linear_combination l * Real.cos (α * Real.pi / 180) * h0
        + l * Real.sin (α * Real.pi / 180) * h1
    · simp [Spec.turn]
      linear_combination (-l * Real.sin (α * Real.pi / 180)) * h0
        + l * Real.cos (α * Real.pi / 180) * h1
    · simp [Spec.turn]
      linear_combination l * h2

lemma mulVec_moved {n : ℕ} (l α : ℝ) (t : Vec 3) (a : Fin n → Vec 3) (w : Vec 3) (i : Fin n) :
    (Matrix.of (Coordinates.centered (Spec.moved l α t a)) *ᵥ Spec.turn α w) i
      = l * (Matrix.of (Coordinates.centered a) *ᵥ w) i := by
  rw [centered_moved]
  have h := turn_dot α (Coordinates.centered a i) w
  simp only [vdot] at h
  simp only [Matrix.mulVec, dotProduct, Matrix.of_apply, mul_assoc, ← Finset.mul_sum]
  rw [h]

/-- The axis found in moved data is the moved axis, up to sign, whatever the two
backends. -/
lemma moved_axis {svd svd' : SvdFn} (hs : svd.Valid) (hs' : svd'.Valid) {n : ℕ}
    {a : Fin n → Vec 3} {f g : Fit n} (l α : ℝ) (hl : l ≠ 0) (t : Vec 3)
    (hf : init svd a none none = .ok (some f))
    (hg : init svd' (Spec.moved l α t a) none none = .ok (some g)) (hlt : f.s 2 < f.s 1) :
    g.V 2 = Spec.turn α (f.V 2) ∨ g.V 2 = -Spec.turn α (f.V 2) := by
  obtain ⟨U, h⟩ := init_default hs hf
  obtain ⟨U', h'⟩ := init_default hs' hg
  set w := Spec.turn (-α) (g.V 2) with hw
  have hgw : g.V 2 = Spec.turn α w := by rw [hw, turn_turn_neg]
  have hunit : ∑ j, w j ^ 2 = 1 := by
    rw [sum_sq_eq_vdot, ← turn_dot α, ← hgw, h'.svd.row_dot, if_pos rfl]
  have hopt := h'.svd.optimal (Spec.turn α (f.V 2))
  have hu2 : ∑ j, (Spec.turn α (f.V 2)) j ^ 2 = 1 := by
    rw [sum_sq_eq_vdot, turn_dot, h.svd.row_dot, if_pos rfl]
  rw [hu2, mul_one, ← h'.svd.sum_sq_row 2, hgw] at hopt
  simp only [mulVec_moved, mul_pow, ← Finset.mul_sum, h.svd.sum_sq_row] at hopt
  have hl2 : 0 < l ^ 2 := by positivity
  have hle := le_of_mul_le_mul_left hopt hl2
  rcases h.svd.unique hlt w hunit hle with k | k
  · left; rw [hgw, k]
  · right; rw [hgw, k, turn_neg]

/-- Strike and dip depend on the data only: for data with a unique best plane,
every valid backend gives the same dip, also after translating, scaling and
turning the data; the strike moves with the turn (mod 360) when the plane is
neither horizontal nor vertical, and mod 180 when it is vertical (when either
end of the strike line satisfies the right-hand rule). -/
theorem C11_strike_dip_equivariant (svd svd' : SvdFn) (hs : svd.Valid) (hs' : svd'.Valid) {n : ℕ}
    (a : Fin n → Vec 3) (f g : Fit n) (l α : ℝ) (hl : l ≠ 0) (t : Vec 3)
    (hf : init svd a none none = .ok (some f))
    (hg : init svd' (Spec.moved l α t a) none none = .ok (some g)) (hlt : f.s 2 < f.s 1)
    (s d : ℝ) (hsd : strikeDip f = some (s, d)) :
    ∃ s', strikeDip g = some (s', d) ∧
      (d ≠ 0 → d ≠ 90 → ∃ k : ℤ, s' = s + α + 360 * k) ∧
      (d ≠ 0 → ∃ k : ℤ, s' = s + α + 180 * k) := by
  obtain ⟨U, h⟩ := init_default hs hf
  obtain ⟨U', h'⟩ := init_default hs' hg
  have hax := moved_axis hs hs' l α hl t hf hg hlt
  obtain ⟨s1, d1, e1, a1, a2, a3, a4, a5⟩ := strikeDipOf_spec (fit_axis_ne_zero h 2)
  obtain ⟨s2, d2, e2, b1, b2, b3, b4, b5⟩ := strikeDipOf_spec (fit_axis_ne_zero h' 2)
  have e1' : strikeDip f = some (s1, d1) := e1
  rw [hsd] at e1'
  cases e1'
  rw [h.svd.row_norm, one_smul] at a5
  rw [h'.svd.row_norm, one_smul] at b5
  -- relation of the upward normals
  have hT2 : ∀ v : Vec 3, Spec.turn α v 2 = v 2 := fun v => by simp [Spec.turn]
  have hup : upward (g.V 2) = Spec.turn α (upward (f.V 2)) ∨
      (f.V 2 2 = 0 ∧ upward (g.V 2) = -Spec.turn α (upward (f.V 2))) := by
    rcases lt_trichotomy (f.V 2 2) 0 with hz | hz | hz
    · left
      have u1 : upward (f.V 2) = -f.V 2 := by simp [upward, hz]
      rw [u1]
      rcases hax with k | k
      · rw [k, upward, if_pos (by rw [hT2]; exact hz), turn_neg]
      · rw [k, upward, if_neg (by simp only [Pi.neg_apply, hT2]; linarith), turn_neg]
    · have u1 : upward (f.V 2) = f.V 2 := by simp [upward, hz]
      rw [u1]
      rcases hax with k | k
      · left; rw [k, upward, if_neg (by rw [hT2, hz]; exact lt_irrefl _)]
      · right
        exact ⟨hz, by rw [k, upward, if_neg (by simp only [Pi.neg_apply, hT2, hz]; simp)]⟩
    · left
      have u1 : upward (f.V 2) = f.V 2 := by simp [upward, hz.le]
      rw [u1]
      rcases hax with k | k
      · rw [k, upward, if_neg (by rw [hT2]; linarith)]
      · rw [k, upward, if_pos (by simp only [Pi.neg_apply, hT2]; linarith), neg_neg]
  have hcos : Real.cos (radians d2) = Real.cos (radians d) := by
    have x := congrFun a5 2
    have y := congrFun b5 2
    simp [sdNormal] at x y
    rcases hup with k | ⟨hz, k⟩
    · rw [y, k, hT2, ← x]
    · have hu0 : upward (f.V 2) 2 = 0 := by simp [upward, hz]
      rw [y, k, x]
      simp [hT2, hu0]
  have hdd : d2 = d := dip_inj b3 b4 a3 a4 hcos
  subst hdd
  have hpi := Real.pi_pos
  have hsin0 : d2 ≠ 0 → Real.sin (radians d2) ≠ 0 := by
    intro hd0
    have hd0' : 0 < d2 := lt_of_le_of_ne b3 (Ne.symm hd0)
    apply ne_of_gt
    apply Real.sin_pos_of_pos_of_lt_pi
    · unfold radians; positivity
    · unfold radians; nlinarith
  have hsame : d2 ≠ 0 → upward (g.V 2) = Spec.turn α (upward (f.V 2)) →
      ∃ k : ℤ, s2 = s + α + 360 * k := by
    intro hd0 hup'
    have hsin := hsin0 hd0
    rw [← a5, turn_sdNormal, ← b5] at hup'
    apply cos_sin_mod
    · have := congrFun hup' 0
      simp [sdNormal] at this
      rcases this with k | k
      · exact k
      · exact absurd k hsin
    · have := congrFun hup' 1
      simp [sdNormal] at this
      rcases this with k | k
      · exact k
      · exact absurd k hsin
  refine ⟨s2, e2, fun hd0 hd90 => ?_, fun hd0 => ?_⟩
  rotate_left
  · rcases hup with k | ⟨_, k⟩
    · obtain ⟨q, hq⟩ := hsame hd0 k
      exact ⟨2 * q, by rw [hq]; push_cast; ring⟩
    · rw [← a5, turn_sdNormal, ← b5] at k
      have hsin := hsin0 hd0
      have er : radians (s + α + 180) = radians (s + α) + Real.pi := by
        unfold radians; ring
      obtain ⟨q, hq⟩ : ∃ q : ℤ, s2 = (s + α + 180) + 360 * q := by
        apply cos_sin_mod
        · have := congrFun k 0
          simp [sdNormal] at this
          rw [er, Real.cos_add_pi]
          have h3 : (Real.cos (radians s2) + Real.cos (radians (s + α))) * Real.sin (radians d2)
              = 0 := by linarith
          rcases mul_eq_zero.1 h3 with z | z
          · linarith
          · exact absurd z hsin
        · have := congrFun k 1
          simp [sdNormal] at this
          rw [er, Real.sin_add_pi]
          have h3 : (Real.sin (radians s2) + Real.sin (radians (s + α))) * Real.sin (radians d2)
              = 0 := by linarith
          rcases mul_eq_zero.1 h3 with z | z
          · linarith
          · exact absurd z hsin
      exact ⟨2 * q + 1, by rw [hq]; push_cast; ring⟩
  have hd0' : 0 < d2 := lt_of_le_of_ne b3 (Ne.symm hd0)
  have hd90' : d2 < 90 := lt_of_le_of_ne b4 hd90
  have hcosne : Real.cos (radians d2) ≠ 0 := by
    apply ne_of_gt
    apply Real.cos_pos_of_mem_Ioo
    constructor
    · have : 0 < radians d2 := by unfold radians; positivity
      linarith
    · unfold radians; nlinarith
  have hup' : upward (g.V 2) = Spec.turn α (upward (f.V 2)) := by
    rcases hup with k | ⟨hz, _⟩
    · exact k
    · exfalso
      have x := congrFun a5 2
      have hu0 : upward (f.V 2) 2 = 0 := by simp [upward, hz]
      simp [sdNormal] at x
      rw [hu0] at x
      exact hcosne x
  exact hsame hd0 hup'

example : ∃ (svd : SvdFn) (f g : Fit 4) (s d : ℝ), svd.Valid ∧
    init svd Witness.tilted none none = .ok (some f) ∧
    init svd (Spec.moved 2 30 ![1, 2, 3] Witness.tilted) none none = .ok (some g) ∧
    f.s 2 < f.s 1 ∧ strikeDip f = some (s, d) ∧ d ≠ 0 ∧ d ≠ 90 := by
  obtain ⟨svd, f, hs, hf, hV, e⟩ := Witness.exists_tilted
  obtain ⟨g, hg⟩ := init_default_exists svd (by norm_num : 3 ≤ 4)
    (Spec.moved 2 30 ![1, 2, 3] Witness.tilted)
  obtain ⟨_, s, d, h, h0, h90, _⟩ := tilted_strikeDip hs hf hV
  exact ⟨svd, f, g, s, d, hs, hf, hg, by rw [e]; simp, h, h0, h90⟩

/-- In particular, two valid backends agree on the same data, also when it is
translated or rescaled: the reported strike and dip are equal. -/
theorem C11_strike_dip_determined (svd svd' : SvdFn) (hs : svd.Valid) (hs' : svd'.Valid) {n : ℕ}
    (a : Fin n → Vec 3) (f g : Fit n) (l : ℝ) (hl : l ≠ 0) (t : Vec 3)
    (hf : init svd a none none = .ok (some f))
    (hg : init svd' (fun i j => l * a i j + t j) none none = .ok (some g)) (hlt : f.s 2 < f.s 1)
    (s d : ℝ) (hsd : strikeDip f = some (s, d)) (hd0 : d ≠ 0) (hd90 : d ≠ 90) :
    strikeDip g = some (s, d) := by
  have hm : (fun i j => l * a i j + t j) = Spec.moved l 0 t a := by
    funext i j
    fin_cases j <;> simp [Spec.moved, Spec.turn]
  rw [hm] at hg
  obtain ⟨s', e, hk, _⟩ := C11_strike_dip_equivariant svd svd' hs hs' a f g l 0 hl t hf hg hlt s d hsd
  obtain ⟨k, hk⟩ := hk hd0 hd90
  obtain ⟨s1, d1, e1, a1, a2, _, _⟩ := C12_fit_ranges svd hs a f hf
  obtain ⟨s2, d2, e2, b1, b2, _, _⟩ := C12_fit_ranges svd' hs' _ g hg
  rw [hsd] at e1
  cases e1
  rw [e] at e2
  cases e2
  have k1 : (k : ℝ) < 1 := by linarith
  have k2 : (-1 : ℝ) < k := by linarith
  have k1' : k < 1 := by exact_mod_cast k1
  have k2' : -1 < k := by exact_mod_cast k2
  have : k = 0 := by omega
  subst this
  rw [e, hk]
  simp

example : ∃ (svd : SvdFn) (f g : Fit 4) (s d : ℝ), svd.Valid ∧
    init svd Witness.tilted none none = .ok (some f) ∧
    init svd (fun i j => -2 * Witness.tilted i j + ![1, 2, 3] j) none none = .ok (some g) ∧
    f.s 2 < f.s 1 ∧ strikeDip f = some (s, d) ∧ d ≠ 0 ∧ d ≠ 90 := by
  obtain ⟨svd, f, hs, hf, hV, e⟩ := Witness.exists_tilted
  obtain ⟨g, hg⟩ := init_default_exists svd (by norm_num : 3 ≤ 4)
    (fun i j => -2 * Witness.tilted i j + ![1, 2, 3] j)
  obtain ⟨_, s, d, h, h0, h90, _⟩ := tilted_strikeDip hs hf hV
  exact ⟨svd, f, g, s, d, hs, hf, hg, by rw [e]; simp, h, h0, h90⟩

/-- The hypotheses of both theorems are met by the cross of points on a plane
dipping 45 degrees, for every valid backend. -/
theorem C11_hypotheses_met (svd : SvdFn) (hs : svd.Valid) :
    ∃ f, init svd dipCross none none = .ok (some f) ∧ f.s 2 < f.s 1 ∧
      ∃ s d, strikeDip f = some (s, d) ∧ d ≠ 0 ∧ d ≠ 90 := by
  obtain ⟨f, hf⟩ := init_default_exists svd (by norm_num : 3 ≤ 4) dipCross
  obtain ⟨U, h⟩ := init_default hs hf
  refine ⟨f, hf, ?_, ?_⟩
  · have hA := h.svd
    rw [dipCross_centered] at hA
    have q : ∀ w : Vec 3, ∑ i, (Matrix.of dipCross *ᵥ w) i ^ 2
        = 8 * (w 0 - w 2) ^ 2 + 2 * w 1 ^ 2 := by
      intro w
      simp [dipCross, Fin.sum_univ_four, Matrix.mulVec, dotProduct, Fin.sum_univ_three]
      ring
    have e2 := hA.optimal ![1, 0, 1]
    rw [q] at e2
    simp [Fin.sum_univ_three] at e2
    have s2 : f.s 2 = 0 := by nlinarith [sq_nonneg (f.s 2)]
    rw [s2]
    rcases (hA.nonneg' 1).lt_or_eq with k | k
    · exact k
    · exfalso
      have r1 := hA.sum_sq_row 1
      have r2 := hA.sum_sq_row 2
      rw [q, ← k] at r1
      rw [q, s2] at r2
      have a1 : f.V 1 1 = 0 := by nlinarith [sq_nonneg (f.V 1 0 - f.V 1 2), sq_nonneg (f.V 1 1)]
      have a2 : f.V 1 0 - f.V 1 2 = 0 := by
        nlinarith [sq_nonneg (f.V 1 0 - f.V 1 2), sq_nonneg (f.V 1 1)]
      have b1 : f.V 2 1 = 0 := by nlinarith [sq_nonneg (f.V 2 0 - f.V 2 2), sq_nonneg (f.V 2 1)]
      have b2 : f.V 2 0 - f.V 2 2 = 0 := by
        nlinarith [sq_nonneg (f.V 2 0 - f.V 2 2), sq_nonneg (f.V 2 1)]
      have d11 := hA.row_dot 1 1
      have d22 := hA.row_dot 2 2
      have d12 := hA.row_dot 1 2
      rw [if_pos rfl, vdot3] at d11 d22
      rw [if_neg (by decide), vdot3] at d12
      have a0 : f.V 1 0 = f.V 1 2 := by linarith
      have b0 : f.V 2 0 = f.V 2 2 := by linarith
      rw [a1, a0] at d11
      rw [b1, b0] at d22
      rw [a1, b1, a0, b0] at d12
      have z : f.V 1 2 * f.V 2 2 = 0 := by linarith
      rcases mul_eq_zero.1 z with z | z
      · rw [z] at d11; norm_num at d11
      · rw [z] at d22; norm_num at d22
  · obtain ⟨s, d, e, _⟩ := C12_fit_ranges svd hs dipCross f hf
    refine ⟨s, d, e, ?_⟩
    obtain ⟨s1, d1, e1, -, -, -, -, a5⟩ := strikeDipOf_spec (fit_axis_ne_zero h 2)
    have e1' : strikeDip f = some (s1, d1) := e1
    rw [e] at e1'
    cases e1'
    rw [h.svd.row_norm, one_smul, ← h.normal] at a5
    obtain ⟨m, d0, hm, hp⟩ := dipCross_coplanar
    have p1 := normal_perp_of_coplanar hs hf m d0 hm hp 0 1
    have p2 := normal_perp_of_coplanar hs hf m d0 hm hp 2 3
    simp [dipCross] at p1 p2
    have q0 : f.normal 0 = f.normal 2 := by linarith
    have q1 : f.normal 1 = 0 := by linarith
    have hsq : f.normal 0 ^ 2 + f.normal 1 ^ 2 + f.normal 2 ^ 2 = 1 := by
      have := norm_sq' f.normal
      rw [normal_unit h, Fin.sum_univ_three] at this
      linarith
    rw [← a5] at q0 q1 hsq
    constructor
    · rintro rfl
      simp [sdNormal, radians] at q0
    · rintro rfl
      have c : Real.cos (radians 90) = 0 := by
        rw [show radians 90 = Real.pi / 2 by unfold radians; ring, Real.cos_pi_div_two]
      simp only [sdNormal, c, Matrix.cons_val_zero, Matrix.cons_val_one, Matrix.cons_val] at q0 q1 hsq
      rw [q0, q1] at hsq
      norm_num at hsq

end Attitude.Props
