import Verif.Props.FrontendPoles

/-!
# Properties of the frontend's error curves compared with those of Python
-/

namespace Attitude.Props

open Attitude Frontend

/-! ## C108 -/

/-- Every position of the Python curve is on one half of a cone. -/
lemma python_half {axes : Mat 3 3} (ho : Spec.OrthonormalRows axes) {d : Vec 3}
    (h0 : 0 < d 0) (h1 : 0 < d 1) (h2 : 0 < d 2) {sheet : String} {n : ℕ} {t : Bool} {σ : ℝ}
    (hσ : sheet = "upper" ∧ σ = (if axes 2 2 > 0 then -1 else 1) ∨
      sheet = "lower" ∧ σ = (if axes 2 2 > 0 then 1 else -1)) :
    ∃ c, Stereonet.planeErrors axes (Matrix.diagonal d) sheet { n := some n, traditional := t }
        = .ok c ∧ c.length = n ∧
      ∀ q ∈ c, ∃ p, q = some p ∧
        Spec.direction t p ∈ Spec.HalfCone axes d (2 * d 2) σ := by
  refine ⟨_, Stereonet.planeErrors_eq axes d sheet rfl, by simp [Stereonet.angles_length], ?_⟩
  intro q hq
  obtain ⟨a, -, rfl⟩ := List.mem_map.1 hq
  set c := Stereonet.height axes sheet 1 with hc
  obtain ⟨p, hp, -, hd⟩ := girdle_point ho h0 h1 t c a
  refine ⟨p, hp, ?_⟩
  have hc' : c = 2 * σ ∧ σ ^ 2 = 1 := by
    rcases hσ with ⟨rfl, rfl⟩ | ⟨rfl, rfl⟩ <;> simp only [hc, Stereonet.height] <;>
      split_ifs <;> simp_all
  have hN : 0 < Attitude.norm (Stereonet.girdleVec d c a) :=
    (norm_pos_iff' _).2 (girdleVec_ne h0 h1 c a)
  have hcs := Real.sin_sq_add_cos_sq a
  constructor
  · simp only [Spec.ErrorCone, Set.mem_ofPred_eq, hd, Stereonet.girdleVec, Matrix.cons_val_zero,
      Matrix.cons_val_one, Matrix.cons_val]
    simp only [Stereonet.girdleVec] at hN
    generalize Attitude.norm ![Real.cos a * d 0, Real.sin a * d 1, c * d 2] = N at hN
    field_simp
    rw [hc'.1, mul_pow, hc'.2]
    linear_combination 4 * hcs
  · rw [hd]
    have : σ * (Stereonet.girdleVec d c a 2 / Attitude.norm (Stereonet.girdleVec d c a))
        = σ ^ 2 * (2 * d 2) / Attitude.norm (Stereonet.girdleVec d c a) := by
      simp only [Stereonet.girdleVec, Matrix.cons_val, hc'.1]; ring
    rw [this, hc'.2]
    positivity

/-- For planes that are not vertical the frontend's curves for variances `c` are on
the same half cones as the Python curves for `√c₀, √c₁, √c₂/2`. -/
theorem C108_same_cone_partial (cov : Vec 3) (axes : Mat 3 3) (ho : Spec.OrthonormalRows axes)
    (h0 : 0 < cov 0) (h1 : 0 < cov 1) (h2 : 0 < cov 2) (hv : axes 2 2 ≠ 0) (sheet : String)
    (hs : sheet = "upper" ∨ sheet = "lower") (n : ℕ) (t : Bool) :
    ∃ c σ, Stereonet.planeErrors axes
        (Matrix.diagonal ![Real.sqrt (cov 0), Real.sqrt (cov 1), Real.sqrt (cov 2) / 2]) sheet
        { n := some n, traditional := t } = .ok c ∧ (σ = 1 ∨ σ = -1) ∧
      (∀ q ∈ c, ∃ p, q = some p ∧ Spec.direction t p ∈
        Spec.HalfCone axes (fun i => Real.sqrt (cov i)) (Real.sqrt (cov 2)) σ) ∧
      (∀ q ∈ (Frontend.planeErrors cov (some axes)
          { n := some n, traditionalLayout := some t, sheet := some sheet }).1,
        ∃ p, q = some p ∧ Spec.direction t p ∈
          Spec.HalfCone axes (fun i => Real.sqrt (cov i)) (Real.sqrt (cov 2)) σ) := by
  set σ : ℝ := if sheet = "upper" then (if axes 2 2 < 0 then 1 else -1)
    else (if axes 2 2 < 0 then -1 else 1) with hσ
  have hgt : axes 2 2 > 0 ↔ ¬ axes 2 2 < 0 := by
    constructor
    · intro h; exact not_lt.2 h.le
    · intro h; exact lt_of_le_of_ne (not_lt.1 h) (Ne.symm hv)
  have hs0 := Real.sqrt_pos.2 h0
  have hs1 := Real.sqrt_pos.2 h1
  have hs2 := Real.sqrt_pos.2 h2
  obtain ⟨c, hc, -, hq⟩ := python_half (d := ![Real.sqrt (cov 0), Real.sqrt (cov 1),
    Real.sqrt (cov 2) / 2]) ho (by simpa using hs0) (by simpa using hs1) (by simpa using hs2)
    (sheet := sheet) (n := n) (t := t) (σ := σ) (by
      rcases hs with rfl | rfl
      · left; refine ⟨rfl, ?_⟩; simp only [hσ, hgt, if_true]; split_ifs <;> rfl
      · right; refine ⟨rfl, ?_⟩; simp only [hσ, hgt]; split_ifs <;> simp_all)
  refine ⟨c, σ, hc, ?_, ?_, ?_⟩
  · rw [hσ]; split_ifs <;> simp
  · intro q h
    obtain ⟨p, hp, hd⟩ := hq q h
    refine ⟨p, hp, ?_⟩
    simp only [Spec.HalfCone, Spec.ErrorCone, Set.mem_ofPred_eq, Matrix.cons_val_zero,
      Matrix.cons_val_one, Matrix.cons_val] at hd ⊢
    rwa [show 2 * (Real.sqrt (cov 2) / 2) = Real.sqrt (cov 2) by ring] at hd
  · intro q h
    obtain ⟨p, hp, -, hd⟩ := C106_sheets cov axes ho h0 h1 h2
      { n := some n, traditionalLayout := some t, sheet := some sheet } (by simp) σ (by
        rcases hs with rfl | rfl
        · left; exact ⟨rfl, by simp [hσ]⟩
        · right; exact ⟨rfl, by simp [hσ]⟩) q h
    exact ⟨p, hp, by simpa [Spec.shown] using hd⟩

example : ∃ c, Stereonet.planeErrors dippingAxes
    (Matrix.diagonal ![Real.sqrt 9, Real.sqrt 4, Real.sqrt 1 / 2]) "upper"
    { n := some 10, traditional := true } = .ok c := by
  obtain ⟨c, _, h, _⟩ := C108_same_cone_partial ![9, 4, 1] dippingAxes dipping_orthonormal (by simp)
    (by simp) (by simp) (by simp [dippingAxes]) "upper" (.inl rfl) 10 true
  exact ⟨c, h⟩

/-- Given the same covariances, the frontend's curve (of at least three points) is
on the cone of the Python curve exactly if the covariances in the plane both are
four times the covariance along the normal. -/
theorem C108_same_covariance_iff_partial (cov : Vec 3) (axes : Mat 3 3)
    (ho : Spec.OrthonormalRows axes) (h0 : 0 < cov 0) (h1 : 0 < cov 1) (h2 : 0 < cov 2)
    (n : ℕ) (hn : 3 ≤ n) (t : Bool) :
    (∀ q ∈ (Frontend.planeErrors cov (some axes)
          { n := some n, traditionalLayout := some t, sheet := some "upper" }).1,
        ∃ p, q = some p ∧ Spec.direction t p ∈ Spec.ErrorCone axes cov (2 * cov 2)) ↔
      cov 0 = 4 * cov 2 ∧ cov 1 = 4 * cov 2 := by
  have hs0 := Real.sqrt_pos.2 h0
  have hs1 := Real.sqrt_pos.2 h1
  have hs2 := Real.sqrt_pos.2 h2
  have q0 := Real.sq_sqrt h0.le
  have q1 := Real.sq_sqrt h1.le
  have q2 := Real.sq_sqrt h2.le
  set o : Opts := { n := some n, traditionalLayout := some t, sheet := some "upper" } with ho'
  have hside : side o (sheetOf o) axes ^ 2 = 1 := by
    rw [sheet_upper rfl]
    simp only [side, planeScale, ho']
    split_ifs <;> simp
  have hmem : ∀ (w : Vec 3) (r c s : ℝ), 0 < r → c ^ 2 + s ^ 2 = 1 →
      vdot w (axes 0) = r * (Real.sqrt (cov 0) * s) →
      vdot w (axes 1) = r * (Real.sqrt (cov 1) * c) →
      vdot w (axes 2) = r * (Real.sqrt (cov 2) * side o (sheetOf o) axes) →
      (w ∈ Spec.ErrorCone axes cov (2 * cov 2) ↔
        4 * cov 2 * (s ^ 2 / cov 0 + c ^ 2 / cov 1) = 1) := by
    intro w r c s hr hcs e0 e1 e2
    simp only [Spec.ErrorCone, Set.mem_ofPred_eq, e0, e1, e2]
    have l : (2 * cov 2 * (r * (Real.sqrt (cov 0) * s) / cov 0)) ^ 2
        + (2 * cov 2 * (r * (Real.sqrt (cov 1) * c) / cov 1)) ^ 2
        = r ^ 2 * cov 2 * (4 * cov 2 * (s ^ 2 / cov 0 + c ^ 2 / cov 1)) := by
      have a0 : (2 * cov 2 * (r * (Real.sqrt (cov 0) * s) / cov 0)) ^ 2
          = 4 * cov 2 ^ 2 * r ^ 2 * s ^ 2 * (Real.sqrt (cov 0) ^ 2 / cov 0 ^ 2) := by ring
      have a1 : (2 * cov 2 * (r * (Real.sqrt (cov 1) * c) / cov 1)) ^ 2
          = 4 * cov 2 ^ 2 * r ^ 2 * c ^ 2 * (Real.sqrt (cov 1) ^ 2 / cov 1 ^ 2) := by ring
      rw [a0, a1, q0, q1]
      field_simp
    have rr : (r * (Real.sqrt (cov 2) * side o (sheetOf o) axes)) ^ 2 = r ^ 2 * cov 2 := by
      rw [mul_pow, mul_pow, q2, hside]; ring
    rw [l, rr]
    have hpos : r ^ 2 * cov 2 ≠ 0 := by positivity
    constructor
    · intro h
      exact mul_left_cancel₀ hpos (by rw [h, mul_one])
    · intro h; rw [h, mul_one]
  constructor
  · intro h
    have use : ∀ c s : ℝ, c ^ 2 + s ^ 2 = 1 → (∃ x ∈ ellipse n (sqrtNum (cov 0)) (sqrtNum (cov 1)),
        x.1.getD 0 = Real.sqrt (cov 1) * c ∧ x.2.getD 0 = Real.sqrt (cov 0) * s) →
        4 * cov 2 * (s ^ 2 / cov 0 + c ^ 2 / cov 1) = 1 := by
      rintro c s hcs ⟨x, hx, hx1, hx2⟩
      obtain ⟨p, r, hp, hr, -, e0, e1, e2⟩ := girdle_position (o := o) ho h0 h1 (by simp [ho']) hcs
        (Real.sqrt (cov 2) * side o (sheetOf o) axes)
      have hq : some p ∈ (Frontend.planeErrors cov (some axes) o).1 := by
        rw [Frontend.planeErrors_eq, List.mem_map]
        exact ⟨x, hx, by rw [hx1, hx2, hp]⟩
      obtain ⟨p', hp', hw⟩ := h _ hq
      cases hp'
      have hsh : Spec.shown (o.degrees.getD false) (o.traditionalLayout.getD true) p
          = Spec.direction t p := by simp [Spec.shown, ho']
      rw [hsh] at e0 e1 e2
      exact (hmem _ r c s hr hcs e0 e1 e2).1 hw
    have first := use 0 1 (by norm_num) ⟨(some 0, sqrtNum (cov 0)), by simp [ellipse], by simp,
      by simp [sqrtNum_getD]⟩
    have hc0 : cov 0 = 4 * cov 2 := by
      have e : 4 * cov 2 * ((1 : ℝ) ^ 2 / cov 0 + 0 ^ 2 / cov 1) = 4 * cov 2 / cov 0 := by ring
      rw [e, div_eq_one_iff_eq h0.ne'] at first
      exact first.symm
    refine ⟨hc0, ?_⟩
    have hn' : (0 : ℝ) < n := by exact_mod_cast (by omega : 0 < n)
    have hs' : (-1 + (1 : ℝ) * (2 / ((n : ℝ) / 2))) ∈ sinAngles n := by
      simp only [sinAngles, List.mem_map, List.mem_range]
      exact ⟨1, by omega, by simp⟩
    set s : ℝ := -1 + (1 : ℝ) * (2 / ((n : ℝ) / 2)) with hsdef
    obtain ⟨b1, b2⟩ := sinAngles_bounds hs'
    have hgt : -1 < s := by
      have : 0 < 2 / ((n : ℝ) / 2) := by positivity
      rw [hsdef]; linarith
    have hsin := Real.sin_arcsin b1 b2.le
    have hsc := Real.sin_sq_add_cos_sq (Real.arcsin s)
    rw [hsin] at hsc
    have second := use (Real.cos (Real.arcsin s)) s (by linarith)
      ⟨(Num.mul (sqrtNum (cov 1)) (some (Real.cos (Real.arcsin s))),
        Num.mul (sqrtNum (cov 0)) (some s)), by
          simp only [ellipse, List.mem_append, List.mem_map]
          exact Or.inl (Or.inl ⟨s, hs', rfl⟩),
        by rw [Num.mul_getD_some, sqrtNum_getD], by rw [Num.mul_getD_some, sqrtNum_getD]⟩
    have hcpos : 0 < Real.cos (Real.arcsin s) ^ 2 := by nlinarith
    rw [hc0] at second
    field_simp at second
    have : Real.cos (Real.arcsin s) ^ 2 * (cov 1 - 4 * cov 2) = 0 := by
      have e : s ^ 2 = 1 - Real.cos (Real.arcsin s) ^ 2 := by linarith
      rw [e] at second
      linear_combination -second
    rcases mul_eq_zero.1 this with k | k
    · exact absurd k hcpos.ne'
    · linarith
  · rintro ⟨hc0, hc1⟩ q hq
    obtain ⟨p, c, s, r, hp, hcs, hr, -, e0, e1, e2⟩ := girdle_points ho h0 h1 (by simp [ho']) hq
    refine ⟨p, hp, ?_⟩
    have hsh : Spec.shown (o.degrees.getD false) (o.traditionalLayout.getD true) p
        = Spec.direction t p := by simp [Spec.shown, ho']
    rw [hsh] at e0 e1 e2
    rw [hmem _ r c s hr hcs e0 e1 e2, hc0, hc1]
    have := h2.ne'
    field_simp
    linarith

/-- So with the same covariances the two programs draw different curves, for
example for a covariance of (9, 4, 1). -/
theorem C108_same_covariance_false :
    ∃ q ∈ (Frontend.planeErrors ![9, 4, 1] (some dippingAxes) { sheet := some "upper" }).1,
      ∀ p, q = some p → Spec.direction true p ∉ Spec.ErrorCone dippingAxes ![9, 4, 1] 2 := by
  by_contra hcon
  push Not at hcon
  have := (C108_same_covariance_iff_partial ![9, 4, 1] dippingAxes dipping_orthonormal (by simp)
    (by simp) (by simp) 100 (by norm_num) true).1 (by
      intro q hq
      obtain ⟨p, hp, hw⟩ := hcon q hq
      exact ⟨p, hp, by simpa using hw⟩)
  simp at this

/-- For vertical planes the names of the two sheets are exchanged: no direction is on
the upper curve of both programs. -/
theorem C108_vertical_false (cov : Vec 3) (axes : Mat 3 3) (ho : Spec.OrthonormalRows axes)
    (h0 : 0 < cov 0) (h1 : 0 < cov 1) (h2 : 0 < cov 2) (hv : axes 2 2 = 0) (n : ℕ) (t : Bool) :
    ∃ c, Stereonet.planeErrors axes
        (Matrix.diagonal ![Real.sqrt (cov 0), Real.sqrt (cov 1), Real.sqrt (cov 2) / 2]) "upper"
        { n := some n, traditional := t } = .ok c ∧ c.length = n ∧
      ∀ q ∈ (Frontend.planeErrors cov (some axes)
          { n := some n, traditionalLayout := some t, sheet := some "upper" }).1,
        ∀ q' ∈ c, ∃ p p', q = some p ∧ q' = some p' ∧ Spec.direction t p ≠ Spec.direction t p' := by
  have hs0 := Real.sqrt_pos.2 h0
  have hs1 := Real.sqrt_pos.2 h1
  have hs2 := Real.sqrt_pos.2 h2
  obtain ⟨c, hc, hl, hq⟩ := python_half (d := ![Real.sqrt (cov 0), Real.sqrt (cov 1),
    Real.sqrt (cov 2) / 2]) ho (by simpa using hs0) (by simpa using hs1) (by simpa using hs2)
    (sheet := "upper") (n := n) (t := t) (σ := 1) (Or.inl ⟨rfl, by simp [hv]⟩)
  refine ⟨c, hc, hl, fun q h q' h' => ?_⟩
  obtain ⟨p', hp', -, hd'⟩ := hq q' h'
  obtain ⟨p, hp, -, -, hd⟩ := C106_sheets cov axes ho h0 h1 h2
    { n := some n, traditionalLayout := some t, sheet := some "upper" } (by simp) (-1)
    (Or.inl ⟨rfl, by simp [hv]⟩) q h
  refine ⟨p, p', hp, hp', fun he => ?_⟩
  have : Spec.shown false t p = Spec.direction t p := by simp [Spec.shown]
  simp only [Option.getD_none, Option.getD_some, this] at hd
  rw [he] at hd
  linarith

/-- There are such planes. -/
example : Spec.OrthonormalRows verticalAxes ∧ verticalAxes 2 2 = 0 ∧ dippingAxes 2 2 ≠ 0 := by
  refine ⟨?_, by simp [verticalAxes], by simp [dippingAxes]⟩
  intro i j
  rw [vdot3]
  fin_cases i <;> fin_cases j <;> simp [verticalAxes]

end Attitude.Props
