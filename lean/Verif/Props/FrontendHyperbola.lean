import Verif.Props.FrontendView
import Verif.Props.StereonetDual

/-!
# C121 for tilted planes

When the hyperbola that the side view draws for a tilted plane is the section of its error
surface: only in sections along the dip.
-/

namespace Attitude.Props

open Attitude Frontend

/-- The curve that is drawn: the hyperbola with semi-axes `a`, `b`, scaled by the line generator
(hyperbola.ts L86-88) and placed by its transform. -/
noncomputable def Spec.drawnHyperbola (p : Placement) (kx ky a b : ℝ) : Set (ℝ × ℝ) :=
  {q | ∃ x y, y ^ 2 / b ^ 2 - x ^ 2 / a ^ 2 = 1 ∧ q = Spec.placed p (x * kx, y * ky)}

/-- The section of the error surface along `v` as it should be shown. -/
noncomputable def Spec.shownSection (axes : Mat 3 3) (l : Vec 3) (v : ℝ) (xs ys : ℝ → ℝ) :
    Set (ℝ × ℝ) :=
  Spec.onScreen v xs ys '' {P | P ∈ Spec.ErrorSurface axes l ∧
    ∃ t z, P = ![t * Real.cos v, t * Real.sin v, z]}

/-- The horizontal direction across the section. -/
noncomputable def Spec.across (v : ℝ) : Vec 3 := ![-Real.sin v, Real.cos v, 0]

section

variable {axes : Mat 3 3} {l : Vec 3} {v : ℝ}

/-- Orthonormal axes: the sum of the squared components of any vector is its squared length. -/
lemma parseval_rows (ho : Spec.OrthonormalRows axes) (w : Vec 3) :
    vdot (axes 0) w ^ 2 + vdot (axes 1) w ^ 2 + vdot (axes 2) w ^ 2 = w 0 ^ 2 + w 1 ^ 2 + w 2 ^ 2 := by
  have h1 : axes * axes.transpose = 1 := by
    ext i j
    have := ho i j
    rw [Matrix.mul_apply, Matrix.one_apply]
    simpa [vdot, Matrix.transpose_apply] using this
  have h2 : axes.transpose * axes = 1 := mul_eq_one_comm.1 h1
  have e : ∀ i j, axes 0 i * axes 0 j + axes 1 i * axes 1 j + axes 2 i * axes 2 j
      = (1 : Mat 3 3) i j := by
    intro i j
    rw [← h2, Matrix.mul_apply, Fin.sum_univ_three]
    simp [Matrix.transpose_apply]
  have e00 : axes 0 0 * axes 0 0 + axes 1 0 * axes 1 0 + axes 2 0 * axes 2 0 = 1 := by
    rw [e]; simp
  have e11 : axes 0 1 * axes 0 1 + axes 1 1 * axes 1 1 + axes 2 1 * axes 2 1 = 1 := by
    rw [e]; simp
  have e22 : axes 0 2 * axes 0 2 + axes 1 2 * axes 1 2 + axes 2 2 * axes 2 2 = 1 := by
    rw [e]; simp
  have e01 : axes 0 0 * axes 0 1 + axes 1 0 * axes 1 1 + axes 2 0 * axes 2 1 = 0 := by
    rw [e]; simp
  have e02 : axes 0 0 * axes 0 2 + axes 1 0 * axes 1 2 + axes 2 0 * axes 2 2 = 0 := by
    rw [e]; simp
  have e12 : axes 0 1 * axes 0 2 + axes 1 1 * axes 1 2 + axes 2 1 * axes 2 2 = 0 := by
    rw [e]; simp
  simp only [vdot3]
  linear_combination w 0 ^ 2 * e00 + w 1 ^ 2 * e11 + w 2 ^ 2 * e22 + 2 * w 0 * w 1 * e01
    + 2 * w 0 * w 2 * e02 + 2 * w 1 * w 2 * e12

lemma sum_sq_zero {a b : ℝ} (h : a ^ 2 + b ^ 2 = 0) : a = 0 ∧ b = 0 := by
  constructor
  · exact pow_eq_zero_iff (two_ne_zero) |>.1 (by linarith [sq_nonneg a, sq_nonneg b])
  · exact pow_eq_zero_iff (two_ne_zero) |>.1 (by linarith [sq_nonneg a, sq_nonneg b])

/-- The direction along the drawn line of a plane and the one perpendicular to it, for a rotation of
the drawing with cosine `c` and sine `s`. -/
noncomputable def alongLine (v c s : ℝ) : Vec 3 := ![c * Real.cos v, c * Real.sin v, -s]

noncomputable def offLine (v c s : ℝ) : Vec 3 := ![s * Real.cos v, s * Real.sin v, c]

lemma drawn_eq_section_iff {p : Placement} {k x0 y0 a b : ℝ} (hk : k ≠ 0) (hx : p.x = x0)
    (hy : p.y = y0) :
    Spec.drawnHyperbola p k (-k) a b
        = Spec.shownSection axes l v (fun t => x0 + k * t) (fun t => y0 + -k * t) ↔
      ∀ x y, y ^ 2 / b ^ 2 - x ^ 2 / a ^ 2 = 1 ↔
        x • alongLine v (Real.cos (radians p.angle)) (Real.sin (radians p.angle))
          + y • offLine v (Real.cos (radians p.angle)) (Real.sin (radians p.angle))
            ∈ Spec.ErrorSurface axes l := by
  set c := Real.cos (radians p.angle) with hc
  set s := Real.sin (radians p.angle) with hs
  have hcs : s ^ 2 + c ^ 2 = 1 := Real.sin_sq_add_cos_sq _
  have hv := Real.sin_sq_add_cos_sq v
  have key : ∀ x y, Spec.placed p (x * k, y * -k)
      = Spec.onScreen v (fun t => x0 + k * t) (fun t => y0 + -k * t)
          (x • alongLine v c s + y • offLine v c s) := by
    intro x y
    simp only [Spec.placed, Spec.onScreen, alongLine, offLine, hx, hy, ← hc, ← hs]
    simp
    constructor
    · linear_combination (-k * (x * c + y * s)) * hv
    · ring
  have vec : ∀ x y, x • alongLine v c s + y • offLine v c s
      = ![(x * c + y * s) * Real.cos v, (x * c + y * s) * Real.sin v, -(x * s) + y * c] := by
    intro x y
    funext i
    fin_cases i <;> simp [alongLine, offLine] <;> ring
  have inj : ∀ t z t' z', Spec.onScreen v (fun t => x0 + k * t) (fun t => y0 + -k * t)
      ![t * Real.cos v, t * Real.sin v, z]
        = Spec.onScreen v (fun t => x0 + k * t) (fun t => y0 + -k * t)
      ![t' * Real.cos v, t' * Real.sin v, z'] → t = t' ∧ z = z' := by
    intro t z t' z' h
    simp only [Spec.onScreen, Matrix.cons_val_zero, Matrix.cons_val_one, Matrix.cons_val,
      Prod.mk.injEq] at h
    obtain ⟨h1, h2⟩ := h
    constructor
    · have : k * (t - t') = 0 := by
        linear_combination h1 + k * (t' - t) * hv
      rcases mul_eq_zero.1 this with h | h
      · exact absurd h hk
      · linarith
    · have : k * (z - z') = 0 := by linear_combination -h2
      rcases mul_eq_zero.1 this with h | h
      · exact absurd h hk
      · linarith
  constructor
  · intro h x y
    constructor
    · intro hxy
      have hm : Spec.placed p (x * k, y * -k)
          ∈ Spec.shownSection axes l v (fun t => x0 + k * t) (fun t => y0 + -k * t) := by
        rw [← h]; exact ⟨x, y, hxy, rfl⟩
      obtain ⟨P, ⟨hP, t, z, rfl⟩, hPe⟩ := hm
      rw [key, vec] at hPe
      obtain ⟨e1, e2⟩ := inj _ _ _ _ hPe
      rw [vec, ← e1, ← e2]
      exact hP
    · intro hP
      have hm : Spec.onScreen v (fun t => x0 + k * t) (fun t => y0 + -k * t)
          (x • alongLine v c s + y • offLine v c s) ∈ Spec.drawnHyperbola p k (-k) a b := by
        rw [h]; exact ⟨_, ⟨hP, _, _, vec x y⟩, rfl⟩
      obtain ⟨x', y', hxy, he⟩ := hm
      rw [key, vec, vec] at he
      obtain ⟨e1, e2⟩ := inj _ _ _ _ he
      have ex : x' = x := by linear_combination (x - x') * hcs - c * e1 + s * e2
      have ey : y' = y := by linear_combination (y - y') * hcs - s * e1 - c * e2
      rw [← ex, ← ey]
      exact hxy
  · intro h
    ext q
    constructor
    · rintro ⟨x, y, hxy, rfl⟩
      exact ⟨_, ⟨(h x y).1 hxy, _, _, vec x y⟩, (key x y).symm⟩
    · rintro ⟨P, ⟨hP, t, z, rfl⟩, rfl⟩
      have e : (t * c - z * s) • alongLine v c s + (t * s + z * c) • offLine v c s
          = ![t * Real.cos v, t * Real.sin v, z] := by
        rw [vec]
        have e1 : (t * c - z * s) * c + (t * s + z * c) * s = t := by linear_combination t * hcs
        have e2 : -((t * c - z * s) * s) + (t * s + z * c) * c = z := by linear_combination z * hcs
        rw [e1, e2]
      refine ⟨t * c - z * s, t * s + z * c, (h _ _).2 (by rw [e]; exact hP), ?_⟩
      rw [key, e]

/-- The geometry of the drawing: the rotation of the drawing is along the line of the plane. -/
lemma along_spec {n : Vec 3} (h2 : n 2 ≠ 0) (v k x0 y0 : ℝ) (hk : k ≠ 0) :
    ∃ a, screenAngle n v (fun t => x0 + k * t) (fun t => y0 + -k * t) = some a ∧
      Real.sin (radians a) * n 2 = Real.cos (radians a) * (n 0 * Real.cos v + n 1 * Real.sin v) := by
  obtain ⟨a, h, ha, hh, e1, e2⟩ := screenAngle_spec (n := n) h2 v
    (xs := fun t => x0 + k * t) (ys := fun t => y0 + -k * t) ⟨k, hk, by simp⟩
    ⟨-k, neg_ne_zero.2 hk, by simp⟩
  refine ⟨a, ha, ?_⟩
  have r1 : scaleRatio (fun t => x0 + k * t) = k := by simp [scaleRatio]
  have r2 : scaleRatio (fun t => y0 + -k * t) = -k := by simp [scaleRatio]
  rw [r1] at e1
  rw [r2] at e2
  have e2' : k * (n 0 * Real.cos v + n 1 * Real.sin v) = h * Real.sin (radians a) * n 2 := by
    rw [← e2]; field_simp
  rw [e1] at e2'
  have : h * (Real.sin (radians a) * n 2 - Real.cos (radians a) * (n 0 * Real.cos v + n 1 * Real.sin v))
      = 0 := by linear_combination -e2'
  rcases mul_eq_zero.1 this with h' | h'
  · exact absurd h' hh
  · linarith

lemma surface_iff (c s x y : ℝ) : x • alongLine v c s + y • offLine v c s ∈ Spec.ErrorSurface axes l ↔
    (x * vdot (axes 2) (alongLine v c s) + y * vdot (axes 2) (offLine v c s)) ^ 2 / l 2
      = 1 + (x * vdot (axes 0) (alongLine v c s) + y * vdot (axes 0) (offLine v c s)) ^ 2 / l 0
        + (x * vdot (axes 1) (alongLine v c s) + y * vdot (axes 1) (offLine v c s)) ^ 2 / l 1 := by
  have e : ∀ i, vdot (x • alongLine v c s + y • offLine v c s) (axes i)
      = x * vdot (axes i) (alongLine v c s) + y * vdot (axes i) (offLine v c s) := by
    intro i
    simp only [vdot3, Pi.add_apply, Pi.smul_apply, smul_eq_mul]
    ring
  simp only [Spec.ErrorSurface, Set.mem_ofPred_eq, e]

/-- The drawn hyperbola is the section exactly if the normal is in the section and the error along the
line is the one that is drawn. -/
lemma drawn_section_core (ho : Spec.OrthonormalRows axes) (hl : ∀ i, 0 < l i) {c s A : ℝ}
    (hcs : s ^ 2 + c ^ 2 = 1) (hn : vdot (axes 2) (alongLine v c s) = 0) (hA : 0 < A) :
    (∀ x y, y ^ 2 / Real.sqrt (l 2) ^ 2 - x ^ 2 / (1 / Real.sqrt A) ^ 2 = 1 ↔
        x • alongLine v c s + y • offLine v c s ∈ Spec.ErrorSurface axes l) ↔
      vdot (axes 2) (Spec.across v) = 0 ∧
        vdot (axes 0) (alongLine v c s) ^ 2 / l 0 + vdot (axes 1) (alongLine v c s) ^ 2 / l 1 = A := by
  have l0 := hl 0
  have l1 := hl 1
  have l2 := hl 2
  have hv := Real.sin_sq_add_cos_sq v
  have pf := parseval_rows ho (offLine v c s)
  have pf' : offLine v c s 0 ^ 2 + offLine v c s 1 ^ 2 + offLine v c s 2 ^ 2 = 1 := by
    simp [offLine]; linear_combination s ^ 2 * hv + hcs
  -- the normal in the frame of the section
  have nn : vdot (axes 2) (alongLine v c s) ^ 2 + vdot (axes 2) (offLine v c s) ^ 2
      + vdot (axes 2) (Spec.across v) ^ 2 = 1 := by
    have h := ho 2 2
    simp only [vdot3, if_true] at h
    simp only [vdot3, alongLine, offLine, Spec.across, Matrix.cons_val_zero, Matrix.cons_val_one,
      Matrix.cons_val]
    linear_combination h + (axes 2 0 * Real.cos v + axes 2 1 * Real.sin v) ^ 2 * hcs
      + axes 2 2 ^ 2 * hcs + (axes 2 0 ^ 2 + axes 2 1 ^ 2) * hv
  rw [hn] at nn
  have sA : Real.sqrt A ^ 2 = A := Real.sq_sqrt hA.le
  have s2 : Real.sqrt (l 2) ^ 2 = l 2 := Real.sq_sqrt l2.le
  have hx : ∀ x : ℝ, x ^ 2 / (1 / Real.sqrt A) ^ 2 = A * x ^ 2 := by
    intro x
    rw [div_pow, sA, one_pow]
    field_simp
  simp only [surface_iff, hn, hx, s2, mul_zero, zero_add]
  set ρ := vdot (axes 2) (offLine v c s)
  set α0 := vdot (axes 0) (alongLine v c s)
  set α1 := vdot (axes 1) (alongLine v c s)
  set β0 := vdot (axes 0) (offLine v c s)
  set β1 := vdot (axes 1) (offLine v c s)
  set g := vdot (axes 2) (Spec.across v)
  constructor
  · intro h
    have h1 := (h 0 (Real.sqrt (l 2))).1 (by rw [s2]; field_simp; ring)
    have h1' : ρ ^ 2 = 1 + l 2 * (β0 ^ 2 / l 0 + β1 ^ 2 / l 1) := by
      have : (Real.sqrt (l 2) * ρ) ^ 2 / l 2 = ρ ^ 2 := by rw [mul_pow, s2]; field_simp
      rw [← this, h1]
      simp only [zero_mul, zero_add, mul_pow, s2]
      ring
    have b0 : 0 ≤ β0 ^ 2 / l 0 := by positivity
    have b1 : 0 ≤ β1 ^ 2 / l 1 := by positivity
    have hb : l 2 * (β0 ^ 2 / l 0 + β1 ^ 2 / l 1) ≥ 0 := by positivity
    have hg : g ^ 2 = 0 := by linarith [sq_nonneg g]
    have hg0 : g = 0 := by simpa using hg
    have hρ : ρ ^ 2 = 1 := by linarith
    have hβ : β0 ^ 2 + β1 ^ 2 = 0 := by linarith
    obtain ⟨hβ0, hβ1⟩ := sum_sq_zero hβ
    refine ⟨hg0, ?_⟩
    have h2 := (h (1 / Real.sqrt A) (Real.sqrt (2 * l 2))).1 (by
      rw [Real.sq_sqrt (by positivity), div_pow, sA]; field_simp; norm_num)
    rw [mul_pow, Real.sq_sqrt (by positivity), hρ, hβ0, hβ1] at h2
    simp only [mul_zero, add_zero, mul_pow, div_pow, one_pow, sA] at h2
    have e1 : 2 * l 2 * 1 / l 2 = 2 := by field_simp
    rw [e1] at h2
    have e2 : 1 / A * α0 ^ 2 / l 0 + 1 / A * α1 ^ 2 / l 1 = 1 / A * (α0 ^ 2 / l 0 + α1 ^ 2 / l 1) := by
      ring
    have e3 : 1 / A * (α0 ^ 2 / l 0 + α1 ^ 2 / l 1) = 1 := by rw [← e2]; linarith
    field_simp at e3 ⊢
    linarith
  · rintro ⟨hg, hα⟩ x y
    have hρ : ρ ^ 2 = 1 := by rw [hg] at nn; linarith
    have hβ : β0 ^ 2 + β1 ^ 2 = 0 := by linarith
    obtain ⟨hβ0, hβ1⟩ := sum_sq_zero hβ
    rw [hβ0, hβ1, mul_pow y ρ, hρ, ← hα]
    have e : (x * α0 + y * 0) ^ 2 / l 0 + (x * α1 + y * 0) ^ 2 / l 1
        = (α0 ^ 2 / l 0 + α1 ^ 2 / l 1) * x ^ 2 := by ring
    rw [add_assoc, e, mul_one]
    constructor <;> intro h <;> linarith

/-- The first axis of a plane that is not vertical is not vertical. -/
lemma first_not_vertical (ho : Spec.OrthonormalRows axes) (h2 : axes 2 2 ≠ 0) :
    0 < axes 0 0 ^ 2 + axes 0 1 ^ 2 := by
  by_contra h
  have h0 : axes 0 0 = 0 := by nlinarith [sq_nonneg (axes 0 0), sq_nonneg (axes 0 1)]
  have h1 : axes 0 1 = 0 := by nlinarith [sq_nonneg (axes 0 0), sq_nonneg (axes 0 1)]
  have e := ho 0 0
  have e' := ho 0 2
  simp only [vdot3, h0, h1, if_true] at e e'
  simp at e e'
  rcases e' with e' | e'
  · rw [e'] at e; simp at e
  · exact h2 e'

lemma planeAngle_some (ho : Spec.OrthonormalRows axes) (h2 : axes 2 2 ≠ 0) (v : ℝ) :
    planeAngle axes v = some (v - Real.arccos (axes 0 0 / Real.sqrt (axes 0 0 ^ 2 + axes 0 1 ^ 2))) := by
  have hp := first_not_vertical ho h2
  have n1 : Attitude.norm (![axes 0 0, axes 0 1, 0] : Vec 3) = Real.sqrt (axes 0 0 ^ 2 + axes 0 1 ^ 2) := by
    rw [norm3]; simp
  have n2 : Attitude.norm (![1, 0, 0] : Vec 3) = 1 := by rw [norm3]; simp
  have hne : Real.sqrt (axes 0 0 ^ 2 + axes 0 1 ^ 2) ≠ 0 := (Real.sqrt_pos.2 hp).ne'
  simp only [planeAngle, n1, n2, mul_one, fdiv, if_neg hne, vdot3]
  simp

lemma width_pos (hl : ∀ i, 0 < l i) (a1 : ℝ) :
    0 < Real.cos a1 ^ 2 / l 0 + Real.sin a1 ^ 2 / l 1 := by
  have l0 := hl 0
  have l1 := hl 1
  rcases eq_or_ne (Real.cos a1) 0 with h | h
  · have : Real.sin a1 ^ 2 = 1 := by
      have := Real.sin_sq_add_cos_sq a1; rw [h] at this; linarith
    rw [h, this]; positivity
  · positivity

/-- What is drawn, and when it is the section, in terms of the angle of the plane. -/
lemma drawn_iff (ho : Spec.OrthonormalRows axes) (h2 : axes 2 2 ≠ 0) (hl : ∀ i, 0 < l i)
    (v k x0 y0 : ℝ) (hk : k ≠ 0) : ∃ p a b c s a1,
      hyperbolaPlacement v 1 (fun t => x0 + k * t) (fun t => y0 + -k * t) (axes 2) 0 = some p ∧
      semiAxes v 1 axes l = some (a, b) ∧ 0 < a ∧ 0 < b ∧
      s ^ 2 + c ^ 2 = 1 ∧ s * axes 2 2 = c * (axes 2 0 * Real.cos v + axes 2 1 * Real.sin v) ∧
      a1 = v - Real.arccos (axes 0 0 / Real.sqrt (axes 0 0 ^ 2 + axes 0 1 ^ 2)) ∧
      (Spec.drawnHyperbola p k (-k) a b
          = Spec.shownSection axes l v (fun t => x0 + k * t) (fun t => y0 + -k * t) ↔
        vdot (axes 2) (Spec.across v) = 0 ∧
          vdot (axes 0) (alongLine v c s) ^ 2 / l 0 + vdot (axes 1) (alongLine v c s) ^ 2 / l 1
            = Real.cos a1 ^ 2 / l 0 + Real.sin a1 ^ 2 / l 1) := by
  obtain ⟨ang, hang, hline⟩ := along_spec (n := axes 2) h2 v k x0 y0 hk
  have ha := planeAngle_some ho h2 v
  have hA := width_pos hl (v - Real.arccos (axes 0 0 / Real.sqrt (axes 0 0 ^ 2 + axes 0 1 ^ 2)))
  refine ⟨⟨x0, y0, ang⟩, _, _, Real.cos (radians ang), Real.sin (radians ang), _, ?_,
    semiAxes_eq ha hl, by positivity, Real.sqrt_pos.2 (hl 2), Real.sin_sq_add_cos_sq _, hline, rfl, ?_⟩
  · simp only [hyperbolaPlacement, hang]
    simp
  · rw [drawn_eq_section_iff hk rfl rfl]
    refine drawn_section_core ho hl (Real.sin_sq_add_cos_sq _) ?_ hA
    simp only [vdot3, alongLine, Matrix.cons_val_zero, Matrix.cons_val_one, Matrix.cons_val]
    linear_combination -hline

end

/-- In a section that is not along the dip of the plane the hyperbola drawn never is the section of
the error surface, whatever the errors. -/
theorem C121_oblique_false (axes : Mat 3 3) (ho : Spec.OrthonormalRows axes) (h2 : axes 2 2 ≠ 0)
    (l : Vec 3) (hl : ∀ i, 0 < l i) (v k x0 y0 : ℝ) (hk : k ≠ 0)
    (hv : vdot (axes 2) (Spec.across v) ≠ 0) : ∃ p a b,
      hyperbolaPlacement v 1 (fun t => x0 + k * t) (fun t => y0 + -k * t) (axes 2) 0 = some p ∧
      semiAxes v 1 axes l = some (a, b) ∧
      Spec.drawnHyperbola p k (-k) a b
        ≠ Spec.shownSection axes l v (fun t => x0 + k * t) (fun t => y0 + -k * t) := by
  obtain ⟨p, a, b, c, s, a1, hp, hs, _, _, _, _, _, hiff⟩ := drawn_iff ho h2 hl v k x0 y0 hk
  exact ⟨p, a, b, hp, hs, fun h => hv (hiff.1 h).1⟩

/-- The plane of `dippingAxes`, seen along its strike. -/
example : vdot (dippingAxes 2) (Spec.across 0) ≠ 0 := by
  rw [vdot3]; simp [dippingAxes, Spec.across]

/-- For a tilted plane whose first axis points to the north side, drawn without exaggeration, the
hyperbola is the section of the error surface exactly if the section is along the dip and the first
axis is along strike (horizontal) or along the dip, or the two errors in the plane are equal. -/
theorem C121_tilted_iff_partial (axes : Mat 3 3) (ho : Spec.OrthonormalRows axes) (h2 : axes 2 2 ≠ 0)
    (ht : axes 2 2 ^ 2 ≠ 1) (hy : 0 ≤ axes 0 1) (l : Vec 3) (hl : ∀ i, 0 < l i) (v k x0 y0 : ℝ)
    (hk : k ≠ 0) : ∃ p a b,
      hyperbolaPlacement v 1 (fun t => x0 + k * t) (fun t => y0 + -k * t) (axes 2) 0 = some p ∧
      semiAxes v 1 axes l = some (a, b) ∧ 0 < a ∧ 0 < b ∧
      (Spec.drawnHyperbola p k (-k) a b
          = Spec.shownSection axes l v (fun t => x0 + k * t) (fun t => y0 + -k * t) ↔
        vdot (axes 2) (Spec.across v) = 0 ∧
          (l 0 = l 1 ∨ axes 0 2 = 0 ∨ vdot (axes 0) (Spec.across v) = 0)) := by
  obtain ⟨p, a, b, c, s, a1, hp, hs, hpa, hpb, hcs, hline, ha1, hiff⟩ := drawn_iff ho h2 hl v k x0 y0 hk
  refine ⟨p, a, b, hp, hs, hpa, hpb, hiff.trans ?_⟩
  apply and_congr_right
  intro hg
  have l0 := hl 0
  have l1 := hl 1
  have hv := Real.sin_sq_add_cos_sq v
  have hN := first_not_vertical ho h2
  set N := Real.sqrt (axes 0 0 ^ 2 + axes 0 1 ^ 2) with hNdef
  have hNp : 0 < N := Real.sqrt_pos.2 hN
  have hN2 : N ^ 2 = axes 0 0 ^ 2 + axes 0 1 ^ 2 := Real.sq_sqrt hN.le
  have hbound : |axes 0 0 / N| ≤ 1 := by
    rw [abs_div, abs_of_pos hNp, div_le_one hNp]
    apply abs_le_of_sq_le_sq _ hNp.le
    nlinarith [sq_nonneg (axes 0 1)]
  have hcos : Real.cos (Real.arccos (axes 0 0 / N)) = axes 0 0 / N :=
    Real.cos_arccos (abs_le.1 hbound).1 (abs_le.1 hbound).2
  have hsin : Real.sin (Real.arccos (axes 0 0 / N)) = axes 0 1 / N := by
    rw [Real.sin_arccos, show 1 - (axes 0 0 / N) ^ 2 = (axes 0 1 / N) ^ 2 by
      field_simp; linarith, Real.sqrt_sq (by positivity)]
  have hC : Real.cos a1 * N = axes 0 0 * Real.cos v + axes 0 1 * Real.sin v := by
    rw [ha1, Real.cos_sub, hcos, hsin]; field_simp
  have hS : Real.sin a1 ^ 2 = 1 - Real.cos a1 ^ 2 := by
    linarith [Real.sin_sq_add_cos_sq a1]
  -- components in the frame along the line, off the line and across
  have hα2 : vdot (axes 2) (alongLine v c s) = 0 := by
    simp only [vdot3, alongLine, Matrix.cons_val_zero, Matrix.cons_val_one, Matrix.cons_val]
    linear_combination -hline
  have pe := parseval_rows ho (alongLine v c s)
  have pe' : alongLine v c s 0 ^ 2 + alongLine v c s 1 ^ 2 + alongLine v c s 2 ^ 2 = 1 := by
    simp [alongLine]; linear_combination c ^ 2 * hv + hcs
  have pf := parseval_rows ho (offLine v c s)
  have pf' : offLine v c s 0 ^ 2 + offLine v c s 1 ^ 2 + offLine v c s 2 ^ 2 = 1 := by
    simp [offLine]; linear_combination s ^ 2 * hv + hcs
  have frame : ∀ i, vdot (axes i) (alongLine v c s) ^ 2 + vdot (axes i) (offLine v c s) ^ 2
      + vdot (axes i) (Spec.across v) ^ 2 = 1 := by
    intro i
    have h := ho i i
    simp only [vdot3, if_true] at h
    simp only [vdot3, alongLine, offLine, Spec.across, Matrix.cons_val_zero, Matrix.cons_val_one,
      Matrix.cons_val]
    linear_combination h + (axes i 0 * Real.cos v + axes i 1 * Real.sin v) ^ 2 * hcs
      + axes i 2 ^ 2 * hcs + (axes i 0 ^ 2 + axes i 1 ^ 2) * hv
  have hρ : vdot (axes 2) (offLine v c s) ^ 2 = 1 := by
    have := frame 2; rw [hα2, hg] at this; linarith
  have hβ0 : vdot (axes 0) (offLine v c s) = 0 := 
    (sum_sq_zero (b := vdot (axes 1) (offLine v c s)) (by linarith)).1
  have hα : vdot (axes 1) (alongLine v c s) ^ 2 = 1 - vdot (axes 0) (alongLine v c s) ^ 2 := by
    rw [hα2] at pe; linarith
  have hγ := frame 0
  rw [hβ0] at hγ
  -- horizontal and vertical component of the first axis
  have hH : axes 0 0 * Real.cos v + axes 0 1 * Real.sin v = c * vdot (axes 0) (alongLine v c s) := by
    have : axes 0 0 * Real.cos v + axes 0 1 * Real.sin v
        = c * vdot (axes 0) (alongLine v c s) + s * vdot (axes 0) (offLine v c s) := by
      simp only [vdot3, alongLine, offLine, Matrix.cons_val_zero, Matrix.cons_val_one, Matrix.cons_val]
      linear_combination -(axes 0 0 * Real.cos v + axes 0 1 * Real.sin v) * hcs
    rw [this, hβ0]; ring
  have hZ : axes 0 2 = -s * vdot (axes 0) (alongLine v c s) := by
    have : axes 0 2 = -s * vdot (axes 0) (alongLine v c s) + c * vdot (axes 0) (offLine v c s) := by
      simp only [vdot3, alongLine, offLine, Matrix.cons_val_zero, Matrix.cons_val_one, Matrix.cons_val]
      linear_combination -(axes 0 2) * hcs
    rw [this, hβ0]; ring
  have hNN : N ^ 2 = (c * vdot (axes 0) (alongLine v c s)) ^ 2 + vdot (axes 0) (Spec.across v) ^ 2 := by
    rw [hN2, ← hH]
    simp only [vdot3, Spec.across, Matrix.cons_val_zero, Matrix.cons_val_one, Matrix.cons_val]
    linear_combination -(axes 0 0 ^ 2 + axes 0 1 ^ 2) * hv
  have hs0 : s ≠ 0 := by
    intro h
    have hc1 : c ^ 2 = 1 := by rw [h] at hcs; linarith
    have hc0 : c ≠ 0 := by intro h'; rw [h'] at hc1; norm_num at hc1
    have hm : axes 2 0 * Real.cos v + axes 2 1 * Real.sin v = 0 := by
      rw [h, zero_mul] at hline
      rcases mul_eq_zero.1 hline.symm with h' | h'
      · exact absurd h' hc0
      · exact h'
    have hg' : -(axes 2 0 * Real.sin v) + axes 2 1 * Real.cos v = 0 := by
      have := hg
      simp only [vdot3, Spec.across, Matrix.cons_val_zero, Matrix.cons_val_one, Matrix.cons_val] at this
      linarith
    have hnn := ho 2 2
    simp only [vdot3, if_true] at hnn
    apply ht
    have e : axes 2 0 ^ 2 + axes 2 1 ^ 2 = (axes 2 0 * Real.cos v + axes 2 1 * Real.sin v) ^ 2
        + (-(axes 2 0 * Real.sin v) + axes 2 1 * Real.cos v) ^ 2 := by
      linear_combination -(axes 2 0 ^ 2 + axes 2 1 ^ 2) * hv
    rw [hm, hg'] at e
    linarith
  have hC2 : Real.cos a1 ^ 2 * N ^ 2 = (c * vdot (axes 0) (alongLine v c s)) ^ 2 := by
    rw [← hH, ← hC]; ring
  rw [hα, hS]
  set α := vdot (axes 0) (alongLine v c s)
  set γ := vdot (axes 0) (Spec.across v)
  set C := Real.cos a1
  have hN0 : N ^ 2 ≠ 0 := by positivity
  have step : α ^ 2 / l 0 + (1 - α ^ 2) / l 1 = C ^ 2 / l 0 + (1 - C ^ 2) / l 1 ↔
      (α ^ 2 - C ^ 2) * (l 1 - l 0) = 0 := by
    rw [div_add_div _ _ l0.ne' l1.ne', div_add_div _ _ l0.ne' l1.ne', div_left_inj' (by positivity)]
    constructor <;> intro h <;> linarith
  have fact : (α ^ 2 - C ^ 2) * N ^ 2 = α ^ 2 * γ ^ 2 * s ^ 2 := by
    have h1 : (α ^ 2 - C ^ 2) * N ^ 2 = α ^ 2 * N ^ 2 - (c * α) ^ 2 := by rw [← hC2]; ring
    rw [h1, hNN]
    have e1 : c ^ 2 = 1 - s ^ 2 := by linarith
    have e2 : α ^ 2 = 1 - γ ^ 2 := by linarith
    have : α ^ 2 * ((c * α) ^ 2 + γ ^ 2) - (c * α) ^ 2 = α ^ 2 * (c ^ 2 * (α ^ 2 - 1) + γ ^ 2) := by ring
    rw [this]
    have : c ^ 2 * (α ^ 2 - 1) + γ ^ 2 = γ ^ 2 * s ^ 2 := by rw [e1, e2]; ring
    rw [this]; ring
  rw [step, mul_eq_zero, sub_eq_zero (a := l 1), or_comm, eq_comm (a := l 1)]
  apply or_congr_right
  have : α ^ 2 - C ^ 2 = 0 ↔ α ^ 2 * γ ^ 2 * s ^ 2 = 0 := by
    rw [← fact]; constructor
    · intro h; rw [h]; ring
    · intro h
      rcases mul_eq_zero.1 h with h | h
      · exact h
      · exact absurd h hN0
  rw [this, hZ]
  simp [hs0]

/-- The plane of `dippingAxes` in the section along its dip: here the hyperbola is right, whatever the
errors. -/
example : ∃ p a b,
    hyperbolaPlacement (Real.pi / 2) 1 (fun t => 325 + 2 * t) (fun t => 130 + -2 * t) (dippingAxes 2) 0
      = some p ∧ semiAxes (Real.pi / 2) 1 dippingAxes ![9, 4, 1] = some (a, b) ∧
      Spec.drawnHyperbola p 2 (-2) a b
        = Spec.shownSection dippingAxes ![9, 4, 1] (Real.pi / 2) (fun t => 325 + 2 * t)
            (fun t => 130 + -2 * t) := by
  obtain ⟨p, a, b, h1, h2, _, _, h⟩ := C121_tilted_iff_partial dippingAxes dipping_orthonormal
    (by simp [dippingAxes]) (by simp [dippingAxes]; norm_num) (by simp [dippingAxes]) ![9, 4, 1]
    (fun i => by fin_cases i <;> simp) (Real.pi / 2) 2 325 130 (by norm_num)
  refine ⟨p, a, b, h1, h2, h.2 ⟨?_, Or.inr (Or.inl ?_)⟩⟩
  · rw [vdot3]; simp [dippingAxes, Spec.across]
  · simp [dippingAxes]

end Attitude.Props
