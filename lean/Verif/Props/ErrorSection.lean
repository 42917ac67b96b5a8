import Verif.Props.ErrorShapes

/-! # For which viewing planes the error curve is the section of the error surface: C91 -/

namespace Attitude.Props

open Attitude Hyperbola Matrix

/-- The weights of a hyperbola that is on the surface on both sides. -/
lemma section_forced {h u v : Vec 3} (hh : ∀ i, 0 < h i) {y : ℝ → ℝ}
    (hv : 0 < ∑ k, v k ^ 2 / h k)
    (hy : ∀ x, 0 < y x ∧ y x ^ 2 * (∑ k, v k ^ 2 / h k) - x ^ 2 * (∑ k, u k ^ 2 / h k) = 1)
    {x : ℝ} (hx : x ≠ 0) (h0 : Spec.OnErrorSurface h (y 0 • v))
    (hp : Spec.OnErrorSurface h (x • u + y x • v)) (hm : Spec.OnErrorSurface h (x • u - y x • v)) :
    u 2 = 0 ∧ v 0 = 0 ∧ v 1 = 0 := by
  have a0 := hh 0
  have a1 := hh 1
  have a2 := hh 2
  obtain ⟨y0, e0⟩ := hy 0
  obtain ⟨yx, -⟩ := hy x
  unfold Spec.OnErrorSurface at h0 hp hm
  simp only [Pi.add_apply, Pi.sub_apply, Pi.smul_apply, smul_eq_mul] at h0 hp hm
  rw [Fin.sum_univ_three] at hv e0
  rw [Fin.sum_univ_three] at e0
  have n0 : 0 ≤ v 0 ^ 2 / h 0 := by positivity
  have n1 : 0 ≤ v 1 ^ 2 / h 1 := by positivity
  have hz : y 0 ^ 2 * (v 0 ^ 2 / h 0 + v 1 ^ 2 / h 1) = 0 := by
    have : y 0 ^ 2 * (v 2 ^ 2 / h 2 - v 0 ^ 2 / h 0 - v 1 ^ 2 / h 1) = 1 := by
      rw [← h0]; ring
    linarith
  have hs : v 0 ^ 2 / h 0 + v 1 ^ 2 / h 1 = 0 :=
    (mul_eq_zero.1 hz).resolve_left (by positivity)
  have z0 : v 0 = 0 := by
    have : v 0 ^ 2 / h 0 = 0 := by linarith
    rcases div_eq_zero_iff.1 this with k | k
    · exact pow_eq_zero_iff (by norm_num) |>.1 k
    · exact absurd k a0.ne'
  have z1 : v 1 = 0 := by
    have : v 1 ^ 2 / h 1 = 0 := by linarith
    rcases div_eq_zero_iff.1 this with k | k
    · exact pow_eq_zero_iff (by norm_num) |>.1 k
    · exact absurd k a1.ne'
  refine ⟨?_, z0, z1⟩
  have hv2 : v 2 ≠ 0 := by
    intro k
    rw [z0, z1, k] at hv
    simp at hv
  rw [z0, z1] at hp hm
  have hB : 4 * (x * y x * (u 2 * v 2)) / h 2 = 0 := by
    have := sub_eq_zero.2 (hp.trans hm.symm)
    rw [← this]
    ring
  rcases div_eq_zero_iff.1 hB with k | k
  · have k' : x * y x * (u 2 * v 2) = 0 := by linarith
    have : u 2 * v 2 = 0 := (mul_eq_zero.1 k').resolve_left (mul_ne_zero hx yx.ne')
    exact (mul_eq_zero.1 this).resolve_right hv2
  · exact absurd k a2.ne'

/-- The curves are the section of the error surface by the viewing plane exactly if, after the
transformation, the first viewing axis is in the plane of the fit and the second one normal to it;
the centre and one other place of the two curves decide that.  So for no tilted or oblique view are
they the section. -/
theorem C91_section_iff_partial (h : Vec 3) (hh : ∀ i, 0 < h i) (T : Mat 3 3) (hT : T.det ≠ 0)
    (ax : Vec 3 × Vec 3) (hax : cross ax.1 ax.2 ≠ 0) (xs : List ℝ) (x₀ : ℝ) (hx₀ : x₀ ≠ 0) :
    ∃ b e f, ∃ y : ℝ → ℝ, hyperbolicErrors h xs T (some ax) = .ok (some b) ∧ Spec.Frame e f ∧
      b.bottom = xs.map (fun x => x • e - y x • f) ∧
      b.top.reverse = xs.map (fun x => x • e + y x • f) ∧
      ((∀ x ∈ [0, x₀], Spec.OnErrorSurface h (T *ᵥ (x • ax.1 + y x • ax.2)) ∧
          Spec.OnErrorSurface h (T *ᵥ (x • ax.1 - y x • ax.2))) ↔
        (T *ᵥ ax.1) 2 = 0 ∧ (T *ᵥ ax.2) 0 = 0 ∧ (T *ᵥ ax.2) 1 = 0) ∧
      ((T *ᵥ ax.1) 2 = 0 ∧ (T *ᵥ ax.2) 0 = 0 ∧ (T *ᵥ ax.2) 1 = 0 →
        ∀ x, Spec.OnErrorSurface h (T *ᵥ (x • ax.1 + y x • ax.2)) ∧
          Spec.OnErrorSurface h (T *ᵥ (x • ax.1 - y x • ax.2))) := by
  obtain ⟨b, e, f, y, hb, hF, w1, w2, hy, -, hl, hu⟩ :=
    C71_hyperbolic_errors h hh T hT ax hax xs 0 false
  have W1 : Spec.weight h T ax.1 = ∑ k, (T *ᵥ ax.1) k ^ 2 / h k := rfl
  have W2 : Spec.weight h T ax.2 = ∑ k, (T *ᵥ ax.2) k ^ 2 / h k := rfl
  have hy' : ∀ x, 0 < y x ∧ y x ^ 2 * (∑ k, (T *ᵥ ax.2) k ^ 2 / h k)
      - x ^ 2 * (∑ k, (T *ᵥ ax.1) k ^ 2 / h k) = 1 := by
    intro x
    obtain ⟨hp, hq⟩ := hy x
    refine ⟨hp, ?_⟩
    rw [div_pow, div_pow, Real.sq_sqrt w1.le, Real.sq_sqrt w2.le, one_pow,
      div_div_eq_mul_div, div_div_eq_mul_div, div_one, div_one] at hq
    rw [← W1, ← W2]
    exact hq
  have back : (T *ᵥ ax.1) 2 = 0 ∧ (T *ᵥ ax.2) 0 = 0 ∧ (T *ᵥ ax.2) 1 = 0 →
      ∀ x, Spec.OnErrorSurface h (T *ᵥ (x • ax.1 + y x • ax.2)) ∧
        Spec.OnErrorSurface h (T *ᵥ (x • ax.1 - y x • ax.2)) := by
    rintro ⟨h1, h2, h3⟩ x
    have hq := (hy' x).2
    rw [Fin.sum_univ_three, Fin.sum_univ_three, h1, h2, h3] at hq
    unfold Spec.OnErrorSurface
    rw [Matrix.mulVec_add, Matrix.mulVec_sub, Matrix.mulVec_smul, Matrix.mulVec_smul]
    simp only [Pi.add_apply, Pi.sub_apply, Pi.smul_apply, smul_eq_mul, h1, h2, h3]
    constructor <;> rw [← hq] <;> ring
  refine ⟨b, e, f, y, hb, hF, by simpa using hl, by simpa using hu, ⟨fun hx => ?_, fun hz x _ => back hz x⟩,
    back⟩
  have k0 := (hx 0 (by simp)).1
  have k1 := hx x₀ (by simp)
  rw [zero_smul, zero_add, Matrix.mulVec_smul] at k0
  rw [Matrix.mulVec_add, Matrix.mulVec_sub, Matrix.mulVec_smul, Matrix.mulVec_smul] at k1
  exact section_forced hh (W2 ▸ w2) hy' hx₀ k0 k1.1 k1.2

/-- A view along a tilted axis, for which the curves are not the section. -/
example : ∃ b e f, ∃ y : ℝ → ℝ,
    hyperbolicErrors ![9, 4, 1] [0, 1] 1 (some (![1, 0, 1], ![0, 0, 1])) = .ok (some b) ∧
    Spec.Frame e f ∧ b.bottom = [0, 1].map (fun x => x • e - y x • f) ∧
    ¬ ∀ x ∈ [(0 : ℝ), 1],
      Spec.OnErrorSurface ![9, 4, 1] ((1 : Mat 3 3) *ᵥ (x • ![1, 0, 1] + y x • ![0, 0, 1])) ∧
      Spec.OnErrorSurface ![9, 4, 1] ((1 : Mat 3 3) *ᵥ (x • ![1, 0, 1] - y x • ![0, 0, 1])) := by
  obtain ⟨b, e, f, y, hb, hF, hl, -, hi, -⟩ := C91_section_iff_partial ![9, 4, 1]
    (by intro i; fin_cases i <;> norm_num) 1 (by simp) (![1, 0, 1], ![0, 0, 1])
    (by intro h; have := congrFun h 1; simp [cross] at this) [0, 1] 1 one_ne_zero
  refine ⟨b, e, f, y, hb, hF, hl, fun h => ?_⟩
  have := (hi.1 h).1
  simp at this

end Attitude.Props
