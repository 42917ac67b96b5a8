import Verif.Model.Num

/-! Helper facts about `arctan2`, `norm`, `degrees`. -/

namespace Attitude

lemma sqrt_mul_cos_arctan2 (y x : ℝ) :
    Real.sqrt (x ^ 2 + y ^ 2) * Real.cos (arctan2 y x) = x := by
  have hn : ‖(⟨x, y⟩ : ℂ)‖ = Real.sqrt (x ^ 2 + y ^ 2) := by
    rw [Complex.norm_def, Complex.normSq_mk]; ring_nf
  have := Complex.norm_mul_cos_arg (⟨x, y⟩ : ℂ)
  rw [hn] at this
  exact this

lemma sqrt_mul_sin_arctan2 (y x : ℝ) :
    Real.sqrt (x ^ 2 + y ^ 2) * Real.sin (arctan2 y x) = y := by
  have hn : ‖(⟨x, y⟩ : ℂ)‖ = Real.sqrt (x ^ 2 + y ^ 2) := by
    rw [Complex.norm_def, Complex.normSq_mk]; ring_nf
  have := Complex.norm_mul_sin_arg (⟨x, y⟩ : ℂ)
  rw [hn] at this
  exact this

lemma arctan2_le_pi (y x : ℝ) : arctan2 y x ≤ Real.pi := Complex.arg_le_pi _

lemma neg_pi_lt_arctan2 (y x : ℝ) : -Real.pi < arctan2 y x := Complex.neg_pi_lt_arg _

lemma arctan2_of_polar {r θ : ℝ} (hr : 0 < r) (h1 : -Real.pi < θ) (h2 : θ ≤ Real.pi) :
    arctan2 (r * Real.sin θ) (r * Real.cos θ) = θ := by
  have h := Complex.arg_mul_cos_add_sin_mul_I hr (Set.mem_Ioc.2 ⟨h1, h2⟩)
  have e : ((r : ℂ) * (Complex.cos θ + Complex.sin θ * Complex.I))
      = ⟨r * Real.cos θ, r * Real.sin θ⟩ := by
    apply Complex.ext
    · simp [← Complex.ofReal_cos, ← Complex.ofReal_sin]
    · simp [← Complex.ofReal_cos, ← Complex.ofReal_sin]
  rw [e] at h
  exact h

lemma arctan2_smul {r : ℝ} (hr : 0 < r) (y x : ℝ) : arctan2 (r * y) (r * x) = arctan2 y x := by
  have h := Complex.arg_real_mul (⟨x, y⟩ : ℂ) hr
  have e : ((r : ℂ) * ⟨x, y⟩) = ⟨r * x, r * y⟩ := by
    apply Complex.ext <;> simp
  rw [e] at h
  exact h

@[simp] lemma arctan2_zero_zero : arctan2 0 0 = 0 := by
  have : (⟨0, 0⟩ : ℂ) = 0 := rfl
  simp [arctan2, this]

lemma norm_nonneg' {n : ℕ} (v : Vec n) : 0 ≤ norm v := Real.sqrt_nonneg _

lemma norm_sq' {n : ℕ} (v : Vec n) : norm v ^ 2 = ∑ i, v i ^ 2 :=
  Real.sq_sqrt (Finset.sum_nonneg fun _ _ => sq_nonneg _)

lemma norm_eq_zero_iff {n : ℕ} (v : Vec n) : norm v = 0 ↔ v = 0 := by
  constructor
  · intro h
    have h2 := norm_sq' v
    rw [h] at h2
    have h3 : ∑ i, v i ^ 2 = 0 := by rw [← h2]; norm_num
    rw [Finset.sum_eq_zero_iff_of_nonneg (fun _ _ => sq_nonneg _)] at h3
    funext i
    simpa using h3 i (Finset.mem_univ i)
  · rintro rfl
    simp [norm]

lemma norm_pos_iff' {n : ℕ} (v : Vec n) : 0 < norm v ↔ v ≠ 0 := by
  rw [lt_iff_le_and_ne]
  constructor
  · rintro ⟨_, h⟩ rfl
    exact h ((norm_eq_zero_iff _).2 rfl).symm
  · intro h
    exact ⟨norm_nonneg' v, fun e => h ((norm_eq_zero_iff v).1 e.symm)⟩

lemma norm3 (v : Vec 3) : norm v = Real.sqrt (v 0 ^ 2 + v 1 ^ 2 + v 2 ^ 2) := by
  simp [norm, Fin.sum_univ_three]

lemma vdot3 (v w : Vec 3) : vdot v w = v 0 * w 0 + v 1 * w 1 + v 2 * w 2 := by
  simp [vdot, Fin.sum_univ_three]

lemma degrees_radians (x : ℝ) : degrees (radians x) = x := by
  unfold degrees radians; field_simp

lemma radians_degrees (x : ℝ) : radians (degrees x) = x := by
  unfold degrees radians; field_simp

lemma degrees_sub (x y : ℝ) : degrees (x - y) = degrees x - degrees y := by
  unfold degrees; ring

lemma degrees_pi : degrees Real.pi = 180 := by unfold degrees; field_simp

lemma degrees_lt {x y : ℝ} : degrees x < degrees y ↔ x < y := by
  unfold degrees
  rw [div_lt_div_iff_of_pos_right Real.pi_pos]
  constructor <;> intro h <;> linarith

lemma degrees_le {x y : ℝ} : degrees x ≤ degrees y ↔ x ≤ y := by
  unfold degrees
  rw [div_le_div_iff_of_pos_right Real.pi_pos]
  constructor <;> intro h <;> linarith

end Attitude
