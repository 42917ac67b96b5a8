import Verif.Props.Conics
import Verif.Lemmas.Arctan2

/-! # Slices, axes and planes: C55, C58 - C63 -/

namespace Attitude.Props

open Attitude Conics Matrix

variable {d : ℕ}

/-! ## C61 -/

lemma norm_ne_zero_iff' {k : ℕ} (v : Vec k) : norm v ≠ 0 ↔ v ≠ 0 := not_congr (norm_eq_zero_iff v)

/-- In three dimensions the result is a non-zero vector perpendicular to the
argument; the zero vector, and only it, raises `ValueError`.  Every other number
of dimensions except 2 raises as well. -/
theorem C61_three_dimensions_partial (n : Vec 3) :
    (n ≠ 0 → ∃ v, perpendicularVector 3 n = .ok v ∧ v ≠ 0 ∧ vdot n v = 0) ∧
    (n = 0 → perpendicularVector 3 n = .error .valueError) ∧
    (∀ (k : ℕ) (m : Vec k), k ≠ 2 → k ≠ 3 → perpendicularVector k m = .error .valueError) := by
  refine ⟨fun hn => ?_, ?_, ?_⟩
  · simp only [perpendicularVector, perpendicular3, norm_ne_zero_iff']
    split_ifs with h1 h2 h3
    · exact ⟨_, rfl, h1, by rw [vdot3]; simp [cross]; ring⟩
    · exact ⟨_, rfl, h2, by rw [vdot3]; simp [cross]; ring⟩
    · exact ⟨_, rfl, h3, by rw [vdot3]; simp [cross]; ring⟩
    · exfalso
      push Not at h1 h2
      apply hn
      have a0 := congrFun h1 0
      have a1 := congrFun h1 1
      have b0 := congrFun h2 0
      simp [cross] at a0 a1 b0
      funext i
      fin_cases i
      · exact a1
      · exact a0
      · exact b0
  · rintro rfl
    have h : ∀ w, norm (cross 0 w) = 0 := by
      intro w
      rw [norm_eq_zero_iff]
      funext i
      fin_cases i <;> simp [cross]
    simp [perpendicularVector, perpendicular3, h]
  · intro k m h2 h3
    match k, h2, h3 with
    | 0, _, _ => rfl
    | 1, _, _ => rfl
    | (k + 4), _, _ => rfl

example : ∃ v, perpendicularVector 3 ![1, 2, 3] = .ok v ∧ v ≠ 0 ∧ vdot ![1, 2, 3] v = 0 :=
  (C61_three_dimensions_partial ![1, 2, 3]).1 (fun h => by simpa using congrFun h 0)

/-- In two dimensions the result is the reversed vector, which is perpendicular
only to vectors along an axis. -/
theorem C61_two_dimensions_false (n : Vec 2) :
    ∃ v, perpendicularVector 2 n = .ok v ∧ (vdot n v = 0 ↔ n 0 = 0 ∨ n 1 = 0) := by
  refine ⟨_, rfl, ?_⟩
  simp [vdot, Fin.sum_univ_two]
  constructor
  · intro h
    exact mul_eq_zero.1 (by linarith)
  · rintro (h | h) <;> simp [h]

/-- For instance `(1, 1)` is returned as a vector "perpendicular" to itself. -/
example : ∃ v, perpendicularVector 2 ![1, 1] = .ok v ∧ vdot ![1, 1] v ≠ 0 := by
  obtain ⟨v, h1, h2⟩ := C61_two_dimensions_false ![1, 1]
  exact ⟨v, h1, fun h => by simpa using h2.1 h⟩

/-! ## C62 -/

/-- The normal part of a plane. -/
def Spec.normalPart (p : Vec (d + 1)) : Vec d := fun i => p i.castSucc

/-- For every plane with non-zero normal, in any dimension: the Hessian normal
form has a unit normal, describes the same points and is its own Hessian normal
form; `offset` is a point of the plane, strictly closer to the origin than every
other one, at the distance stored in the last component. -/
theorem C62_hessian_normal (p : Vec (d + 1)) (hp : Spec.normalPart p ≠ 0) :
    ∃ h o n, hessianNormal p = some h ∧ planeOffset p = some o ∧ planeNormal p = some n ∧
      n = Spec.normalPart h ∧ norm n = 1 ∧ (∃ t : ℝ, 0 < t ∧ n = t • Spec.normalPart p) ∧
      Spec.PlanePoints h = Spec.PlanePoints p ∧
      hessianNormal h = some h ∧ o ∈ Spec.PlanePoints p ∧
      (∀ x ∈ Spec.PlanePoints p, x ≠ o → norm o < norm x) ∧ |h (Fin.last d)| = norm o := by
  have hN : 0 < norm (Spec.normalPart p) := (norm_pos_iff' _).2 hp
  have hN' : norm (fun i : Fin d => p i.castSucc) ≠ 0 := hN.ne'
  set N := norm (Spec.normalPart p) with hNdef
  have hess : hessianNormal p = some (fun i => p i / N) := by
    rw [hessianNormal, vdivOpt, if_neg hN']
    rfl
  set h : Vec (d + 1) := fun i => p i / N with hh
  have hsq : ∑ i : Fin d, (h i.castSucc) ^ 2 = 1 := by
    have := norm_sq' (Spec.normalPart p)
    rw [← hNdef] at this
    simp only [hh, div_pow, ← Finset.sum_div]
    rw [div_eq_one_iff_eq (by positivity), this]
    rfl
  have hunit : norm (fun i : Fin d => h i.castSucc) = 1 := by
    rw [norm, hsq, Real.sqrt_one]
  have hpts : Spec.PlanePoints h = Spec.PlanePoints p := by
    ext x
    simp only [Spec.PlanePoints, Set.mem_ofPred_eq, hh]
    have e : ∑ i : Fin d, p i.castSucc / N * x i + p (Fin.last d) / N
        = (∑ i : Fin d, p i.castSucc * x i + p (Fin.last d)) / N := by
      rw [add_div, Finset.sum_div]
      congr 1
      exact Finset.sum_congr rfl fun i _ => by ring
    rw [e, div_eq_zero_iff]
    exact ⟨fun k => k.resolve_right hN.ne', Or.inl⟩
  set o : Vec d := fun i => -(h i.castSucc * h (Fin.last d)) with ho
  have hno : norm o = |h (Fin.last d)| := by
    have e : ∑ i, o i ^ 2 = h (Fin.last d) ^ 2 := by
      simp only [ho, neg_sq, mul_pow, ← Finset.sum_mul, hsq, one_mul]
    rw [norm, e, Real.sqrt_sq_eq_abs]
  refine ⟨h, o, fun i => h i.castSucc, hess, by rw [planeOffset, hess]; rfl,
    by rw [planeNormal, hess]; rfl, rfl, hunit, ⟨1 / N, by positivity, ?_⟩, hpts, ?_, ?_, ?_,
    hno.symm⟩
  · funext i
    simp [hh, Spec.normalPart]
    ring
  · rw [hessianNormal, hunit, vdivOpt, if_neg one_ne_zero]
    simp
  · rw [← hpts]
    simp only [Spec.PlanePoints, Set.mem_ofPred_eq, ho]
    have e : ∑ i : Fin d, h i.castSucc * -(h i.castSucc * h (Fin.last d))
        = -(h (Fin.last d)) * ∑ i : Fin d, h i.castSucc ^ 2 := by
      rw [Finset.mul_sum]
      exact Finset.sum_congr rfl fun i _ => by ring
    rw [e, hsq]; ring
  · intro x hx hxo
    rw [← hpts] at hx
    simp only [Spec.PlanePoints, Set.mem_ofPred_eq] at hx
    have hsum : ∑ i, x i ^ 2 = ∑ i, o i ^ 2 + ∑ i, (x i - o i) ^ 2 := by
      have e1 : ∑ i, o i * x i = h (Fin.last d) ^ 2 := by
        have : ∑ i, o i * x i = -(h (Fin.last d)) * ∑ i : Fin d, h i.castSucc * x i := by
          rw [Finset.mul_sum]
          exact Finset.sum_congr rfl fun i _ => by simp only [ho]; ring
        rw [this, eq_neg_of_add_eq_zero_left hx]; ring
      have e2 : ∑ i, o i ^ 2 = h (Fin.last d) ^ 2 := by
        simp only [ho, neg_sq, mul_pow, ← Finset.sum_mul, hsq, one_mul]
      have e3 : ∑ i, (x i - o i) ^ 2 = ∑ i, x i ^ 2 - 2 * ∑ i, o i * x i + ∑ i, o i ^ 2 := by
        rw [Finset.mul_sum, ← Finset.sum_sub_distrib, ← Finset.sum_add_distrib]
        exact Finset.sum_congr rfl fun i _ => by ring
      rw [e3, e1, e2]; ring
    have hpos : 0 < ∑ i, (x i - o i) ^ 2 := by
      have hne : x - o ≠ 0 := sub_ne_zero.2 hxo
      have := (norm_pos_iff' (x - o)).2 hne
      have h2 := norm_sq' (x - o)
      simp only [Pi.sub_apply] at h2
      rw [← h2]; positivity
    rw [norm, norm]
    exact Real.sqrt_lt_sqrt (Finset.sum_nonneg fun _ _ => sq_nonneg _) (by linarith)

lemma plane123_normal : Spec.normalPart (![1, 2, 3, 4] : Vec 4) ≠ 0 :=
  fun h => by simpa [Spec.normalPart] using congrFun h 0

example : ∃ h, hessianNormal (![1, 2, 3, 4] : Vec 4) = some h ∧
    Spec.PlanePoints h = Spec.PlanePoints ![1, 2, 3, 4] := by
  obtain ⟨h, _, _, e, _, _, _, _, _, e', _⟩ := C62_hessian_normal ![1, 2, 3, 4] plane123_normal
  exact ⟨h, e, e'⟩

/-- Planes with zero normal give `nan` throughout. -/
theorem C62_degenerate (p : Vec (d + 1)) (hp : Spec.normalPart p = 0) :
    hessianNormal p = none ∧ planeOffset p = none ∧ planeNormal p = none := by
  have : norm (fun i : Fin d => p i.castSucc) = 0 := (norm_eq_zero_iff _).2 hp
  simp [planeOffset, planeNormal, hessianNormal, vdivOpt, this]

/-- The plane `3x + 4y + 10 = 0` has a non-zero normal. -/
example : Spec.normalPart (![3, 4, 10] : Vec 3) ≠ 0 := by
  intro h
  have := congrFun h 0
  simp [Spec.normalPart] at this

/-! ## C63 -/

lemma vdot_self_eq {k : ℕ} (v : Vec k) : vdot v v = norm v ^ 2 := by
  rw [norm_sq']; simp [vdot, sq]

/-- `angle` is defined exactly for non-zero vectors, symmetric and in `[0, π]`,
unchanged by positive rescaling of either vector and complemented by reversing
one. -/
theorem C63_angle {k : ℕ} (v w : Vec k) :
    (angle v w = none ↔ v = 0 ∨ w = 0) ∧ angle v w = angle w v ∧
    (∀ t, angle v w = some t → 0 ≤ t ∧ t ≤ Real.pi) ∧
    (∀ a b : ℝ, 0 < a → 0 < b → angle (a • v) (b • w) = angle v w) ∧
    (angle v (-w) = (angle v w).map fun t => Real.pi - t) := by
  have hcomm : vdot v w = vdot w v := by simp [vdot, mul_comm]
  refine ⟨?_, ?_, ?_, ?_, ?_⟩
  · rw [← norm_eq_zero_iff v, ← norm_eq_zero_iff w, ← mul_eq_zero]
    simp only [angle, fdiv]
    split_ifs with h
    · simp [h]
    · simp [h]
  · simp [angle, hcomm, mul_comm]
  · intro t ht
    simp only [angle, Option.bind_eq_bind, Option.bind_eq_some_iff, Option.some.injEq] at ht
    obtain ⟨q, _, rfl⟩ := ht
    exact ⟨Real.arccos_nonneg q, Real.arccos_le_pi q⟩
  · intro a b ha hb
    have hn : ∀ (a : ℝ) (u : Vec k), 0 < a → norm (a • u) = a * norm u := by
      intro a u ha
      have : ∑ i, (a • u) i ^ 2 = a ^ 2 * ∑ i, u i ^ 2 := by
        simp [mul_pow, Finset.mul_sum]
      rw [norm, this, Real.sqrt_mul (sq_nonneg a), Real.sqrt_sq ha.le, norm]
    have hd : vdot (a • v) (b • w) = a * b * vdot v w := by
      simp only [vdot, Pi.smul_apply, smul_eq_mul, Finset.mul_sum]
      exact Finset.sum_congr rfl fun i _ => by ring
    simp only [angle, hn a v ha, hn b w hb, hd, fdiv]
    have e : a * norm v * (b * norm w) = a * b * (norm v * norm w) := by ring
    rw [e]
    have hab : a * b ≠ 0 := by positivity
    by_cases h0 : norm v * norm w = 0
    · simp [h0]
    · rw [if_neg (mul_ne_zero hab h0), if_neg h0, mul_div_mul_left _ _ hab]
  · have hd : vdot v (-w) = -vdot v w := by simp [vdot]
    have hn : norm (-w) = norm w := by simp [norm]
    simp only [angle, fdiv, hd, hn]
    split_ifs
    · rfl
    · simp [neg_div, Real.arccos_neg]

/-- The angle is zero exactly for vectors of the same direction. -/
theorem C63_zero_iff_parallel {k : ℕ} (v w : Vec k) (hv : v ≠ 0) (hw : w ≠ 0) :
    angle v w = some 0 ↔ ∃ t : ℝ, 0 < t ∧ w = t • v := by
  have hpv := (norm_pos_iff' v).2 hv
  have hpw := (norm_pos_iff' w).2 hw
  have hne : norm v * norm w ≠ 0 := by positivity
  simp only [angle, fdiv, if_neg hne, Option.bind_eq_bind, Option.bind_some, Option.some.injEq,
    Real.arccos_eq_zero]
  rw [one_le_div (by positivity)]
  constructor
  · intro h
    refine ⟨norm w / norm v, by positivity, ?_⟩
    have hz : ∑ i, (w i - norm w / norm v * v i) ^ 2 ≤ 0 := by
      have e : ∑ i, (w i - norm w / norm v * v i) ^ 2
          = ∑ i, w i ^ 2 - 2 * (norm w / norm v) * vdot v w
            + (norm w / norm v) ^ 2 * ∑ i, v i ^ 2 := by
        rw [vdot, Finset.mul_sum, Finset.mul_sum, ← Finset.sum_sub_distrib,
          ← Finset.sum_add_distrib]
        exact Finset.sum_congr rfl fun i _ => by ring
      rw [e, ← norm_sq', ← norm_sq']
      have h2 : norm w / norm v * (norm v * norm w) ≤ norm w / norm v * vdot v w :=
        mul_le_mul_of_nonneg_left h (by positivity)
      have h3 : norm w / norm v * (norm v * norm w) = norm w ^ 2 := by field_simp
      have h4 : (norm w / norm v) ^ 2 * norm v ^ 2 = norm w ^ 2 := by field_simp
      rw [h4]
      linarith
    have h0 := le_antisymm hz (Finset.sum_nonneg fun _ _ => sq_nonneg _)
    rw [Finset.sum_eq_zero_iff_of_nonneg fun _ _ => sq_nonneg _] at h0
    funext i
    have := h0 i (Finset.mem_univ i)
    have := pow_eq_zero_iff (by norm_num) |>.1 this
    simp only [Pi.smul_apply, smul_eq_mul]
    linarith
  · rintro ⟨t, ht, rfl⟩
    have e1 : vdot v (t • v) = t * norm v ^ 2 := by
      rw [← vdot_self_eq]
      simp only [vdot, Pi.smul_apply, smul_eq_mul, Finset.mul_sum]
      exact Finset.sum_congr rfl fun i _ => by ring
    have e2 : norm (t • v) = t * norm v := by
      have : ∑ i, (t • v) i ^ 2 = t ^ 2 * ∑ i, v i ^ 2 := by
        simp [mul_pow, Finset.mul_sum]
      rw [norm, this, Real.sqrt_mul (sq_nonneg t), Real.sqrt_sq ht.le, norm]
    rw [e1, e2]
    exact le_of_eq (by ring)

example : angle (![1, 2, 3] : Vec 3) ![2, 4, 6] = some 0 := by
  refine (C63_zero_iff_parallel _ _ (fun h => by simpa using congrFun h 0)
    (fun h => by simpa using congrFun h 0)).2 ⟨2, by norm_num, ?_⟩
  funext j
  fin_cases j <;> simp <;> norm_num

/-- `fit_angle` is that angle in degrees (whatever its `degrees` argument), in
`[0, 180]`, and zero exactly for equal unit normals. -/
theorem C63_fit_angle (n₁ n₂ : Vec 3) (h1 : norm n₁ = 1) (h2 : norm n₂ = 1) (b : Bool) :
    ∃ t, fitAngle n₁ n₂ b = some t ∧ 0 ≤ t ∧ t ≤ 180 ∧
      Real.cos (t * Real.pi / 180) = n₁ 0 * n₂ 0 + n₁ 1 * n₂ 1 + n₁ 2 * n₂ 2 ∧
      (t = 0 ↔ n₁ = n₂) := by
  have hq : angle n₁ n₂ = some (Real.arccos (vdot n₁ n₂)) := by
    simp [angle, fdiv, h1, h2]
  have s1 := norm_sq' n₁
  have s2 := norm_sq' n₂
  rw [h1, Fin.sum_univ_three] at s1
  rw [h2, Fin.sum_univ_three] at s2
  refine ⟨degrees (Real.arccos (vdot n₁ n₂)), by simp [fitAngle, hq], ?_, ?_, ?_, ?_⟩
  · have := degrees_le.2 (Real.arccos_nonneg (vdot n₁ n₂))
    have e : degrees 0 = 0 := by unfold degrees; ring
    rwa [e] at this
  · have := degrees_le.2 (Real.arccos_le_pi (vdot n₁ n₂))
    rwa [degrees_pi] at this
  · have e := radians_degrees (Real.arccos (vdot n₁ n₂))
    rw [radians] at e
    rw [e, Real.cos_arccos, vdot3]
    · rw [vdot3]
      nlinarith [sq_nonneg (n₁ 0 + n₂ 0), sq_nonneg (n₁ 1 + n₂ 1), sq_nonneg (n₁ 2 + n₂ 2)]
    · rw [vdot3]
      nlinarith [sq_nonneg (n₁ 0 - n₂ 0), sq_nonneg (n₁ 1 - n₂ 1), sq_nonneg (n₁ 2 - n₂ 2)]
  · have hz : ∀ x : ℝ, degrees x = 0 ↔ x = 0 := by
      intro x
      unfold degrees
      have := Real.pi_pos
      constructor
      · intro h
        rcases div_eq_zero_iff.1 h with k | k
        · linarith
        · exact absurd k this.ne'
      · rintro rfl; ring
    rw [hz, Real.arccos_eq_zero, vdot3]
    constructor
    · intro h
      have hs : (n₁ 0 - n₂ 0) ^ 2 + (n₁ 1 - n₂ 1) ^ 2 + (n₁ 2 - n₂ 2) ^ 2 ≤ 0 := by nlinarith
      funext i
      fin_cases i
      · show n₁ 0 = n₂ 0
        nlinarith [sq_nonneg (n₁ 0 - n₂ 0), sq_nonneg (n₁ 1 - n₂ 1), sq_nonneg (n₁ 2 - n₂ 2)]
      · show n₁ 1 = n₂ 1
        nlinarith [sq_nonneg (n₁ 0 - n₂ 0), sq_nonneg (n₁ 1 - n₂ 1), sq_nonneg (n₁ 2 - n₂ 2)]
      · show n₁ 2 = n₂ 2
        nlinarith [sq_nonneg (n₁ 0 - n₂ 0), sq_nonneg (n₁ 1 - n₂ 1), sq_nonneg (n₁ 2 - n₂ 2)]
    · rintro rfl
      nlinarith

/-- Two vectors at 45 degrees. -/
example : angle ![1, 0] ![1, 1] ≠ some 0 := by
  intro h
  have h1 : (![1, 0] : Vec 2) ≠ 0 := fun e => by simpa using congrFun e 0
  have h2 : (![1, 1] : Vec 2) ≠ 0 := fun e => by simpa using congrFun e 0
  obtain ⟨t, _, ht⟩ := (C63_zero_iff_parallel _ _ h1 h2).1 h
  simpa using congrFun ht 1

/-! ## C55 -/

/-- The point with in-plane coordinates `(a, b)`, according to the transform that
`slice` returns: a combination of its rows. -/
def Spec.unproject (tr : Mat 3 4) (a b : ℝ) : Vec 3 :=
  fun j => a * tr 0 j.castSucc + b * tr 1 j.castSucc + tr 2 j.castSucc

lemma slice3_axes (C : Con 3) (p : Vec 4) (n pt : Vec 3) (hn : planeNormal p = some n)
    (hpt : planeOffset p = some pt) (v1 v2 : Vec 3) :
    slice3 C p (some (v1, v2)) = .ok (some (transform C (affine
      (Matrix.of fun i j => ![v1, v2] j i : Mat 3 2) pt), (affine
      (Matrix.of fun i j => ![v1, v2] j i : Mat 3 2) pt).transpose, pt)) := by
  simp [slice3, hn, hpt, bind, Except.bind]

lemma unproject_affine (v1 v2 pt : Vec 3) (a b : ℝ) : Spec.unproject ((affine
      (Matrix.of fun i j => ![v1, v2] j i : Mat 3 2) pt).transpose) a b
      = a • v1 + b • v2 + pt := by
  funext j
  have e0 : (0 : Fin 3) = Fin.castSucc (0 : Fin 2) := rfl
  have e1 : (1 : Fin 3) = Fin.castSucc (1 : Fin 2) := rfl
  have e2 : (2 : Fin 3) = Fin.last 2 := rfl
  simp only [Spec.unproject, Matrix.transpose_apply]
  rw [e0, affine_cc, e1, affine_cc, e2, affine_cl]
  simp

lemma solve_slice (C : Con 3) (v1 v2 pt : Vec 3) (a b : ℝ) :
    solve (transform C (affine (Matrix.of fun i j => ![v1, v2] j i : Mat 3 2) pt)) (augment ![a, b])
      = solve C (augment (a • v1 + b • v2 + pt)) := by
  rw [solve_transform, affine_augment]
  congr 2
  funext i
  simp

/-- For every quadric and every plane with non-zero normal, `slice` succeeds; the
in-plane coordinates `(a, b)` satisfy the sliced conic exactly as the
corresponding point of space satisfies the quadric (same value, so shell and
inside agree); these points are exactly the points of the plane, each with one
pair of coordinates; and the offset has coordinates `(0, 0)`. -/
theorem C55_slice_is_section (C : Con 3) (p : Vec 4) (hp : Spec.normalPart p ≠ 0) :
    ∃ con tr pt, slice3 C p none = .ok (some (con, tr, pt)) ∧
      (∀ a b, solve con (augment ![a, b]) = solve C (augment (Spec.unproject tr a b))) ∧
      (∀ a b, ![a, b] ∈ Spec.Shell con ↔ Spec.unproject tr a b ∈ Spec.Shell C) ∧
      (∀ x, x ∈ Spec.PlanePoints p ↔ ∃ a b, x = Spec.unproject tr a b) ∧
      (∀ a b a' b', Spec.unproject tr a b = Spec.unproject tr a' b' → a = a' ∧ b = b') ∧
      Spec.unproject tr 0 0 = pt ∧ planeOffset p = some pt := by
  obtain ⟨h, o, n, _, ho, hn, hnh, hunit, _, hpts, _, hop, _⟩ := C62_hessian_normal p hp
  have hn0 : n ≠ 0 := by
    intro e; rw [e, (norm_eq_zero_iff 0).2 rfl] at hunit; norm_num at hunit
  obtain ⟨v1, hv1, hv10, hperp⟩ := (C61_three_dimensions_partial n).1 hn0
  set v2 := cross v1 n with hv2
  have hs : slice3 C p none = slice3 C p (some (v1, v2)) := by
    simp [slice3, hn, ho, hv1, bind, Except.bind, hv2]
  refine ⟨_, _, _, hs.trans (slice3_axes C p n o hn ho v1 v2), ?_, ?_, ?_, ?_, ?_, ho⟩
  · intro a b
    rw [solve_slice, unproject_affine]
  · intro a b
    rw [mem_shell_iff, mem_shell_iff, solve_slice, unproject_affine]
  all_goals simp only [unproject_affine]
  · -- points of the plane
    have hsq := norm_sq' n
    rw [hunit, Fin.sum_univ_three] at hsq
    rw [vdot3] at hperp
    have hmem : ∀ x : Vec 3, x ∈ Spec.PlanePoints p ↔ vdot n (x - o) = 0 := by
      intro x
      rw [← hpts] at hop ⊢
      simp only [Spec.PlanePoints, Set.mem_ofPred_eq, Fin.sum_univ_three] at hop ⊢
      rw [vdot3, hnh]
      simp only [Spec.normalPart, Pi.sub_apply]
      constructor <;> intro k <;> linarith
    have hcross : vdot n v2 = 0 := by
      rw [vdot3, hv2]; simp [cross]; ring
    rw [vdot3] at hcross
    have hW : 0 < v1 0 ^ 2 + v1 1 ^ 2 + v1 2 ^ 2 := by
      have := (norm_pos_iff' v1).2 hv10
      have h2 := norm_sq' v1
      rw [Fin.sum_univ_three] at h2
      rw [← h2]; positivity
    set W := v1 0 ^ 2 + v1 1 ^ 2 + v1 2 ^ 2 with hWdef
    intro x
    rw [hmem, vdot3]
    constructor
    · intro hx
      set y := x - o with hy
      refine ⟨vdot y v1 / W, vdot y v2 / W, ?_⟩
      have hxy : x = y + o := by rw [hy]; simp
      rw [hxy]
      congr 1
      -- y is the sum of its parts along v1 and v2
      have key : ∀ i : Fin 3, W * y i = vdot y v1 * v1 i + vdot y v2 * v2 i := by
        intro i
        rw [vdot3, vdot3, hv2, hWdef]
        fin_cases i
        · simp only [cross, Matrix.cons_val_zero, Matrix.cons_val_one, Matrix.cons_val,
            Fin.zero_eta]
          linear_combination ((v1 0 ^ 2 + v1 1 ^ 2 + v1 2 ^ 2) * y 0
              - (y 0 * v1 0 + y 1 * v1 1 + y 2 * v1 2) * v1 0) * hsq
            + (n 0 * (v1 0 ^ 2 + v1 1 ^ 2 + v1 2 ^ 2)
              - v1 0 * (n 0 * v1 0 + n 1 * v1 1 + n 2 * v1 2)) * hx
            + (y 0 * (n 0 * v1 0 + n 1 * v1 1 + n 2 * v1 2)
              - n 0 * (y 0 * v1 0 + y 1 * v1 1 + y 2 * v1 2)) * hperp
        · simp only [cross, Matrix.cons_val_zero, Matrix.cons_val_one, Matrix.cons_val,
            Fin.mk_one]
          linear_combination ((v1 0 ^ 2 + v1 1 ^ 2 + v1 2 ^ 2) * y 1
              - (y 0 * v1 0 + y 1 * v1 1 + y 2 * v1 2) * v1 1) * hsq
            + (n 1 * (v1 0 ^ 2 + v1 1 ^ 2 + v1 2 ^ 2)
              - v1 1 * (n 0 * v1 0 + n 1 * v1 1 + n 2 * v1 2)) * hx
            + (y 1 * (n 0 * v1 0 + n 1 * v1 1 + n 2 * v1 2)
              - n 1 * (y 0 * v1 0 + y 1 * v1 1 + y 2 * v1 2)) * hperp
        · simp only [cross, Matrix.cons_val_zero, Matrix.cons_val_one, Matrix.cons_val,
            Fin.reduceFinMk]
          linear_combination ((v1 0 ^ 2 + v1 1 ^ 2 + v1 2 ^ 2) * y 2
              - (y 0 * v1 0 + y 1 * v1 1 + y 2 * v1 2) * v1 2) * hsq
            + (n 2 * (v1 0 ^ 2 + v1 1 ^ 2 + v1 2 ^ 2)
              - v1 2 * (n 0 * v1 0 + n 1 * v1 1 + n 2 * v1 2)) * hx
            + (y 2 * (n 0 * v1 0 + n 1 * v1 1 + n 2 * v1 2)
              - n 2 * (y 0 * v1 0 + y 1 * v1 1 + y 2 * v1 2)) * hperp
      funext i
      have := key i
      simp only [Pi.add_apply, Pi.smul_apply, smul_eq_mul]
      field_simp
      linarith
    · rintro ⟨a, b, rfl⟩
      simp only [Pi.add_apply, Pi.smul_apply, smul_eq_mul, Pi.sub_apply]
      linear_combination a * hperp + b * hcross
  · intro a b a' b' hab
    have hW : vdot v1 v1 ≠ 0 := by
      rw [vdot_self_eq]
      have := (norm_pos_iff' v1).2 hv10
      positivity
    have h12 : vdot v1 v2 = 0 := by
      rw [vdot3, hv2]; simp [cross]; ring
    have hsq := norm_sq' n
    rw [hunit, Fin.sum_univ_three] at hsq
    have h22 : vdot v2 v2 = vdot v1 v1 := by
      rw [vdot3] at hperp
      rw [vdot3, vdot3, hv2]
      simp only [cross, Matrix.cons_val_zero, Matrix.cons_val_one, Matrix.cons_val]
      linear_combination -(v1 0 * v1 0 + v1 1 * v1 1 + v1 2 * v1 2) * hsq
        - (n 0 * v1 0 + n 1 * v1 1 + n 2 * v1 2) * hperp
    have hz : (a - a') • v1 + (b - b') • v2 = 0 := by
      have := congrArg (fun w => w - (a' • v1 + b' • v2 + o)) hab
      simp only [sub_self] at this
      rw [← this]
      module
    have lin : ∀ (u w : Vec 3) (s t : ℝ), vdot (s • u + t • w) u = s * vdot u u + t * vdot u w ∧
        vdot (s • u + t • w) w = s * vdot u w + t * vdot w w := by
      intro u w s t
      simp only [vdot3, Pi.add_apply, Pi.smul_apply, smul_eq_mul]
      constructor <;> ring
    obtain ⟨k1, k2⟩ := lin v1 v2 (a - a') (b - b')
    rw [hz, h12] at k1 k2
    rw [h22] at k2
    have z : ∀ w : Vec 3, vdot 0 w = 0 := fun w => by simp [vdot]
    rw [z] at k1 k2
    have k1' : (a - a') * vdot v1 v1 = 0 := by linarith
    have k2' : (b - b') * vdot v1 v1 = 0 := by linarith
    rcases mul_eq_zero.1 k1' with q | q
    · rcases mul_eq_zero.1 k2' with q' | q'
      · exact ⟨by linarith, by linarith⟩
      · exact absurd q' hW
    · exact absurd q hW
  · simp

example : ∃ con tr pt, slice3 (fromAxes ![1, 2, 3]) ![1, 2, 3, 4] none = .ok (some (con, tr, pt)) ∧
    planeOffset ![1, 2, 3, 4] = some pt := by
  obtain ⟨con, tr, pt, h, _, _, _, _, _, h'⟩ :=
    C55_slice_is_section (fromAxes ![1, 2, 3]) ![1, 2, 3, 4] plane123_normal
  exact ⟨con, tr, pt, h, h'⟩

/-- With axes supplied by the caller the equation is the quadric's along them. -/
theorem C55_slice_with_axes (C : Con 3) (p : Vec 4) (hp : Spec.normalPart p ≠ 0) (v1 v2 : Vec 3) :
    ∃ con tr pt, slice3 C p (some (v1, v2)) = .ok (some (con, tr, pt)) ∧
      planeOffset p = some pt ∧
      ∀ a b, solve con (augment ![a, b]) = solve C (augment (a • v1 + b • v2 + pt)) := by
  obtain ⟨h, o, n, _, ho, hn, _⟩ := C62_hessian_normal p hp
  exact ⟨_, _, _, slice3_axes C p n o hn ho v1 v2, ho, fun a b => solve_slice C v1 v2 o a b⟩

example : ∃ con tr pt, slice3 (fromAxes ![1, 2, 3]) ![1, 2, 3, 4] (some (![3, 0, -1], ![0, 3, -2]))
    = .ok (some (con, tr, pt)) := by
  obtain ⟨con, tr, pt, h, _⟩ :=
    C55_slice_with_axes (fromAxes ![1, 2, 3]) ![1, 2, 3, 4] plane123_normal ![3, 0, -1] ![0, 3, -2]
  exact ⟨con, tr, pt, h⟩

/-- A plane with a zero normal gives `nan`, not an exception. -/
theorem C55_degenerate (C : Con 3) (p : Vec 4) (hp : Spec.normalPart p = 0)
    (ax : Option (Vec 3 × Vec 3)) : slice3 C p ax = .ok none := by
  obtain ⟨_, h1, h2⟩ := C62_degenerate p hp
  simp [slice3, h1, h2]

example : slice3 (fromAxes ![1, 2, 3]) ![0, 0, 0, 4] none = .ok none :=
  C55_degenerate _ _ (by funext j; fin_cases j <;> simp [Spec.normalPart]) _

end Attitude.Props
