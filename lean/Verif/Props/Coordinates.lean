import Verif.Model.Coordinates
import Verif.Lemmas.Trig

/-!
# C01, C02: centering and spherical coordinates
-/

namespace Attitude.Props

open Attitude Coordinates

/-! ## Specification -/

/-- The mean position of the rows of `a` is the origin. -/
def Spec.ZeroMean {n : ℕ} (a : Fin n → Vec 3) : Prop := ∀ j, ∑ i, a i j = 0

/-- `b` is `a` moved rigidly by one translation vector. -/
def Spec.SameShape {n : ℕ} (a b : Fin n → Vec 3) : Prop :=
  ∀ i i' j, b i j - b i' j = a i j - a i' j

/-! ## C01 -/

/-- Centering an array gives zero mean and the same pairwise differences as the
input. -/
theorem C01_centered_zero_mean_same_shape {n : ℕ} (a : Fin n → Vec 3) :
    Spec.ZeroMean (centered a) ∧ Spec.SameShape a (centered a) := by
  constructor
  · intro j
    rcases Nat.eq_zero_or_pos n with rfl | hn
    · simp
    have hn' : (n : ℝ) ≠ 0 := by positivity
    simp only [centered, Finset.sum_sub_distrib, Finset.sum_const, Finset.card_univ,
      Fintype.card_fin, nsmul_eq_mul, meanRows]
    field_simp
    ring
  · intro i i' j
    simp only [centered]
    ring

/-- The centered array is the only translate of the input with zero mean. -/
theorem C01_centered_unique {n : ℕ} (a b : Fin n → Vec 3) (hb : Spec.ZeroMean b)
    (hs : Spec.SameShape a b) : centered a = b := by
  funext i j
  have hn : 0 < n := i.pos
  have hn' : (n : ℝ) ≠ 0 := by positivity
  have h : ∑ i', (b i j - b i' j) = ∑ i', (a i j - a i' j) :=
    Finset.sum_congr rfl fun i' _ => hs i i' j
  simp only [Finset.sum_sub_distrib, Finset.sum_const, Finset.card_univ, Fintype.card_fin,
    nsmul_eq_mul, hb j, sub_zero] at h
  simp only [centered, meanRows]
  field_simp
  linarith

example : centered ![![3, 2, 1], ![1, 4, 1], ![2, 6, 4]] = ![![1, -2, -1], ![-1, 0, -1], ![0, 2, 2]] :=
  C01_centered_unique _ _
    (by intro j; fin_cases j <;> simp [Fin.sum_univ_three]; norm_num)
    (by intro i i' j; fin_cases i <;> fin_cases i' <;> fin_cases j <;> simp <;> norm_num)

/-- Centering twice is centering once. -/
theorem C01_centered_idempotent {n : ℕ} (a : Fin n → Vec 3) :
    centered (centered a) = centered a :=
  C01_centered_unique _ _ (C01_centered_zero_mean_same_shape a).1 fun _ _ _ => rfl

/-- Translating the input by any vector does not change the centered array. -/
theorem C01_centered_translation {n : ℕ} (a : Fin n → Vec 3) (t : Vec 3) :
    centered (fun i j => a i j + t j) = centered a := by
  obtain ⟨hz, hs⟩ := C01_centered_zero_mean_same_shape a
  exact C01_centered_unique _ _ hz fun i i' j => by rw [hs i i' j]; ring

/-- Non-vacuity: a two point array with its centered form. -/
example : centered (n := 2) ![![0, 0, 2], ![2, 4, 0]] = ![![-1, -2, 1], ![1, 2, -1]] := by
  apply C01_centered_unique
  · intro j
    fin_cases j <;> simp [Fin.sum_univ_two]
  · intro i i' j
    fin_cases i <;> fin_cases i' <;> fin_cases j <;> norm_num

/-! ## C02 -/

/-- `back` undoes `there` on every point other than the origin. -/
def Spec.RoundTrips (there : Vec 3 → Option (ℝ × ℝ × ℝ)) (back : ℝ × ℝ × ℝ → Vec 3) : Prop :=
  ∀ v : Vec 3, v ≠ 0 → (there v).map back = some v

lemma sphericalPt_eq {v : Vec 3} (hv : v ≠ 0) :
    sphericalPt v = some (norm v, Real.arccos (v 2 / norm v), arctan2 (v 1) (v 0)) := by
  have h : norm v ≠ 0 := fun h => hv ((norm_eq_zero_iff v).1 h)
  simp [sphericalPt, fdiv, h]

lemma norm_mul_sin_arccos {v : Vec 3} (hv : v ≠ 0) :
    norm v * Real.sin (Real.arccos (v 2 / norm v)) = Real.sqrt (v 0 ^ 2 + v 1 ^ 2) := by
  have hp : 0 < norm v := (norm_pos_iff' v).2 hv
  have h2 : norm v ^ 2 = v 0 ^ 2 + v 1 ^ 2 + v 2 ^ 2 := by
    rw [norm_sq', Fin.sum_univ_three]
  rw [Real.sin_arccos]
  have : v 0 ^ 2 + v 1 ^ 2 = norm v ^ 2 * (1 - (v 2 / norm v) ^ 2) := by
    field_simp
    linarith
  rw [this, Real.sqrt_mul (sq_nonneg _), Real.sqrt_sq hp.le]

lemma norm_mul_cos_arccos {v : Vec 3} (hv : v ≠ 0) :
    norm v * Real.cos (Real.arccos (v 2 / norm v)) = v 2 := by
  have hp : 0 < norm v := (norm_pos_iff' v).2 hv
  have h2 : norm v ^ 2 = v 0 ^ 2 + v 1 ^ 2 + v 2 ^ 2 := by
    rw [norm_sq', Fin.sum_univ_three]
  have habs : |v 2 / norm v| ≤ 1 := by
    rw [abs_div, abs_of_pos hp, div_le_one hp]
    exact abs_le_of_sq_le_sq (by nlinarith [sq_nonneg (v 0), sq_nonneg (v 1)]) hp.le
  rw [Real.cos_arccos (abs_le.1 habs).1 (abs_le.1 habs).2]
  field_simp

/-- What the pair of functions really does to every point other than the
origin: it exchanges x and y. -/
theorem C02_round_trip_swaps_x_y (v : Vec 3) (hv : v ≠ 0) :
    (sphericalPt v).map cartesianPt = some ![v 1, v 0, v 2] := by
  rw [sphericalPt_eq hv]
  simp only [Option.map_some, cartesianPt, norm_mul_sin_arccos hv, norm_mul_cos_arccos hv,
    sqrt_mul_sin_arctan2, sqrt_mul_cos_arctan2]

example : (sphericalPt ![1, 2, 3]).map cartesianPt = some ![2, 1, 3] :=
  C02_round_trip_swaps_x_y ![1, 2, 3] (fun h => by simpa using congrFun h 0)

/-- The round trip claim is false. -/
theorem C02_round_trip_false : ¬ Spec.RoundTrips sphericalPt cartesianPt := by
  intro h
  have hv : (![1, 0, 0] : Vec 3) ≠ 0 := fun e => by simpa using congrFun e 0
  have h1 := h _ hv
  rw [C02_round_trip_swaps_x_y _ hv] at h1
  have := congrFun (Option.some.inj h1) 0
  simp at this

/-- What is left of the claim: a point comes back exactly when its x and y are
equal; radius and height always survive, and doing the round trip twice is the
identity. -/
theorem C02_round_trip_partial (v : Vec 3) (hv : v ≠ 0) :
    ((sphericalPt v).map cartesianPt = some v ↔ v 0 = v 1) ∧
    ∃ w, (sphericalPt v).map cartesianPt = some w ∧ norm w = norm v ∧ w 2 = v 2 ∧
      (sphericalPt w).map cartesianPt = some v := by
  rw [C02_round_trip_swaps_x_y v hv]
  have hw : (![v 1, v 0, v 2] : Vec 3) ≠ 0 := by
    intro e
    apply hv
    have h0 := congrFun e 0
    have h1 := congrFun e 1
    have h2 := congrFun e 2
    simp at h0 h1 h2
    funext i
    fin_cases i <;> simp [h0, h1, h2]
  refine ⟨?_, ![v 1, v 0, v 2], rfl, ?_, by simp, ?_⟩
  · constructor
    · intro h
      have := congrFun (Option.some.inj h) 0
      simpa using this.symm
    · intro h
      congr 1
      funext i
      fin_cases i <;> simp [h]
  · rw [norm3, norm3]
    congr 1
    simp
    ring
  · rw [C02_round_trip_swaps_x_y _ hw]
    congr 1
    funext i
    fin_cases i <;> simp

example : (sphericalPt ![2, 2, 3]).map cartesianPt = some ![2, 2, 3] :=
  (C02_round_trip_partial ![2, 2, 3] (fun h => by simpa using congrFun h 0)).1.2 rfl

/-- Composing the two functions directly, as the repository's test does, raises
`ValueError` for any number of points other than three. -/
theorem C02_composition_raises {n : ℕ} (hn : n ≠ 3) (c : Fin 3 → Fin n → ℝ) :
    cartesianArr (sphericalArr c) = .error .valueError := by
  simp [cartesianArr, hn]

example : cartesianArr (sphericalArr (n := 2) ![![1, 2], ![3, 4], ![5, 6]]) = .error .valueError :=
  C02_composition_raises (by norm_num) _

/-- With an explicit transpose in between the composition succeeds for every
array and swaps the x and y rows of every column that is not the origin. -/
theorem C02_array_round_trip_swaps {n : ℕ} (c : Fin 3 → Fin n → ℝ)
    (hc : ∀ i, (fun j => c j i) ≠ (0 : Vec 3)) :
    cartesianArr (transposeArr (sphericalArr c))
      = .ok (fun j i => some (c (![1, 0, 2] j) i)) := by
  simp only [cartesianArr, dif_pos, transposeArr, sphericalArr]
  congr 1
  funext j i
  have hz : norm (fun j => c j i) ≠ 0 := fun h => hc i ((norm_eq_zero_iff _).1 h)
  have hs := norm_mul_sin_arccos (hc i)
  have hk := norm_mul_cos_arccos (hc i)
  fin_cases j
  · simp [omul, fdiv, hz, hs, sqrt_mul_sin_arctan2]
  · simp [omul, fdiv, hz, hs, sqrt_mul_cos_arctan2]
  · simp [omul, fdiv, hz, hk]

/-- Non-vacuity of the hypotheses of C02. -/
example : (![3, 4, 5] : Vec 3) ≠ 0 ∧ (sphericalPt ![3, 4, 5]).map cartesianPt = some ![4, 3, 5] := by
  have hv : (![3, 4, 5] : Vec 3) ≠ 0 := fun e => by simpa using congrFun e 0
  exact ⟨hv, by simpa using C02_round_trip_swaps_x_y _ hv⟩

end Attitude.Props
