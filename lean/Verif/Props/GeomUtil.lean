import Mathlib.Algebra.BigOperators.Field
import Mathlib.Data.Matrix.Block
import Mathlib.LinearAlgebra.Matrix.SchurComplement
import Verif.Model.GeomUtil

/-!
# C286 and C287: normalised vectors and augmented tensors
-/

namespace Attitude.Props

open Attitude Conics GeomUtil Matrix

namespace Spec

/-- `u` has length one and the direction of `v`. -/
def IsUnitOf {n : ℕ} (u v : Vec n) : Prop := ∑ i, u i ^ 2 = 1 ∧ ∃ k : ℝ, 0 < k ∧ ∀ i, v i = k * u i

end Spec

lemma unit_norm_eq {n : ℕ} {u v : Vec n} (h : Spec.IsUnitOf u v) : norm v ≠ 0 ∧ ∀ i, u i = v i / norm v := by
  obtain ⟨h1, k, hk, hv⟩ := h
  have hn : norm v = k := by
    unfold norm
    simp only [hv, mul_pow, ← Finset.mul_sum, h1, mul_one]
    exact Real.sqrt_sq hk.le
  rw [hn]
  refine ⟨hk.ne', fun i => ?_⟩
  rw [hv i]
  field_simp

lemma unit_of_norm {n : ℕ} (v : Vec n) (h : norm v ≠ 0) : Spec.IsUnitOf (fun i => v i / norm v) v := by
  have hs : norm v ^ 2 = ∑ i, v i ^ 2 := Real.sq_sqrt (Finset.sum_nonneg fun i _ => sq_nonneg _)
  have hp : 0 < norm v := lt_of_le_of_ne (Real.sqrt_nonneg _) (Ne.symm h)
  refine ⟨?_, norm v, hp, fun i => by field_simp⟩
  simp only [div_pow, ← Finset.sum_div, ← hs]
  exact div_self (by positivity)

/-- `unit_vector` of an array that is not zero is the vector of length one and the same direction; there is
only one, and it is its own unit vector.  For an array of zeros the result is `nan`. -/
theorem C286_unit {n : ℕ} (v : Vec n) :
    (v ≠ 0 → ∃ u : Vec n, unitVector [.array v] = .ok (some (.array u)) ∧ Spec.IsUnitOf u v ∧
      (∀ w, Spec.IsUnitOf w v → w = u) ∧ unitVector [.array u] = .ok (some (.array u))) ∧
    (v = 0 → unitVector [.array v] = .ok none) := by
  constructor
  · intro hv
    have hn : norm v ≠ 0 := by
      intro h
      have hs : ∑ i, v i ^ 2 = 0 := by
        rw [← Real.sq_sqrt (Finset.sum_nonneg fun i _ => sq_nonneg (v i)), show Real.sqrt _ = 0 from h]
        norm_num
      apply hv
      funext i
      have := (Finset.sum_eq_zero_iff_of_nonneg fun i _ => sq_nonneg (v i)).1 hs i (Finset.mem_univ i)
      exact pow_eq_zero_iff (by norm_num) |>.1 this
    have hu := unit_of_norm v hn
    refine ⟨fun i => v i / norm v, ?_, hu, ?_, ?_⟩
    · simp [unitVector, unitVectorBound, unitVectorDefs, Arg.normalized, hn]
    · intro w hw
      funext i
      exact (unit_norm_eq hw).2 i
    · have h1 : norm (fun i => v i / norm v) = 1 := by
        have : ∑ i, (v i / norm v) ^ 2 = 1 := hu.1
        rw [show norm (fun i => v i / norm v) = Real.sqrt (∑ i, (v i / norm v) ^ 2) from rfl, this]
        exact Real.sqrt_one
      simp [unitVector, unitVectorBound, unitVectorDefs, Arg.normalized, h1]
  · rintro rfl
    have : norm (0 : Vec n) = 0 := by simp [norm]
    simp [unitVector, unitVectorBound, unitVectorDefs, Arg.normalized, this]

example : (![3, 4] : Vec 2) ≠ 0 ∧ Spec.IsUnitOf ![3 / 5, 4 / 5] (![3, 4] : Vec 2) := by
  constructor
  · intro h
    have := congrFun h 0
    simp at this
  · refine ⟨by norm_num [Fin.sum_univ_two], 5, by norm_num, ?_⟩
    intro i
    fin_cases i <;> norm_num

/-- Separate components, for which the first of the two definitions was written, are refused whatever they are;
that definition returns the unit vector.  A single number is accepted and gives its sign. -/
theorem C286_components_false (xs : List ℝ) :
    (xs.length ≠ 1 → unitVector (xs.map .number) = .error .typeError) ∧
    (∀ v : Vec xs.length, (∀ i, v i = xs.get i) → v ≠ 0 →
      ∃ u : Vec xs.length, firstUnitVector xs = some (.array u) ∧ Spec.IsUnitOf u v) ∧
    ∀ x, (0 < x → unitVector [.number x] = .ok (some (.number 1))) ∧
      (x < 0 → unitVector [.number x] = .ok (some (.number (-1)))) ∧
      (x = 0 → unitVector [.number x] = .ok none) := by
  refine ⟨?_, ?_, ?_⟩
  · intro h
    simp [unitVector, unitVectorBound, unitVectorDefs, h]
  · intro v hv hne
    have e : v = vectorOf xs := funext hv
    obtain ⟨u, h, hu, -⟩ := (C286_unit v).1 hne
    refine ⟨u, ?_, hu⟩
    simp only [unitVector, unitVectorBound, unitVectorDefs] at h
    simp only [List.getLast?_cons_cons, List.getLast?_singleton, List.length_singleton, if_true,
      List.head?_cons, Option.bind_some, Except.ok.injEq] at h
    rw [firstUnitVector, ← e]
    exact h
  · intro x
    refine ⟨fun h => ?_, fun h => ?_, fun h => ?_⟩
    · simp [unitVector, unitVectorBound, unitVectorDefs, Arg.normalized, h.ne', abs_of_pos h]
    · simp [unitVector, unitVectorBound, unitVectorDefs, Arg.normalized, h.ne, abs_of_neg h]
    · simp [unitVector, unitVectorBound, unitVectorDefs, Arg.normalized, h]

example : ([3, 4] : List ℝ).length ≠ 1 ∧ ∃ v : Vec ([3, 4] : List ℝ).length,
    (∀ i, v i = ([3, 4] : List ℝ).get i) ∧ v ≠ 0 := by
  refine ⟨by simp, fun i => ([3, 4] : List ℝ).get i, fun _ => rfl, ?_⟩
  intro h
  have := congrFun h ⟨0, by simp⟩
  simp at this

/-! ## C287 -/

/-- The augmented array, in blocks. -/
lemma augmentTensor_blocks {p m : ℕ} (A : Mat p p) :
    augmentTensor A (some (p + m)) = .ok ((Matrix.fromBlocks A 0 0 1).submatrix finSumFinEquiv.symm
      finSumFinEquiv.symm) := by
  unfold augmentTensor
  rw [if_pos (by simp)]
  congr 1
  ext i j
  simp only [Option.getD_some] at i j
  refine Fin.addCases (fun i' => ?_) (fun i' => ?_) i <;> refine Fin.addCases (fun j' => ?_) (fun j' => ?_) j
  · simp
  · simp [Fin.ext_iff]
    omega
  · simp [Fin.ext_iff]
    omega
  · simp [Fin.ext_iff, Matrix.one_apply]

/-- The augmented array transforms the first coordinates as the given one does and leaves the others alone, ... -/
theorem C287_action {p m : ℕ} (A : Mat p p) : ∃ X, augmentTensor A (some (p + m)) = .ok X ∧
    ∀ x : Vec (p + m), (∀ i, (X *ᵥ x) (Fin.castAdd m i) = (A *ᵥ fun k => x (Fin.castAdd m k)) i) ∧
      ∀ j, (X *ᵥ x) (Fin.natAdd p j) = x (Fin.natAdd p j) := by
  refine ⟨_, augmentTensor_blocks A, fun x => ⟨fun i => ?_, fun j => ?_⟩⟩
  · simp only [Matrix.mulVec, dotProduct, Option.getD_some]
    rw [Fin.sum_univ_add]
    simp
  · simp only [Matrix.mulVec, dotProduct, Option.getD_some]
    rw [Fin.sum_univ_add]
    simp [Matrix.one_apply]

example : ∃ X, augmentTensor (!![0, -1; 1, 0] : Mat 2 2) (some (2 + 1)) = .ok X ∧
    X *ᵥ (![1, 2, 3] : Vec 3) = ![-2, 1, 3] := by
  obtain ⟨X, h, k⟩ := C287_action (m := 1) (!![0, -1; 1, 0] : Mat 2 2)
  refine ⟨X, h, ?_⟩
  obtain ⟨k1, k2⟩ := k ![1, 2, 3]
  funext i
  fin_cases i
  · exact (k1 0).trans (by simp [Matrix.mulVec, dotProduct, Fin.sum_univ_two])
  · exact (k1 1).trans (by simp [Matrix.mulVec, dotProduct, Fin.sum_univ_two])
  · exact (k2 0).trans rfl

/-- ... so that augmenting goes with products, with the identity and with determinants, and the inverse of an
augmented transformation is the augmented inverse. -/
theorem C287_products {p m : ℕ} (A B : Mat p p) : ∃ X Y Z, augmentTensor A (some (p + m)) = .ok X ∧
    augmentTensor B (some (p + m)) = .ok Y ∧ augmentTensor (A * B) (some (p + m)) = .ok Z ∧
    Z = X * Y ∧ X.det = A.det ∧ (A = 1 → X = 1) ∧ (A * B = 1 → X * Y = 1) := by
  have hp : ∀ C D : Mat p p, (Matrix.fromBlocks (C * D) 0 0 (1 : Mat m m)).submatrix
      (finSumFinEquiv.symm : Fin (p + m) → _) finSumFinEquiv.symm
      = (Matrix.fromBlocks C 0 0 1).submatrix finSumFinEquiv.symm finSumFinEquiv.symm
        * (Matrix.fromBlocks D 0 0 1).submatrix finSumFinEquiv.symm finSumFinEquiv.symm := by
    intro C D
    rw [Matrix.submatrix_mul_equiv, Matrix.fromBlocks_multiply]
    simp
  have h1 : (Matrix.fromBlocks (1 : Mat p p) 0 0 (1 : Mat m m)).submatrix
      (finSumFinEquiv.symm : Fin (p + m) → _) finSumFinEquiv.symm = 1 := by
    rw [Matrix.fromBlocks_one, Matrix.submatrix_one_equiv]
  refine ⟨_, _, _, augmentTensor_blocks A, augmentTensor_blocks B, augmentTensor_blocks (A * B), hp A B, ?_, ?_, ?_⟩
  · exact (Matrix.det_submatrix_equiv_self _ _).trans (by simp)
  · rintro rfl
    exact h1
  · intro h
    refine (hp A B).symm.trans ?_
    rw [h]
    exact h1

example : (!![0, -1; 1, 0] : Mat 2 2) * !![0, 1; -1, 0] = 1 := by
  ext i j
  fin_cases i <;> fin_cases j <;> simp [Matrix.mul_apply, Fin.sum_univ_two]

/-- With the number of dimensions left out, it acts on homogeneous coordinates. -/
theorem C287_homogeneous {p : ℕ} (A : Mat p p) (v : Vec p) :
    ∃ X, augmentTensor A = .ok X ∧ X *ᵥ augment v = augment (A *ᵥ v) := by
  obtain ⟨X, h, k⟩ := C287_action (m := 1) A
  refine ⟨X, h, ?_⟩
  obtain ⟨k1, k2⟩ := k (augment v)
  funext i
  refine Fin.lastCases ?_ (fun i => ?_) i
  · have := k2 0
    simp only [augment] at this ⊢
    rw [show Fin.natAdd p (0 : Fin 1) = Fin.last p from rfl, Fin.snoc_last] at this
    rw [Fin.snoc_last]
    exact this
  · have := k1 i
    simp only [augment] at this ⊢
    rw [show Fin.castAdd 1 i = i.castSucc from rfl] at this
    rw [Fin.snoc_castSucc]
    refine this.trans ?_
    congr 1
    funext j
    rw [show Fin.castAdd 1 j = j.castSucc from rfl, Fin.snoc_castSucc]

/-- When it fails: for a square array of more than one row exactly if fewer dimensions are asked for than it has;
and, with the number of dimensions left out, for arrays with at least two columns more than rows (but never for a
single column). -/
theorem C287_refused {p q : ℕ} :
    (∀ (A : Mat p p) (n : ℕ), p ≠ 1 → ((∃ e, augmentTensor A (some n) = .error e) ↔ n < p)) ∧
    ∀ A : Mat p q, q ≠ 1 → ((∃ e, augmentTensor A = .error e) ↔ p + 2 ≤ q) := by
  constructor
  · intro A n hp
    unfold augmentTensor
    split_ifs with h
    · simp only [Option.getD_some, hp, or_false, and_self] at h
      simp [h]
    · simp only [Option.getD_some, hp, or_false, and_self] at h
      simp
      omega
  · intro A hq
    unfold augmentTensor
    split_ifs with h
    · simp only [Option.getD_none, hq, or_false] at h
      simp
      omega
    · simp only [Option.getD_none, hq, or_false] at h
      simp
      omega

example : (∃ e, augmentTensor (1 : Mat 3 3) (some 2) = .error e) ∧
    ¬ (∃ e, augmentTensor (1 : Mat 3 3) (some 3) = .error e) ∧ ∃ e, augmentTensor (0 : Mat 1 4) = .error e :=
  ⟨((C287_refused (q := 3)).1 _ _ (by norm_num)).2 (by norm_num),
    fun h => absurd (((C287_refused (q := 3)).1 _ _ (by norm_num)).1 h) (by norm_num),
    (C287_refused.2 _ (by norm_num)).2 (by norm_num)⟩

end Attitude.Props
