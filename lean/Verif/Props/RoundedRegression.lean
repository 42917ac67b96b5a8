import Verif.Model.RoundedRegression
import Verif.Props.RoundedFit
import Verif.Props.Outlier

/-!
# C236: the coefficients of a regression in floating-point arithmetic
-/

namespace Attitude.Props

open Attitude Rounding RoundedFit RoundedRegression Matrix

namespace Spec

/-- What is known of the inverse that the library computes: multiplied with the matrix it gives the
unit matrix, up to `η` relative to the sizes of the two; and it is only refused for matrices that a
relative change of `η` makes singular. -/
structure StableInverse (inv : FlInv) (η : ℝ) : Prop where
  some : ∀ G X, inv G = .some X → size (G * X - 1) ≤ η * (size G * size X)
  none : ∀ G, inv G = .none → ∃ E : Mat 3 3, size E ≤ η * size G ∧ (G + E).det = 0

/-- A bound for the errors of the normal equations of `n` points: `h` additions follow one another,
coordinates are at most `R` and differ from their mean by at most `D`. -/
noncomputable def normalError (n h : ℕ) (D R η : ℝ) : ℝ := 6 * n * D * (η * D + (h + 2) * unit * (D + 4 * R))

end Spec

/-! ## Sums of products -/

lemma flSumProd_error {rnd : ℝ → ℝ} (F : Contract rnd) {n : ℕ} {t : SumTree n}
    (ht : t.leaves.Perm (List.finRange n)) {h : ℕ} (hd : t.depth ≤ h) (x y : Fin n → ℝ) :
    |flSumProd rnd t x y - ∑ i, x i * y i| ≤ ((1 + unit) ^ (h + 1) - 1) * ∑ i, |x i * y i| := by
  have hu := unit_pos
  have h1 := tree_error F (fun i => rnd (x i * y i)) t
  rw [leaves_sum ht, leaves_sum ht] at h1
  have h2 : |∑ i, rnd (x i * y i) - ∑ i, x i * y i| ≤ unit * ∑ i, |x i * y i| := by
    rw [← Finset.sum_sub_distrib, Finset.mul_sum]
    exact (Finset.abs_sum_le_sum_abs _ _).trans (Finset.sum_le_sum fun i _ => F.rel _)
  have h3 : ∑ i, |rnd (x i * y i)| ≤ (1 + unit) * ∑ i, |x i * y i| := by
    rw [Finset.mul_sum]
    refine Finset.sum_le_sum fun i _ => ?_
    have := F.rel (x i * y i)
    have h4 := abs_sub_abs_le_abs_sub (rnd (x i * y i)) (x i * y i)
    linarith
  have hp : (1 + unit) ^ t.depth ≤ (1 + unit) ^ h := pow_le_pow_right₀ (by linarith) hd
  have h1p : 1 ≤ (1 + unit) ^ t.depth := one_le_pow₀ (by linarith)
  have hS : 0 ≤ ∑ i, |x i * y i| := Finset.sum_nonneg fun i _ => abs_nonneg _
  have h5 : ((1 + unit) ^ t.depth - 1) * ∑ i, |rnd (x i * y i)| ≤
      ((1 + unit) ^ h - 1) * ((1 + unit) * ∑ i, |x i * y i|) := by
    apply mul_le_mul (by linarith) h3 (Finset.sum_nonneg fun i _ => abs_nonneg _) (by linarith)
  have h6 := abs_sub_le (flSumProd rnd t x y) (∑ i, rnd (x i * y i)) (∑ i, x i * y i)
  unfold flSumProd at h6 ⊢
  calc _ ≤ _ := h6
    _ ≤ ((1 + unit) ^ h - 1) * ((1 + unit) * ∑ i, |x i * y i|) + unit * ∑ i, |x i * y i| := by linarith
    _ = _ := by ring

lemma flSumProd_near {rnd : ℝ → ℝ} (F : Contract rnd) {n : ℕ} {t : SumTree n}
    (ht : t.leaves.Perm (List.finRange n)) {h : ℕ} (hd : t.depth ≤ h) (hh : h + 2 ≤ 2 ^ 52)
    {x y x' y' : Fin n → ℝ} {D ε : ℝ} (hD : 0 ≤ D) (hx : ∀ i, |x i| ≤ D) (hy : ∀ i, |y i| ≤ D) (hx' : ∀ i, |x' i| ≤ D)
    (hxe : ∀ i, |x i - x' i| ≤ ε) (hye : ∀ i, |y i - y' i| ≤ ε) :
    |flSumProd rnd t x y - ∑ i, x' i * y' i| ≤ n * (2 * (h + 1) * unit * D ^ 2 + 2 * D * ε) ∧
      |flSumProd rnd t x y| ≤ 2 * n * D ^ 2 := by
  have hu := unit_pos
  have h1 := flSumProd_error F ht hd x y
  have hxy : ∀ i, |x i * y i| ≤ D ^ 2 := fun i => by
    rw [abs_mul, sq]
    exact mul_le_mul (hx i) (hy i) (abs_nonneg _) hD
  have h2 : ∑ i, |x i * y i| ≤ n * D ^ 2 := by
    refine (Finset.sum_le_sum fun i _ => hxy i).trans (by simp)
  have hk : ((h + 1 : ℕ) : ℝ) * unit ≤ 1 / 2 := by
    have : ((h + 1 : ℕ) : ℝ) ≤ 2 ^ 52 := by exact_mod_cast (by omega : h + 1 ≤ 2 ^ 52)
    calc ((h + 1 : ℕ) : ℝ) * unit ≤ 2 ^ 52 * unit := by gcongr
      _ = 1 / 2 := by unfold unit; norm_num
  have h3 := pow_unit_le (h + 1) hk
  have h1p : 1 ≤ (1 + unit) ^ (h + 1) := one_le_pow₀ (by linarith)
  have hS : 0 ≤ ∑ i, |x i * y i| := Finset.sum_nonneg fun i _ => abs_nonneg _
  have h4 : ((1 + unit) ^ (h + 1) - 1) * ∑ i, |x i * y i| ≤ (2 * ((h + 1 : ℕ) : ℝ) * unit) * (n * D ^ 2) :=
    mul_le_mul h3 h2 hS (by positivity)
  have h5 : |∑ i, x i * y i - ∑ i, x' i * y' i| ≤ n * (2 * D * ε) := by
    rw [← Finset.sum_sub_distrib]
    refine (Finset.abs_sum_le_sum_abs _ _).trans ((Finset.sum_le_sum (g := fun _ => 2 * D * ε) fun i _ => ?_).trans (by simp))
    have e : x i * y i - x' i * y' i = (x i - x' i) * y i + x' i * (y i - y' i) := by ring
    rw [e]
    refine (abs_add_le _ _).trans ?_
    rw [abs_mul, abs_mul]
    have a1 := mul_le_mul (hxe i) (hy i) (abs_nonneg _) ((abs_nonneg _).trans (hxe i))
    have a2 := mul_le_mul (hx' i) (hye i) (abs_nonneg _) hD
    linarith
  have h6 : |∑ i, x i * y i| ≤ n * D ^ 2 := (Finset.abs_sum_le_sum_abs _ _).trans h2
  push_cast at h4 hk
  constructor
  · have h7 := abs_sub_le (flSumProd rnd t x y) (∑ i, x i * y i) (∑ i, x' i * y' i)
    calc _ ≤ _ := h7
      _ ≤ 2 * (h + 1) * unit * (n * D ^ 2) + n * (2 * D * ε) := by linarith
      _ = _ := by ring
  · have h7 := abs_sub_abs_le_abs_sub (flSumProd rnd t x y) (∑ i, x i * y i)
    have h8 : 2 * (h + 1 : ℝ) * unit * (n * D ^ 2) ≤ 1 * (n * D ^ 2) :=
      mul_le_mul_of_nonneg_right (by linarith) (by positivity)
    linarith

/-! ## Sizes -/

lemma norm_mulVec_le {m : ℕ} (A : Mat m 3) (v : Vec 3) : norm (A *ᵥ v) ≤ Spec.size A * norm v := by
  have h0 : 0 ≤ ∑ i, ∑ j, A i j ^ 2 := Finset.sum_nonneg fun i _ => Finset.sum_nonneg fun j _ => sq_nonneg _
  unfold norm Spec.size
  rw [← Real.sqrt_mul h0, Finset.sum_mul]
  apply Real.sqrt_le_sqrt
  refine Finset.sum_le_sum fun i _ => ?_
  exact Finset.sum_mul_sq_le_sq_mul_sq Finset.univ (fun j => A i j) v

lemma size_sq {m : ℕ} (A : Mat m 3) : Spec.size A ^ 2 = ∑ j, norm (fun i => A i j) ^ 2 := by
  have h0 : 0 ≤ ∑ i, ∑ j, A i j ^ 2 := Finset.sum_nonneg fun i _ => Finset.sum_nonneg fun j _ => sq_nonneg _
  unfold Spec.size norm
  rw [Real.sq_sqrt h0, Finset.sum_comm]
  exact Finset.sum_congr rfl fun j _ => (Real.sq_sqrt (Finset.sum_nonneg fun i _ => sq_nonneg _)).symm

lemma size_nonneg {m : ℕ} (A : Mat m 3) : 0 ≤ Spec.size A := Real.sqrt_nonneg _

lemma col_mul {m : ℕ} (A : Mat m 3) (B : Mat 3 3) (j : Fin 3) : (fun i => (A * B) i j) = A *ᵥ fun i => B i j := by
  funext i
  rfl

lemma norm_nonneg'' {k : ℕ} (v : Vec k) : 0 ≤ norm v := Real.sqrt_nonneg _

lemma norm_negated {k : ℕ} (v : Vec k) : norm (-v) = norm v := by simp [norm]

lemma norm_pos_of_ne {k : ℕ} {v : Vec k} (hv : v ≠ 0) : 0 < norm v := by
  obtain ⟨i, hi⟩ := Function.ne_iff.1 hv
  apply Real.sqrt_pos.2
  exact Finset.sum_pos' (fun i _ => sq_nonneg _) ⟨i, Finset.mem_univ _, by have : v i ≠ 0 := hi; positivity⟩

lemma size_mul_le {m : ℕ} (A : Mat m 3) (B : Mat 3 3) : Spec.size (A * B) ≤ Spec.size A * Spec.size B := by
  apply le_of_sq_le_sq ?_ (mul_nonneg (size_nonneg _) (size_nonneg _))
  rw [mul_pow, size_sq (A * B), size_sq B, Finset.mul_sum]
  refine Finset.sum_le_sum fun j _ => ?_
  rw [col_mul, ← mul_pow]
  exact pow_le_pow_left₀ (norm_nonneg'' _) (norm_mulVec_le _ _) 2

lemma size_ge_of_expands {G X : Mat 3 3} {l : ℝ} (hl : 0 ≤ l) (h : ∀ v, l * norm v ≤ norm (G *ᵥ v)) :
    l * Spec.size X ≤ Spec.size (G * X) := by
  apply le_of_sq_le_sq ?_ (size_nonneg _)
  rw [mul_pow, size_sq (G * X), size_sq X, Finset.mul_sum]
  refine Finset.sum_le_sum fun j _ => ?_
  rw [col_mul, ← mul_pow]
  exact pow_le_pow_left₀ (mul_nonneg hl (norm_nonneg'' _)) (h _) 2

lemma size_one_le : Spec.size (1 : Mat 3 3) ≤ 2 := by
  unfold Spec.size
  rw [Real.sqrt_le_left (by norm_num)]
  have : ∀ i j : Fin 3, ((1 : Mat 3 3) i j) ^ 2 = if i = j then 1 else 0 := fun i j => by
    rw [Matrix.one_apply]; split_ifs <;> norm_num
  simp only [this, Finset.sum_ite_eq, Finset.mem_univ, if_true]
  norm_num

lemma size_le_three (A : Mat 3 3) (c : ℝ) (hc : 0 ≤ c) (h : ∀ i j, |A i j| ≤ c) : Spec.size A ≤ 3 * c := by
  have := size_le A c hc h
  rwa [show (3 : ℝ) * (3 : ℕ) = 3 ^ 2 by norm_num, Real.sqrt_sq (by norm_num)] at this

lemma norm_le_two (v : Vec 3) (c : ℝ) (hc : 0 ≤ c) (h : ∀ i, |v i| ≤ c) : norm v ≤ 2 * c := by
  unfold norm
  rw [Real.sqrt_le_left (by positivity), Fin.sum_univ_three]
  have := fun i => sq_le_sq' (by linarith [neg_abs_le (v i), h i]) ((le_abs_self _).trans (h i))
  nlinarith [this 0, this 1, this 2, sq_nonneg c]

/-! ## The normal equations -/

lemma expands {n : ℕ} {a : Fin n → Vec 3} {m l : ℝ} (hm : Spec.WideInPlan a m) (h1 : l ≤ m ^ 2)
    (h2 : l ≤ n) (v : Vec 3) :
    l * norm v ≤ norm (Linear.matrixSquared (Linear.ofCentered (Coordinates.centered a)).C *ᵥ v) := by
  set C := (Linear.ofCentered (Coordinates.centered a)).C with hC
  have e : v ⬝ᵥ (Linear.matrixSquared C *ᵥ v) = ∑ i, (C *ᵥ v) i ^ 2 := by
    unfold Linear.matrixSquared
    rw [← Matrix.mulVec_mulVec, Matrix.dotProduct_mulVec, Matrix.vecMul_transpose]
    simp only [dotProduct, sq]
  have e2 : ∀ i, (C *ᵥ v) i = v 0 * Coordinates.centered a i 0 + v 1 * Coordinates.centered a i 1 + v 2 := by
    intro i
    simp only [hC, Linear.ofCentered, Linear.addOnes, Matrix.mulVec, dotProduct, Matrix.of_apply, Fin.sum_univ_three,
      Matrix.cons_val_zero, Matrix.cons_val_one, Matrix.cons_val]
    ring
  have hs : ∀ j, ∑ i, Coordinates.centered a i j = 0 := (C01_centered_zero_mean_same_shape a).1
  have h3 : ∑ i, (C *ᵥ v) i ^ 2 =
      ∑ i, (v 0 * Coordinates.centered a i 0 + v 1 * Coordinates.centered a i 1) ^ 2 + n * v 2 ^ 2 := by
    have : ∀ i, (C *ᵥ v) i ^ 2 = (v 0 * Coordinates.centered a i 0 + v 1 * Coordinates.centered a i 1) ^ 2 +
        (2 * v 2 * v 0) * Coordinates.centered a i 0 + (2 * v 2 * v 1) * Coordinates.centered a i 1 + v 2 ^ 2 :=
      fun i => by rw [e2]; ring
    simp only [this, Finset.sum_add_distrib, ← Finset.mul_sum, hs]
    simp
  have h4 := hm (v 0) (v 1)
  have h5 : l * norm v ^ 2 ≤ v ⬝ᵥ (Linear.matrixSquared C *ᵥ v) := by
    rw [e, h3, norm_sq', Fin.sum_univ_three]
    have h6 : m ^ 2 * (v 0 ^ 2 + v 1 ^ 2) ≤
        ∑ i, (v 0 * Coordinates.centered a i 0 + v 1 * Coordinates.centered a i 1) ^ 2 := h4
    nlinarith [sq_nonneg (v 0), sq_nonneg (v 1), sq_nonneg (v 2)]
  have h6 : v ⬝ᵥ (Linear.matrixSquared C *ᵥ v) ≤ norm v * norm (Linear.matrixSquared C *ᵥ v) := by
    unfold norm
    rw [← Real.sqrt_mul (Finset.sum_nonneg fun i _ => sq_nonneg _)]
    apply Real.le_sqrt_of_sq_le
    exact Finset.sum_mul_sq_le_sq_mul_sq _ _ _
  rcases (norm_nonneg'' v).eq_or_lt with h0 | h0
  · rw [← h0, mul_zero]; exact norm_nonneg'' _
  · have : norm v * (l * norm v) ≤ norm v * norm (Linear.matrixSquared C *ᵥ v) := by nlinarith
    exact le_of_mul_le_mul_left this h0

/-- `C` has the columns of exact centred coordinates and ones. -/
lemma design_apply {n : ℕ} (c : Fin n → Vec 3) (i : Fin n) (j : Fin 3) :
    (Linear.ofCentered c).C i j = if j = 2 then 1 else c i j := by
  fin_cases j <;> simp [Linear.ofCentered, Linear.addOnes]

section

variable {rnd : ℝ → ℝ} {n : ℕ} {t tz : Fin 3 → SumTree n} {tG : Fin 3 → Fin 3 → SumTree n} {a : Fin n → Vec 3}
  {R D : ℝ} {h : ℕ}

lemma design_near (F : Contract rnd) (ht : Spec.EachOnce t) (hR : ∀ k j, |a k j| ≤ R)
    (hd : ∀ j, (t j).depth ≤ h) (hh : h + 2 ≤ 2 ^ 52) (i : Fin n) (j : Fin 3) :
    |flCentered rnd t a i j - Coordinates.centered a i j| ≤ 4 * (h + 2) * unit * R :=
  C201_centered_partial rnd F t ht a _ (C01_centered_zero_mean_same_shape a).1 (C01_centered_zero_mean_same_shape a).2 j R
    (fun k => hR k j) h (hd j) hh i

lemma design_bounds (F : Contract rnd) (ht : Spec.EachOnce t) (hR : ∀ k j, |a k j| ≤ R)
    (hd : ∀ j, (t j).depth ≤ h) (hh : h + 2 ≤ 2 ^ 52) (hD1 : 1 ≤ D)
    (hD : ∀ i j, |Coordinates.centered a i j| + 4 * (h + 2) * unit * R ≤ D) (j : Fin 3) (i : Fin n) :
    |flDesign rnd t a j i| ≤ D ∧ |(Linear.ofCentered (Coordinates.centered a)).C i j| ≤ D ∧
      |flDesign rnd t a j i - (Linear.ofCentered (Coordinates.centered a)).C i j| ≤ 4 * (h + 2) * unit * R := by
  have hu := unit_pos
  have hR0 : 0 ≤ R := (abs_nonneg _).trans (hR i 0)
  have h0 : 0 ≤ 4 * (h + 2) * unit * R := by positivity
  rw [design_apply]
  unfold flDesign
  split_ifs with hj
  · simpa using ⟨hD1, h0⟩
  · have h1 := design_near F ht hR hd hh i j
    have h2 := hD i j
    have h3 := abs_sub_abs_le_abs_sub (flCentered rnd t a i j) (Coordinates.centered a i j)
    exact ⟨by linarith, by linarith, h1⟩

lemma normal_near (F : Contract rnd) (ht : Spec.EachOnce t) (htG : ∀ j, Spec.EachOnce (tG j)) (hR : ∀ k j, |a k j| ≤ R)
    (hd : ∀ j, (t j).depth ≤ h) (hdG : ∀ j k, (tG j k).depth ≤ h) (hh : h + 2 ≤ 2 ^ 52) (hD1 : 1 ≤ D)
    (hD : ∀ i j, |Coordinates.centered a i j| + 4 * (h + 2) * unit * R ≤ D) (j k : Fin 3) :
    |flNormal rnd t tG a j k - Linear.matrixSquared (Linear.ofCentered (Coordinates.centered a)).C j k| ≤
      n * (2 * (h + 1) * unit * D ^ 2 + 2 * D * (4 * (h + 2) * unit * R)) ∧ |flNormal rnd t tG a j k| ≤ 2 * n * D ^ 2 :=
  flSumProd_near F (htG j k) (hdG j k) hh (by linarith) (fun i => (design_bounds F ht hR hd hh hD1 hD j i).1)
    (fun i => (design_bounds F ht hR hd hh hD1 hD k i).1) (fun i => (design_bounds F ht hR hd hh hD1 hD j i).2.1)
    (fun i => (design_bounds F ht hR hd hh hD1 hD j i).2.2) (fun i => (design_bounds F ht hR hd hh hD1 hD k i).2.2)

lemma xy_near (F : Contract rnd) (ht : Spec.EachOnce t) (htz : Spec.EachOnce tz) (hR : ∀ k j, |a k j| ≤ R)
    (hd : ∀ j, (t j).depth ≤ h) (hdz : ∀ j, (tz j).depth ≤ h) (hh : h + 2 ≤ 2 ^ 52) (hD1 : 1 ≤ D)
    (hD : ∀ i j, |Coordinates.centered a i j| + 4 * (h + 2) * unit * R ≤ D) (j : Fin 3) :
    |flXy rnd t tz a j - ((Linear.ofCentered (Coordinates.centered a)).C.transpose *ᵥ
      (Linear.ofCentered (Coordinates.centered a)).Z) j| ≤
      n * (2 * (h + 1) * unit * D ^ 2 + 2 * D * (4 * (h + 2) * unit * R)) ∧ |flXy rnd t tz a j| ≤ 2 * n * D ^ 2 := by
  refine flSumProd_near (y' := fun i => Coordinates.centered a i 2) F (htz j) (hdz j) hh (by linarith) (fun i => (design_bounds F ht hR hd hh hD1 hD j i).1)
    (fun i => ?_) (fun i => (design_bounds F ht hR hd hh hD1 hD j i).2.1)
    (fun i => (design_bounds F ht hR hd hh hD1 hD j i).2.2) (fun i => design_near F ht hR hd hh i 2)
  have h1 := design_near F ht hR hd hh i 2
  have h2 := hD i 2
  have h3 := abs_sub_abs_le_abs_sub (flCentered rnd t a i 2) (Coordinates.centered a i 2)
  linarith

end

/-! ## C236 -/

/-- If the points are wide in plan compared to the errors of the normal equations, the program finds
coefficients, and they are close to those of exact arithmetic.  What is missing: the bound has the square
of the condition of the data as a factor, and below the width nothing is said (`C236_narrow_false`). -/
theorem C236_coefficients_partial (rnd : ℝ → ℝ) (F : Contract rnd) (inv : FlInv) (η : ℝ) (hη : 0 ≤ η)
    (hi : Spec.StableInverse inv η) {n : ℕ} (hn : n ≠ 0) (t tz : Fin 3 → SumTree n) (tG : Fin 3 → Fin 3 → SumTree n)
    (tb : Fin 3 → SumTree 3) (ht : Spec.EachOnce t) (htz : Spec.EachOnce tz) (htG : ∀ j, Spec.EachOnce (tG j))
    (htb : Spec.EachOnce tb) (h : ℕ) (hd : ∀ j, (t j).depth ≤ h) (hdz : ∀ j, (tz j).depth ≤ h)
    (hdG : ∀ j k, (tG j k).depth ≤ h) (hdb : ∀ j, (tb j).depth ≤ h) (hh : h + 2 ≤ 2 ^ 52) (a : Fin n → Vec 3)
    (R D : ℝ) (hR : ∀ k j, |a k j| ≤ R) (hD1 : 1 ≤ D)
    (hD : ∀ i j, |Coordinates.centered a i j| + 4 * (h + 2) * unit * R ≤ D) (m l : ℝ) (hm : Spec.WideInPlan a m)
    (hlm : l ≤ m ^ 2) (hln : l ≤ n) (hl : 0 < l) (hρ : 4 * Spec.normalError n h D R η ≤ l) :
    ∃ r c b, Linear.initRows a = .ok r ∧ (Linear.coefficients r).1 = .ok c ∧
      flCoefficients rnd inv t tG tz tb a = .ok b ∧
      norm (fun j => b j - c j) ≤ Spec.normalError n h D R η / l * (5 + 12 * n * D ^ 2 / l) := by
  have hu := unit_pos
  have hn0 : (0 : ℝ) < n := by exact_mod_cast Nat.pos_of_ne_zero hn
  have hR0 : 0 ≤ R := (abs_nonneg _).trans (hR ⟨0, Nat.pos_of_ne_zero hn⟩ 0)
  have hD0 : 0 < D := by linarith
  set C := (Linear.ofCentered (Coordinates.centered a)).C with hC
  set Z := (Linear.ofCentered (Coordinates.centered a)).Z with hZ
  set G := Linear.matrixSquared C with hG
  set Gh := flNormal rnd t tG a with hGh
  set rh := flXy rnd t tz a with hrh
  set ρ := Spec.normalError n h D R η with hρd
  have hexp : ∀ v, l * norm v ≤ norm (G *ᵥ v) := expands hm hlm hln
  set g := n * (2 * (h + 1) * unit * D ^ 2 + 2 * D * (4 * (h + 2) * unit * R)) with hg
  have hg0 : 0 ≤ g := by positivity
  have hGn := normal_near F ht htG hR hd hdG hh hD1 hD
  have hrn := xy_near F ht htz hR hd hdz hh hD1 hD
  -- the sizes
  have s1 : Spec.size (G - Gh) ≤ 3 * g := size_le_three _ _ hg0 fun j k => by
    rw [Matrix.sub_apply, abs_sub_comm]; exact (hGn j k).1
  have s2 : Spec.size Gh ≤ 6 * n * D ^ 2 := by
    have := size_le_three Gh (2 * n * D ^ 2) (by positivity) fun j k => (hGn j k).2
    linarith
  have s3 : norm (fun j => rh j - (C.transpose *ᵥ Z) j) ≤ 2 * g := norm_le_two _ _ hg0 fun j => (hrn j).1
  have s4 : norm rh ≤ 4 * n * D ^ 2 := by
    have := norm_le_two rh (2 * n * D ^ 2) (by positivity) fun j => (hrn j).2
    linarith
  have hgρ : 3 * g + η * (6 * n * D ^ 2) ≤ ρ := by
    have : ρ - (3 * g + η * (6 * n * D ^ 2)) = 6 * n * unit * D ^ 2 := by
      rw [hρd, hg, Spec.normalError]; ring
    have : 0 ≤ 6 * n * unit * D ^ 2 := by positivity
    linarith
  have hρ0 : 0 ≤ ρ := by
    have : 0 ≤ η * (6 * n * D ^ 2) := by positivity
    linarith
  have s5 : Spec.size (G - Gh) + η * Spec.size Gh ≤ ρ := by
    have := mul_le_mul_of_nonneg_left s2 hη
    linarith
  -- exact arithmetic
  have hdet : G.det ≠ 0 := by
    intro h0
    obtain ⟨v, hv, hv0⟩ := Matrix.exists_mulVec_eq_zero_iff.2 h0
    have h1 := hexp v
    rw [hv0, show norm (0 : Vec 3) = 0 by simp [norm]] at h1
    have h2 : 0 < norm v := norm_pos_of_ne hv
    have := mul_pos hl h2
    linarith
  have hGc : G *ᵥ (G⁻¹ *ᵥ (C.transpose *ᵥ Z)) = C.transpose *ᵥ Z := by
    rw [Matrix.mulVec_mulVec, Matrix.mul_nonsing_inv _ (isUnit_iff_ne_zero.2 hdet), Matrix.one_mulVec]
  set c := G⁻¹ *ᵥ (C.transpose *ᵥ Z) with hc
  -- the inverse
  have hX : ∃ X, inv Gh = some X := by
    cases hX : inv Gh with
    | some X => exact ⟨X, rfl⟩
    | none =>
      exfalso
      obtain ⟨E, hE, h0⟩ := hi.none Gh hX
      obtain ⟨v, hv, hv0⟩ := Matrix.exists_mulVec_eq_zero_iff.2 h0
      have e : G *ᵥ v = fun j => ((G - Gh) *ᵥ v) j + ((-E) *ᵥ v) j := by
        funext j
        have := congrFun hv0 j
        simp only [Matrix.add_mulVec, Matrix.sub_mulVec, Matrix.neg_mulVec, Pi.add_apply, Pi.sub_apply, Pi.neg_apply,
          Pi.zero_apply] at this ⊢
        linarith
      have h1 := hexp v
      rw [e] at h1
      have h2 := norm_add_le' ((G - Gh) *ᵥ v) ((-E) *ᵥ v)
      have h3 := norm_mulVec_le (G - Gh) v
      have h4 : norm ((-E) *ᵥ v) ≤ Spec.size E * norm v := by
        rw [Matrix.neg_mulVec, norm_negated]; exact norm_mulVec_le E v
      have h5 : 0 < norm v := norm_pos_of_ne hv
      have h6 : l * norm v ≤ ρ * norm v := by
        have : (Spec.size (G - Gh) + Spec.size E) * norm v ≤ ρ * norm v :=
          mul_le_mul_of_nonneg_right (by linarith) h5.le
        linarith
      have h7 := le_of_mul_le_mul_right h6 h5
      linarith
  obtain ⟨X, hX⟩ := hX
  have hres := hi.some Gh X hX
  set Q := G * X - 1 with hQ
  have q1 : Spec.size Q ≤ ρ * Spec.size X := by
    have e : Q = (Gh * X - 1) + (G - Gh) * X := by
      rw [hQ, Matrix.sub_mul]; abel
    rw [e]
    have h1 := size_add_le (Gh * X - 1) ((G - Gh) * X)
    have h2 := size_mul_le (G - Gh) X
    have h3 := mul_le_mul_of_nonneg_right s5 (size_nonneg X)
    linarith
  have q2 : l * Spec.size X ≤ 2 + Spec.size Q := by
    have h1 := size_ge_of_expands (X := X) hl.le hexp
    have e : G * X = 1 + Q := by rw [hQ]; abel
    rw [e] at h1
    have h2 := size_add_le (1 : Mat 3 3) Q
    linarith [size_one_le]
  have hX0 := size_nonneg X
  have q3 : l * Spec.size X ≤ 3 := by
    have : 4 * (ρ * Spec.size X) ≤ l * Spec.size X := by
      have := mul_le_mul_of_nonneg_right hρ hX0
      linarith
    linarith
  have q4 : Spec.size X ≤ 3 / l := by rw [le_div_iff₀ hl]; linarith
  have q5 : Spec.size Q ≤ 3 * ρ / l := by
    have := mul_le_mul_of_nonneg_left q4 hρ0
    calc _ ≤ _ := q1
      _ ≤ _ := this
      _ = _ := by ring
  -- the product
  have p1 : l * norm (fun j => (X *ᵥ rh) j - c j) ≤ 2 * g + 3 * ρ / l * (4 * n * D ^ 2) := by
    have e : G *ᵥ (fun j => (X *ᵥ rh) j - c j) = fun j => (rh j - (C.transpose *ᵥ Z) j) + (Q *ᵥ rh) j := by
      rw [show (fun j => (X *ᵥ rh) j - c j) = X *ᵥ rh - c from rfl, Matrix.mulVec_sub, hGc, Matrix.mulVec_mulVec,
        show G * X = 1 + Q by rw [hQ]; abel, Matrix.add_mulVec, Matrix.one_mulVec]
      funext j
      simp only [Pi.add_apply, Pi.sub_apply]
      ring
    have h1 := hexp (fun j => (X *ᵥ rh) j - c j)
    rw [e] at h1
    have h2 := norm_add_le' (fun j => rh j - (C.transpose *ᵥ Z) j) (Q *ᵥ rh)
    have h3 := norm_mulVec_le Q rh
    have h4 : Spec.size Q * norm rh ≤ 3 * ρ / l * (4 * n * D ^ 2) :=
      mul_le_mul q5 s4 (norm_nonneg'' _) (by positivity)
    linarith
  set b : Vec 3 := fun j => flSumProd rnd (tb j) (X j) rh with hb
  have hk : ((h + 1 : ℕ) : ℝ) * unit ≤ 1 / 2 := by
    have : ((h + 1 : ℕ) : ℝ) ≤ 2 ^ 52 := by exact_mod_cast (by omega : h + 1 ≤ 2 ^ 52)
    calc ((h + 1 : ℕ) : ℝ) * unit ≤ 2 ^ 52 * unit := by gcongr
      _ = 1 / 2 := by unfold unit; norm_num
  have hpow := pow_unit_le (h + 1) hk
  push_cast at hpow
  have p2 : norm (fun j => b j - (X *ᵥ rh) j) ≤ 2 * (h + 1) * unit * (3 / l * (4 * n * D ^ 2)) := by
    have hrow : ∀ j, |b j - (X *ᵥ rh) j| ≤ 2 * (h + 1) * unit * ((Matrix.of fun j k => |X j k|) *ᵥ fun k => |rh k|) j := by
      intro j
      have h1 := flSumProd_error F (htb j) (hdb j) (X j) rh
      have h2 : ∑ i, |X j i * rh i| = ((Matrix.of fun j k => |X j k|) *ᵥ fun k => |rh k|) j := by
        simp only [Matrix.mulVec, dotProduct, Matrix.of_apply, abs_mul]
      rw [← h2]
      refine h1.trans (mul_le_mul_of_nonneg_right hpow (Finset.sum_nonneg fun i _ => abs_nonneg _))
    have h3 : norm (fun j => b j - (X *ᵥ rh) j) ≤
        norm (fun j => 2 * (h + 1) * unit * ((Matrix.of fun j k => |X j k|) *ᵥ fun k => |rh k|) j) := by
      unfold norm
      apply Real.sqrt_le_sqrt
      refine Finset.sum_le_sum fun j _ => ?_
      rw [sq_le_sq]
      exact (hrow j).trans (le_abs_self _)
    rw [norm_smul', abs_of_nonneg (by positivity)] at h3
    have h4 := norm_mulVec_le (Matrix.of fun j k => |X j k|) fun k => |rh k|
    have h5 : Spec.size (Matrix.of fun j k => |X j k|) = Spec.size X := by
      simp only [Spec.size, Matrix.of_apply, sq_abs]
    have h6 : norm (fun k => |rh k|) = norm rh := by simp only [norm, sq_abs]
    rw [h5, h6] at h4
    have h7 : Spec.size X * norm rh ≤ 3 / l * (4 * n * D ^ 2) := mul_le_mul q4 s4 (norm_nonneg'' _) (by positivity)
    exact h3.trans (mul_le_mul_of_nonneg_left (h4.trans h7) (by positivity))
  have p3 : norm (fun j => b j - c j) ≤ norm (fun j => b j - (X *ᵥ rh) j) + norm (fun j => (X *ᵥ rh) j - c j) := by
    have := norm_add_le' (fun j => b j - (X *ᵥ rh) j) (fun j => (X *ᵥ rh) j - c j)
    simpa using this
  refine ⟨Linear.ofCentered (Coordinates.centered a), c, b, ?_, ?_, ?_, ?_⟩
  · rw [Linear.initRows, if_neg hn]
  · unfold Linear.coefficients
    rw [show (Linear.ofCentered (Coordinates.centered a)).coef = none from rfl]
    simp only
    rw [if_neg hdet]
  · unfold flCoefficients
    rw [if_neg hn, ← hGh, hX]
  · have p4 : norm (fun j => (X *ᵥ rh) j - c j) ≤ (ρ + 3 * ρ / l * (4 * n * D ^ 2)) / l := by
      rw [le_div_iff₀ hl]
      have : 0 ≤ η * (6 * n * D ^ 2) := by positivity
      linarith
    have p5 : 2 * (h + 1) * unit * (3 / l * (4 * n * D ^ 2)) ≤ 4 * ρ / l := by
      rw [show 2 * (h + 1) * unit * (3 / l * (4 * n * D ^ 2)) = 24 * (h + 1) * unit * n * D ^ 2 / l by ring]
      apply div_le_div_of_nonneg_right _ hl.le
      have : 4 * ρ - 24 * (h + 1) * unit * n * D ^ 2 =
          24 * n * D ^ 2 * η + 24 * n * D ^ 2 * unit + 96 * n * D * (h + 2) * unit * R := by
        rw [hρd, Spec.normalError]; ring
      have : 0 ≤ 24 * n * D ^ 2 * η + 24 * n * D ^ 2 * unit + 96 * n * D * (h + 2) * unit * R := by positivity
      linarith
    calc norm (fun j => b j - c j) ≤ 4 * ρ / l + (ρ + 3 * ρ / l * (4 * n * D ^ 2)) / l := by linarith
      _ = _ := by ring

/-- An example: four positions around the origin, added from first to last, with an inverse that is exact. -/
noncomputable def exactInverse : FlInv := fun G => if G.det = 0 then none else some G⁻¹

lemma exactInverse_stable (η : ℝ) (hη : 0 ≤ η) : Spec.StableInverse exactInverse η where
  some := by
    intro G X h
    unfold exactInverse at h
    split_ifs at h with h0
    cases h
    rw [Matrix.mul_nonsing_inv _ (isUnit_iff_ne_zero.2 h0), sub_self]
    have : Spec.size (0 : Mat 3 3) = 0 := by simp [Spec.size]
    rw [this]
    exact mul_nonneg hη (mul_nonneg (size_nonneg _) (size_nonneg _))
  none := by
    intro G h
    unfold exactInverse at h
    split_ifs at h with h0
    exact ⟨0, by simpa [Spec.size] using mul_nonneg hη (size_nonneg G), by rw [add_zero]; exact h0⟩

/-- The order from first to last. -/
def inOrder4 : SumTree 4 := .node (.node (.node (.leaf 0) (.leaf 1)) (.leaf 2)) (.leaf 3)

example : ∃ r c b, Linear.initRows (around ![1, 2, -1, -2]) = .ok r ∧ (Linear.coefficients r).1 = .ok c ∧
    flCoefficients round53 exactInverse (fun _ => inOrder4) (fun _ _ => inOrder4) (fun _ => inOrder4)
      (fun _ => .node (.node (.leaf 0) (.leaf 1)) (.leaf 2)) (around ![1, 2, -1, -2]) = .ok b ∧
    norm (fun j => b j - c j) ≤ 1 / 10 ^ 9 := by
  have hu : unit = 1 / 2 ^ 53 := by unfold unit; norm_num
  have hR : ∀ (k : Fin 4) (j : Fin 3), |around ![1, 2, -1, -2] k j| ≤ 2 := by
    intro k j
    fin_cases k <;> fin_cases j <;> simp [around]
  have hC : ∀ (i : Fin 4) (j : Fin 3), Coordinates.centered (around ![1, 2, -1, -2]) i j = around ![1, 2, -1, -2] i j := by
    intro i j
    have : ∑ k, around ![1, 2, -1, -2] k j = 0 := by
      fin_cases j <;> simp [around, Fin.sum_univ_four]
    simp [Coordinates.centered, meanRows, this]
  obtain ⟨r, c, b, h1, h2, h3, h4⟩ := C236_coefficients_partial round53 round53_contract exactInverse unit unit_pos.le
    (exactInverse_stable _ unit_pos.le) (by norm_num) (fun _ => inOrder4) (fun _ => inOrder4) (fun _ _ => inOrder4)
    (fun _ => .node (.node (.leaf 0) (.leaf 1)) (.leaf 2)) (fun _ => by simp only [inOrder4, SumTree.leaves]; decide)
    (fun _ => by simp only [inOrder4, SumTree.leaves]; decide) (fun _ _ => by simp only [inOrder4, SumTree.leaves]; decide)
    (fun _ => by simp only [SumTree.leaves]; decide) 3 (fun _ => by simp [inOrder4, SumTree.depth])
    (fun _ => by simp [inOrder4, SumTree.depth]) (fun _ _ => by simp [inOrder4, SumTree.depth])
    (fun _ => by simp [SumTree.depth]) (by norm_num) (around ![1, 2, -1, -2]) 2 3 hR (by norm_num)
    (fun i j => by
      rw [hC, hu]
      have := hR i j
      norm_num at this ⊢
      linarith) 1 1 (around_wide _) (by norm_num) (by norm_num) (by norm_num)
    (by unfold Spec.normalError; rw [hu]; norm_num)
  refine ⟨r, c, b, h1, h2, h3, h4.trans ?_⟩
  unfold Spec.normalError
  rw [hu]
  norm_num

/-! ### Narrow data -/

lemma round53_scale (e : ℤ) (x : ℝ) : round53 (2 ^ e * x) = 2 ^ e * round53 x := by
  have hp : (0 : ℝ) < 2 ^ e := by positivity
  have key : ∀ y : ℝ, 0 < y → roundPos (2 ^ e * y) = 2 ^ e * roundPos y := by
    intro y hy
    have hl : Int.log 2 (2 ^ e * y) = e + Int.log 2 y := by
      have hy' : 0 < 2 ^ e * y := by positivity
      apply le_antisymm
      · rw [← Int.lt_add_one_iff, add_assoc]
        apply (Int.lt_zpow_iff_log_lt (b := 2) (by norm_num) hy').1
        have := (Int.lt_zpow_iff_log_lt (b := 2) (by norm_num) hy).2 (Int.lt_add_one_iff.2 le_rfl : Int.log 2 y < Int.log 2 y + 1)
        push_cast at this ⊢
        rw [zpow_add₀ (by norm_num)]
        exact mul_lt_mul_of_pos_left this hp
      · apply (Int.zpow_le_iff_le_log (b := 2) (by norm_num) hy').1
        have := (Int.zpow_le_iff_le_log (b := 2) (by norm_num) hy).2 (le_refl (Int.log 2 y))
        push_cast at this ⊢
        rw [zpow_add₀ (by norm_num)]
        exact mul_le_mul_of_nonneg_left this hp.le
    unfold roundPos
    simp only
    rw [hl, show e + Int.log 2 y - 52 = e + (Int.log 2 y - 52) by ring, zpow_add₀ (by norm_num),
      mul_div_mul_left _ _ hp.ne']
    ring
  unfold round53
  rcases lt_trichotomy 0 x with hx | hx | hx
  · rw [if_pos (mul_pos hp hx), if_pos hx, key x hx]
  · subst hx; simp
  · have h1 : 2 ^ e * x < 0 := mul_neg_of_pos_of_neg hp hx
    rw [if_neg h1.not_gt, if_pos h1, if_neg hx.not_gt, if_pos hx, show -(2 ^ e * x) = 2 ^ e * -x by ring,
      key (-x) (by linarith)]
    ring

lemma eval_scale {n : ℕ} (t : SumTree n) (e : ℤ) (x : Fin n → ℝ) :
    t.eval round53 (fun i => 2 ^ e * x i) = 2 ^ e * t.eval round53 x := by
  induction t with
  | leaf i => rfl
  | node l r hl hr =>
    simp only [SumTree.eval]
    rw [hl, hr, ← mul_add, round53_scale]

lemma eval_exact {n : ℕ} {t : SumTree n} (ht : t.leaves.Perm (List.finRange n)) (e : ℤ) (k : Fin n → ℤ)
    (hk : ∑ i, |k i| ≤ 2 ^ 53) : t.eval round53 (fun i => 2 ^ e * (k i : ℝ)) = 2 ^ e * (∑ i, k i : ℤ) := by
  rw [eval_scale, (tree_exact round53_contract k t ?_).1]
  · rw [show (t.leaves.map k).sum = ∑ i, k i by rw [Fin.sum_univ_def]; exact (ht.map k).sum_eq]
  · rw [show (t.leaves.map fun i => |k i|).sum = ∑ i, |k i| by rw [Fin.sum_univ_def]; exact (ht.map _).sum_eq]
    exact hk

/-- The positions of four points in a strip that is `2 ^ 28` times as long as it is wide. -/
def stripX : Fin 4 → ℤ := ![2 ^ 28, -2 ^ 28, 2 ^ 28, -2 ^ 28]

/-- The other coordinate. -/
def stripY : Fin 4 → ℤ := ![2 ^ 28 + 1, -2 ^ 28 + 1, 2 ^ 28 - 1, -2 ^ 28 - 1]

/-- The points, with elevations. -/
def strip (z : Fin 4 → ℤ) : Fin 4 → Vec 3 := fun i => ![(stripX i : ℝ), (stripY i : ℝ), (z i : ℝ)]

lemma strip_centered {t : Fin 3 → SumTree 4} (ht : Spec.EachOnce t) (z : Fin 4 → ℤ) (hz : ∑ k, z k = 0)
    (hz' : ∑ k, |z k| ≤ 2 ^ 52) : flCentered round53 t (strip z) = strip z := by
  have hX : ∑ k, stripX k = 0 := by simp [stripX, Fin.sum_univ_four]
  have hY : ∑ k, stripY k = 0 := by simp [stripY, Fin.sum_univ_four]
  have hc : Coordinates.centered (strip z) = strip z := by
    funext i j
    have : ∑ k, strip z k j = 0 := by
      fin_cases j <;> simp only [strip, Fin.zero_eta, Fin.mk_one, Fin.reduceFinMk, Matrix.cons_val_zero,
        Matrix.cons_val_one, Matrix.cons_val] <;> exact_mod_cast (by assumption)
    simp [Coordinates.centered, meanRows, this]
  have h := C01_centered_zero_mean_same_shape (strip z)
  rw [hc] at h
  funext i j
  have hi : ∀ x : Fin 4 → ℤ, (∀ k, strip z k j = x k) → ∑ k, x k = 0 → ∑ k, |x k| ≤ 2 ^ 52 →
      flCentered round53 t (strip z) i j = strip z i j := fun x h1 h2 h3 =>
    C201_integers round53 round53_contract t ht _ _ h.1 h.2 j x 0 h1 (by rw [h2]; simp) h3 i
  fin_cases j
  · exact hi stripX (fun k => rfl) hX (by simp [stripX, Fin.sum_univ_four])
  · exact hi stripY (fun k => rfl) hY (by simp [stripY, Fin.sum_univ_four])
  · exact hi z (fun k => rfl) hz hz'

lemma round53_int_scale (k : ℤ) (hk : |k| ≤ 2 ^ 53) (e : ℤ) : round53 (2 ^ e * (k : ℝ)) = 2 ^ e * k := by
  rw [round53_scale, round53_contract.int k hk]

lemma strip_xx {t : SumTree 4} (ht : t.leaves.Perm (List.finRange 4)) :
    flSumProd round53 t (fun i => (stripX i : ℝ)) (fun i => (stripX i : ℝ)) = 2 ^ 58 := by
  have e : (fun i => round53 ((stripX i : ℝ) * (stripX i : ℝ))) = fun i => 2 ^ (28 : ℤ) * (((2 ^ 28 : ℤ)) : ℝ) := by
    funext i
    rw [← round53_int_scale _ (by norm_num)]
    congr 1
    fin_cases i <;> simp [stripX] <;> norm_num
  unfold flSumProd
  rw [e, eval_exact ht 28 (fun _ => 2 ^ 28) (by simp)]
  norm_num

lemma strip_xy {t : SumTree 4} (ht : t.leaves.Perm (List.finRange 4)) :
    flSumProd round53 t (fun i => (stripX i : ℝ)) (fun i => (stripY i : ℝ)) = 2 ^ 58 := by
  have e : (fun i => round53 ((stripX i : ℝ) * (stripY i : ℝ))) =
      fun i => 2 ^ (28 : ℤ) * (((![2 ^ 28 + 1, 2 ^ 28 - 1, 2 ^ 28 - 1, 2 ^ 28 + 1] : Fin 4 → ℤ) i : ℤ) : ℝ) := by
    funext i
    rw [← round53_int_scale _ (by fin_cases i <;> simp)]
    congr 1
    fin_cases i <;> simp [stripX, stripY] <;> norm_num
  unfold flSumProd
  rw [e, eval_exact ht 28 _ (by simp [Fin.sum_univ_four])]
  simp [Fin.sum_univ_four]
  norm_num

lemma strip_yx {t : SumTree 4} (ht : t.leaves.Perm (List.finRange 4)) :
    flSumProd round53 t (fun i => (stripY i : ℝ)) (fun i => (stripX i : ℝ)) = 2 ^ 58 := by
  rw [← strip_xy ht]
  simp only [flSumProd, mul_comm]

lemma round53_above : round53 ((2 ^ 28 + 1) ^ 2) = 2 ^ 28 * (2 ^ 28 + 2) := by
  rw [roundPos_binade (e := 56) (by norm_num) (by norm_num) (2 ^ 52 + 2 ^ 25) (by norm_num) (by norm_num)]
  norm_num

lemma round53_below : round53 ((2 ^ 28 - 1) ^ 2) = 2 ^ 28 * (2 ^ 28 - 2) := by
  rw [roundPos_binade (e := 55) (by norm_num) (by norm_num) (2 ^ 53 - 2 ^ 26) (by norm_num) (by norm_num)]
  norm_num

lemma strip_yy {t : SumTree 4} (ht : t.leaves.Perm (List.finRange 4)) :
    flSumProd round53 t (fun i => (stripY i : ℝ)) (fun i => (stripY i : ℝ)) = 2 ^ 58 := by
  have e : (fun i => round53 ((stripY i : ℝ) * (stripY i : ℝ))) =
      fun i => 2 ^ (28 : ℤ) * (((![2 ^ 28 + 2, 2 ^ 28 - 2, 2 ^ 28 - 2, 2 ^ 28 + 2] : Fin 4 → ℤ) i : ℤ) : ℝ) := by
    funext i
    have h1 := round53_above
    have h2 := round53_below
    fin_cases i <;> simp [stripY]
    all_goals norm_num at h1 h2 ⊢
    all_goals assumption
  unfold flSumProd
  rw [e, eval_exact ht 28 _ (by simp [Fin.sum_univ_four])]
  simp [Fin.sum_univ_four]
  norm_num

lemma strip_ones {t : SumTree 4} (ht : t.leaves.Perm (List.finRange 4)) (z : Fin 4 → ℤ) (hz : ∑ k, |z k| ≤ 2 ^ 53) :
    flSumProd round53 t (fun _ => 1) (fun i => (z i : ℝ)) = (∑ k, z k : ℤ) ∧
    flSumProd round53 t (fun i => (z i : ℝ)) (fun _ => 1) = (∑ k, z k : ℤ) := by
  have h0 : ∀ i, round53 (z i : ℝ) = z i := fun i => round53_contract.int _
    ((Finset.single_le_sum (f := fun k => |z k|) (fun k _ => abs_nonneg _) (Finset.mem_univ i)).trans hz)
  have h := eval_exact ht 0 z hz
  simp only [zpow_zero, one_mul] at h
  simp only [flSumProd, one_mul, mul_one, h0, h, and_self]

lemma on_plane {n : ℕ} (hn : n ≠ 0) (a : Fin n → Vec 3) (p q : ℝ) (h : ∀ i, a i 2 = p * a i 0 + q * a i 1)
    (hc : ¬ Spec.CollinearInPlan a) :
    ∃ r, Linear.initRows a = .ok r ∧ (Linear.coefficients r).1 = .ok ![p, q, 0] := by
  have hr : Linear.initRows a = .ok (Linear.ofCentered (Coordinates.centered a)) := by
    rw [Linear.initRows, if_neg hn]
  obtain ⟨c, hc'⟩ := (C31_singular_iff a _ hr).2.2 hc
  obtain ⟨h2, h3, h4⟩ := C31_least_squares a _ hr c hc'
  have e : Spec.verticalSquares a p q 0 = 0 := by
    unfold Spec.verticalSquares
    exact Finset.sum_eq_zero fun i _ => by rw [h i]; ring
  have h5 := h3 p q 0
  have h6 : 0 ≤ Spec.verticalSquares a (c 0) (c 1) (Spec.intercept a (c 0) (c 1)) :=
    Finset.sum_nonneg fun i _ => sq_nonneg _
  obtain ⟨h7, h8, -⟩ := h4 p q 0 (by linarith)
  refine ⟨_, hr, ?_⟩
  rw [hc']
  congr 1
  funext j
  fin_cases j
  · exact h7.symm
  · exact h8.symm
  · exact h2

lemma strip_not_collinear (z : Fin 4 → ℤ) : ¬ Spec.CollinearInPlan (strip z) := by
  rintro ⟨p, q, t, h, hi⟩
  have h0 := hi 0
  have h1 := hi 1
  have h2 := hi 2
  simp [strip, stripX, stripY] at h0 h1 h2
  have hq : q = 0 := by linarith
  have hp : p = 0 := by subst hq; linarith
  exact h.elim (fun h => h hp) (fun h => h hq)

/-- Refutation: the integers of `strip` can be represented, and the points of both data sets lie on planes
whose coefficients exact arithmetic recovers: `z = x` and `z = y`.  But squares of the coordinates are rounded, so that
the matrix of the normal equations is singular, and the program gives the same answer for both, whatever it
uses as the inverse and in whatever order it adds. -/
theorem C236_narrow_false :
    (∃ r, Linear.initRows (strip stripX) = .ok r ∧ (Linear.coefficients r).1 = .ok ![1, 0, 0]) ∧
    (∃ r, Linear.initRows (strip stripY) = .ok r ∧ (Linear.coefficients r).1 = .ok ![0, 1, 0]) ∧
    ∀ (inv : FlInv) (t tz : Fin 3 → SumTree 4) (tG : Fin 3 → Fin 3 → SumTree 4) (tb : Fin 3 → SumTree 3),
      Spec.EachOnce t → Spec.EachOnce tz → (∀ j, Spec.EachOnce (tG j)) →
      (flNormal round53 t tG (strip stripX)).det = 0 ∧
      flCoefficients round53 inv t tG tz tb (strip stripX) = flCoefficients round53 inv t tG tz tb (strip stripY) := by
  refine ⟨on_plane (by norm_num) _ 1 0 (fun i => by simp [strip]) (strip_not_collinear _),
    on_plane (by norm_num) _ 0 1 (fun i => by simp [strip]) (strip_not_collinear _), ?_⟩
  intro inv t tz tG tb ht htz htG
  have hX : ∑ k, stripX k = 0 := by simp [stripX, Fin.sum_univ_four]
  have hY : ∑ k, stripY k = 0 := by simp [stripY, Fin.sum_univ_four]
  have hX' : ∑ k, |stripX k| ≤ 2 ^ 52 := by simp [stripX, Fin.sum_univ_four]
  have hY' : ∑ k, |stripY k| ≤ 2 ^ 52 := by simp [stripY, Fin.sum_univ_four]
  have hX'' : ∑ k, |stripX k| ≤ 2 ^ 53 := hX'.trans (by norm_num)
  have hY'' : ∑ k, |stripY k| ≤ 2 ^ 53 := hY'.trans (by norm_num)
  have cX := strip_centered ht stripX hX hX'
  have cY := strip_centered ht stripY hY hY'
  have d0 : ∀ z, flCentered round53 t (strip z) = strip z → flDesign round53 t (strip z) 0 = fun i => (stripX i : ℝ) :=
    fun z hz => by unfold flDesign; rw [hz]; rfl
  have d1 : ∀ z, flCentered round53 t (strip z) = strip z → flDesign round53 t (strip z) 1 = fun i => (stripY i : ℝ) :=
    fun z hz => by unfold flDesign; rw [hz]; rfl
  have d2 : ∀ z, flDesign round53 t (strip z) 2 = fun _ => 1 := fun z => rfl
  have hN : ∀ z, flCentered round53 t (strip z) = strip z →
      flNormal round53 t tG (strip z) = !![2 ^ 58, 2 ^ 58, 0; 2 ^ 58, 2 ^ 58, 0; 0, 0, 4] := by
    intro z hz
    funext j k
    have o := fun j k => strip_ones (htG j k) (fun _ => 1) (by simp)
    fin_cases j <;> fin_cases k <;>
      simp only [flNormal, Matrix.of_apply, Fin.zero_eta, Fin.mk_one, Fin.reduceFinMk, d0 z hz, d1 z hz, d2,
        strip_xx (htG _ _), strip_xy (htG _ _), strip_yx (htG _ _), strip_yy (htG _ _),
        (strip_ones (htG _ _) stripX hX'').1, (strip_ones (htG _ _) stripX hX'').2,
        (strip_ones (htG _ _) stripY hY'').1, (strip_ones (htG _ _) stripY hY'').2, hX, hY,
        Matrix.cons_val_zero, Matrix.cons_val_one, Matrix.cons_val, Int.cast_zero]
    have := (o 2 2).1
    simpa using this
  have hx : ∀ j, flXy round53 t tz (strip stripX) j = flXy round53 t tz (strip stripY) j := by
    intro j
    fin_cases j
    · simp only [flXy, Fin.zero_eta, d0 _ cX, d0 _ cY, cX, cY, strip, Matrix.cons_val, strip_xx (htz 0), strip_xy (htz 0)]
    · simp only [flXy, Fin.mk_one, d1 _ cX, d1 _ cY, cX, cY, strip, Matrix.cons_val, strip_yx (htz 1), strip_yy (htz 1)]
    · simp only [flXy, Fin.reduceFinMk, d2, cX, cY, strip, Matrix.cons_val, (strip_ones (htz 2) stripX hX'').1,
        (strip_ones (htz 2) stripY hY'').1, hX, hY]
  refine ⟨?_, ?_⟩
  · rw [hN _ cX, Matrix.det_fin_three]
    simp
  · have hx' := funext hx
    unfold flCoefficients
    rw [hN _ cX, hN _ cY, hx']

/-- Refutation, the other way round: a library that refuses singular matrices, as `numpy` does, makes the program
fail with `LinAlgError` for these four points of the plane `z = x`, which are not on a line. -/
theorem C236_refused_false (inv : FlInv) (hinv : ∀ G : Mat 3 3, G.det = 0 → inv G = none)
    (t tz : Fin 3 → SumTree 4) (tG : Fin 3 → Fin 3 → SumTree 4) (tb : Fin 3 → SumTree 3)
    (ht : Spec.EachOnce t) (htz : Spec.EachOnce tz) (htG : ∀ j, Spec.EachOnce (tG j)) :
    (∃ r, Linear.initRows (strip stripX) = .ok r ∧ (Linear.coefficients r).1 = .ok ![1, 0, 0]) ∧
    flCoefficients round53 inv t tG tz tb (strip stripX) = .error .linAlgError := by
  refine ⟨C236_narrow_false.1, ?_⟩
  have h := hinv _ (C236_narrow_false.2.2 inv t tz tG tb ht htz htG).1
  unfold flCoefficients
  rw [h]
  simp

/-- The inverse of exact arithmetic refuses singular matrices. -/
example : flCoefficients round53 exactInverse (fun _ => inOrder4) (fun _ _ => inOrder4) (fun _ => inOrder4)
    (fun _ => .node (.node (.leaf 0) (.leaf 1)) (.leaf 2)) (strip stripX) = .error .linAlgError :=
  (C236_refused_false exactInverse (fun G hG => by unfold exactInverse; rw [if_pos hG]) _ _ _ _
    (fun _ => by simp only [inOrder4, SumTree.leaves]; decide)
    (fun _ => by simp only [inOrder4, SumTree.leaves]; decide)
    (fun _ _ => by simp only [inOrder4, SumTree.leaves]; decide)).2

end Attitude.Props
