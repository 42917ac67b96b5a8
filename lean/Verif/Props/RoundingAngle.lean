import Verif.Props.Rounding

/-!
# Angles between vectors in floating-point arithmetic
-/

namespace Attitude.Props

open Attitude Rounding

namespace Spec

/-- `arccos` of the library: off by at most `ε`, and not a number outside of [-1, 1]. -/
structure AccurateArccos (acos : ℝ → Option ℝ) (ε : ℝ) : Prop where
  close : ∀ x, -1 ≤ x → x ≤ 1 → ∃ t, acos x = some t ∧ |t - Real.arccos x| ≤ ε
  nan : ∀ x, x < -1 ∨ 1 < x → acos x = none

/-- The cosine of the angle between two vectors. -/
noncomputable def cosine (v w : Vec 3) : ℝ :=
  (v 0 * w 0 + v 1 * w 1 + v 2 * w 2) /
    (Real.sqrt (v 0 ^ 2 + v 1 ^ 2 + v 2 ^ 2) * Real.sqrt (w 0 ^ 2 + w 1 ^ 2 + w 2 ^ 2))

end Spec

lemma norm_eq_sqrt3 (v : Vec 3) : Attitude.norm v = Real.sqrt (v 0 ^ 2 + v 1 ^ 2 + v 2 ^ 2) := by
  rw [Attitude.norm, Fin.sum_univ_three]

lemma sum_abs_mul_le (v w : Vec 3) :
    |v 0 * w 0| + |v 1 * w 1| + |v 2 * w 2| ≤ Attitude.norm v * Attitude.norm w := by
  have h0 := norm_nonneg' v
  have h1 := norm_nonneg' w
  apply le_of_sq_le_sq _ (by positivity)
  rw [mul_pow, norm_sq', norm_sq', Fin.sum_univ_three, Fin.sum_univ_three, abs_mul, abs_mul, abs_mul]
  rw [← sq_abs (v 0), ← sq_abs (v 1), ← sq_abs (v 2), ← sq_abs (w 0), ← sq_abs (w 1), ← sq_abs (w 2)]
  nlinarith [sq_nonneg (|v 0| * |w 1| - |v 1| * |w 0|), sq_nonneg (|v 0| * |w 2| - |v 2| * |w 0|),
    sq_nonneg (|v 1| * |w 2| - |v 2| * |w 1|)]

section contract

variable {rnd : ℝ → ℝ} (F : Contract rnd)

include F

/-- The computed scalar product is close to the exact one. -/
lemma flDot_close (v w : Vec 3) :
    |flDot rnd v w - (v 0 * w 0 + v 1 * w 1 + v 2 * w 2)| ≤
      4 * unit * (Attitude.norm v * Attitude.norm w) := by
  have hu := unit_pos
  have hu' := unit_small
  have cs := sum_abs_mul_le v w
  have e0 := F.rel (v 0 * w 0)
  have e1 := F.rel (v 1 * w 1)
  have e2 := F.rel (v 2 * w 2)
  have e3 := F.rel (rnd (v 0 * w 0) + rnd (v 1 * w 1))
  have e4 := F.rel (rnd (rnd (v 0 * w 0) + rnd (v 1 * w 1)) + rnd (v 2 * w 2))
  unfold flDot
  have a0 := abs_nonneg (v 0 * w 0)
  have a1 := abs_nonneg (v 1 * w 1)
  have a2 := abs_nonneg (v 2 * w 2)
  obtain ⟨x0, hx0⟩ : ∃ x, x = v 0 * w 0 := ⟨_, rfl⟩
  obtain ⟨x1, hx1⟩ : ∃ x, x = v 1 * w 1 := ⟨_, rfl⟩
  obtain ⟨x2, hx2⟩ : ∃ x, x = v 2 * w 2 := ⟨_, rfl⟩
  simp only [← hx0, ← hx1, ← hx2] at *
  obtain ⟨p0, hp0⟩ : ∃ x, x = rnd x0 := ⟨_, rfl⟩
  obtain ⟨p1, hp1⟩ : ∃ x, x = rnd x1 := ⟨_, rfl⟩
  obtain ⟨p2, hp2⟩ : ∃ x, x = rnd x2 := ⟨_, rfl⟩
  simp only [← hp0, ← hp1, ← hp2] at *
  obtain ⟨s1, hs1⟩ : ∃ x, x = rnd (p0 + p1) := ⟨_, rfl⟩
  simp only [← hs1] at *
  obtain ⟨s2, hs2⟩ : ∃ x, x = rnd (s1 + p2) := ⟨_, rfl⟩
  simp only [← hs2] at *
  have b0 : |p0| ≤ |x0| + unit * |x0| := by
    calc |p0| = |x0 + (p0 - x0)| := by congr 1; ring
      _ ≤ _ := (abs_add_le _ _).trans (by linarith)
  have b1 : |p1| ≤ |x1| + unit * |x1| := by
    calc |p1| = |x1 + (p1 - x1)| := by congr 1; ring
      _ ≤ _ := (abs_add_le _ _).trans (by linarith)
  have b2 : |p2| ≤ |x2| + unit * |x2| := by
    calc |p2| = |x2 + (p2 - x2)| := by congr 1; ring
      _ ≤ _ := (abs_add_le _ _).trans (by linarith)
  obtain ⟨T, hT⟩ : ∃ x, x = |x0| + |x1| := ⟨_, rfl⟩
  have hT0 : 0 ≤ T := by rw [hT]; positivity
  have c1 : |p0 + p1| ≤ (1 + unit) * T := (abs_add_le _ _).trans (by rw [hT]; linarith)
  have e3' : |s1 - (p0 + p1)| ≤ unit * ((1 + unit) * T) :=
    e3.trans (mul_le_mul_of_nonneg_left c1 hu.le)
  have c2 : |s1| ≤ (1 + unit) * T + unit * ((1 + unit) * T) := by
    calc |s1| = |(p0 + p1) + (s1 - (p0 + p1))| := by congr 1; ring
      _ ≤ _ := (abs_add_le _ _).trans (add_le_add c1 e3')
  have c3 : |s1 + p2| ≤ (1 + unit) ^ 2 * (T + |x2|) := by
    refine (abs_add_le _ _).trans ((add_le_add c2 b2).trans ?_)
    have : 0 ≤ (unit + unit ^ 2) * |x2| := by positivity
    nlinarith
  have e4' : |s2 - (s1 + p2)| ≤ unit * ((1 + unit) ^ 2 * (T + |x2|)) :=
    e4.trans (mul_le_mul_of_nonneg_left c3 hu.le)
  have key : |s2 - (x0 + x1 + x2)| ≤ 4 * unit * (T + |x2|) := by
    have h1 : |s2 - (x0 + x1 + x2)| ≤ |s2 - (s1 + p2)| + |s1 - (p0 + p1)| + (|p0 - x0| + |p1 - x1| + |p2 - x2|) := by
      calc |s2 - (x0 + x1 + x2)| =
          |((s2 - (s1 + p2)) + (s1 - (p0 + p1))) + ((p0 - x0) + (p1 - x1) + (p2 - x2))| := by
            congr 1; ring
        _ ≤ _ := (abs_add_le _ _).trans (add_le_add (abs_add_le _ _)
            ((abs_add_le _ _).trans (add_le_add (abs_add_le _ _) le_rfl)))
    have h2 : |s1 - (p0 + p1)| ≤ unit * ((1 + unit) * (T + |x2|)) :=
      e3'.trans (mul_le_mul_of_nonneg_left (mul_le_mul_of_nonneg_left (by linarith) (by linarith)) hu.le)
    have h3 : |p0 - x0| + |p1 - x1| + |p2 - x2| ≤ unit * (T + |x2|) := by rw [hT]; linarith
    have h4 : unit * ((1 + unit) ^ 2 * (T + |x2|)) + unit * ((1 + unit) * (T + |x2|)) + unit * (T + |x2|) =
        unit * (T + |x2|) * (3 + 3 * unit + unit * unit) := by ring
    have h6 : unit * unit ≤ unit * 1 := mul_le_mul_of_nonneg_left (by linarith) hu.le
    have h5 : unit * (T + |x2|) * (3 + 3 * unit + unit * unit) ≤ unit * (T + |x2|) * 4 :=
      mul_le_mul_of_nonneg_left (by linarith) (mul_nonneg hu.le (add_nonneg hT0 (abs_nonneg _)))
    linarith
  refine key.trans (mul_le_mul_of_nonneg_left (by rw [hT]; exact cs) (by positivity))

/-- The computed cosine is close to the exact one. -/
lemma flAngleCos_close (v w : Vec 3) (hv : v ≠ 0) (hw : w ≠ 0) :
    ∃ c, flAngleCos rnd v w = some c ∧ |c - Spec.cosine v w| ≤ 17 * unit := by
  have hu := unit_pos
  have hu' := unit_small
  have hV : 0 < Attitude.norm v := (norm_pos_iff' v).2 hv
  have hW : 0 < Attitude.norm w := (norm_pos_iff' w).2 hw
  have d := flDot_close F v w
  have nv := flNorm_close F v
  have nw := flNorm_close F w
  have cs := sum_abs_mul_le v w
  unfold flAngleCos Spec.cosine
  rw [← norm_eq_sqrt3, ← norm_eq_sqrt3]
  obtain ⟨V, hVd⟩ : ∃ x, x = Attitude.norm v := ⟨_, rfl⟩
  obtain ⟨W, hWd⟩ : ∃ x, x = Attitude.norm w := ⟨_, rfl⟩
  obtain ⟨a, ha⟩ : ∃ x, x = flNorm rnd v := ⟨_, rfl⟩
  obtain ⟨b, hb⟩ : ∃ x, x = flNorm rnd w := ⟨_, rfl⟩
  obtain ⟨D, hD⟩ : ∃ x, x = flDot rnd v w := ⟨_, rfl⟩
  obtain ⟨E, hE⟩ : ∃ x, x = v 0 * w 0 + v 1 * w 1 + v 2 * w 2 := ⟨_, rfl⟩
  have hEa : |E| ≤ V * W := by
    rw [hE, hVd, hWd]
    refine le_trans ?_ cs
    exact (abs_add_le _ _).trans (add_le_add (abs_add_le _ _) le_rfl)
  simp only [← hVd, ← hWd, ← ha, ← hb, ← hD, ← hE] at *
  have hVW : 0 < V * W := mul_pos hV hW
  obtain ⟨P, hP⟩ : ∃ x, x = V * W := ⟨_, rfl⟩
  have hab : |a * b - P| ≤ 9 * unit * P := by
    have e : a * b - P = (a - V) * (b - W) + (a - V) * W + V * (b - W) := by rw [hP]; ring
    rw [e]
    have h1 : |(a - V) * (b - W)| ≤ (4 * unit * V) * (4 * unit * W) := by
      rw [abs_mul]
      exact mul_le_mul nv nw (abs_nonneg _) (by positivity)
    have h2 : |(a - V) * W| ≤ 4 * unit * V * W := by
      rw [abs_mul, abs_of_pos hW]
      exact mul_le_mul_of_nonneg_right nv hW.le
    have h3 : |V * (b - W)| ≤ V * (4 * unit * W) := by
      rw [abs_mul, abs_of_pos hV]
      exact mul_le_mul_of_nonneg_left nw hV.le
    have h4 : 4 * unit * V * (4 * unit * W) ≤ unit * P := by
      have : 4 * unit * V * (4 * unit * W) = unit * P * (16 * unit) := by rw [hP]; ring
      rw [this]
      have : unit * P * (16 * unit) ≤ unit * P * 1 :=
        mul_le_mul_of_nonneg_left (by linarith) (by rw [hP]; positivity)
      linarith
    have h5 : 4 * unit * V * W = 4 * unit * P := by rw [hP]; ring
    have h6 : V * (4 * unit * W) = 4 * unit * P := by rw [hP]; ring
    refine (abs_add_le _ _).trans ?_
    have := abs_add_le ((a - V) * (b - W)) ((a - V) * W)
    linarith
  rw [← hP] at d hEa hVW ⊢
  obtain ⟨n, hn⟩ : ∃ x, x = rnd (a * b) := ⟨_, rfl⟩
  rw [← hn]
  have hnc : |n - P| ≤ 10.5 * unit * P := by
    have h1 : |a * b| ≤ (1 + 9 * unit) * P := by
      calc |a * b| = |P + (a * b - P)| := by congr 1; ring
        _ ≤ |P| + |a * b - P| := abs_add_le _ _
        _ ≤ _ := by rw [abs_of_pos hVW]; linarith
    have h2 : |n - a * b| ≤ unit * ((1 + 9 * unit) * P) := by rw [hn]; exact rnd_err F h1
    have h3 : unit * ((1 + 9 * unit) * P) ≤ 1.5 * unit * P := by
      have : unit * ((1 + 9 * unit) * P) = unit * P * (1 + 9 * unit) := by ring
      rw [this]
      have : unit * P * (1 + 9 * unit) ≤ unit * P * 1.5 :=
        mul_le_mul_of_nonneg_left (by linarith) (by positivity)
      linarith
    calc |n - P| = |(n - a * b) + (a * b - P)| := by congr 1; ring
      _ ≤ _ := (abs_add_le _ _).trans (by linarith)
  have hnp : 0.99 * P ≤ n := by
    have := (abs_le.1 hnc).1
    have h2 : 10.5 * unit * P ≤ 0.01 * P := mul_le_mul_of_nonneg_right (by linarith) hVW.le
    linarith
  have hn0 : 0 < n := lt_of_lt_of_le (by positivity) hnp
  have hq : |D / n - E / P| ≤ 15 * unit := by
    have e : D / n - E / P = ((D - E) * P - E * (n - P)) / (n * P) := by
      field_simp
      ring
    rw [e, abs_div, abs_of_pos (mul_pos hn0 hVW), div_le_iff₀ (mul_pos hn0 hVW)]
    have h1 : |(D - E) * P| ≤ 4 * unit * P * P := by
      rw [abs_mul, abs_of_pos hVW]
      exact mul_le_mul_of_nonneg_right d hVW.le
    have h2 : |E * (n - P)| ≤ P * (10.5 * unit * P) := by
      rw [abs_mul]
      exact mul_le_mul hEa hnc (abs_nonneg _) hVW.le
    have h3 : 15 * unit * (0.99 * P * P) ≤ 15 * unit * (n * P) :=
      mul_le_mul_of_nonneg_left (mul_le_mul_of_nonneg_right hnp hVW.le) (by positivity)
    have h4 : 0 ≤ unit * P * P := by positivity
    have := abs_sub (((D - E) * P)) (E * (n - P))
    linarith
  refine ⟨rnd (D / n), ?_, ?_⟩
  · have : fdiv D n = some (D / n) := if_neg hn0.ne'
    simp only [this]
    rfl
  · have h1 : |E / P| ≤ 1 := by rw [abs_div, abs_of_pos hVW, div_le_one hVW]; exact hEa
    have h2 : |D / n| ≤ 2 := by
      calc |D / n| = |(D / n - E / P) + E / P| := by congr 1; ring
        _ ≤ _ := (abs_add_le _ _).trans (by linarith)
    have h3 : |rnd (D / n) - D / n| ≤ unit * 2 := rnd_err F h2
    calc |rnd (D / n) - E / P| = |(rnd (D / n) - D / n) + (D / n - E / P)| := by congr 1; ring
      _ ≤ _ := (abs_add_le _ _).trans (by linarith)

end contract

/-! ## C195 -/

lemma abs_cosine_le (v w : Vec 3) : |Spec.cosine v w| ≤ 1 := by
  unfold Spec.cosine
  rw [← norm_eq_sqrt3, ← norm_eq_sqrt3, abs_div]
  apply div_le_one_of_le₀ _ (abs_nonneg _)
  rw [abs_of_nonneg (mul_nonneg (norm_nonneg' v) (norm_nonneg' w))]
  refine le_trans ?_ (sum_abs_mul_le v w)
  exact (abs_add_le _ _).trans (add_le_add (abs_add_le _ _) le_rfl)

/-- The cosine is accurate for all vectors, parallel ones included. -/
theorem C195_cosine (rnd : ℝ → ℝ) (F : Contract rnd) (v w : Vec 3) (hv : v ≠ 0) (hw : w ≠ 0) :
    ∃ c, flAngleCos rnd v w = some c ∧ |c - Spec.cosine v w| ≤ 17 * unit :=
  flAngleCos_close F v w hv hw

/-- Partial: the angle is only known to be a number if the vectors are not all but parallel.  Full
statement: for all vectors other than zero the angle is a number and accurate to 10^-7 plus the
error of the library. -/
theorem C195_angle_partial (rnd : ℝ → ℝ) (F : Contract rnd) (acos : ℝ → Option ℝ) (ε : ℝ)
    (L : Spec.AccurateArccos acos ε) (v w : Vec 3) (hv : v ≠ 0) (hw : w ≠ 0)
    (hc : |Spec.cosine v w| ≤ 1 - 17 * unit) :
    ∃ t, flAngle rnd acos v w = some t ∧
      |t - Real.arccos (Spec.cosine v w)| ≤ ε + 1 / 10 ^ 7 := by
  obtain ⟨c, h, hcc⟩ := flAngleCos_close F v w hv hw
  have hc1 : |c| ≤ 1 := by
    calc |c| = |(c - Spec.cosine v w) + Spec.cosine v w| := by congr 1; ring
      _ ≤ _ := (abs_add_le _ _).trans (by linarith)
  obtain ⟨t, ht, htc⟩ := L.close c (abs_le.1 hc1).1 (abs_le.1 hc1).2
  refine ⟨t, ?_, ?_⟩
  · simp only [flAngle, h]
    exact ht
  · have h1 := arccos_holder hc1 (abs_cosine_le v w)
    have h2 : Real.pi * Real.sqrt (|c - Spec.cosine v w| / 2) ≤ 1 / 10 ^ 7 := by
      have : Real.sqrt (|c - Spec.cosine v w| / 2) ≤ 31 / 10 ^ 9 := by
        apply Real.sqrt_le_iff.2
        constructor
        · norm_num
        · have : 17 * unit / 2 ≤ (31 / 10 ^ 9) ^ 2 := by unfold unit; norm_num
          linarith
      calc Real.pi * Real.sqrt (|c - Spec.cosine v w| / 2) ≤ 3.15 * (31 / 10 ^ 9) :=
            mul_le_mul Real.pi_lt_d2.le this (Real.sqrt_nonneg _) (by norm_num)
        _ ≤ _ := by norm_num
    calc |t - Real.arccos (Spec.cosine v w)| =
        |(t - Real.arccos c) + (Real.arccos c - Real.arccos (Spec.cosine v w))| := by congr 1; ring
      _ ≤ _ := (abs_add_le _ _).trans (by linarith)

/-- The angle of a vector with itself can be `nan` in double precision, even if its length is one
up to rounding, as is that of the normal of a fit. -/
theorem C195_itself_false : ∃ v : Vec 3, (∀ i, round53 (v i) = v i) ∧ |Attitude.norm v - 1| ≤ unit ∧
    ∀ acos ε, Spec.AccurateArccos acos ε → flAngle round53 acos v v = none := by
  have F := round53_contract
  have hr0 : round53 0 = 0 := by simpa using rnd_nat F 0 (by norm_num)
  have hr1 : round53 1 = 1 := by simpa using rnd_nat F 1 (by norm_num)
  have hr2 : round53 (2⁻¹ ^ 26) = 2⁻¹ ^ 26 := by
    have := roundPos_zpow (-26)
    rw [show (2 : ℝ) ^ (-26 : ℤ) = 2⁻¹ ^ 26 by norm_num] at this
    rw [round53, if_pos (by positivity), this]
  have hr3 : round53 (2⁻¹ ^ 52) = 2⁻¹ ^ 52 := by
    have := roundPos_zpow (-52)
    rw [show (2 : ℝ) ^ (-52 : ℤ) = 2⁻¹ ^ 52 by norm_num] at this
    rw [round53, if_pos (by positivity), this]
  have hr4 : round53 (1 + 2⁻¹ ^ 52) = 1 + 2⁻¹ ^ 52 := by
    rw [roundPos_of (u := 2⁻¹ ^ 52) 0 (by norm_num) (by norm_num) (by norm_num) (2 ^ 52 + 1)
      (by norm_num) (by norm_num)]
    norm_num
  have hlt : Real.sqrt (1 + 2⁻¹ ^ 52) < 1 + 2⁻¹ ^ 53 := by
    rw [Real.sqrt_lt' (by positivity)]
    norm_num
  have hgt : 1 ≤ Real.sqrt (1 + 2⁻¹ ^ 52) := by
    rw [Real.le_sqrt' (by norm_num)]
    norm_num
  have hr5 : round53 (Real.sqrt (1 + 2⁻¹ ^ 52)) = 1 := by
    rw [roundPos_of (x := Real.sqrt (1 + 2⁻¹ ^ 52)) (u := 2⁻¹ ^ 52) 0 (by simp) _ (by norm_num)
      (2 ^ 52) _ _]
    · norm_num
    · have : (1 + 2⁻¹ ^ 53 : ℝ) < 2 := by norm_num
      simpa using hlt.trans this
    · rw [← sub_le_iff_le_add, le_div_iff₀ (by positivity)]
      refine le_trans ?_ hgt
      norm_num
    · rw [← lt_sub_iff_add_lt, div_lt_iff₀ (by positivity)]
      refine lt_of_lt_of_le hlt ?_
      norm_num
  refine ⟨![1, 2⁻¹ ^ 26, 0], ?_, ?_, ?_⟩
  · intro i
    fin_cases i
    · exact hr1
    · exact hr2
    · exact hr0
  · rw [norm_eq_sqrt3]
    have e : (![1, 2⁻¹ ^ 26, 0] : Vec 3) 0 ^ 2 + (![1, 2⁻¹ ^ 26, 0] : Vec 3) 1 ^ 2 +
        (![1, 2⁻¹ ^ 26, 0] : Vec 3) 2 ^ 2 = 1 + 2⁻¹ ^ 52 := by
      simp only [Matrix.cons_val]
      norm_num
    rw [e, abs_le]
    constructor
    · linarith [unit_pos]
    · have : unit = 2⁻¹ ^ 53 := rfl
      linarith
  · intro acos ε L
    have e1 : ((2⁻¹ : ℝ) ^ 26) ^ 2 = 2⁻¹ ^ 52 := by rw [← pow_mul]
    have e2 : (2⁻¹ : ℝ) ^ 26 * 2⁻¹ ^ 26 = 2⁻¹ ^ 52 := by rw [← pow_add]
    have hN : flNorm round53 ![1, 2⁻¹ ^ 26, 0] = 1 := by
      show round53 (Real.sqrt (round53 (round53 (round53 (1 ^ 2) + round53 ((2⁻¹ ^ 26) ^ 2)) + round53 (0 ^ 2)))) = 1
      rw [e1, one_pow, zero_pow two_ne_zero, hr1, hr3, hr4, hr0, add_zero, hr4, hr5]
    have hD : flDot round53 ![1, 2⁻¹ ^ 26, 0] ![1, 2⁻¹ ^ 26, 0] = 1 + 2⁻¹ ^ 52 := by
      show round53 (round53 (round53 (1 * 1) + round53 (2⁻¹ ^ 26 * 2⁻¹ ^ 26)) + round53 (0 * 0)) = _
      rw [e2, one_mul, zero_mul, hr1, hr3, hr4, hr0, add_zero, hr4]
    have hf : fdiv (1 + 2⁻¹ ^ 52 : ℝ) 1 = some (1 + 2⁻¹ ^ 52) := by
      rw [fdiv, if_neg one_ne_zero, div_one]
    have hc : flAngleCos round53 ![1, 2⁻¹ ^ 26, 0] ![1, 2⁻¹ ^ 26, 0] = some (1 + 2⁻¹ ^ 52) := by
      unfold flAngleCos
      rw [hN, hD, mul_one, hr1]
      simp only [hf]
      show some (round53 (1 + 2⁻¹ ^ 52)) = _
      rw [hr4]
    simp only [flAngle, hc]
    exact L.nan _ (Or.inr (lt_add_of_pos_right _ (by positivity)))

/-- `arccos`, rounded, with the vectors (1, 0, 0) and (0, 3, 4). -/
example : ∃ t, flAngle round53 (fun x => if -1 ≤ x ∧ x ≤ 1 then some (Real.arccos x) else none)
    ![1, 0, 0] ![0, 3, 4] = some t ∧ |t - Real.arccos (Spec.cosine ![1, 0, 0] ![0, 3, 4])| ≤ 0 + 1 / 10 ^ 7 := by
  refine C195_angle_partial _ round53_contract _ 0 ⟨?_, ?_⟩ _ _ (fun h => by simpa using congrFun h 0)
    (fun h => by simpa using congrFun h 1) ?_
  · intro x h1 h2
    exact ⟨_, if_pos ⟨h1, h2⟩, by simp⟩
  · intro x h
    exact if_neg (by rintro ⟨a, b⟩; rcases h with h | h <;> linarith)
  · have : Spec.cosine ![1, 0, 0] ![0, 3, 4] = 0 := by simp [Spec.cosine]
    rw [this, abs_zero]
    linarith [unit_small]

end Attitude.Props
