import Mathlib.Analysis.Real.Pi.Bounds
import Mathlib.Analysis.SpecialFunctions.Trigonometric.Bounds
import Verif.Lemmas.Arctan2
import Verif.Lemmas.Rounding
import Verif.Props.PcaAngles

/-!
# Strike and dip in floating-point arithmetic
-/

namespace Attitude.Props

open Attitude Rounding Pca

namespace Spec

/-- The inverse trigonometric functions of the library, in degrees: their results are within their
range and differ from the exact ones by at most `ε`; outside of [-1, 1] `arccos` is not a number. -/
structure Accurate (lib : Libm) (ε : ℝ) : Prop where
  atan_range : ∀ a b, -180 ≤ lib.atan2deg a b ∧ lib.atan2deg a b ≤ 180
  atan_close : ∀ a b, |lib.atan2deg a b - degrees (arctan2 a b)| ≤ ε
  acos : ∀ x, -1 ≤ x → x ≤ 1 → ∃ d, lib.acosdeg x = some d ∧ 0 ≤ d ∧ d ≤ 180 ∧
    |d - degrees (Real.arccos x)| ≤ ε
  acos_nan : ∀ x, x < -1 ∨ 1 < x → lib.acosdeg x = none

/-- The library that rounds the exact results. -/
noncomputable def correctlyRounded (rnd : ℝ → ℝ) : Libm where
  atan2deg a b := rnd (degrees (arctan2 a b))
  acosdeg x := if -1 ≤ x ∧ x ≤ 1 then some (rnd (degrees (Real.arccos x))) else none

end Spec

section contract

variable {rnd : ℝ → ℝ} (F : Contract rnd)

include F

lemma rnd_nat (k : ℕ) (h : k ≤ 2 ^ 53) : rnd k = k := by
  have := F.int k (by rw [Int.abs_natCast]; exact_mod_cast h)
  simpa using this

lemma rnd_neg_nat (k : ℕ) (h : k ≤ 2 ^ 53) : rnd (-k) = -k := by
  have := F.int (-k) (by rw [abs_neg, Int.abs_natCast]; exact_mod_cast h)
  simpa using this

lemma rnd_bounds {x : ℝ} (hx : 0 ≤ x) : (1 - unit) * x ≤ rnd x ∧ rnd x ≤ (1 + unit) * x := by
  have := F.rel x
  rw [abs_of_nonneg hx, abs_le] at this
  constructor <;> linarith [this.1, this.2]

lemma rnd_nonneg {x : ℝ} (hx : 0 ≤ x) : 0 ≤ rnd x := by
  have := F.mono hx
  have h0 := rnd_nat F 0 (by norm_num)
  rw [Nat.cast_zero] at h0
  rwa [h0] at this

lemma rnd_le_nat {x : ℝ} (k : ℕ) (h : k ≤ 2 ^ 53) (hx : x ≤ k) : rnd x ≤ k := by
  have := F.mono hx
  rwa [rnd_nat F k h] at this

lemma nat_le_rnd {x : ℝ} (k : ℕ) (h : k ≤ 2 ^ 53) (hx : k ≤ x) : (k : ℝ) ≤ rnd x := by
  have := F.mono hx
  rwa [rnd_nat F k h] at this

lemma neg_nat_le_rnd {x : ℝ} (k : ℕ) (h : k ≤ 2 ^ 53) (hx : -(k : ℝ) ≤ x) : -(k : ℝ) ≤ rnd x := by
  have := F.mono hx
  rwa [rnd_neg_nat F k h] at this

lemma rnd_err {x b : ℝ} (hx : |x| ≤ b) : |rnd x - x| ≤ unit * b :=
  (F.rel x).trans (mul_le_mul_of_nonneg_left hx unit_pos.le)

omit F in
lemma unit_small : unit ≤ 1 / 10 ^ 15 := by unfold unit; norm_num

/-- The computed norm is at least each component, here the last one. -/
lemma flNorm_ge (n : Vec 3) (h2 : rnd (n 2) = n 2) : |n 2| ≤ flNorm rnd n := by
  rw [← F.sqrtSq _ h2, flNorm]
  apply F.mono
  apply Real.sqrt_le_sqrt
  rw [← F.idem (n 2 ^ 2)]
  apply F.mono
  have := rnd_nonneg F (add_nonneg (rnd_nonneg F (sq_nonneg (n 0))) (rnd_nonneg F (sq_nonneg (n 1))))
  rw [F.idem]
  linarith

/-- The computed norm is close to the exact one. -/
lemma flNorm_close (n : Vec 3) : |flNorm rnd n - Attitude.norm n| ≤ 4 * unit * Attitude.norm n := by
  have hu := unit_pos
  have hu' := unit_small
  have a0 := rnd_bounds F (sq_nonneg (n 0))
  have a1 := rnd_bounds F (sq_nonneg (n 1))
  have a2 := rnd_bounds F (sq_nonneg (n 2))
  have p0 := rnd_nonneg F (sq_nonneg (n 0))
  have p1 := rnd_nonneg F (sq_nonneg (n 1))
  have p2 := rnd_nonneg F (sq_nonneg (n 2))
  have b := rnd_bounds F (add_nonneg p0 p1)
  have pb := rnd_nonneg F (add_nonneg p0 p1)
  have c := rnd_bounds F (add_nonneg pb p2)
  have pc := rnd_nonneg F (add_nonneg pb p2)
  have s0 := sq_nonneg (n 0)
  have s1 := sq_nonneg (n 1)
  have s2 := sq_nonneg (n 2)
  have hN : Attitude.norm n ^ 2 = n 0 ^ 2 + n 1 ^ 2 + n 2 ^ 2 := by rw [norm_sq', Fin.sum_univ_three]
  have hN0 := norm_nonneg' n
  set N := Attitude.norm n with hNd
  unfold flNorm
  set A := rnd (n 0 ^ 2)
  set B := rnd (n 1 ^ 2)
  set C := rnd (n 2 ^ 2)
  set D := rnd (A + B)
  set E := rnd (D + C)
  have hup1 : D ≤ (1 + unit) ^ 2 * (n 0 ^ 2 + n 1 ^ 2) := by
    calc D ≤ (1 + unit) * (A + B) := b.2
      _ ≤ (1 + unit) * ((1 + unit) * (n 0 ^ 2 + n 1 ^ 2)) :=
        mul_le_mul_of_nonneg_left (by linarith [a0.2, a1.2]) (by linarith)
      _ = _ := by ring
  have hlo1 : (1 - unit) ^ 2 * (n 0 ^ 2 + n 1 ^ 2) ≤ D := by
    calc (1 - unit) ^ 2 * (n 0 ^ 2 + n 1 ^ 2) = (1 - unit) * ((1 - unit) * (n 0 ^ 2 + n 1 ^ 2)) := by ring
      _ ≤ (1 - unit) * (A + B) := mul_le_mul_of_nonneg_left (by linarith [a0.1, a1.1]) (by linarith)
      _ ≤ D := b.1
  have hup2 : C ≤ (1 + unit) ^ 2 * n 2 ^ 2 := by
    refine a2.2.trans (mul_le_mul_of_nonneg_right ?_ s2)
    nlinarith
  have hlo2 : (1 - unit) ^ 2 * n 2 ^ 2 ≤ C := by
    refine le_trans (mul_le_mul_of_nonneg_right ?_ s2) a2.1
    nlinarith
  have hup3 : E ≤ ((1 + unit) ^ 2 * N) ^ 2 := by
    calc E ≤ (1 + unit) * (D + C) := c.2
      _ ≤ (1 + unit) * ((1 + unit) ^ 2 * N ^ 2) := by
        apply mul_le_mul_of_nonneg_left _ (by linarith)
        rw [hN]
        linarith
      _ = (1 + unit) ^ 3 * N ^ 2 := by ring
      _ ≤ (1 + unit) ^ 4 * N ^ 2 :=
        mul_le_mul_of_nonneg_right (pow_le_pow_right₀ (by linarith) (by norm_num)) (sq_nonneg _)
      _ = _ := by ring
  have hlo3 : ((1 - unit) ^ 2 * N) ^ 2 ≤ E := by
    calc ((1 - unit) ^ 2 * N) ^ 2 = (1 - unit) ^ 4 * N ^ 2 := by ring
      _ ≤ (1 - unit) ^ 3 * N ^ 2 :=
        mul_le_mul_of_nonneg_right (pow_le_pow_of_le_one (by linarith) (by linarith) (by norm_num))
          (sq_nonneg _)
      _ = (1 - unit) * ((1 - unit) ^ 2 * N ^ 2) := by ring
      _ ≤ (1 - unit) * (D + C) := by
        apply mul_le_mul_of_nonneg_left _ (by linarith)
        rw [hN]
        linarith
      _ ≤ E := c.1
  have q1 : Real.sqrt E ≤ (1 + unit) ^ 2 * N := by
    rw [← Real.sqrt_sq (show 0 ≤ (1 + unit) ^ 2 * N by positivity)]
    exact Real.sqrt_le_sqrt hup3
  have q2 : (1 - unit) ^ 2 * N ≤ Real.sqrt E := Real.le_sqrt_of_sq_le hlo3
  have r := rnd_bounds F (Real.sqrt_nonneg E)
  have g1 : rnd (Real.sqrt E) ≤ (1 + unit) ^ 3 * N := by
    calc rnd (Real.sqrt E) ≤ (1 + unit) * Real.sqrt E := r.2
      _ ≤ (1 + unit) * ((1 + unit) ^ 2 * N) := mul_le_mul_of_nonneg_left q1 (by linarith)
      _ = _ := by ring
  have g2 : (1 - unit) ^ 3 * N ≤ rnd (Real.sqrt E) := by
    calc (1 - unit) ^ 3 * N = (1 - unit) * ((1 - unit) ^ 2 * N) := by ring
      _ ≤ (1 - unit) * Real.sqrt E := mul_le_mul_of_nonneg_left q2 (by linarith)
      _ ≤ _ := r.1
  have u2 : unit ^ 2 ≤ unit * (1 / 10) := by
    rw [sq]
    exact mul_le_mul_of_nonneg_left (by linarith) hu.le
  have u3 : unit ^ 3 ≤ unit ^ 2 * (1 / 10) := by
    rw [pow_succ]
    exact mul_le_mul_of_nonneg_left (by linarith) (sq_nonneg _)
  have k1 : (1 + unit) ^ 3 ≤ 1 + 4 * unit := by linarith [sq_nonneg unit]
  have k2 : 1 - 4 * unit ≤ (1 - unit) ^ 3 := by linarith [sq_nonneg unit]
  rw [abs_le]
  constructor
  · have := mul_le_mul_of_nonneg_right k2 hN0
    linarith
  · have := mul_le_mul_of_nonneg_right k1 hN0
    linarith

/-- The computed cosine of the dip is within range and close to the exact one. -/
lemma quotient_close (n : Vec 3) (hn : n ≠ 0) (h2 : rnd (n 2) = n 2) :
    flNorm rnd n ≠ 0 ∧ |rnd (n 2 / flNorm rnd n)| ≤ 1 ∧
      |rnd (n 2 / flNorm rnd n) - n 2 / Attitude.norm n| ≤ 5 * unit := by
  have hu := unit_pos
  have hu' := unit_small
  have hN : 0 < Attitude.norm n := (norm_pos_iff' n).2 hn
  have hge := flNorm_ge F n h2
  have hc := flNorm_close F n
  set r := flNorm rnd n with hr
  set N := Attitude.norm n with hNd
  have hrp : 0 < r := by
    rw [abs_le] at hc
    nlinarith [hc.1]
  have hq : |n 2 / r| ≤ 1 := by
    rw [abs_div, abs_of_pos hrp, div_le_one hrp]
    exact hge
  have hq' := abs_le.1 hq
  refine ⟨hrp.ne', ?_, ?_⟩
  · rw [abs_le]
    constructor
    · simpa using neg_nat_le_rnd F 1 (by norm_num) (by simpa using hq'.1)
    · simpa using rnd_le_nat F 1 (by norm_num) (by simpa using hq'.2)
  · have e1 : |rnd (n 2 / r) - n 2 / r| ≤ unit * 1 := rnd_err F hq
    have e2 : n 2 / r - n 2 / N = n 2 / r * ((N - r) / N) := by
      field_simp
    have e3 : |n 2 / r - n 2 / N| ≤ 4 * unit := by
      rw [e2, abs_mul, abs_div (N - r), abs_of_pos hN]
      have : |N - r| / N ≤ 4 * unit := by
        rw [div_le_iff₀ hN, abs_sub_comm]
        exact hc
      calc |n 2 / r| * (|N - r| / N) ≤ 1 * (|N - r| / N) :=
            mul_le_mul_of_nonneg_right hq (by positivity)
        _ ≤ 4 * unit := by linarith
    calc |rnd (n 2 / r) - n 2 / N| = |(rnd (n 2 / r) - n 2 / r) + (n 2 / r - n 2 / N)| := by
          congr 1; ring
      _ ≤ |rnd (n 2 / r) - n 2 / r| + |n 2 / r - n 2 / N| := abs_add_le _ _
      _ ≤ 5 * unit := by linarith

end contract

/-- `arccos` is continuous of order one half. -/
lemma arccos_holder {x y : ℝ} (hx : |x| ≤ 1) (hy : |y| ≤ 1) :
    |Real.arccos x - Real.arccos y| ≤ Real.pi * Real.sqrt (|x - y| / 2) := by
  obtain ⟨x1, x2⟩ := abs_le.1 hx
  obtain ⟨y1, y2⟩ := abs_le.1 hy
  have key : ∀ a b : ℝ, 0 ≤ a → b ≤ Real.pi → a ≤ b →
      2 * ((b - a) / Real.pi) ^ 2 ≤ Real.cos a - Real.cos b := by
    intro a b ha hb hab
    have e : Real.cos a - Real.cos b = 2 * Real.sin ((a + b) / 2) * Real.sin ((b - a) / 2) := by
      rw [Real.cos_sub_cos, show (a - b) / 2 = -((b - a) / 2) by ring, Real.sin_neg]
      ring
    have hpi := Real.pi_pos
    have h1 : (b - a) / Real.pi ≤ Real.sin ((b - a) / 2) := by
      have := Real.mul_le_sin (x := (b - a) / 2) (by linarith) (by linarith)
      calc (b - a) / Real.pi = 2 / Real.pi * ((b - a) / 2) := by field_simp
        _ ≤ _ := this
    have h0 : 0 ≤ (b - a) / Real.pi := div_nonneg (by linarith) hpi.le
    have h2 : Real.sin ((b - a) / 2) ≤ Real.sin ((a + b) / 2) := by
      rcases le_total ((a + b) / 2) (Real.pi / 2) with h | h
      · exact Real.sin_le_sin_of_le_of_le_pi_div_two (by linarith) h (by linarith)
      · rw [← Real.sin_pi_sub ((a + b) / 2)]
        exact Real.sin_le_sin_of_le_of_le_pi_div_two (by linarith) (by linarith) (by linarith)
    rw [e]
    nlinarith
  have main : ∀ a b : ℝ, |a| ≤ 1 → |b| ≤ 1 → b ≤ a →
      Real.arccos b - Real.arccos a ≤ Real.pi * Real.sqrt (|a - b| / 2) := by
    intro a b ha hb hab
    obtain ⟨a1, a2⟩ := abs_le.1 ha
    obtain ⟨b1, b2⟩ := abs_le.1 hb
    have := key (Real.arccos a) (Real.arccos b) (Real.arccos_nonneg _) (Real.arccos_le_pi _)
      (Real.arccos_le_arccos hab)
    rw [Real.cos_arccos a1 a2, Real.cos_arccos b1 b2] at this
    have hpi := Real.pi_pos
    rw [abs_of_nonneg (by linarith : 0 ≤ a - b)]
    have h1 : (Real.arccos b - Real.arccos a) / Real.pi ≤ Real.sqrt ((a - b) / 2) :=
      Real.le_sqrt_of_sq_le (by linarith)
    rwa [div_le_iff₀ hpi, mul_comm] at h1
  rcases le_total x y with h | h
  · rw [abs_of_nonneg (by linarith [Real.arccos_le_arccos h]), abs_sub_comm]
    exact main y x hy hx h
  · rw [abs_sub_comm, abs_of_nonneg (by linarith [Real.arccos_le_arccos h])]
    exact main x y hx hy h

/-- Normals of planes whose strikes and dips are close are close. -/
lemma sdNormal_close (s d s' d' : ℝ) :
    Attitude.norm (fun i => sdNormal s d i - sdNormal s' d' i) ≤ |radians (s - s')| + |radians (d - d')| := by
  have h1 := Real.one_sub_sq_div_two_le_cos (x := radians (s - s'))
  have h2 := Real.one_sub_sq_div_two_le_cos (x := radians (d - d'))
  have e1 : radians (s - s') = radians s - radians s' := radians_sub _ _
  have e2 : radians (d - d') = radians d - radians d' := radians_sub _ _
  have hS : |Real.sin (radians d) * Real.sin (radians d')| ≤ 1 := by
    rw [abs_mul]
    exact mul_le_one₀ (Real.abs_sin_le_one _) (abs_nonneg _) (Real.abs_sin_le_one _)
  have hsq : Attitude.norm (fun i => sdNormal s d i - sdNormal s' d' i) ^ 2 ≤
      (|radians (s - s')| + |radians (d - d')|) ^ 2 := by
    rw [norm_sq', Fin.sum_univ_three]
    have e : (sdNormal s d 0 - sdNormal s' d' 0) ^ 2 + (sdNormal s d 1 - sdNormal s' d' 1) ^ 2 +
        (sdNormal s d 2 - sdNormal s' d' 2) ^ 2 = 2 - 2 * Real.cos (radians (d - d')) +
        2 * (Real.sin (radians d) * Real.sin (radians d')) * (1 - Real.cos (radians (s - s'))) := by
      simp only [sdNormal, Matrix.cons_val]
      rw [e1, e2, Real.cos_sub, Real.cos_sub]
      have a := Real.sin_sq_add_cos_sq (radians s)
      have b := Real.sin_sq_add_cos_sq (radians s')
      have c := Real.sin_sq_add_cos_sq (radians d)
      have f := Real.sin_sq_add_cos_sq (radians d')
      linear_combination (Real.sin (radians d)) ^ 2 * a + (Real.sin (radians d')) ^ 2 * b + c + f
    rw [e]
    have hc := Real.cos_le_one (radians (s - s'))
    have k1 : (Real.sin (radians d) * Real.sin (radians d')) * (1 - Real.cos (radians (s - s'))) ≤
        1 * (1 - Real.cos (radians (s - s'))) :=
      mul_le_mul_of_nonneg_right ((le_abs_self _).trans hS) (by linarith)
    have k2 : (|radians (s - s')| + |radians (d - d')|) ^ 2 ≥
        radians (s - s') ^ 2 + radians (d - d') ^ 2 := by
      rw [← sq_abs (radians (s - s')), ← sq_abs (radians (d - d'))]
      nlinarith [abs_nonneg (radians (s - s')), abs_nonneg (radians (d - d'))]
    linarith
  exact le_of_sq_le_sq hsq (by positivity)

lemma radians_abs (x : ℝ) : |radians x| = radians |x| := by
  unfold radians
  rw [abs_div, abs_mul, abs_of_pos Real.pi_pos, abs_of_pos (by norm_num : (0 : ℝ) < 180)]

lemma radians_mono {x y : ℝ} (h : x ≤ y) : radians x ≤ radians y := by
  unfold radians
  have := Real.pi_pos
  gcongr

lemma degrees_mono {x y : ℝ} (h : x ≤ y) : degrees x ≤ degrees y := by
  unfold degrees
  have := Real.pi_pos
  gcongr

lemma degrees_abs (x : ℝ) : |degrees x| = degrees |x| := by
  unfold degrees
  rw [abs_div, abs_mul, abs_of_pos Real.pi_pos, abs_of_pos (by norm_num : (0 : ℝ) < 180)]

/-- Ranges of the computed strike and dip, and exact ones that describe the same plane close to
them. -/
lemma strikeDip_core {rnd : ℝ → ℝ} (F : Contract rnd) {lib : Libm} {ε : ℝ} (L : Spec.Accurate lib ε)
    (n : Vec 3) (hn : n ≠ 0) (h2 : rnd (n 2) = n 2) :
    ∃ s d, flStrikeDip rnd lib n = (s, some d) ∧ 0 ≤ s ∧ s ≤ 360 ∧ 0 ≤ d ∧ d ≤ 90 ∧
      ∃ s' d', |s - s'| ≤ ε + 900 * unit ∧
        |d - d'| ≤ ε + 180 * unit + degrees (Real.pi * Real.sqrt (5 * unit / 2)) ∧
        ∃ σ : ℝ, (σ = 1 ∨ σ = -1) ∧ sdNormal s' d' = (σ / Attitude.norm n) • n := by
  have hu := unit_pos
  obtain ⟨hr, hq1, hqc⟩ := quotient_close F n hn h2
  have hN : 0 < Attitude.norm n := (norm_pos_iff' n).2 hn
  set q := rnd (n 2 / flNorm rnd n) with hq
  obtain ⟨D, hD, D0, D1, Dc⟩ := L.acos q (abs_le.1 hq1).1 (abs_le.1 hq1).2
  obtain ⟨A0, A1⟩ := L.atan_range (n 0) (n 1)
  have Ac := L.atan_close (n 0) (n 1)
  set A := lib.atan2deg (n 0) (n 1) with hA
  -- the exact angles
  have raw := sdNormal_raw hn
  set S' := degrees (arctan2 (n 0) (n 1)) - 90 with hS'
  set D' := degrees (Real.arccos (n 2 / Attitude.norm n)) with hD'
  have raw' : sdNormal S' D' = (1 / Attitude.norm n) • n := by
    rw [← raw, smul_smul, one_div, raw, inv_mul_cancel₀ hN.ne', one_smul]
  -- the dip before it is folded
  have hDD : |D - D'| ≤ ε + degrees (Real.pi * Real.sqrt (5 * unit / 2)) := by
    have h1 : |degrees (Real.arccos q) - D'| ≤ degrees (Real.pi * Real.sqrt (5 * unit / 2)) := by
      rw [hD', ← degrees_sub, degrees_abs]
      apply degrees_mono
      refine (arccos_holder hq1 (abs_div_norm_le hn)).trans ?_
      apply mul_le_mul_of_nonneg_left _ Real.pi_pos.le
      apply Real.sqrt_le_sqrt
      linarith
    calc |D - D'| = |(D - degrees (Real.arccos q)) + (degrees (Real.arccos q) - D')| := by
          congr 1; ring
      _ ≤ _ := (abs_add_le _ _).trans (add_le_add Dc h1)
  -- the first strike
  set s₁ := rnd (A - 90) with hs₁
  have s₁lo : -270 ≤ s₁ := by
    simpa using neg_nat_le_rnd F 270 (by norm_num) (x := A - 90) (by push_cast; linarith)
  have s₁hi : s₁ ≤ 90 := by
    simpa using rnd_le_nat F 90 (by norm_num) (x := A - 90) (by push_cast; linarith)
  have s₁c : |s₁ - S'| ≤ ε + 270 * unit := by
    have h1 : |s₁ - (A - 90)| ≤ unit * 270 := rnd_err F (abs_le.2 ⟨by linarith, by linarith⟩)
    calc |s₁ - S'| = |(s₁ - (A - 90)) + (A - degrees (arctan2 (n 0) (n 1)))| := by
          congr 1; rw [hS']; ring
      _ ≤ _ := (abs_add_le _ _).trans (by linarith)
  -- azimuths from 0
  have wrap : ∀ s s' b : ℝ, -270 ≤ s → s ≤ 270 → |s - s'| ≤ b →
      ∃ s'' : ℝ, 0 ≤ (if s < 0 then rnd (s + 360) else s) ∧ (if s < 0 then rnd (s + 360) else s) ≤ 360 ∧
        |(if s < 0 then rnd (s + 360) else s) - s''| ≤ b + 360 * unit ∧
        ∀ d, sdNormal s'' d = sdNormal s' d := by
    intro s s' b h0 h1 hb
    split_ifs with h
    · refine ⟨s' + 360, rnd_nonneg F (by linarith), ?_, ?_, fun d => sdNormal_add_360 _ _⟩
      · simpa using rnd_le_nat F 360 (by norm_num) (x := s + 360) (by push_cast; linarith)
      · have h2 : |rnd (s + 360) - (s + 360)| ≤ unit * 360 :=
          rnd_err F (abs_le.2 ⟨by linarith, by linarith⟩)
        calc |rnd (s + 360) - (s' + 360)| = |(rnd (s + 360) - (s + 360)) + (s - s')| := by
              congr 1; ring
          _ ≤ _ := (abs_add_le _ _).trans (by linarith)
    · exact ⟨s', by linarith, by linarith, by linarith, fun _ => rfl⟩
  have hfd : fdiv (n 2) (flNorm rnd n) = some (n 2 / flNorm rnd n) := if_neg hr
  have hdip : (do let q ← fdiv (n 2) (flNorm rnd n); lib.acosdeg (rnd q)) = some D := by
    rw [hfd]; exact hD
  unfold flStrikeDip
  simp only [hdip]
  by_cases h90 : D > 90
  · simp only [h90, if_true]
    have s₂lo : -270 ≤ rnd (s₁ + 180) := by
      have : -90 ≤ rnd (s₁ + 180) := by
        simpa using neg_nat_le_rnd F 90 (by norm_num) (x := s₁ + 180) (by push_cast; linarith)
      linarith
    have s₂hi : rnd (s₁ + 180) ≤ 270 := by
      simpa using rnd_le_nat F 270 (by norm_num) (x := s₁ + 180) (by push_cast; linarith)
    have s₂c : |rnd (s₁ + 180) - (S' + 180)| ≤ ε + 540 * unit := by
      have h1 : |rnd (s₁ + 180) - (s₁ + 180)| ≤ unit * 270 :=
        rnd_err F (abs_le.2 ⟨by linarith, by linarith⟩)
      calc |rnd (s₁ + 180) - (S' + 180)| = |(rnd (s₁ + 180) - (s₁ + 180)) + (s₁ - S')| := by
            congr 1; ring
        _ ≤ _ := (abs_add_le _ _).trans (by linarith)
    obtain ⟨s'', w0, w1, w2, w3⟩ := wrap _ _ _ s₂lo s₂hi s₂c
    refine ⟨_, _, rfl, w0, w1, rnd_nonneg F (by linarith), ?_, s'', 180 - D', w2.trans (by linarith), ?_,
      -1, Or.inr rfl, ?_⟩
    · simpa using rnd_le_nat F 90 (by norm_num) (x := 180 - D) (by push_cast; linarith)
    · have h1 : |rnd (180 - D) - (180 - D)| ≤ unit * 180 :=
        rnd_err F (abs_le.2 ⟨by linarith, by linarith⟩)
      calc |rnd (180 - D) - (180 - D')| = |(rnd (180 - D) - (180 - D)) + -(D - D')| := by
            congr 1; ring
        _ ≤ |rnd (180 - D) - (180 - D)| + |D - D'| := by
            rw [← abs_neg (D - D')]
            exact abs_add_le _ _
        _ ≤ _ := by linarith
    · rw [w3, sdNormal_flip, raw', neg_div, neg_smul]
  · simp only [h90, if_false]
    obtain ⟨s'', w0, w1, w2, w3⟩ := wrap _ _ _ s₁lo (by linarith) s₁c
    refine ⟨_, _, rfl, w0, w1, D0, by linarith, s'', D', w2.trans (by linarith), by linarith,
      1, Or.inl rfl, ?_⟩
    rw [w3, raw']

/-! ## C193 -/

/-- Partial: the strike is at most 360 but it can be 360, see the next theorem.  Full statement: in
floating-point arithmetic the strike is in [0, 360), and the dip is a number in [0, 90]. -/
theorem C193_range_partial (rnd : ℝ → ℝ) (F : Contract rnd) (lib : Libm) (ε : ℝ)
    (L : Spec.Accurate lib ε) (n : Vec 3) (hn : n ≠ 0) (hrep : ∀ i, rnd (n i) = n i) :
    ∃ s d, flStrikeDip rnd lib n = (s, some d) ∧ 0 ≤ s ∧ s ≤ 360 ∧ 0 ≤ d ∧ d ≤ 90 := by
  obtain ⟨s, d, h, a, b, c, e, _⟩ := strikeDip_core F L n hn (hrep 2)
  exact ⟨s, d, h, a, b, c, e⟩

/-- The library that rounds the exact results is accurate. -/
lemma correctlyRounded_accurate {rnd : ℝ → ℝ} (F : Contract rnd) :
    Spec.Accurate (Spec.correctlyRounded rnd) (180 * unit) where
  atan_range a b := by
    have h1 : degrees (arctan2 a b) ≤ 180 := by
      rw [← degrees_pi]; exact degrees_mono (arctan2_le_pi a b)
    have h2 : -180 ≤ degrees (arctan2 a b) := by
      have := degrees_mono (neg_pi_lt_arctan2 a b).le
      have e : degrees (-Real.pi) = -180 := by
        have := degrees_pi
        unfold degrees at this ⊢
        rw [neg_mul, neg_div, this]
      rwa [e] at this
    constructor
    · simpa [Spec.correctlyRounded] using neg_nat_le_rnd F 180 (by norm_num) (by simpa using h2)
    · simpa [Spec.correctlyRounded] using rnd_le_nat F 180 (by norm_num) (by simpa using h1)
  atan_close a b := by
    have h1 : degrees (arctan2 a b) ≤ 180 := by
      rw [← degrees_pi]; exact degrees_mono (arctan2_le_pi a b)
    have h2 : -180 ≤ degrees (arctan2 a b) := by
      have := degrees_mono (neg_pi_lt_arctan2 a b).le
      have e : degrees (-Real.pi) = -180 := by
        have := degrees_pi
        unfold degrees at this ⊢
        rw [neg_mul, neg_div, this]
      rwa [e] at this
    rw [mul_comm]
    exact rnd_err F (abs_le.2 ⟨h2, h1⟩)
  acos x hx hx' := by
    have h1 : degrees (Real.arccos x) ≤ 180 := by
      rw [← degrees_pi]; exact degrees_mono (Real.arccos_le_pi x)
    have h2 : 0 ≤ degrees (Real.arccos x) := by
      simpa [degrees] using degrees_mono (Real.arccos_nonneg x)
    refine ⟨_, if_pos ⟨hx, hx'⟩, rnd_nonneg F h2, ?_, ?_⟩
    · simpa using rnd_le_nat F 180 (by norm_num) (by simpa using h1)
    · rw [mul_comm]
      exact rnd_err F (abs_le.2 ⟨by linarith, h1⟩)
  acos_nan x hx := if_neg (by rintro ⟨a, b⟩; rcases hx with h | h <;> linarith)

lemma roundPos_of {x u : ℝ} (e : ℤ) (h1 : (2 : ℝ) ^ e ≤ x) (h2 : x < 2 ^ (e + 1))
    (hu : (2 : ℝ) ^ (e - 52) = u) (k : ℤ) (k1 : (k : ℝ) ≤ x / u + 1 / 2) (k2 : x / u + 1 / 2 < k + 1) :
    round53 x = k * u := by
  have hx : 0 < x := lt_of_lt_of_le (by positivity) h1
  have hl : Int.log 2 x = e := by
    apply le_antisymm
    · have := (Int.lt_zpow_iff_log_lt (b := 2) (R := ℝ) (by norm_num) hx (x := e + 1)).1 (by exact_mod_cast h2)
      omega
    · exact (Int.zpow_le_iff_le_log (b := 2) (R := ℝ) (by norm_num) hx).1 (by exact_mod_cast h1)
  rw [round53, if_pos hx, roundPos, hl, hu]
  have : ⌊x / u + 1 / 2⌋ = k := Int.floor_eq_iff.2 ⟨k1, k2⟩
  simp only [this]

/-- A plane that dips to the east, but for less than 2^-45 degrees to the north, gets a strike of
360 instead of one below. -/
theorem C193_360_false (z : ℝ) (hz : 0 ≤ z) (hrep : round53 z = z) :
    (∀ i, round53 ((![1, 2⁻¹ ^ 52, z] : Vec 3) i) = (![1, 2⁻¹ ^ 52, z] : Vec 3) i) ∧
      (flStrikeDip round53 (Spec.correctlyRounded round53) ![1, 2⁻¹ ^ 52, z]).1 = 360 := by
  have F := round53_contract
  have hr1 : round53 1 = 1 := by simpa using rnd_nat F 1 (by norm_num)
  have hr2 : round53 (2⁻¹ ^ 52) = 2⁻¹ ^ 52 := by
    have := roundPos_zpow (-52)
    rw [show (2 : ℝ) ^ (-52 : ℤ) = 2⁻¹ ^ 52 by norm_num] at this
    rw [round53, if_pos (by positivity), this]
  have hrep' : ∀ i, round53 ((![1, 2⁻¹ ^ 52, z] : Vec 3) i) = (![1, 2⁻¹ ^ 52, z] : Vec 3) i := by
    intro i
    fin_cases i
    · exact hr1
    · exact hr2
    · exact hrep
  refine ⟨hrep', ?_⟩
  have hn : (![1, 2⁻¹ ^ 52, z] : Vec 3) ≠ 0 := fun h => by simpa using congrFun h 0
  set n : Vec 3 := ![1, 2⁻¹ ^ 52, z] with hnd
  have n0 : n 0 = 1 := rfl
  have n1 : n 1 = 2⁻¹ ^ 52 := rfl
  have n2 : n 2 = z := rfl
  obtain ⟨hr, hq1, hqc⟩ := quotient_close F n hn (hrep' 2)
  -- the direction
  have hatan : round53 (degrees (arctan2 1 (2⁻¹ ^ 52))) = 90 - 2⁻¹ ^ 46 := by
    set δ : ℝ := 2⁻¹ ^ 52 with hδ
    have hδ0 : 0 < δ := by positivity
    have e1 : arctan2 1 δ = Real.pi / 2 - Real.arctan δ := by
      rw [arctan2_of_pos _ hδ0, one_div, Real.arctan_inv_of_pos hδ0]
    have p1 := Real.pi_gt_d2
    have p2 := Real.pi_lt_d2
    have hpi := Real.pi_pos
    have t1 : Real.arctan δ ≤ δ := by
      have := Real.le_tan (x := Real.arctan δ) (by rw [Real.arctan_nonneg]; exact hδ0.le)
        (Real.arctan_lt_pi_div_two δ)
      rwa [Real.tan_arctan] at this
    have t2 : 0.9 * δ ≤ Real.arctan δ := by
      have h0 : 0.9 * δ < Real.pi / 2 := by
        have : δ ≤ 1 := by rw [hδ]; norm_num
        linarith
      rw [← Real.arctan_tan (x := 0.9 * δ) (by linarith) h0]
      apply Real.arctan_mono
      have hc : (0.95 : ℝ) ≤ Real.cos (0.9 * δ) := by
        have := Real.one_sub_sq_div_two_le_cos (x := 0.9 * δ)
        refine le_trans ?_ this
        rw [hδ]; norm_num
      rw [Real.tan_eq_sin_div_cos, div_le_iff₀ (by linarith)]
      have := Real.sin_le (x := 0.9 * δ) (by positivity)
      nlinarith
    obtain ⟨x, hx⟩ : ∃ x, x = degrees (Real.arctan δ) := ⟨_, rfl⟩
    have e2 : degrees (arctan2 1 δ) = 90 - x := by
      rw [e1, hx, degrees_sub]
      congr 1
      unfold degrees; field_simp; norm_num
    have x1 : x < 3 / 2 * 2⁻¹ ^ 46 := by
      rw [hx, degrees, div_lt_iff₀ hpi]
      have : δ * 180 < 3 / 2 * 2⁻¹ ^ 46 * 3.14 := by rw [hδ]; norm_num
      have h3 : (3 / 2 * 2⁻¹ ^ 46 : ℝ) * 3.14 ≤ 3 / 2 * 2⁻¹ ^ 46 * Real.pi :=
        mul_le_mul_of_nonneg_left p1.le (by positivity)
      exact ((mul_le_mul_of_nonneg_right t1 (by norm_num)).trans_lt this).trans_le h3
    have x2 : 1 / 2 * 2⁻¹ ^ 46 < x := by
      rw [hx, degrees, lt_div_iff₀ hpi]
      have : 1 / 2 * 2⁻¹ ^ 46 * 3.15 < 0.9 * δ * 180 := by rw [hδ]; norm_num
      have h3 : (1 / 2 * 2⁻¹ ^ 46 : ℝ) * Real.pi ≤ 1 / 2 * 2⁻¹ ^ 46 * 3.15 :=
        mul_le_mul_of_nonneg_left p2.le (by positivity)
      exact (h3.trans_lt this).trans_le (mul_le_mul_of_nonneg_right t2 (by norm_num))
    rw [e2, roundPos_of (x := 90 - x) (u := 2⁻¹ ^ 46) 6 _ _ (by norm_num) (90 * 2 ^ 46 - 1) _ _]
    · push_cast; norm_num
    · have : (3 / 2 * 2⁻¹ ^ 46 : ℝ) < 1 := by norm_num
      norm_num
      linarith
    · have : (0 : ℝ) < 1 / 2 * 2⁻¹ ^ 46 := by positivity
      norm_num
      linarith
    · rw [← sub_le_iff_le_add, le_div_iff₀ (by positivity)]
      have : (((90 * 2 ^ 46 - 1 : ℤ) : ℝ) - 1 / 2) * 2⁻¹ ^ 46 = 90 - 3 / 2 * 2⁻¹ ^ 46 := by
        push_cast; norm_num
      rw [this]; linarith
    · rw [← lt_sub_iff_add_lt, div_lt_iff₀ (by positivity)]
      have : (((90 * 2 ^ 46 - 1 : ℤ) : ℝ) + 1 - 1 / 2) * 2⁻¹ ^ 46 = 90 - 1 / 2 * 2⁻¹ ^ 46 := by
        push_cast; norm_num
      rw [this]; linarith
  have hs1 : round53 ((Spec.correctlyRounded round53).atan2deg (n 0) (n 1) - 90) = -2⁻¹ ^ 46 := by
    show round53 (round53 (degrees (arctan2 1 (2⁻¹ ^ 52))) - 90) = _
    rw [hatan, show (90 : ℝ) - 2⁻¹ ^ 46 - 90 = -2⁻¹ ^ 46 by ring, round53_neg]
    have := roundPos_zpow (-46)
    rw [show (2 : ℝ) ^ (-46 : ℤ) = 2⁻¹ ^ 46 by norm_num] at this
    rw [round53, if_pos (by positivity), this]
  -- the dip
  have hq0 : 0 ≤ round53 (n 2 / flNorm round53 n) := by
    apply rnd_nonneg F
    rw [n2]
    have := flNorm_ge F n (hrep' 2)
    exact div_nonneg hz ((abs_nonneg _).trans this)
  have hacos : (Spec.correctlyRounded round53).acosdeg (round53 (n 2 / flNorm round53 n)) =
      some (round53 (degrees (Real.arccos (round53 (n 2 / flNorm round53 n))))) :=
    if_pos (abs_le.1 hq1)
  have hle : ¬ (round53 (degrees (Real.arccos (round53 (n 2 / flNorm round53 n)))) > 90) := by
    have h1 : degrees (Real.arccos (round53 (n 2 / flNorm round53 n))) ≤ 90 := by
      have : degrees (Real.pi / 2) = 90 := by
        have := Real.pi_pos
        unfold degrees; field_simp; norm_num
      rw [← this]
      exact degrees_mono (Real.arccos_le_pi_div_two.2 hq0)
    have := rnd_le_nat F 90 (by norm_num) (by simpa using h1)
    push_cast at this
    linarith
  have hfd : fdiv (n 2) (flNorm round53 n) = some (n 2 / flNorm round53 n) := if_neg hr
  have hdip : (do let q ← fdiv (n 2) (flNorm round53 n)
                  (Spec.correctlyRounded round53).acosdeg (round53 q)) =
      some (round53 (degrees (Real.arccos (round53 (n 2 / flNorm round53 n))))) := by
    rw [hfd]; exact hacos
  unfold flStrikeDip
  simp only [hdip, hs1, hle, if_false]
  rw [if_pos (by norm_num)]
  rw [roundPos_of (x := -2⁻¹ ^ 46 + 360) (u := 2⁻¹ ^ 44) 8 (by norm_num) (by norm_num) (by norm_num)
    (360 * 2 ^ 44) (by norm_num) (by norm_num)]
  norm_num

/-- Normals with integer components, for example, meet the hypotheses with double precision and a
library that rounds correctly. -/
example : ∃ s d, flStrikeDip round53 (Spec.correctlyRounded round53) ![1, 2, -3] = (s, some d) ∧
    0 ≤ s ∧ s ≤ 360 ∧ 0 ≤ d ∧ d ≤ 90 := by
  refine C193_range_partial _ round53_contract _ _ (correctlyRounded_accurate round53_contract) _
    (fun h => by simpa using congrFun h 0) fun i => ?_
  fin_cases i
  · simpa using rnd_nat round53_contract 1 (by norm_num)
  · simpa using rnd_nat round53_contract 2 (by norm_num)
  · simpa using rnd_neg_nat round53_contract 3 (by norm_num)

example : round53 0 = 0 ∧ round53 1 = 1 :=
  ⟨by simpa using rnd_nat round53_contract 0 (by norm_num),
    by simpa using rnd_nat round53_contract 1 (by norm_num)⟩

/-! ## C194 -/

/-- The computed angles describe, by the right-hand rule, a plane whose upward unit normal differs
from one of the two unit normals of the given plane by little more than the errors of the library
(`ε` degrees each). -/
theorem C194_accuracy (rnd : ℝ → ℝ) (F : Contract rnd) (lib : Libm) (ε : ℝ)
    (L : Spec.Accurate lib ε) (n : Vec 3) (hn : n ≠ 0) (hrep : ∀ i, rnd (n i) = n i) :
    ∃ s d, flStrikeDip rnd lib n = (s, some d) ∧
      ∃ m : Vec 3, Attitude.norm m = 1 ∧ 0 ≤ m 2 ∧ Spec.RightHandRule m s d ∧
        ∃ σ : ℝ, (σ = 1 ∨ σ = -1) ∧
          Attitude.norm (fun i => m i - σ * n i / Attitude.norm n) ≤ 2 * radians ε + 1 / 10 ^ 7 := by
  obtain ⟨s, d, h, a, b, c, e, s', d', h1, h2, σ, hσ, h3⟩ := strikeDip_core F L n hn (hrep 2)
  refine ⟨s, d, h, sdNormal s d, ?_, ?_, ?_, σ, hσ, ?_⟩
  · have : Attitude.norm (sdNormal s d) ^ 2 = 1 := by
      rw [norm_sq', Fin.sum_univ_three]
      simp only [sdNormal, Matrix.cons_val]
      have x := Real.sin_sq_add_cos_sq (radians s)
      have y := Real.sin_sq_add_cos_sq (radians d)
      linear_combination (Real.sin (radians d)) ^ 2 * x + y
    exact (pow_eq_one_iff_of_nonneg (norm_nonneg' _) (by norm_num)).1 this
  · simp only [sdNormal, Matrix.cons_val]
    have k0 : 0 ≤ radians d := by simpa [radians] using radians_mono c
    have k1 : radians d ≤ Real.pi / 2 := by rw [← radians_90]; exact radians_mono e
    exact Real.cos_nonneg_of_neg_pi_div_two_le_of_le (by linarith [Real.pi_pos]) k1
  · simpa using rightHandRule_sdNormal 1 s d
  · have k := sdNormal_close s d s' d'
    have e1 : (fun i => sdNormal s d i - sdNormal s' d' i) =
        fun i => sdNormal s d i - σ * n i / Attitude.norm n := by
      funext i
      rw [h3, Pi.smul_apply, smul_eq_mul]
      ring
    rw [e1] at k
    refine k.trans ?_
    rw [radians_abs, radians_abs]
    have k1 := radians_mono h1
    have k2 := radians_mono h2
    rw [radians_add] at k1
    rw [radians_add, radians_add, radians_degrees] at k2
    have hpi := Real.pi_lt_d2
    have hpi0 := Real.pi_pos
    have u1 : radians (900 * unit) ≤ 1 / 10 ^ 10 := by
      unfold radians
      rw [div_le_iff₀ (by norm_num)]
      have : 900 * unit * Real.pi ≤ 900 * (1 / 10 ^ 15) * 3.15 :=
        mul_le_mul (by linarith [unit_small]) hpi.le hpi0.le (by norm_num)
      refine this.trans (by norm_num)
    have u2 : radians (180 * unit) ≤ 1 / 10 ^ 10 :=
      (radians_mono (by linarith [unit_pos])).trans u1
    have u3 : Real.pi * Real.sqrt (5 * unit / 2) ≤ 6 / 10 ^ 8 := by
      have : Real.sqrt (5 * unit / 2) ≤ 19 / 10 ^ 9 := by
        apply Real.sqrt_le_iff.2
        constructor
        · norm_num
        · unfold unit; norm_num
      calc Real.pi * Real.sqrt (5 * unit / 2) ≤ 3.15 * (19 / 10 ^ 9) :=
            mul_le_mul hpi.le this (Real.sqrt_nonneg _) (by norm_num)
        _ ≤ _ := by norm_num
    have : (1 : ℝ) / 10 ^ 10 + 1 / 10 ^ 10 + 6 / 10 ^ 8 ≤ 1 / 10 ^ 7 := by norm_num
    linarith

/-- With double precision and correct rounding the error is less than a fiftieth of a second of arc. -/
example : ∃ s d, flStrikeDip round53 (Spec.correctlyRounded round53) ![1, 2, -3] = (s, some d) ∧
    ∃ m : Vec 3, Attitude.norm m = 1 ∧ 0 ≤ m 2 ∧ Spec.RightHandRule m s d ∧
      ∃ σ : ℝ, (σ = 1 ∨ σ = -1) ∧
        Attitude.norm (fun i => m i - σ * (![1, 2, -3] : Vec 3) i / Attitude.norm ![1, 2, -3]) ≤
          2 * radians (180 * unit) + 1 / 10 ^ 7 := by
  refine C194_accuracy _ round53_contract _ _ (correctlyRounded_accurate round53_contract) _
    (fun h => by simpa using congrFun h 0) fun i => ?_
  fin_cases i
  · simpa using rnd_nat round53_contract 1 (by norm_num)
  · simpa using rnd_nat round53_contract 2 (by norm_num)
  · simpa using rnd_neg_nat round53_contract 3 (by norm_num)

end Attitude.Props
