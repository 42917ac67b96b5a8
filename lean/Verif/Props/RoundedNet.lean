import Verif.Model.RoundedNet
import Verif.Props.RoundingAngle
import Verif.Props.RoundedFit
import Verif.Props.Rotations

/-!
# C248: positions on the stereonet in floating-point arithmetic
-/

namespace Attitude.Props

open Attitude Rounding RoundedNet

/-- The inverse trigonometric functions of the library are accurate up to `ε`; outside of [-1, 1]
`arcsin` is not a number. -/
structure Spec.AccurateNet (lib : NetLib) (ε : ℝ) : Prop where
  atan : ∀ y x, |lib.atan2 y x - arctan2 y x| ≤ ε
  asin : ∀ q, |q| ≤ 1 → ∃ t, lib.asin q = some t ∧ |t - Real.arcsin q| ≤ ε
  asin_nan : ∀ q, 1 < |q| → lib.asin q = none

/-- The unit vector at a longitude and latitude. -/
noncomputable def Spec.position (lon lat : ℝ) : Vec 3 :=
  ![Real.cos lat * Real.cos lon, Real.cos lat * Real.sin lon, Real.sin lat]

/-- The exact vector that is drawn for a point of the curve on the given side of the plane, with
the axes of the net: `c`, `s` are the cosine and sine, `k` the sign of the side (0 for the
plane itself). -/
noncomputable def Spec.drawn (axes cov : Mat 3 3) (k c s : ℝ) : Vec 3 :=
  let e : Vec 3 := ![c * cov 0 0, s * cov 1 1, k * 2 * cov 2 2]
  ![∑ i, e i * axes i 2, ∑ i, e i * axes i 0, ∑ i, e i * axes i 1]

/-- Axes that are orthonormal up to small errors: no vector becomes shorter than half of its length,
and the columns are not longer than 2. -/
def Spec.NearlyOrthonormal (axes : Mat 3 3) : Prop :=
  (∀ e : Vec 3, norm e ≤ 2 * norm (fun j => ∑ i, e i * axes i j)) ∧
    ∀ j, norm (fun i => axes i j) ≤ 2

/-- The sign of a side, for a fit that is upside-down or not. -/
def Spec.side (upsideDown : Prop) [Decidable upsideDown] : String → Option ℝ
  | "upper" => some (if upsideDown then 1 else -1)
  | "lower" => some (if upsideDown then -1 else 1)
  | "nominal" => some 0
  | _ => none

lemma position_close (a b a' b' : ℝ) :
    norm (fun i => Spec.position a b i - Spec.position a' b' i) ≤ |a - a'| + |b - b'| := by
  have h1 := Real.one_sub_sq_div_two_le_cos (x := a - a')
  have h2 := Real.one_sub_sq_div_two_le_cos (x := b - b')
  have hS : |Real.cos b * Real.cos b'| ≤ 1 := by
    rw [abs_mul]
    exact mul_le_one₀ (Real.abs_cos_le_one _) (abs_nonneg _) (Real.abs_cos_le_one _)
  apply le_of_sq_le_sq _ (by positivity)
  rw [norm_sq', Fin.sum_univ_three]
  have e : (Spec.position a b 0 - Spec.position a' b' 0) ^ 2
      + (Spec.position a b 1 - Spec.position a' b' 1) ^ 2
      + (Spec.position a b 2 - Spec.position a' b' 2) ^ 2 = 2 - 2 * Real.cos (b - b') +
        2 * (Real.cos b * Real.cos b') * (1 - Real.cos (a - a')) := by
    simp only [Spec.position, Matrix.cons_val]
    rw [Real.cos_sub, Real.cos_sub]
    have x := Real.sin_sq_add_cos_sq a
    have y := Real.sin_sq_add_cos_sq a'
    have z := Real.sin_sq_add_cos_sq b
    have w := Real.sin_sq_add_cos_sq b'
    linear_combination (Real.cos b) ^ 2 * x + (Real.cos b') ^ 2 * y + z + w
  rw [e]
  have hc := Real.cos_le_one (a - a')
  have k1 : (Real.cos b * Real.cos b') * (1 - Real.cos (a - a')) ≤ 1 * (1 - Real.cos (a - a')) :=
    mul_le_mul_of_nonneg_right ((le_abs_self _).trans hS) (by linarith)
  have k2 : (|a - a'| + |b - b'|) ^ 2 ≥ (a - a') ^ 2 + (b - b') ^ 2 := by
    rw [← sq_abs (a - a'), ← sq_abs (b - b')]
    nlinarith [abs_nonneg (a - a'), abs_nonneg (b - b')]
  linarith

lemma position_exact (v : Vec 3) (hv : v ≠ 0) :
    Spec.position (arctan2 (v 1) (v 0)) (Real.arcsin (v 2 / norm v)) = fun i => v i / norm v := by
  have hn : 0 < norm v := (norm_pos_iff' v).2 hv
  have hs : norm v ^ 2 = v 0 ^ 2 + v 1 ^ 2 + v 2 ^ 2 := by rw [norm_sq', Fin.sum_univ_three]
  have hu : (v 0 / norm v) ^ 2 + (v 1 / norm v) ^ 2 + (v 2 / norm v) ^ 2 = 1 := by
    rw [div_pow, div_pow, div_pow, ← add_div, ← add_div, ← hs]
    exact div_self (by positivity)
  have e : arctan2 (v 1) (v 0) = arctan2 (v 1 / norm v) (v 0 / norm v) := by
    have := arctan2_smul (r := 1 / norm v) (by positivity) (v 1) (v 0)
    rw [← this]; congr 1 <;> ring
  have := sph2cart_of_unit hu
  rw [← e, Rotations.sph2cart, Prod.mk.injEq, Prod.mk.injEq] at this
  obtain ⟨p0, p1, p2⟩ := this
  funext i
  fin_cases i
  · simpa [Spec.position] using p0
  · simpa [Spec.position] using p1
  · simpa [Spec.position] using p2

/-- The computed position of a vector of rounded numbers. -/
lemma flCart2sph_close {rnd : ℝ → ℝ} (F : Contract rnd) {lib : NetLib} {ε : ℝ}
    (L : Spec.AccurateNet lib ε) (v : Vec 3) (hv : v ≠ 0) (h2 : rnd (v 2) = v 2) :
    ∃ lon lat, flCart2sph rnd lib (v 0) (v 1) (v 2) = some (lon, lat) ∧
      |lat| ≤ Real.pi / 2 + ε ∧
      norm (fun i => Spec.position lon lat i - v i / norm v) ≤ 2 * ε + 6 / 10 ^ 8 := by
  obtain ⟨hr, hq, hclose⟩ := quotient_close F v hv h2
  have ev : (![v 0, v 1, v 2] : Vec 3) = v := by funext i; fin_cases i <;> rfl
  obtain ⟨lat, hlat, hl⟩ := L.asin _ hq
  refine ⟨lib.atan2 (v 1) (v 0), lat, ?_, ?_, ?_⟩
  · simp only [flCart2sph, ev, fdiv, hr, if_false, Option.bind_eq_bind, Option.bind_some, hlat]
  · have h := abs_le.1 hl
    have := Real.arcsin_le_pi_div_two (rnd (v 2 / flNorm rnd v))
    have := Real.neg_pi_div_two_le_arcsin (rnd (v 2 / flNorm rnd v))
    rw [abs_le]
    constructor <;> linarith
  · have hz : |v 2 / norm v| ≤ 1 := by
      have hn : 0 < norm v := (norm_pos_iff' v).2 hv
      have hs : norm v ^ 2 = v 0 ^ 2 + v 1 ^ 2 + v 2 ^ 2 := by rw [norm_sq', Fin.sum_univ_three]
      rw [abs_div, abs_of_pos hn, div_le_one hn]
      apply abs_le_of_sq_le_sq _ hn.le
      nlinarith [sq_nonneg (v 0), sq_nonneg (v 1)]
    have h1 := arccos_holder hq hz
    have h1' : |Real.arcsin (rnd (v 2 / flNorm rnd v)) - Real.arcsin (v 2 / norm v)|
        ≤ 6 / 10 ^ 8 := by
      rw [Real.arccos_eq_pi_div_two_sub_arcsin, Real.arccos_eq_pi_div_two_sub_arcsin,
        sub_sub_sub_cancel_left, abs_sub_comm] at h1
      refine h1.trans ?_
      have hu := unit_pos
      have : Real.sqrt (|rnd (v 2 / flNorm rnd v) - v 2 / norm v| / 2) ≤ 19 / 10 ^ 9 := by
        apply Real.sqrt_le_iff.2
        constructor
        · norm_num
        · have : 5 * unit / 2 ≤ (19 / 10 ^ 9 : ℝ) ^ 2 := by unfold unit; norm_num
          linarith
      calc _ ≤ 3.15 * (19 / 10 ^ 9 : ℝ) :=
            mul_le_mul Real.pi_lt_d2.le this (Real.sqrt_nonneg _) (by norm_num)
        _ ≤ _ := by norm_num
    have hex : (fun i => Spec.position (lib.atan2 (v 1) (v 0)) lat i - v i / norm v)
        = fun i => Spec.position (lib.atan2 (v 1) (v 0)) lat i
          - Spec.position (arctan2 (v 1) (v 0)) (Real.arcsin (v 2 / norm v)) i := by
      rw [position_exact v hv]
    rw [hex]
    have h3 := position_close (lib.atan2 (v 1) (v 0)) lat (arctan2 (v 1) (v 0))
      (Real.arcsin (v 2 / norm v))
    have h4 := L.atan (v 1) (v 0)
    have h5 := abs_sub_le lat (Real.arcsin (rnd (v 2 / flNorm rnd v))) (Real.arcsin (v 2 / norm v))
    refine h3.trans ?_
    linarith

/-- The vector that is computed is close to the exact one. -/
lemma drawn_close {rnd : ℝ → ℝ} (F : Contract rnd) (e : Vec 3) {axes : Mat 3 3}
    (ho : Spec.NearlyOrthonormal axes) (j : Fin 3) :
    |flDot rnd (fun i => rnd (e i)) (fun i => axes i j) - ∑ i, e i * axes i j|
      ≤ 18 * unit * norm e := by
  have hu := unit_pos
  have hu' := unit_small
  have hn := norm_nonneg' e
  have hcol := ho.2 j
  have hcol0 := norm_nonneg' (fun i => axes i j)
  have d1 : norm (fun i => rnd (e i) - e i) ≤ unit * norm e := by
    apply le_of_sq_le_sq _ (mul_nonneg hu.le hn)
    rw [mul_pow, norm_sq', norm_sq', Finset.mul_sum]
    refine Finset.sum_le_sum fun i _ => ?_
    rw [← mul_pow, ← sq_abs (rnd (e i) - e i), ← sq_abs (unit * e i), abs_mul, abs_of_pos hu]
    exact pow_le_pow_left₀ (abs_nonneg _) (F.rel (e i)) 2
  have d2 : norm (fun i => rnd (e i)) ≤ 2 * norm e := by
    have := norm_add_le' (fun i => rnd (e i) - e i) e
    simp only [sub_add_cancel] at this
    nlinarith
  have h1 : |flDot rnd (fun i => rnd (e i)) (fun i => axes i j)
      - (rnd (e 0) * axes 0 j + rnd (e 1) * axes 1 j + rnd (e 2) * axes 2 j)|
      ≤ 4 * unit * (norm (fun i => rnd (e i)) * norm (fun i => axes i j)) :=
    flDot_close F (fun i => rnd (e i)) (fun i => axes i j)
  have h2 := sum_abs_mul_le (fun i => rnd (e i) - e i) (fun i => axes i j)
  have h3 : |(rnd (e 0) * axes 0 j + rnd (e 1) * axes 1 j + rnd (e 2) * axes 2 j)
      - ∑ i, e i * axes i j| ≤ unit * norm e * 2 := by
    rw [Fin.sum_univ_three]
    have : (rnd (e 0) * axes 0 j + rnd (e 1) * axes 1 j + rnd (e 2) * axes 2 j)
        - (e 0 * axes 0 j + e 1 * axes 1 j + e 2 * axes 2 j)
        = (rnd (e 0) - e 0) * axes 0 j + (rnd (e 1) - e 1) * axes 1 j
          + (rnd (e 2) - e 2) * axes 2 j := by ring
    rw [this]
    refine (abs_add_three _ _ _).trans (h2.trans ?_)
    exact mul_le_mul d1 hcol hcol0 (mul_nonneg hu.le hn)
  have h4 : 4 * unit * (norm (fun i => rnd (e i)) * norm (fun i => axes i j))
      ≤ 4 * unit * (2 * norm e * 2) :=
    mul_le_mul_of_nonneg_left (mul_le_mul d2 hcol hcol0 (by linarith)) (by linarith)
  have h5 := abs_sub_le (flDot rnd (fun i => rnd (e i)) (fun i => axes i j))
    (rnd (e 0) * axes 0 j + rnd (e 1) * axes 1 j + rnd (e 2) * axes 2 j) (∑ i, e i * axes i j)
  linarith

/-- One point of the curve. -/
lemma flStep_close {rnd : ℝ → ℝ} (F : Contract rnd) {lib : NetLib} {ε : ℝ}
    (L : Spec.AccurateNet lib ε) {axes : Mat 3 3} (ho : Spec.NearlyOrthonormal axes) (cov : Mat 3 3)
    (k c s : ℝ) (hw : Spec.drawn axes cov k c s ≠ 0) :
    ∃ lon lat, flStep rnd lib axes (fun i => cov i i) (k * 2) c s = some (lon, lat) ∧
      |lat| ≤ Real.pi / 2 + ε ∧
      norm (fun i => Spec.position lon lat i
        - Spec.drawn axes cov k c s i / norm (Spec.drawn axes cov k c s)) ≤ 2 * ε + 1 / 10 ^ 7 := by
  have hu := unit_pos
  have hu' := unit_small
  set w := Spec.drawn axes cov k c s with hwdef
  set e : Vec 3 := ![c * cov 0 0, s * cov 1 1, k * 2 * cov 2 2] with he
  have hpos : 0 < norm w := (norm_pos_iff' w).2 hw
  have hew : norm e ≤ 2 * norm w := by
    have h := ho.1 e
    have : norm (fun j => ∑ i, e i * axes i j) = norm w := by
      rw [norm3, norm3]
      congr 1
      simp only [hwdef, Spec.drawn, Matrix.cons_val, ← he]
      ring
    rwa [this] at h
  let d : Vec 3 := fun j => flDot rnd (fun i => rnd (e i)) (fun i => axes i j)
  let v : Vec 3 := ![d 2, d 0, d 1]
  have hcl := drawn_close F e ho
  have hvw : norm (fun i => v i - w i) ≤ 72 * unit * norm w := by
    have hb : ∀ i, |v i - w i| ≤ 36 * unit * norm w := by
      intro i
      have h36 : 18 * unit * norm e ≤ 36 * unit * norm w := by nlinarith
      fin_cases i
      · exact (hcl 2).trans h36
      · exact (hcl 0).trans h36
      · exact (hcl 1).trans h36
    have h0 : 0 ≤ 36 * unit * norm w := by positivity
    apply le_of_sq_le_sq _ (by linarith)
    rw [norm_sq', Fin.sum_univ_three]
    have q := fun i => sq_le_sq' (abs_le.1 (hb i)).1 (abs_le.1 (hb i)).2
    have q0 := q 0
    have q1 := q 1
    have q2 := q 2
    nlinarith
  have hsmall : 72 * unit < 1 := by linarith
  -- compare with the unit vector
  have hunit : norm (fun i => w i / norm w) = 1 := by
    have : (fun i => w i / norm w) = fun i => (1 / norm w) * w i := by funext i; ring
    rw [this, norm_smul', abs_of_pos (by positivity)]
    field_simp
  have hscale : norm (fun i => v i / norm w - w i / norm w) ≤ 72 * unit := by
    have : (fun i => v i / norm w - w i / norm w) = fun i => (1 / norm w) * (v i - w i) := by
      funext i; ring
    rw [this, norm_smul', abs_of_pos (by positivity), one_div, inv_mul_le_iff₀ hpos]
    linarith
  obtain ⟨hvpos, hvunit⟩ := unit_close hunit hscale hsmall
  have hnv : norm (fun i => v i / norm w) = norm v / norm w := by
    have : (fun i => v i / norm w) = fun i => (1 / norm w) * v i := by funext i; ring
    rw [this, norm_smul', abs_of_pos (by positivity)]
    ring
  have hv0 : v ≠ 0 := by
    intro h
    rw [hnv, h, (norm_eq_zero_iff (0 : Vec 3)).2 rfl, zero_div] at hvpos
    exact lt_irrefl _ hvpos
  have hdir : (fun i => v i / norm w / norm (fun i => v i / norm w) - w i / norm w)
      = fun i => v i / norm v - w i / norm w := by
    funext i
    rw [hnv, div_div_div_cancel_right₀ hpos.ne']
  rw [hdir] at hvunit
  obtain ⟨lon, lat, h1, h2, h3⟩ := flCart2sph_close F L v hv0 (F.idem _)
  refine ⟨lon, lat, ?_, h2, ?_⟩
  · rw [← h1]
    have : (fun i => rnd (e i)) = ![rnd (c * cov 0 0), rnd (s * cov 1 1), rnd (k * 2 * cov 2 2)] := by
      funext i; fin_cases i <;> rfl
    simp only [flStep, ← this]
    rfl
  · have := norm_sub_triangle (Spec.position lon lat) (fun i => v i / norm v) (fun i => w i / norm w)
    refine this.trans ?_
    have h7 : (6 : ℝ) / 10 ^ 8 + 2 * (72 * (1 / 10 ^ 15)) ≤ 1 / 10 ^ 7 := by norm_num
    linarith

/-- With rounding, each point of the curves of errors is a position on the net (its latitude is a
number in range), within `10⁻⁷` of the exact direction plus twice the errors of the library; this
holds for all axes that are orthonormal up to small errors, all errors and all cosines and sines for
which the exact vector is not zero. -/
theorem C248_positions (rnd : ℝ → ℝ) (F : Contract rnd) (lib : NetLib) (ε : ℝ)
    (L : Spec.AccurateNet lib ε) (axes : Mat 3 3) (ho : Spec.NearlyOrthonormal axes) (cov : Mat 3 3)
    (sheet : String) (k : ℝ) (hk : Spec.side (axes 2 2 < 0) sheet = some k) (turn : List (ℝ × ℝ))
    (hw : ∀ t ∈ turn, Spec.drawn axes cov k t.1 t.2 ≠ 0) :
    ∃ curve, flIterativePlaneErrors rnd lib axes cov sheet turn = .ok curve ∧
      curve.length = turn.length ∧
      ∀ (i : ℕ) (t : ℝ × ℝ), turn[i]? = some t → ∃ lon lat, curve[i]? = some (some (lon, lat)) ∧
        |lat| ≤ Real.pi / 2 + ε ∧
        norm (fun j => Spec.position lon lat j
          - Spec.drawn axes cov k t.1 t.2 j / norm (Spec.drawn axes cov k t.1 t.2))
          ≤ 2 * ε + 1 / 10 ^ 7 := by
  have hrun : flIterativePlaneErrors rnd lib axes cov sheet turn
      = .ok (turn.map fun t => flStep rnd lib axes (fun i => cov i i) (k * 2) t.1 t.2) := by
    unfold Spec.side at hk
    split at hk
    · cases hk
      by_cases h : axes 2 2 < 0 <;>
        simp [flIterativePlaneErrors, Stereonet.scales, h, bind, Except.bind]
    · cases hk
      by_cases h : axes 2 2 < 0 <;>
        simp [flIterativePlaneErrors, Stereonet.scales, h, bind, Except.bind]
    · cases hk
      by_cases h : axes 2 2 < 0 <;>
        simp [flIterativePlaneErrors, Stereonet.scales, h, bind, Except.bind]
    · cases hk
  refine ⟨_, hrun, by simp, fun i t ht => ?_⟩
  obtain ⟨lon, lat, h1, h2, h3⟩ := flStep_close F L ho cov k t.1 t.2 (hw t (List.mem_of_getElem? ht))
  refine ⟨lon, lat, ?_, h2, h3⟩
  rw [List.getElem?_map, ht, Option.map_some, h1]

/-- The library that rounds the exact results. -/
noncomputable def Spec.roundedNet (rnd : ℝ → ℝ) : NetLib where
  atan2 y x := rnd (arctan2 y x)
  asin q := if |q| ≤ 1 then some (rnd (Real.arcsin q)) else none

lemma roundedNet_accurate {rnd : ℝ → ℝ} (F : Contract rnd) :
    Spec.AccurateNet (Spec.roundedNet rnd) (4 * unit) where
  atan y x := by
    have h : |arctan2 y x| ≤ 4 := by
      rw [abs_le]
      constructor <;> linarith [arctan2_le_pi y x, neg_pi_lt_arctan2 y x, Real.pi_le_four]
    exact (rnd_err F h).trans (by linarith [unit_pos])
  asin q hq := by
    have h : |Real.arcsin q| ≤ 4 := by
      rw [abs_le]
      constructor <;> linarith [Real.arcsin_le_pi_div_two q, Real.neg_pi_div_two_le_arcsin q,
        Real.pi_le_four]
    exact ⟨_, if_pos hq, (rnd_err F h).trans (by linarith [unit_pos])⟩
  asin_nan q hq := if_neg (not_le.2 hq)

/-- A horizontal plane with errors, in double precision with a library that rounds correctly. -/
example : ∃ curve, flIterativePlaneErrors round53 (Spec.roundedNet round53) 1
      (Matrix.diagonal ![3, 2, 1]) "upper" [(1, 0), (0, 1)] = .ok curve ∧
    ∀ (i : ℕ) (t : ℝ × ℝ), [((1 : ℝ), (0 : ℝ)), (0, 1)][i]? = some t →
      ∃ lon lat, curve[i]? = some (some (lon, lat)) ∧ |lat| ≤ Real.pi / 2 + 4 * unit := by
  have ho : Spec.NearlyOrthonormal (1 : Mat 3 3) := by
    constructor
    · intro e
      have : (fun j => ∑ i, e i * (1 : Mat 3 3) i j) = e := by
        funext j; simp [Matrix.one_apply]
      rw [this]
      linarith [norm_nonneg' e]
    · intro j
      have : norm (fun i => (1 : Mat 3 3) i j) = 1 := by
        unfold norm
        simp [Matrix.one_apply]
      rw [this]
      norm_num
  obtain ⟨curve, h1, _, h3⟩ := C248_positions round53 round53_contract _ _
    (roundedNet_accurate round53_contract) 1 ho (Matrix.diagonal ![3, 2, 1]) "upper" (-1)
    (by simp [Spec.side]) [(1, 0), (0, 1)] (by
      intro t ht h
      have := congrFun h 0
      simp [Spec.drawn, Fin.sum_univ_three] at this)
  refine ⟨curve, h1, fun i t ht => ?_⟩
  obtain ⟨lon, lat, h4, h5, _⟩ := h3 i t ht
  exact ⟨lon, lat, h4, h5⟩

/-- Without errors in the plane there is no direction: `nan`. -/
theorem C248_zero (rnd : ℝ → ℝ) (F : Contract rnd) (lib : NetLib) (axes cov : Mat 3 3)
    (k c s : ℝ) (h : ![c * cov 0 0, s * cov 1 1, k * 2 * cov 2 2] = (0 : Vec 3)) :
    flStep rnd lib axes (fun i => cov i i) (k * 2) c s = none := by
  have r0 : rnd 0 = 0 := by simpa using F.int 0 (by norm_num)
  have h0 : c * cov 0 0 = 0 := congrFun h 0
  have h1 : s * cov 1 1 = 0 := congrFun h 1
  have h2 : k * 2 * cov 2 2 = 0 := congrFun h 2
  simp [flStep, flCart2sph, flDot, flNorm, h0, h1, h2, r0, fdiv]

example : flStep round53 (Spec.roundedNet round53) 1 (fun i => (Matrix.diagonal ![3, 0, 1] : Mat 3 3) i i)
    (0 * 2) 0 1 = none :=
  C248_zero round53 round53_contract _ 1 (Matrix.diagonal ![3, 0, 1]) 0 0 1
    (by funext i; fin_cases i <;> simp)

end Attitude.Props
