import Verif.Props.FrontendPoles
import Verif.Props.CurveDensity

/-!
# The curves of the frontend as lines and rings

`ellipse` of math.ts L27-61 goes once around, but not back to its first point.
-/

namespace Attitude.Props

open Attitude Frontend

namespace Spec

/-- The shorter arc of the great circle through two directions, and their other
combinations with weights that are not negative. -/
def Arc (p q : Vec 3) : Set (Vec 3) := {u | ∃ α β : ℝ, 0 ≤ α ∧ 0 ≤ β ∧ u = α • p + β • q}

/-- The directions strictly between two directions. -/
def Between (p q : Vec 3) : Set (Vec 3) := {u | ∃ α β : ℝ, 0 < α ∧ 0 < β ∧ u = α • p + β • q}

/-- The directions on the line through the positions of a curve, drawn with arcs of great circles, as
d3 does for a `LineString`; `dir` gives the direction that a position shows. -/
def Drawn (dir : ℝ × ℝ → Vec 3) (c : List (Option (ℝ × ℝ))) : Set (Vec 3) :=
  {u | ∃ j p q, c[j]? = some (some p) ∧ c[j + 1]? = some (some q) ∧ u ∈ Arc (dir p) (dir q)}

end Spec

/-! ## Angles of the points -/

/-- The angle of a point of `ellipse`. -/
noncomputable def ringAngle (n j : ℕ) : ℝ :=
  if j < (n + 1) / 2 then Real.arcsin (-1 + (j : ℝ) * (2 / ((n : ℝ) / 2)))
  else if j = (n + 1) / 2 then Real.pi / 2
  else Real.pi - Real.arcsin (-1 + ((2 * ((n + 1) / 2) - j : ℕ) : ℝ) * (2 / ((n : ℝ) / 2)))

lemma ring_sine {n j : ℕ} (hj : j < (n + 1) / 2) :
    -1 ≤ -1 + (j : ℝ) * (2 / ((n : ℝ) / 2)) ∧ -1 + (j : ℝ) * (2 / ((n : ℝ) / 2)) < 1 :=
  sinAngles_bounds (n := n) (by
    simp only [sinAngles, List.mem_map, List.mem_range]
    exact ⟨j, hj, rfl⟩)

lemma ellipse_angles {n : ℕ} (hn : 1 ≤ n) (a b : ℝ) :
    ellipse n (some a) (some b) = (List.range (2 * ((n + 1) / 2))).map fun j =>
      (some (b * Real.cos (ringAngle n j)), some (a * Real.sin (ringAngle n j))) := by
  have hlow : ∀ j, j < (n + 1) / 2 → Real.sin (ringAngle n j) = -1 + (j : ℝ) * (2 / ((n : ℝ) / 2)) := by
    intro j hj
    have hb := ring_sine hj
    rw [ringAngle, if_pos hj, Real.sin_arcsin hb.1 hb.2.le]
  set K := (n + 1) / 2 with hK
  have hK1 : 1 ≤ K := by omega
  have e : 2 * K = K + (1 + (K - 1)) := by omega
  rw [e, List.range_add, List.range_add]
  simp only [List.map_append, List.map_map, ellipse, List.append_assoc]
  congr 1
  · simp only [sinAngles, List.map_map, ← hK]
    apply List.map_congr_left
    intro j hj
    rw [List.mem_range] at hj
    have hb := ring_sine (hK ▸ hj)
    simp only [Function.comp_apply, Num.mul_some, Prod.mk.injEq, Option.some.injEq]
    rw [hlow j hj]
    simp only [ringAngle, ← hK, if_pos hj, and_self]
  · congr 1
    · simp [ringAngle, ← hK]
    · apply List.ext_getElem
      · simp [sinAngles, ← hK]
      · intro i h1 h2
        simp only [List.length_map, List.length_range] at h2
        simp only [List.getElem_reverse, List.getElem_map, List.getElem_drop, sinAngles, List.length_map,
          List.length_drop, List.length_range, List.getElem_range, ← hK, Function.comp_apply,
          Num.mul_some, Option.map_some, Prod.mk.injEq, Option.some.injEq]
        have h3 : 1 + (K - 1 - 1 - i) = 2 * K - (K + (1 + i)) := by omega
        have hb := ring_sine (n := n) (j := 2 * K - (K + (1 + i))) (by omega)
        have h4 : ¬ K + (1 + i) < K := by omega
        have h5 : K + (1 + i) ≠ K := by omega
        simp only [ringAngle, ← hK, if_neg h4, if_neg h5, Real.cos_pi_sub, Real.sin_pi_sub]
        rw [Real.sin_arcsin hb.1 hb.2.le, h3]
        exact ⟨by ring, rfl⟩

lemma ringAngle_zero {n : ℕ} (hn : 1 ≤ n) : ringAngle n 0 = -(Real.pi / 2) := by
  rw [ringAngle, if_pos (by omega)]
  simp

lemma ringAngle_last {n : ℕ} (hn : 3 ≤ n) :
    ringAngle n (2 * ((n + 1) / 2) - 1) = Real.pi - Real.arcsin (-1 + 2 / ((n : ℝ) / 2)) := by
  rw [ringAngle, if_neg (by omega), if_neg (by omega)]
  have : 2 * ((n + 1) / 2) - (2 * ((n + 1) / 2) - 1) = 1 := by omega
  rw [this]
  simp

/-- The angles grow, by less than half a turn. -/
lemma ringAngle_step {n : ℕ} (hn : 3 ≤ n) {j : ℕ} (hj : j + 1 < 2 * ((n + 1) / 2)) :
    ringAngle n j < ringAngle n (j + 1) ∧ ringAngle n (j + 1) - ringAngle n j < Real.pi := by
  have hnp : (0 : ℝ) < n := by exact_mod_cast (by omega : 0 < n)
  have hstep : 0 < 2 / ((n : ℝ) / 2) := by positivity
  have hp := Real.pi_pos
  have hmono : ∀ i k : ℕ, i < k → k < (n + 1) / 2 →
      Real.arcsin (-1 + (i : ℝ) * (2 / ((n : ℝ) / 2))) < Real.arcsin (-1 + (k : ℝ) * (2 / ((n : ℝ) / 2))) := by
    intro i k hik hk
    apply Real.arcsin_lt_arcsin (ring_sine (hik.trans hk)).1 _ (ring_sine hk).2.le
    have : (i : ℝ) < k := by exact_mod_cast hik
    nlinarith
  have hlt : ∀ i, i < (n + 1) / 2 → Real.arcsin (-1 + (i : ℝ) * (2 / ((n : ℝ) / 2))) < Real.pi / 2 :=
    fun i hi => Real.arcsin_lt_pi_div_two.2 (ring_sine hi).2
  have hge : ∀ i : ℕ, -(Real.pi / 2) ≤ Real.arcsin (-1 + (i : ℝ) * (2 / ((n : ℝ) / 2))) :=
    fun i => Real.neg_pi_div_two_le_arcsin _
  have hgt : ∀ i : ℕ, 1 ≤ i → i < (n + 1) / 2 →
      -(Real.pi / 2) < Real.arcsin (-1 + (i : ℝ) * (2 / ((n : ℝ) / 2))) := by
    intro i h1 hi
    have := hmono 0 i (by omega) hi
    exact (hge 0).trans_lt this
  unfold ringAngle
  rcases lt_trichotomy (j + 1) ((n + 1) / 2) with h | h | h
  · rw [if_pos (by omega), if_pos h]
    have h1 := hmono j (j + 1) (by omega) h
    have h2 := hlt (j + 1) h
    have h3 := hge j
    exact ⟨h1, by linarith⟩
  · rw [if_pos (by omega : j < (n + 1) / 2), if_neg (by omega), if_pos h]
    have h1 := hlt j (by omega)
    have h2 := hgt j (by omega) (by omega)
    exact ⟨h1, by linarith⟩
  · rw [if_neg (by omega : ¬ j + 1 < (n + 1) / 2), if_neg (by omega : j + 1 ≠ (n + 1) / 2)]
    have h1 := hlt (2 * ((n + 1) / 2) - (j + 1)) (by omega)
    have h2 := hgt (2 * ((n + 1) / 2) - (j + 1)) (by omega) (by omega)
    rcases Nat.lt_or_ge ((n + 1) / 2) j with k | k
    · rw [if_neg (by omega : ¬ j < (n + 1) / 2), if_neg (by omega : j ≠ (n + 1) / 2)]
      have h3 := hmono (2 * ((n + 1) / 2) - (j + 1)) (2 * ((n + 1) / 2) - j) (by omega) (by omega)
      have h4 := hlt (2 * ((n + 1) / 2) - j) (by omega)
      exact ⟨by linarith, by linarith⟩
    · have hjK : j = (n + 1) / 2 := by omega
      rw [if_neg (by omega : ¬ j < (n + 1) / 2), if_pos hjK]
      exact ⟨by linarith, by linarith⟩

/-! ## Combinations of two directions in the plane -/

/-- Weights of a combination of two directions of the plane. -/
lemma combination {a b φ R : ℝ} {α β : ℝ} (h0 : R * Real.sin φ = α * Real.sin a + β * Real.sin b)
    (h1 : R * Real.cos φ = α * Real.cos a + β * Real.cos b) :
    R * Real.sin (φ - a) = β * Real.sin (b - a) ∧ R * Real.sin (b - φ) = α * Real.sin (b - a) := by
  simp only [Real.sin_sub]
  constructor
  · linear_combination Real.cos a * h0 - Real.sin a * h1
  · linear_combination Real.sin b * h1 - Real.cos b * h0

lemma combine {a b φ R : ℝ} (h : Real.sin (b - a) ≠ 0) :
    R * Real.sin φ = (R * Real.sin (b - φ) / Real.sin (b - a)) * Real.sin a
        + (R * Real.sin (φ - a) / Real.sin (b - a)) * Real.sin b ∧
    R * Real.cos φ = (R * Real.sin (b - φ) / Real.sin (b - a)) * Real.cos a
        + (R * Real.sin (φ - a) / Real.sin (b - a)) * Real.cos b := by
  constructor <;>
  · field_simp
    simp only [Real.sin_sub]
    ring

/-- Sines that are not negative, within one turn. -/
lemma between_of_sines {a b φ t : ℝ} (hab : a < b) (ht : t ≤ a) (hb : b < t + 2 * Real.pi)
    (hφ : t ≤ φ) (hφ' : φ < t + 2 * Real.pi) (h1 : 0 ≤ Real.sin (φ - a)) (h2 : 0 ≤ Real.sin (b - φ)) :
    a ≤ φ ∧ φ ≤ b := by
  have hp := Real.pi_pos
  have hneg : ∀ x, Real.pi < x → x < 2 * Real.pi → Real.sin x < 0 := by
    intro x hx hx'
    have := Real.sin_neg_of_neg_of_neg_pi_lt (x := x - 2 * Real.pi) (by linarith) (by linarith)
    rwa [Real.sin_sub_two_pi] at this
  constructor
  · by_contra hc
    push Not at hc
    rcases lt_or_ge (-Real.pi) (φ - a) with k | k
    · exact absurd (Real.sin_neg_of_neg_of_neg_pi_lt (by linarith) k) (not_lt.2 h1)
    · exact absurd (hneg (b - φ) (by linarith) (by linarith)) (not_lt.2 h2)
  · by_contra hc
    push Not at hc
    rcases lt_or_ge (-Real.pi) (b - φ) with k | k
    · exact absurd (Real.sin_neg_of_neg_of_neg_pi_lt (by linarith) k) (not_lt.2 h2)
    · exact absurd (hneg (φ - a) (by linarith) (by linarith)) (not_lt.2 h1)

lemma ringAngle_le {n : ℕ} (hn : 3 ≤ n) {j k : ℕ} (hjk : j ≤ k) (hk : k < 2 * ((n + 1) / 2)) :
    ringAngle n j ≤ ringAngle n k := by
  induction k, hjk using Nat.le_induction with
  | base => exact le_rfl
  | succ k hjk ih => exact (ih (by omega)).trans (ringAngle_step hn hk).1.le

/-- The angles from the first to the last are those between two neighbours. -/
lemma ringAngle_between {n : ℕ} (hn : 3 ≤ n) {φ : ℝ} (h0 : -(Real.pi / 2) ≤ φ) :
    (∃ j, j + 1 < 2 * ((n + 1) / 2) ∧ ringAngle n j ≤ φ ∧ φ ≤ ringAngle n (j + 1)) ↔
      φ ≤ ringAngle n (2 * ((n + 1) / 2) - 1) := by
  constructor
  · rintro ⟨j, hj, -, h⟩
    exact h.trans (ringAngle_le hn (by omega) (by omega))
  · have key : ∀ m, m + 1 < 2 * ((n + 1) / 2) → φ ≤ ringAngle n (m + 1) →
        ∃ j, j + 1 < 2 * ((n + 1) / 2) ∧ ringAngle n j ≤ φ ∧ φ ≤ ringAngle n (j + 1) := by
      intro m
      induction m with
      | zero => intro hm h; exact ⟨0, hm, by rw [ringAngle_zero (by omega)]; exact h0, h⟩
      | succ m ih =>
        intro hm h
        rcases le_total φ (ringAngle n (m + 1)) with k | k
        · exact ih (by omega) k
        · exact ⟨m + 1, hm, k, h⟩
    intro h
    refine key (2 * ((n + 1) / 2) - 2) (by omega) ?_
    rwa [show 2 * ((n + 1) / 2) - 2 + 1 = 2 * ((n + 1) / 2) - 1 by omega]

/-- The angles of the ellipse end less than half a turn before the first. -/
lemma ringAngle_end {n : ℕ} (hn : 3 ≤ n) :
    ringAngle n (2 * ((n + 1) / 2) - 1) < -(Real.pi / 2) + 2 * Real.pi ∧
      -(Real.pi / 2) + 2 * Real.pi - ringAngle n (2 * ((n + 1) / 2) - 1) < Real.pi := by
  rw [ringAngle_last hn]
  have hnp : (0 : ℝ) < n := by exact_mod_cast (by omega : 0 < n)
  have hp := Real.pi_pos
  have hb := ring_sine (n := n) (j := 1) (by omega)
  rw [Nat.cast_one, one_mul] at hb
  have h1 := Real.arcsin_lt_pi_div_two.2 hb.2
  have h2 : -(Real.pi / 2) < Real.arcsin (-1 + 2 / ((n : ℝ) / 2)) := by
    rw [Real.neg_pi_div_two_lt_arcsin]
    have : 0 < 2 / ((n : ℝ) / 2) := by positivity
    linarith
  constructor <;> linarith

/-- An angle for a vector of the plane that is not zero. -/
lemma angle_of_vector {x y : ℝ} (h : 0 < x ^ 2 + y ^ 2) :
    ∃ R φ, 0 < R ∧ -(Real.pi / 2) ≤ φ ∧ φ < -(Real.pi / 2) + 2 * Real.pi ∧ R * Real.sin φ = x ∧
      R * Real.cos φ = y := by
  have hR := Real.sqrt_pos.2 h
  have hp := Real.pi_pos
  obtain ⟨a, h1, h2, h3, h4⟩ := angle_of_circle (x := -x / Real.sqrt (x ^ 2 + y ^ 2))
    (y := y / Real.sqrt (x ^ 2 + y ^ 2)) (by
      rw [div_pow, div_pow, Real.sq_sqrt h.le, neg_sq, ← add_div, div_self h.ne'])
  rcases h2.lt_or_eq with h2 | h2
  · refine ⟨_, a - Real.pi / 2, hR, by linarith, by linarith, ?_, ?_⟩
    · rw [Real.sin_sub_pi_div_two, h3]; field_simp
    · rw [Real.cos_sub_pi_div_two, h4]; field_simp
  · refine ⟨_, -(Real.pi / 2), hR, le_rfl, by linarith, ?_, ?_⟩
    · rw [h2, Real.cos_two_pi] at h3
      rw [Real.sin_neg, Real.sin_pi_div_two]
      field_simp at h3
      linarith
    · rw [h2, Real.sin_two_pi] at h4
      rw [Real.cos_neg, Real.cos_pi_div_two, mul_zero]
      rcases div_eq_zero_iff.1 h4.symm with h | h
      · exact h.symm
      · exact absurd h hR.ne'

/-! ## The curves -/

/-- The points of a curve by their angles. -/
lemma girdle_at {cov : Vec 3} {axes : Mat 3 3} (ho : Spec.OrthonormalRows axes)
    (h0 : 0 < cov 0) (h1 : 0 < cov 1) {o : Opts} (hu : o.upperHemisphere ≠ some false)
    (hn : 1 ≤ o.n.getD 100) :
    ∃ (P : ℕ → ℝ × ℝ) (r : ℕ → ℝ),
      (Frontend.planeErrors cov (some axes) o).1
        = (List.range (2 * ((o.n.getD 100 + 1) / 2))).map (fun j => some (P j)) ∧
      ∀ j, 0 < r j ∧
        Attitude.norm (Spec.shown (o.degrees.getD false) (o.traditionalLayout.getD true) (P j)) = 1 ∧
        vdot (Spec.shown (o.degrees.getD false) (o.traditionalLayout.getD true) (P j)) (axes 0)
          = r j * (Real.sqrt (cov 0) * Real.sin (ringAngle (o.n.getD 100) j)) ∧
        vdot (Spec.shown (o.degrees.getD false) (o.traditionalLayout.getD true) (P j)) (axes 1)
          = r j * (Real.sqrt (cov 1) * Real.cos (ringAngle (o.n.getD 100) j)) ∧
        vdot (Spec.shown (o.degrees.getD false) (o.traditionalLayout.getD true) (P j)) (axes 2)
          = r j * (Real.sqrt (cov 2) * side o (sheetOf o) axes) := by
  have key : ∀ j : ℕ, _ := fun j => girdle_position (cov := cov) ho h0 h1 hu
    (Real.cos_sq_add_sin_sq (ringAngle (o.n.getD 100) j)) (Real.sqrt (cov 2) * side o (sheetOf o) axes)
  choose P r hP using key
  refine ⟨P, r, ?_, fun j => (hP j).2⟩
  rw [Frontend.planeErrors_eq, sqrtNum_of_nonneg h0.le, sqrtNum_of_nonneg h1.le, ellipse_angles hn,
    List.map_map]
  apply List.map_congr_left
  intro j _
  exact (hP j).1

/-- Vectors of a plane are combinations if their components are. -/
lemma eq_combination {axes : Mat 3 3} (ho : Spec.OrthonormalRows axes) {u p q : Vec 3} {α β : ℝ}
    (hu : vdot u (axes 2) = 0) (hp : vdot p (axes 2) = 0) (hq : vdot q (axes 2) = 0) :
    u = α • p + β • q ↔
      vdot u (axes 0) = α * vdot p (axes 0) + β * vdot q (axes 0) ∧
      vdot u (axes 1) = α * vdot p (axes 1) + β * vdot q (axes 1) := by
  have hlin : ∀ i, vdot (α • p + β • q) (axes i) = α * vdot p (axes i) + β * vdot q (axes i) := by
    intro i; simp only [vdot3, Pi.add_apply, Pi.smul_apply, smul_eq_mul]; ring
  constructor
  · rintro rfl
    exact ⟨hlin 0, hlin 1⟩
  · rintro ⟨h0, h1⟩
    rw [← toWorld_components ho u, ← toWorld_components ho (α • p + β • q)]
    congr 1
    funext i
    fin_cases i
    · exact h0.trans (hlin 0).symm
    · exact h1.trans (hlin 1).symm
    · show vdot u (axes 2) = vdot _ (axes 2)
      rw [hlin 2, hu, hp, hq]; ring

/-- The line of the nominal plane: it begins opposite of the first axis, and of the directions of the
plane exactly those strictly between its first and its last point are missing. -/
theorem C256_line_partial (cov : Vec 3) (axes : Mat 3 3) (ho : Spec.OrthonormalRows axes)
    (h0 : 0 < cov 0) (h1 : 0 < cov 1) (o : Opts) (hu : o.upperHemisphere ≠ some false)
    (hs : o.sheet = none ∨ o.sheet = some "nominal") (hn : 3 ≤ o.n.getD 100) :
    ∃ first last, (Frontend.planeErrors cov (some axes) o).1.head? = some (some first) ∧
      (Frontend.planeErrors cov (some axes) o).1.getLast? = some (some last) ∧
      Spec.shown (o.degrees.getD false) (o.traditionalLayout.getD true) first = -axes 0 ∧
      ∀ u, vdot u u = 1 → vdot u (axes 2) = 0 →
        (u ∈ Spec.Drawn (Spec.shown (o.degrees.getD false) (o.traditionalLayout.getD true))
            (Frontend.planeErrors cov (some axes) o).1 ↔
          u ∉ Spec.Between (Spec.shown (o.degrees.getD false) (o.traditionalLayout.getD true) first)
            (Spec.shown (o.degrees.getD false) (o.traditionalLayout.getD true) last)) := by
  obtain ⟨P, r, hc, hP⟩ := girdle_at ho h0 h1 hu (by omega)
  rw [hc]
  set n := o.n.getD 100 with hn'
  set dir := Spec.shown (o.degrees.getD false) (o.traditionalLayout.getD true) with hdir
  have hz : ∀ j, vdot (dir (P j)) (axes 2) = 0 := by
    intro j
    rw [(hP j).2.2.2.2, sheet_nominal hs]
    simp [side, planeScale]
  set a := Real.sqrt (cov 0) with ha
  set b := Real.sqrt (cov 1) with hb
  have ha0 : 0 < a := Real.sqrt_pos.2 h0
  have hb0 : 0 < b := Real.sqrt_pos.2 h1
  set m := 2 * ((n + 1) / 2) with hm
  have hm3 : 3 ≤ m := by omega
  refine ⟨P 0, P (m - 1), ?_, ?_, ?_, fun u huu huz => ?_⟩
  · rw [List.head?_map, List.head?_range, if_neg (by omega)]; rfl
  · rw [List.getLast?_map, List.getLast?_range, if_neg (by omega)]; rfl
  · obtain ⟨hr, hnorm, e0, e1, -⟩ := hP 0
    have hn0 := hz 0
    rw [ringAngle_zero (by omega), Real.sin_neg, Real.sin_pi_div_two] at e0
    rw [ringAngle_zero (by omega), Real.cos_neg, Real.cos_pi_div_two, mul_zero, mul_zero] at e1
    have hd : dir (P 0) = fun j => vdot (dir (P 0)) (axes 0) * axes 0 j := by
      conv_lhs => rw [← toWorld_components ho (dir (P 0))]
      funext j
      simp only [Stereonet.toWorld, Fin.sum_univ_three]
      rw [e1, hn0]; ring
    have hneg : vdot (dir (P 0)) (axes 0) = -1 := by
      have hsq : vdot (dir (P 0)) (axes 0) ^ 2 = 1 := by
        have h2 : vdot (dir (P 0)) (dir (P 0)) = 1 := by
          rw [norm3] at hnorm
          have := congrArg (· ^ 2) hnorm
          simp only [one_pow] at this
          rw [Real.sq_sqrt (by positivity)] at this
          rw [vdot3]; linarith
        rw [hd] at h2
        have h3 := ho 0 0
        simp only [if_true] at h3
        rw [vdot3] at h2 h3
        linear_combination h2 - vdot (dir (P 0)) (axes 0) ^ 2 * h3
      have hlt : vdot (dir (P 0)) (axes 0) < 0 := by rw [e0]; nlinarith [mul_pos hr ha0]
      nlinarith
    rw [hd, hneg]
    funext j
    simp
  · have hu1 : vdot u (axes 0) ^ 2 + vdot u (axes 1) ^ 2 = 1 := by
      have := Stereonet.toWorld_dot_toWorld ho (fun i => vdot u (axes i)) (fun i => vdot u (axes i))
      rw [toWorld_components ho u, huu, vdot3, huz] at this
      linarith
    obtain ⟨R, φ, hR, hφ, hφ', hX, hY⟩ := angle_of_vector (x := vdot u (axes 0) / a)
      (y := vdot u (axes 1) / b) (by
        rcases eq_or_ne (vdot u (axes 0)) 0 with k | k
        · rw [k] at hu1 ⊢
          have : vdot u (axes 1) ≠ 0 := by intro k'; rw [k'] at hu1; norm_num at hu1
          positivity
        · positivity)
    have hX' : vdot u (axes 0) = a * (R * Real.sin φ) := by rw [hX]; field_simp
    have hY' : vdot u (axes 1) = b * (R * Real.cos φ) := by rw [hY]; field_simp
    have hcomb : ∀ i j α β, u = α • dir (P i) + β • dir (P j) ↔
        R * Real.sin φ = (α * r i) * Real.sin (ringAngle n i) + (β * r j) * Real.sin (ringAngle n j) ∧
        R * Real.cos φ = (α * r i) * Real.cos (ringAngle n i) + (β * r j) * Real.cos (ringAngle n j) := by
      intro i j α β
      rw [eq_combination ho huz (hz i) (hz j), (hP i).2.2.1, (hP j).2.2.1, (hP i).2.2.2.1, (hP j).2.2.2.1,
        hX', hY']
      constructor
      · rintro ⟨k0, k1⟩
        exact ⟨mul_left_cancel₀ ha0.ne' (by linear_combination k0),
          mul_left_cancel₀ hb0.ne' (by linear_combination k1)⟩
      · rintro ⟨k0, k1⟩
        exact ⟨by linear_combination a * k0, by linear_combination b * k1⟩
    have hdrawn : u ∈ Spec.Drawn dir ((List.range m).map fun j => some (P j)) ↔
        ∃ j, j + 1 < m ∧ ringAngle n j ≤ φ ∧ φ ≤ ringAngle n (j + 1) := by
      constructor
      · rintro ⟨j, p, q, hp, hq, α, β, hα, hβ, he⟩
        have hj : j + 1 < m := by
          by_contra hj
          rw [List.getElem?_eq_none (by simpa using hj)] at hq
          simp at hq
        have ep : p = P j := by
          rw [List.getElem?_map, List.getElem?_range (by omega)] at hp
          simpa using hp.symm
        have eq : q = P (j + 1) := by
          rw [List.getElem?_map, List.getElem?_range hj] at hq
          simpa using hq.symm
        rw [ep, eq] at he
        obtain ⟨k0, k1⟩ := (hcomb _ _ _ _).1 he
        obtain ⟨c0, c1⟩ := combination k0 k1
        obtain ⟨s0, s1⟩ := ringAngle_step hn hj
        have hsp := Real.sin_pos_of_pos_of_lt_pi (sub_pos.2 s0) s1
        refine ⟨j, hj, between_of_sines (t := -(Real.pi / 2)) s0 ?_ ?_ hφ hφ' ?_ ?_⟩
        · rw [← ringAngle_zero (n := n) (by omega)]
          exact ringAngle_le hn (by omega) (by omega)
        · exact (ringAngle_le hn (by omega) (by omega)).trans_lt (ringAngle_end hn).1
        · have : 0 ≤ R * Real.sin (φ - ringAngle n j) := by
            rw [c0]; exact mul_nonneg (mul_nonneg hβ (hP _).1.le) hsp.le
          exact nonneg_of_mul_nonneg_right this hR
        · have : 0 ≤ R * Real.sin (ringAngle n (j + 1) - φ) := by
            rw [c1]; exact mul_nonneg (mul_nonneg hα (hP _).1.le) hsp.le
          exact nonneg_of_mul_nonneg_right this hR
      · rintro ⟨j, hj, k0, k1⟩
        obtain ⟨s0, s1⟩ := ringAngle_step hn hj
        have hsp := Real.sin_pos_of_pos_of_lt_pi (sub_pos.2 s0) s1
        have t0 := Real.sin_nonneg_of_nonneg_of_le_pi (x := φ - ringAngle n j) (by linarith) (by linarith)
        have t1 := Real.sin_nonneg_of_nonneg_of_le_pi (x := ringAngle n (j + 1) - φ) (by linarith) (by linarith)
        refine ⟨j, P j, P (j + 1), by simp [List.getElem?_range (by omega : j < m)],
          by simp [List.getElem?_range hj],
          R * Real.sin (ringAngle n (j + 1) - φ) / Real.sin (ringAngle n (j + 1) - ringAngle n j) / r j,
          R * Real.sin (φ - ringAngle n j) / Real.sin (ringAngle n (j + 1) - ringAngle n j) / r (j + 1),
          div_nonneg (div_nonneg (mul_nonneg hR.le t1) hsp.le) (hP _).1.le,
          div_nonneg (div_nonneg (mul_nonneg hR.le t0) hsp.le) (hP _).1.le, ?_⟩
        rw [hcomb, div_mul_cancel₀ _ (hP _).1.ne', div_mul_cancel₀ _ (hP _).1.ne']
        exact combine hsp.ne'
    have hbetween : u ∈ Spec.Between (dir (P 0)) (dir (P (m - 1))) ↔ ringAngle n (m - 1) < φ := by
      obtain ⟨e0, e1⟩ := ringAngle_end hn
      have hz0 := ringAngle_zero (n := n) (by omega)
      have hsp := Real.sin_pos_of_pos_of_lt_pi (sub_pos.2 e0) e1
      have hturn : ∀ x, Real.sin (ringAngle n 0 - x) = Real.sin (-(Real.pi / 2) + 2 * Real.pi - x) := by
        intro x
        rw [hz0, show -(Real.pi / 2) + 2 * Real.pi - x = -(Real.pi / 2) - x + 2 * Real.pi by ring,
          Real.sin_add_two_pi]
      constructor
      · rintro ⟨α, β, hα, hβ, he⟩
        obtain ⟨k0, k1⟩ := (hcomb _ _ _ _).1 he
        obtain ⟨c0, c1⟩ := combination (a := ringAngle n (m - 1)) (b := ringAngle n 0)
          (α := β * r (m - 1)) (β := α * r 0) (by rw [k0]; ring) (by rw [k1]; ring)
        rw [hturn] at c0
        by_contra hle
        push Not at hle
        have : 0 < R * Real.sin (φ - ringAngle n (m - 1)) := by
          rw [c0]; exact mul_pos (mul_pos hα (hP _).1) hsp
        have h3 := pos_of_mul_pos_right this hR.le
        have h4 : 0 < R * Real.sin (-(Real.pi / 2) + 2 * Real.pi - φ) := by
          rw [← hturn, c1, hturn]
          exact mul_pos (mul_pos hβ (hP _).1) hsp
        have h5 := pos_of_mul_pos_right h4 hR.le
        have hp := Real.pi_pos
        rcases lt_or_ge (-Real.pi) (φ - ringAngle n (m - 1)) with k | k
        · exact absurd (Real.sin_nonpos_of_nonpos_of_neg_pi_le (by linarith) k.le) (not_le.2 h3)
        · have : Real.sin (-(Real.pi / 2) - φ) ≤ 0 :=
            Real.sin_nonpos_of_nonpos_of_neg_pi_le (by linarith) (by linarith)
          rw [show -(Real.pi / 2) + 2 * Real.pi - φ = -(Real.pi / 2) - φ + 2 * Real.pi by ring,
            Real.sin_add_two_pi] at h5
          linarith
      · intro hlt
        have t0 := Real.sin_pos_of_pos_of_lt_pi (x := φ - ringAngle n (m - 1)) (by linarith) (by linarith)
        have t1 := Real.sin_pos_of_pos_of_lt_pi (x := -(Real.pi / 2) + 2 * Real.pi - φ) (by linarith) (by linarith)
        rw [← hturn] at t1 hsp
        refine ⟨R * Real.sin (φ - ringAngle n (m - 1)) / Real.sin (ringAngle n 0 - ringAngle n (m - 1)) / r 0,
          R * Real.sin (ringAngle n 0 - φ) / Real.sin (ringAngle n 0 - ringAngle n (m - 1)) / r (m - 1),
          div_pos (div_pos (mul_pos hR t0) hsp) (hP _).1,
          div_pos (div_pos (mul_pos hR t1) hsp) (hP _).1, ?_⟩
        rw [hcomb, div_mul_cancel₀ _ (hP _).1.ne', div_mul_cancel₀ _ (hP _).1.ne']
        obtain ⟨c0, c1⟩ := combine (a := ringAngle n (m - 1)) (b := ringAngle n 0) (φ := φ) (R := R) hsp.ne'
        exact ⟨by rw [c0]; ring, by rw [c1]; ring⟩
    rw [hdrawn, hbetween, ringAngle_between hn hφ, not_lt]

/-- The axes of a plane that dips 45° to the south, with the default number of points. -/
example : Spec.OrthonormalRows dippingAxes ∧ (0 : ℝ) < (![9, 4, 1] : Vec 3) 0 ∧
    (0 : ℝ) < (![9, 4, 1] : Vec 3) 1 ∧ ({} : Opts).upperHemisphere ≠ some false ∧
    3 ≤ ({} : Opts).n.getD 100 :=
  ⟨dipping_orthonormal, by simp, by simp, by simp, by simp⟩

/-- The missing part: the cosine of its angle, from the lengths of the errors and the number of points. -/
theorem C256_missing_false (cov : Vec 3) (axes : Mat 3 3) (ho : Spec.OrthonormalRows axes)
    (h0 : 0 < cov 0) (h1 : 0 < cov 1) (o : Opts) (hu : o.upperHemisphere ≠ some false)
    (hs : o.sheet = none ∨ o.sheet = some "nominal") (hn : 3 ≤ o.n.getD 100) :
    ∃ first last, (Frontend.planeErrors cov (some axes) o).1.head? = some (some first) ∧
      (Frontend.planeErrors cov (some axes) o).1.getLast? = some (some last) ∧
      vdot (Spec.shown (o.degrees.getD false) (o.traditionalLayout.getD true) first)
        (Spec.shown (o.degrees.getD false) (o.traditionalLayout.getD true) last)
        = Real.sqrt (cov 0) * (1 - 4 / (o.n.getD 100 : ℝ)) / Real.sqrt (cov 0 * (1 - 4 / (o.n.getD 100 : ℝ)) ^ 2
            + cov 1 * (1 - (1 - 4 / (o.n.getD 100 : ℝ)) ^ 2)) ∧
      ∃ u, vdot u u = 1 ∧ vdot u (axes 2) = 0 ∧
        u ∉ Spec.Drawn (Spec.shown (o.degrees.getD false) (o.traditionalLayout.getD true))
            (Frontend.planeErrors cov (some axes) o).1 := by
  obtain ⟨first, last, hf, hl, hdir, hiff⟩ := C256_line_partial cov axes ho h0 h1 o hu hs hn
  obtain ⟨P, r, hc, hP⟩ := girdle_at ho h0 h1 hu (by omega)
  refine ⟨first, last, hf, hl, ?_, ?_⟩
  all_goals
    have hlast : last = P (2 * ((o.n.getD 100 + 1) / 2) - 1) := by
      rw [hc, List.getLast?_map, List.getLast?_range, if_neg (by omega)] at hl
      simpa using hl.symm
    obtain ⟨hr, hnorm, e0, e1, e2⟩ := hP (2 * ((o.n.getD 100 + 1) / 2) - 1)
    rw [← hlast] at hnorm e0 e1 e2
    set dir := Spec.shown (o.degrees.getD false) (o.traditionalLayout.getD true) with hdir'
    set n := o.n.getD 100 with hn'
    have hz : vdot (dir last) (axes 2) = 0 := by
      rw [e2, sheet_nominal hs]
      simp [side, planeScale]
    have hnp : (0 : ℝ) < n := by exact_mod_cast (by omega : 0 < n)
    have hb := ring_sine (n := n) (j := 1) (by omega)
    rw [Nat.cast_one, one_mul] at hb
    have hq : -1 + 2 / ((n : ℝ) / 2) = -(1 - 4 / (n : ℝ)) := by field_simp; ring
    rw [ringAngle_last hn, Real.sin_pi_sub, Real.sin_arcsin hb.1 hb.2.le, hq] at e0
    rw [ringAngle_last hn, Real.cos_pi_sub, Real.cos_arcsin, hq, neg_sq] at e1
    set t := 1 - 4 / (n : ℝ) with ht
    have ht1 : t ^ 2 < 1 := by
      have h4 : 4 / (n : ℝ) < 2 := by
        rw [div_lt_iff₀ hnp]
        have : (3 : ℝ) ≤ n := by exact_mod_cast hn
        linarith
      have h5 : 0 < 4 / (n : ℝ) := by positivity
      nlinarith
    have hw : 0 < 1 - t ^ 2 := by linarith
    set a := Real.sqrt (cov 0) with ha
    set b := Real.sqrt (cov 1) with hb'
    have ha0 : 0 < a := Real.sqrt_pos.2 h0
    have hb0 : 0 < b := Real.sqrt_pos.2 h1
    have ha2 : a ^ 2 = cov 0 := Real.sq_sqrt h0.le
    have hb2 : b ^ 2 = cov 1 := Real.sq_sqrt h1.le
    have hu1 : vdot (dir last) (axes 0) ^ 2 + vdot (dir last) (axes 1) ^ 2 = 1 := by
      have := Stereonet.toWorld_dot_toWorld ho (fun i => vdot (dir last) (axes i))
        (fun i => vdot (dir last) (axes i))
      have h2 : vdot (dir last) (dir last) = 1 := by
        rw [norm3] at hnorm
        have := congrArg (· ^ 2) hnorm
        simp only [one_pow] at this
        rw [Real.sq_sqrt (by positivity)] at this
        rw [vdot3]; linarith
      rw [toWorld_components ho (dir last), h2, vdot3, hz] at this
      linarith
  · have hr2 : r (2 * ((n + 1) / 2) - 1) ^ 2 * (cov 0 * t ^ 2 + cov 1 * (1 - t ^ 2)) = 1 := by
      rw [e0, e1] at hu1
      rw [← ha2, ← hb2]
      have := Real.sq_sqrt hw.le
      linear_combination hu1 - r (2 * ((n + 1) / 2) - 1) ^ 2 * b ^ 2 * this
    have hpos : 0 < cov 0 * t ^ 2 + cov 1 * (1 - t ^ 2) := by positivity
    have hsq := Real.sqrt_pos.2 hpos
    have hr1 : r (2 * ((n + 1) / 2) - 1) * Real.sqrt (cov 0 * t ^ 2 + cov 1 * (1 - t ^ 2)) = 1 := by
      have h3 := Real.sq_sqrt hpos.le
      have h4 : (r (2 * ((n + 1) / 2) - 1) * Real.sqrt (cov 0 * t ^ 2 + cov 1 * (1 - t ^ 2))) ^ 2 = 1 := by
        rw [mul_pow, h3, hr2]
      have h5 := mul_pos hr hsq
      nlinarith
    have hv : vdot (dir first) (dir last) = -vdot (dir last) (axes 0) := by
      rw [hdir]; simp only [vdot3, Pi.neg_apply]; ring
    rw [hv, e0, eq_div_iff hsq.ne']
    linear_combination a * t * hr1
  · -- the direction half way
    have hv0 : vdot (dir first) (axes 0) = -1 := by
      rw [hdir]
      have := ho 0 0
      simp only [if_true, vdot3] at this
      simp only [vdot3, Pi.neg_apply]; linarith
    have hv1 : vdot (dir first) (axes 1) = 0 := by
      rw [hdir]
      have := ho 0 1
      simp only [vdot3] at this
      simp at this
      simp only [vdot3, Pi.neg_apply]; linarith
    have hv2 : vdot (dir first) (axes 2) = 0 := by
      rw [hdir]
      have := ho 0 2
      simp only [vdot3] at this
      simp at this
      simp only [vdot3, Pi.neg_apply]; linarith
    set w : Vec 3 := dir first + dir last with hw'
    have hadd : ∀ i, vdot w (axes i) = vdot (dir first) (axes i) + vdot (dir last) (axes i) := by
      intro i; rw [hw']; simp only [vdot3, Pi.add_apply]; ring
    have hw1 : vdot w (axes 1) < 0 := by
      rw [hadd, hv1, e1]
      have := Real.sqrt_pos.2 hw
      have := mul_pos hr (mul_pos hb0 this)
      linarith
    have hne : w ≠ 0 := by
      intro k
      rw [k] at hw1
      simp [vdot3] at hw1
    have hN : 0 < Attitude.norm w := (norm_pos_iff' _).2 hne
    have hNN : Attitude.norm w ^ 2 = vdot w w := by
      rw [norm3, Real.sq_sqrt (by positivity), vdot3]; ring
    have hunit : vdot ((1 / Attitude.norm w) • w) ((1 / Attitude.norm w) • w) = 1 := by
      have : vdot ((1 / Attitude.norm w) • w) ((1 / Attitude.norm w) • w)
          = (1 / Attitude.norm w) ^ 2 * vdot w w := by
        simp only [vdot3, Pi.smul_apply, smul_eq_mul]; ring
      rw [this, ← hNN]; field_simp
    have hplane : vdot ((1 / Attitude.norm w) • w) (axes 2) = 0 := by
      rw [vdot_smul_left, hadd, hv2, hz]; ring
    refine ⟨(1 / Attitude.norm w) • w, hunit, hplane, ?_⟩
    rw [hiff _ hunit hplane, not_not]
    exact ⟨1 / Attitude.norm w, 1 / Attitude.norm w, by positivity, by positivity, by rw [hw', smul_add]⟩

/-- With the default number of points and equal errors in the plane an arc of more than 16° is missing
(the cosine of 16° is more than 0.9612). -/
example : ∃ first last,
    (Frontend.planeErrors ![4, 4, 1] (some dippingAxes) {}).1.head? = some (some first) ∧
    (Frontend.planeErrors ![4, 4, 1] (some dippingAxes) {}).1.getLast? = some (some last) ∧
    vdot (Spec.shown false true first) (Spec.shown false true last) = 0.96 := by
  obtain ⟨f, l, hf, hl, h, -⟩ := C256_missing_false ![4, 4, 1] dippingAxes dipping_orthonormal (by simp)
    (by simp) {} (by simp) (Or.inl rfl) (by simp)
  refine ⟨f, l, hf, hl, ?_⟩
  have h4 : Real.sqrt 4 = 2 := by
    rw [show (4 : ℝ) = 2 ^ 2 by norm_num, Real.sqrt_sq (by norm_num)]
  have h5 : Real.sqrt (4 * (1 - 4 / (100 : ℝ)) ^ 2 + 4 * (1 - (1 - 4 / (100 : ℝ)) ^ 2)) = 2 := by
    rw [← h4]; congr 1; ring
  simp only [Option.getD_none, Matrix.cons_val_zero, Matrix.cons_val_one, Nat.cast_ofNat] at h
  rw [h, h5, h4]
  norm_num

/-- Refutation for the rings of the error surface: the first and the last position of a curve show
different directions, so that its polygon is not closed as GeoJSON has it. -/
theorem C256_girdle_ring_false (cov : Vec 3) (axes : Mat 3 3) (ho : Spec.OrthonormalRows axes)
    (h0 : 0 < cov 0) (h1 : 0 < cov 1) (o : Opts) (hu : o.upperHemisphere ≠ some false)
    (hn : 3 ≤ o.n.getD 100) :
    ∃ first last, (Frontend.planeErrors cov (some axes) o).1.head? = some (some first) ∧
      (Frontend.planeErrors cov (some axes) o).1.getLast? = some (some last) ∧
      first ≠ last ∧ Spec.shown (o.degrees.getD false) (o.traditionalLayout.getD true) first ≠
        Spec.shown (o.degrees.getD false) (o.traditionalLayout.getD true) last := by
  obtain ⟨P, r, hc, hP⟩ := girdle_at ho h0 h1 hu (by omega)
  rw [hc]
  have hdir : Spec.shown (o.degrees.getD false) (o.traditionalLayout.getD true) (P 0) ≠
      Spec.shown (o.degrees.getD false) (o.traditionalLayout.getD true)
        (P (2 * ((o.n.getD 100 + 1) / 2) - 1)) := by
    intro h
    have e1 := (hP 0).2.2.2.1
    have e1' := (hP (2 * ((o.n.getD 100 + 1) / 2) - 1)).2.2.2.1
    rw [← h, e1, ringAngle_zero (by omega), Real.cos_neg, Real.cos_pi_div_two, mul_zero, mul_zero] at e1'
    have hnp : (0 : ℝ) < (o.n.getD 100 : ℝ) := by exact_mod_cast (by omega : 0 < o.n.getD 100)
    have hb := ring_sine (n := o.n.getD 100) (j := 1) (by omega)
    rw [Nat.cast_one, one_mul] at hb
    have hpos : 0 < Real.cos (Real.arcsin (-1 + 2 / ((o.n.getD 100 : ℝ) / 2))) := by
      apply Real.cos_pos_of_mem_Ioo
      constructor
      · rw [Real.neg_pi_div_two_lt_arcsin]
        have : 0 < 2 / ((o.n.getD 100 : ℝ) / 2) := by positivity
        linarith
      · exact Real.arcsin_lt_pi_div_two.2 hb.2
    rw [ringAngle_last hn, Real.cos_pi_sub] at e1'
    have := mul_pos (hP (2 * ((o.n.getD 100 + 1) / 2) - 1)).1 (mul_pos (Real.sqrt_pos.2 h1) hpos)
    linarith
  refine ⟨P 0, P (2 * ((o.n.getD 100 + 1) / 2) - 1), ?_, ?_, fun h => hdir (by rw [h]), hdir⟩
  · rw [List.head?_map, List.head?_range, if_neg (by omega)]; rfl
  · rw [List.getLast?_map, List.getLast?_range, if_neg (by omega)]; rfl

/-- The upper curve of a dipping plane. -/
example : Spec.OrthonormalRows dippingAxes ∧ (0 : ℝ) < (![9, 4, 1] : Vec 3) 0 ∧
    (0 : ℝ) < (![9, 4, 1] : Vec 3) 1 ∧ ({ sheet := some "upper" } : Opts).upperHemisphere ≠ some false ∧
    3 ≤ ({ sheet := some "upper" } : Opts).n.getD 100 :=
  ⟨dipping_orthonormal, by simp, by simp, by simp, by simp⟩

/-- Refutation for the rings around the poles. -/
theorem C256_pole_ring_false (cov : Vec 3) (axes : Mat 3 3) (ho : Spec.OrthonormalRows axes)
    (h0 : 0 < cov 0) (h1 : 0 < cov 1) (h2 : 0 < cov 2) (o : Opts) (hu : o.upperHemisphere ≠ some false)
    (hl : 0 < o.level.getD 1) (hn : 3 ≤ o.n.getD 100)
    (hs : o.sheet = none ∨ o.sheet = some "upper" ∨ o.sheet = some "lower") :
    ∃ c o' first last, Frontend.normalErrors cov (some axes) o = some (c, o') ∧
      c.head? = some (some first) ∧ c.getLast? = some (some last) ∧ first ≠ last ∧
      Spec.shown (o.degrees.getD false) (o.traditionalLayout.getD true) first ≠
        Spec.shown (o.degrees.getD false) (o.traditionalLayout.getD true) last := by
  obtain ⟨v, hv, hv2⟩ : ∃ v : ℝ, normalScale (o.sheet.getD "upper") = some v ∧ v ^ 2 = 1 := by
    rcases hs with h | h | h <;> rw [h]
    · exact ⟨1, by simp [normalScale], by norm_num⟩
    · exact ⟨1, by simp [normalScale], by norm_num⟩
    · exact ⟨-1, by simp [normalScale], by norm_num⟩
  have key : ∀ j : ℕ, _ := fun j => pole_position (cov := cov) ho h0 h1 hu
    (Real.cos_sq_add_sin_sq (ringAngle (o.n.getD 100) j)) (v * hemi o * o.level.getD 1) hv2
  choose P r f hP using key
  have hN := Frontend.normalErrors_eq axes h0 h1 h2.le hv
  rw [sqrtNum_of_nonneg h0.le, sqrtNum_of_nonneg h1.le, ellipse_angles (by omega), List.map_map] at hN
  have hmap : (List.range (2 * ((o.n.getD 100 + 1) / 2))).map ((fun p : Num × Num =>
        cart2sph o.normalDefaults (Stereonet.toWorld
          (poleVec cov (v * hemi o * o.level.getD 1) v (p.1.getD 0) (p.2.getD 0)) axes)) ∘ fun j =>
      (some (Real.sqrt (cov 1) * Real.cos (ringAngle (o.n.getD 100) j)),
        some (Real.sqrt (cov 0) * Real.sin (ringAngle (o.n.getD 100) j))))
      = (List.range (2 * ((o.n.getD 100 + 1) / 2))).map fun j => some (P j) := by
    apply List.map_congr_left
    intro j _
    exact (hP j).1
  rw [hmap] at hN
  have hdir : Spec.shown (o.degrees.getD false) (o.traditionalLayout.getD true) (P 0) ≠
      Spec.shown (o.degrees.getD false) (o.traditionalLayout.getD true)
        (P (2 * ((o.n.getD 100 + 1) / 2) - 1)) := by
    intro h
    have e0 := (hP 0).2.2.2.2.2.1
    have e0' := (hP (2 * ((o.n.getD 100 + 1) / 2) - 1)).2.2.2.2.2.1
    rw [← h, e0] at e0'
    have hk := congrArg (fun x => vdot x (axes 0)) e0'
    simp only [vdot_smul_left, Stereonet.toWorld_dot ho] at hk
    simp only [poleVec, Matrix.cons_val_zero] at hk
    rw [ringAngle_zero (by omega), Real.cos_neg, Real.cos_pi_div_two, mul_zero] at hk
    have hnp : (0 : ℝ) < (o.n.getD 100 : ℝ) := by exact_mod_cast (by omega : 0 < o.n.getD 100)
    have hb := ring_sine (n := o.n.getD 100) (j := 1) (by omega)
    rw [Nat.cast_one, one_mul] at hb
    have hpos : 0 < Real.cos (Real.arcsin (-1 + 2 / ((o.n.getD 100 : ℝ) / 2))) := by
      apply Real.cos_pos_of_mem_Ioo
      constructor
      · rw [Real.neg_pi_div_two_lt_arcsin]
        have : 0 < 2 / ((o.n.getD 100 : ℝ) / 2) := by positivity
        linarith
      · exact Real.arcsin_lt_pi_div_two.2 hb.2
    rw [ringAngle_last hn, Real.cos_pi_sub] at hk
    have a0 := Real.sqrt_pos.2 h0
    have a1 := Real.sqrt_pos.2 h1
    have a2 := Real.sqrt_pos.2 h2
    have hv0 : v ≠ 0 := by rintro rfl; norm_num at hv2
    have hh : hemi o ≠ 0 := by
      intro k
      have := hemi_sq o
      rw [k] at this; norm_num at this
    have hr := (hP (2 * ((o.n.getD 100 + 1) / 2) - 1)).2.1
    simp only [neg_zero, zero_mul, zero_div, mul_zero] at hk
    have : r (2 * ((o.n.getD 100 + 1) / 2) - 1) * (-(Real.sqrt (cov 1) *
        -Real.cos (Real.arcsin (-1 + 2 / ((o.n.getD 100 : ℝ) / 2)))) * (v * hemi o * o.level.getD 1)
        * Real.sqrt (cov 2) / Real.sqrt (cov 0)) ≠ 0 := by
      apply mul_ne_zero hr.ne'
      apply div_ne_zero _ a0.ne'
      apply mul_ne_zero _ a2.ne'
      apply mul_ne_zero _ (mul_ne_zero (mul_ne_zero hv0 hh) hl.ne')
      rw [mul_neg, neg_neg]
      exact (mul_pos a1 hpos).ne'
    exact this hk.symm
  refine ⟨_, _, P 0, P (2 * ((o.n.getD 100 + 1) / 2) - 1), hN, ?_, ?_, fun h => hdir (by rw [h]), hdir⟩
  · rw [List.head?_map, List.head?_range, if_neg (by omega)]; rfl
  · rw [List.getLast?_map, List.getLast?_range, if_neg (by omega)]; rfl

/-- The poles of a dipping plane with default options. -/
example : Spec.OrthonormalRows dippingAxes ∧ (0 : ℝ) < (![9, 4, 1] : Vec 3) 0 ∧
    (0 : ℝ) < (![9, 4, 1] : Vec 3) 1 ∧ (0 : ℝ) < (![9, 4, 1] : Vec 3) 2 ∧
    (0 : ℝ) < ({} : Opts).level.getD 1 ∧ 3 ≤ ({} : Opts).n.getD 100 :=
  ⟨dipping_orthonormal, by simp, by simp, by simp, by simp, by simp⟩

end Attitude.Props
