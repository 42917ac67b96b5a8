import Verif.Model.ConjugateConics
import Verif.Props.ErrorShapes
import Verif.Lemmas.Stereonet

/-!
# C251, C252: the hyperbola as a polyline, and the figure of conjugate conics
-/

namespace Attitude.Props

open Attitude Hyperbola ConjugateConics Stereonet

/-! ## C251 -/

/-- The tangent of the angle closest to the vertical, for `N` steps around the circle. -/
noncomputable def steepest (N : ℕ) : ℝ := Real.tan (Real.pi * ((N : ℝ) - 1) / (2 * N))

lemma circle_residue {N : ℕ} (hN : Odd N) (k : ℤ) :
    ∃ m : ℤ, |4 * k - 2 * N * m| < N ∧ |4 * k - 2 * N * m| ≤ (N : ℤ) - 1 := by
  have hN0 : 0 < N := hN.pos
  refine ⟨(4 * k + N) / (2 * N), ?_⟩
  have h1 := Int.emod_nonneg (4 * k + N) (b := 2 * N) (by omega)
  have h2 := Int.emod_lt_of_pos (4 * k + N) (b := 2 * N) (by omega)
  have h3 := Int.emod_add_mul_ediv (4 * k + N) (2 * N)
  set m := (4 * k + N) / (2 * (N : ℤ)) with hm
  set r := (4 * k + N) % (2 * (N : ℤ)) with hr
  have hne : r ≠ 0 := by
    intro h
    rw [h, zero_add] at h3
    obtain ⟨j, hj⟩ := hN
    have h4 : 2 * ((N : ℤ) * m) = 4 * k + N := by rw [← h3]; ring
    have h5 : (N : ℤ) = 2 * j + 1 := by exact_mod_cast hj
    omega
  have h3' : 4 * k - 2 * N * m = r - N := by linarith
  rw [h3']
  refine ⟨abs_lt.2 ⟨by omega, by omega⟩, abs_le.2 ⟨by omega, by omega⟩⟩

/-- The angle of step `k`, reduced by half turns. -/
lemma circle_angle {N : ℕ} (hN0 : 0 < N) (k m : ℤ) :
    2 * Real.pi * k / N = Real.pi * ((4 * k - 2 * N * m : ℤ) : ℝ) / (2 * N) + m * Real.pi := by
  have : (N : ℝ) ≠ 0 := by exact_mod_cast hN0.ne'
  push_cast
  field_simp
  ring

lemma residue_bounds {N : ℕ} (hN0 : 0 < N) {e : ℤ} (he : |e| < N) :
    -(Real.pi / 2) < Real.pi * (e : ℝ) / (2 * N) ∧ Real.pi * (e : ℝ) / (2 * N) < Real.pi / 2 := by
  have hN : (0 : ℝ) < N := by exact_mod_cast hN0
  have hp := Real.pi_pos
  obtain ⟨h1, h2⟩ := abs_lt.1 he
  have h1' : -(N : ℝ) < e := by exact_mod_cast h1
  have h2' : (e : ℝ) < N := by exact_mod_cast h2
  constructor
  · rw [lt_div_iff₀ (by positivity)]
    nlinarith
  · rw [div_lt_iff₀ (by positivity)]
    nlinarith

lemma circle_cos {N : ℕ} (hN0 : 0 < N) {k m : ℤ} (he : |4 * k - 2 * N * m| < N) :
    ∃ c, 0 < c ∧ Real.cos (2 * Real.pi * k / N) = (-1) ^ m * c := by
  obtain ⟨h1, h2⟩ := residue_bounds hN0 he
  refine ⟨_, Real.cos_pos_of_mem_Ioo ⟨h1, h2⟩, ?_⟩
  rw [circle_angle hN0 k m, Real.cos_add_int_mul_pi]

lemma circle_tan_le {N : ℕ} (hN : Odd N) (k : ℤ) :
    Real.tan (2 * Real.pi * k / N) ≤ steepest N ∧
    (Real.tan (2 * Real.pi * k / N) = steepest N → ∃ m : ℤ, 4 * k - 2 * N * m = N - 1) := by
  have hN0 := hN.pos
  obtain ⟨m, h1, h2⟩ := circle_residue hN k
  rw [circle_angle hN0 k m, Real.tan_add_int_mul_pi]
  set e := 4 * k - 2 * N * m with he
  have hNR : (0 : ℝ) < N := by exact_mod_cast hN0
  have hs : |((N : ℤ) - 1)| < N := abs_lt.2 ⟨by omega, by omega⟩
  have hst : steepest N = Real.tan (Real.pi * ((((N : ℤ) - 1 : ℤ)) : ℝ) / (2 * N)) := by
    unfold steepest; push_cast; rfl
  have hle : (e : ℤ) ≤ (N : ℤ) - 1 := (abs_le.1 h2).2
  have hmono : ∀ a b : ℤ, a < b →
      Real.pi * (a : ℝ) / (2 * N) < Real.pi * (b : ℝ) / (2 * N) := by
    intro a b hab
    have : (a : ℝ) < b := by exact_mod_cast hab
    gcongr
  rcases hle.lt_or_eq with h | h
  · have hlt : Real.tan (Real.pi * (e : ℝ) / (2 * N)) < steepest N := by
      rw [hst]
      exact Real.tan_lt_tan_of_lt_of_lt_pi_div_two (residue_bounds hN0 h1).1 (residue_bounds hN0 hs).2 (hmono _ _ h)
    exact ⟨hlt.le, fun h' => absurd h' hlt.ne⟩
  · exact ⟨by rw [h, hst], fun _ => ⟨m, h⟩⟩

lemma circle_tan_ge {N : ℕ} (hN : Odd N) (k : ℤ) :
    -steepest N ≤ Real.tan (2 * Real.pi * k / N) ∧
    (Real.tan (2 * Real.pi * k / N) = -steepest N → ∃ m : ℤ, 4 * k - 2 * N * m = 1 - N) := by
  have h := circle_tan_le hN (-k)
  have e : 2 * Real.pi * ((-k : ℤ) : ℝ) / N = -(2 * Real.pi * k / N) := by push_cast; ring
  rw [e, Real.tan_neg] at h
  refine ⟨by linarith [h.1], fun h' => ?_⟩
  obtain ⟨m, hm⟩ := h.2 (by rw [h', neg_neg])
  exact ⟨-m, by rw [mul_neg] at *; linarith⟩

/-- Two steps with the same residue are the same, up to a full turn. -/
lemma same_residue {N : ℕ} (hN : Odd N) {i k m m' e : ℤ} (h : 4 * i - 2 * N * m = e)
    (h' : 4 * k - 2 * N * m' = e) : (N : ℤ) ∣ i - k := by
  have h1 : (N : ℤ) ∣ 2 * (i - k) := ⟨m - m', by linarith⟩
  have h2 : IsCoprime (N : ℤ) 2 := by
    obtain ⟨j, hj⟩ := hN
    exact ⟨1, -j, by rw [hj]; push_cast; ring⟩
  exact h2.dvd_of_dvd_mul_left h1

lemma findIdx_argmin {l : List ℝ} (hl : l ≠ []) : ∃ h : argmin l < l.length, ∀ y ∈ l, l[argmin l] ≤ y := by
  classical
  have hex : ∃ x ∈ l, ∀ y ∈ l, x ≤ y := by
    obtain ⟨x, hx, hx'⟩ := l.toFinset.exists_min_image id (by simpa using hl)
    exact ⟨x, by simpa using hx, fun y hy => hx' y (by simpa using hy)⟩
  obtain ⟨x, hx, hx'⟩ := hex
  have hlt : argmin l < l.length := by
    unfold argmin
    exact List.findIdx_lt_length_of_exists ⟨x, hx, by simpa using hx'⟩
  refine ⟨hlt, ?_⟩
  exact of_decide_eq_true (List.findIdx_getElem (w := hlt))

lemma findIdx_argmax {l : List ℝ} (hl : l ≠ []) : ∃ h : argmax l < l.length, ∀ y ∈ l, y ≤ l[argmax l] := by
  classical
  have hex : ∃ x ∈ l, ∀ y ∈ l, y ≤ x := by
    obtain ⟨x, hx, hx'⟩ := l.toFinset.exists_max_image id (by simpa using hl)
    exact ⟨x, by simpa using hx, fun y hy => hx' y (by simpa using hy)⟩
  obtain ⟨x, hx, hx'⟩ := hex
  have hlt : argmax l < l.length := by
    unfold argmax
    exact List.findIdx_lt_length_of_exists ⟨x, hx, by simpa using hx'⟩
  refine ⟨hlt, ?_⟩
  exact of_decide_eq_true (List.findIdx_getElem (w := hlt))

namespace Spec

/-- Distance of two points of the plane. -/
noncomputable def distance2 (p q : Vec 2) : ℝ := Real.sqrt ((p 0 - q 0) ^ 2 + (p 1 - q 1) ^ 2)

/-- The hyperbola with semi-axes `a` and `b` that opens along y. -/
def OnHyperbola (a b : ℝ) (p : Vec 2) : Prop := (p 1) ^ 2 / b ^ 2 - (p 0) ^ 2 / a ^ 2 = 1

/-- The ellipse of normal vectors of this hyperbola: semi-axes `b² / a` and `b`, about `(0, √2 b)`. -/
def OnNormals (a b : ℝ) (p : Vec 2) : Prop :=
  (p 0) ^ 2 / (b ^ 2 / a) ^ 2 + (p 1 - Real.sqrt 2 * b) ^ 2 / b ^ 2 = 1

/-- Within the limits of the view. -/
def InView (d : Drawing) (p : Vec 2) : Prop :=
  (d.xlim.1 ≤ p 0 ∧ p 0 ≤ d.xlim.2) ∧ d.ylim.1 ≤ p 1 ∧ p 1 ≤ d.ylim.2

/-- Point of the hyperbola at step `k` of `n`. -/
noncomputable def hyperbolaStep (axes center : Vec 2) (n k : ℕ) : Vec 2 :=
  ![axes 0 * Real.tan (2 * Real.pi * k / (n - 1)) + center 0,
    axes 1 / Real.cos (2 * Real.pi * k / (n - 1)) + center 1]

end Spec

/-- The hyperbola that opens along y, for an even number of points (the default is 500): at most two points are left
out, the others are the points of the hyperbola in order; and no line is drawn from one branch to the other. -/
theorem C251_branches (axes center : Vec 2) (h0 : axes 0 ≠ 0) (h1 : axes 1 ≠ 0) (n : ℕ) (hn : Even n) (hn0 : n ≠ 0) :
    ∃ pts, hyperbolaCurve axes center true n = .ok (some pts) ∧ pts.length = n ∧
      (∃ i j, ∀ k < n, k ≠ i → k ≠ j → pts[k]? = some (some (Spec.hyperbolaStep axes center n k))) ∧
      ∀ k p q, pts[k]? = some (some p) → pts[k + 1]? = some (some q) → 0 < (p 1 - center 1) * (q 1 - center 1) := by
  obtain ⟨N, rfl⟩ : ∃ N, n = N + 1 := ⟨n - 1, by omega⟩
  have hN : Odd N := by
    rcases Nat.even_or_odd N with h | h
    · exact absurd hn (by rw [Nat.even_add_one]; simpa using h)
    · exact h
  have hN0 := hN.pos
  have hNR : (0 : ℝ) < N := by exact_mod_cast hN0
  have hlin : ∀ k : ℕ, linspace (N + 1) k = 2 * Real.pi * ((k : ℤ) : ℝ) / N := by
    intro k
    unfold linspace
    rw [if_neg (by omega)]
    push_cast
    rw [add_sub_cancel_right]
  have hstep : ∀ k : ℕ, Spec.hyperbolaStep axes center (N + 1) k
      = ![axes 0 * Real.tan (2 * Real.pi * ((k : ℤ) : ℝ) / N) + center 0,
          axes 1 / Real.cos (2 * Real.pi * ((k : ℤ) : ℝ) / N) + center 1] := by
    intro k
    unfold Spec.hyperbolaStep
    push_cast
    rw [add_sub_cancel_right]
  have hcos : ∀ k : ℤ, Real.cos (2 * Real.pi * (k : ℝ) / N) ≠ 0 := by
    intro k
    obtain ⟨m, hm, -⟩ := circle_residue hN k
    obtain ⟨c, hc, h⟩ := circle_cos hN0 hm
    rw [h]
    exact mul_ne_zero (zpow_ne_zero _ (by norm_num)) hc.ne'
  set f := Spec.hyperbolaStep axes center (N + 1) with hf
  have hmap : (angles (N + 1)).mapM (parametricHyperbola axes center true)
      = some ((List.range (N + 1)).map f) := by
    have : ∀ l : List ℕ, (l.map (linspace (N + 1))).mapM (parametricHyperbola axes center true)
        = some (l.map f) := by
      intro l
      induction l with
      | nil => rfl
      | cons k l ih =>
        rw [List.map_cons, List.mapM_cons, ih, List.map_cons]
        have : parametricHyperbola axes center true (linspace (N + 1) k) = some (f k) := by
          unfold parametricHyperbola
          rw [hlin, if_neg (hcos _), if_pos rfl, hstep, mul_one_div]
        rw [this]
        rfl
    exact this _
  set x := ((List.range (N + 1)).map f).map (fun p => p 0) with hx
  have hxl : x.length = N + 1 := by simp [hx]
  have hxk : ∀ k (h : k < x.length), x[k] = axes 0 * Real.tan (2 * Real.pi * ((k : ℤ) : ℝ) / N) + center 0 := by
    intro k h
    simp only [hx, List.getElem_map, List.getElem_range]
    rw [hstep]
    rfl
  obtain ⟨hlo, hlo'⟩ := findIdx_argmin (l := x) (by rw [← List.length_pos_iff]; omega)
  obtain ⟨hhi, hhi'⟩ := findIdx_argmax (l := x) (by rw [← List.length_pos_iff]; omega)
  -- the steepest steps are left out
  have hout : ∀ k < N + 1, (∀ i < N + 1, Real.tan (2 * Real.pi * ((i : ℤ) : ℝ) / N) ≤ Real.tan (2 * Real.pi * ((k : ℤ) : ℝ) / N))
      → ∃ i < N + 1, (i = argmin x ∨ i = argmax x) ∧
        Real.tan (2 * Real.pi * ((i : ℤ) : ℝ) / N) = Real.tan (2 * Real.pi * ((k : ℤ) : ℝ) / N) := by
    intro k hk hmax
    rcases lt_or_gt_of_ne h0 with h | h
    · refine ⟨argmin x, by omega, Or.inl rfl, le_antisymm (hmax _ (by omega)) ?_⟩
      have := hlo' (x[k]'(by omega)) (List.getElem_mem _)
      rw [hxk, hxk] at this
      nlinarith
    · refine ⟨argmax x, by omega, Or.inr rfl, le_antisymm (hmax _ (by omega)) ?_⟩
      have := hhi' (x[k]'(by omega)) (List.getElem_mem _)
      rw [hxk, hxk] at this
      nlinarith
  have hout' : ∀ k < N + 1, (∀ i < N + 1, Real.tan (2 * Real.pi * ((k : ℤ) : ℝ) / N) ≤ Real.tan (2 * Real.pi * ((i : ℤ) : ℝ) / N))
      → ∃ i < N + 1, (i = argmin x ∨ i = argmax x) ∧
        Real.tan (2 * Real.pi * ((i : ℤ) : ℝ) / N) = Real.tan (2 * Real.pi * ((k : ℤ) : ℝ) / N) := by
    intro k hk hmin
    rcases lt_or_gt_of_ne h0 with h | h
    · refine ⟨argmax x, by omega, Or.inr rfl, le_antisymm ?_ (hmin _ (by omega))⟩
      have := hhi' (x[k]'(by omega)) (List.getElem_mem _)
      rw [hxk, hxk] at this
      nlinarith
    · refine ⟨argmin x, by omega, Or.inl rfl, le_antisymm ?_ (hmin _ (by omega))⟩
      have := hlo' (x[k]'(by omega)) (List.getElem_mem _)
      rw [hxk, hxk] at this
      nlinarith
  have hget : ∀ k < N + 1, (((List.range (N + 1)).map f).mapIdx fun k p =>
      if k = argmin x ∨ k = argmax x then none else some p)[k]?
        = some (if k = argmin x ∨ k = argmax x then none else some (f k)) := by
    intro k hk
    simp [List.getElem?_mapIdx, List.getElem?_range hk]
  refine ⟨_, by rw [hyperbolaCurve, if_neg hn0, hmap]; rfl, by simp, ⟨argmin x, argmax x, ?_⟩, ?_⟩
  · intro k hk hi hj
    rw [hget k hk, if_neg (by tauto)]
  · intro k p q hp hq
    have hk1 : k + 1 < N + 1 := by
      by_contra h
      rw [List.getElem?_eq_none (by simpa using h)] at hq
      simp at hq
    rw [hget k (by omega)] at hp
    rw [hget (k + 1) hk1] at hq
    have hk : ¬ (k = argmin x ∨ k = argmax x) := by intro h; rw [if_pos h] at hp; simp at hp
    have hk' : ¬ (k + 1 = argmin x ∨ k + 1 = argmax x) := by intro h; rw [if_pos h] at hq; simp at hq
    rw [if_neg hk] at hp
    rw [if_neg hk'] at hq
    have hpf : p = f k := by simpa using hp.symm
    have hqf : q = f (k + 1) := by simpa using hq.symm
    obtain ⟨m, hm, -⟩ := circle_residue hN (k : ℤ)
    obtain ⟨m', hm', -⟩ := circle_residue hN ((k + 1 : ℕ) : ℤ)
    obtain ⟨c, hc, hck⟩ := circle_cos hN0 hm
    obtain ⟨c', hc', hck'⟩ := circle_cos hN0 hm'
    have key : m = m' → 0 < (p 1 - center 1) * (q 1 - center 1) := by
      intro hmm
      rw [hpf, hqf, hstep, hstep]
      simp only [Matrix.cons_val_one, Matrix.cons_val_zero, add_sub_cancel_right]
      rw [hck, hck', ← hmm, div_mul_div_comm]
      have e : ((-1 : ℝ) ^ m * c) * ((-1) ^ m * c') = c * c' := by
        rw [mul_mul_mul_comm, ← mul_zpow]
        simp
      rw [e]
      have := mul_self_pos.2 h1
      positivity
    by_cases hmm : m = m'
    · exact key hmm
    exfalso
    obtain ⟨a1, a2⟩ := abs_lt.1 hm
    obtain ⟨b1, b2⟩ := abs_lt.1 hm'
    push_cast at b1 b2
    have hlt : m + 1 ≤ m' := by
      by_contra h
      have h2 : m' ≤ m - 1 := by omega
      have : (N : ℤ) * m' ≤ N * (m - 1) := mul_le_mul_of_nonneg_left h2 (by omega)
      nlinarith
    have hN' : (N : ℤ) * (m + 1) ≤ N * m' := mul_le_mul_of_nonneg_left hlt (by omega)
    obtain ⟨j, hj⟩ := hN
    have hjz : (N : ℤ) = 2 * j + 1 := by exact_mod_cast hj
    have hcase : 4 * (k : ℤ) - 2 * N * m = N - 1 ∨ 4 * ((k + 1 : ℕ) : ℤ) - 2 * N * (m + 1) = 1 - N := by
      have u1 : 4 * (k : ℤ) - 2 * N * m < N := a2
      have u2 : (N : ℤ) < 4 * (k : ℤ) - 2 * N * m + 4 := by nlinarith
      have e2 : 4 * ((k + 1 : ℕ) : ℤ) - 2 * N * (m + 1) = 4 * (k : ℤ) - 2 * N * m + 4 - 2 * N := by push_cast; ring
      rw [e2]
      have ev : ∃ t : ℤ, 4 * (k : ℤ) - 2 * N * m = 2 * t := ⟨2 * k - N * m, by ring⟩
      obtain ⟨t, ht⟩ := ev
      rw [ht] at u1 u2 ⊢
      omega
    have hN : Odd N := ⟨j, hj⟩
    have hdvd : ∀ i s : ℕ, i < N + 1 → s < N + 1 → (N : ℤ) ∣ (i : ℤ) - s → i = s ∨ (s = 0 ∨ s = N) := by
      intro i s hi hs hd
      obtain ⟨c, hc⟩ := hd
      by_cases hc0 : c = 0
      · left; rw [hc0] at hc; omega
      · right
        rcases lt_or_gt_of_ne hc0 with h | h
        · have : (N : ℤ) * c ≤ N * (-1) := mul_le_mul_of_nonneg_left (by omega) (by omega)
          omega
        · have : (N : ℤ) * 1 ≤ N * c := mul_le_mul_of_nonneg_left (by omega) (by omega)
          omega
    have hzero : ∀ s : ℕ, s = 0 ∨ s = N → Real.tan (2 * Real.pi * ((s : ℤ) : ℝ) / N) = 0 ∧
        Real.cos (2 * Real.pi * ((s : ℤ) : ℝ) / N) = 1 := by
      rintro s (rfl | rfl)
      · simp
      · have : 2 * Real.pi * (((s : ℕ) : ℤ) : ℝ) / s = 2 * Real.pi := by push_cast; field_simp
        rw [this]
        refine ⟨?_, Real.cos_two_pi⟩
        rw [Real.tan_eq_sin_div_cos, Real.sin_two_pi, zero_div]
    have hsteep : steepest N = 0 → N = 1 := by
      intro h
      unfold steepest at h
      by_contra hne
      have h3 : 3 ≤ N := by omega
      have h3R : (3 : ℝ) ≤ N := by exact_mod_cast h3
      have hpi := Real.pi_pos
      have : 0 < Real.tan (Real.pi * ((N : ℝ) - 1) / (2 * N)) := by
        apply Real.tan_pos_of_pos_of_lt_pi_div_two
        · have : (0 : ℝ) < N - 1 := by linarith
          positivity
        · rw [div_lt_iff₀ (by positivity)]; nlinarith
      linarith
    have hone : N = 1 → False := by
      intro h
      have hk0 : k = 0 := by omega
      have q1 := (hzero k (Or.inl hk0)).2
      have q2 := (hzero (k + 1) (Or.inr (by omega))).2
      rw [hck] at q1
      rw [hck'] at q2
      subst h
      subst hk0
      simp only [Nat.cast_zero, Nat.cast_one, mul_one, mul_zero, zero_sub] at a1 a2
      push_cast at b1 b2
      have hm0 : m = 0 := by omega
      have hm2 : m' = 2 := by omega
      omega
    have htan : ∀ (s m : ℤ), 4 * s - 2 * N * m = N - 1 → Real.tan (2 * Real.pi * (s : ℝ) / N) = steepest N := by
      intro s m h
      rw [circle_angle hN0 s m, Real.tan_add_int_mul_pi, h]
      unfold steepest
      push_cast
      rfl
    have htan' : ∀ (s m : ℤ), 4 * s - 2 * N * m = 1 - N → Real.tan (2 * Real.pi * (s : ℝ) / N) = -steepest N := by
      intro s m h
      rw [circle_angle hN0 s m, Real.tan_add_int_mul_pi, h]
      unfold steepest
      rw [← Real.tan_neg]
      push_cast
      congr 1
      ring
    rcases hcase with hcase | hcase
    · have ht := htan _ _ hcase
      obtain ⟨i, hi, hir, hit⟩ := hout k (by omega) (fun i _ => by rw [ht]; exact (circle_tan_le hN i).1)
      obtain ⟨m'', h''⟩ := (circle_tan_le hN i).2 (hit.trans ht)
      rcases hdvd i k hi (by omega) (same_residue hN h'' hcase) with rfl | h
      · exact hk hir
      · exact hone (hsteep (by rw [← ht]; exact (hzero k h).1))
    · have ht := htan' _ _ hcase
      obtain ⟨i, hi, hir, hit⟩ := hout' (k + 1) hk1 (fun i _ => by rw [ht]; exact (circle_tan_ge hN i).1)
      obtain ⟨m'', h''⟩ := (circle_tan_ge hN i).2 (hit.trans ht)
      rcases hdvd i (k + 1) hi hk1 (same_residue hN h'' hcase) with rfl | h
      · exact hk' hir
      · have := (hzero (k + 1) h).1
        rw [ht] at this
        exact hone (hsteep (by linarith))

example : ∃ pts, hyperbolaCurve ![3, 2] 0 true 500 = .ok (some pts) ∧ pts.length = 500 := by
  obtain ⟨pts, h, h', -⟩ := C251_branches ![3, 2] 0 (by simp) (by simp) 500 ⟨250, rfl⟩ (by norm_num)
  exact ⟨pts, h, h'⟩

/-! ## C252 -/

/-- The drawing in closed form. -/
lemma conics_eq {a b : ℝ} (ha : 0 < a) (hb : 0 < b) (w : Option ℝ) (foci : Bool) :
    ∃ hyp, hyperbolaCurve ![a, b] = .ok (some hyp) ∧
    plotConjugateConics ![a, b] w foci = .ok (some {
      hyperbola := hyp
      normals := (angles 500).map (parametricEllipse ![b ^ 2 / a, b] ![0, Real.sqrt 2 * b])
      variance := (angles 500).map (parametricEllipse ![a, b] 0)
      hyperbolaFoci := if foci then [![0, Real.sqrt (a ^ 2 + b ^ 2)], ![0, -Real.sqrt (a ^ 2 + b ^ 2)]] else []
      normalsFoci := if foci then
        [![0, Real.sqrt 2 * b + Real.sqrt (-min ((b ^ 2 / a) ^ 2) (b ^ 2) + max ((b ^ 2 / a) ^ 2) (b ^ 2))],
         ![0, Real.sqrt 2 * b - Real.sqrt (-min ((b ^ 2 / a) ^ 2) (b ^ 2) + max ((b ^ 2 / a) ^ 2) (b ^ 2))]] else []
      tangents := [(![-500, b / a * (-500)], ![500, b / a * 500]), (![-500, -(b / a * (-500))], ![500, -(b / a * 500)])]
      normalTangents := [(![b / a * (-500), -500], ![b / a * 500, 500]), (![b / a * (-500), 500], ![b / a * 500, -500])]
      xlim := (-w.getD (norm (![a, b] : Vec 2) * if b > 0.5 * a then 6 else 4) / 2,
        w.getD (norm (![a, b] : Vec 2) * if b > 0.5 * a then 6 else 4) / 2)
      ylim := (-w.getD (norm (![a, b] : Vec 2) * if b > 0.5 * a then 6 else 4) / 2 * 0.6,
        w.getD (norm (![a, b] : Vec 2) * if b > 0.5 * a then 6 else 4) / 2 * 0.6) }) := by
  obtain ⟨hyp, h, -⟩ := C251_branches ![a, b] 0 (by simpa using ha.ne') (by simpa using hb.ne') 500 ⟨250, rfl⟩
    (by norm_num)
  refine ⟨hyp, h, ?_⟩
  have hi : inverseEllipse ![a, b] = some (![b ^ 2 / a, b], Real.sqrt 2 * b) := by
    unfold inverseEllipse
    rw [if_neg (by simp [ha.ne', hb.ne'])]
    have e : (fun i => 1 / (![a, b] : Vec 2) i * (![a, b] : Vec 2) 1 ^ 2) = ![b ^ 2 / a, b] := by
      funext i
      fin_cases i
      · simp; ring
      · simp; field_simp
    simp only [e]
    simp [mul_comm]
    field_simp
  unfold plotConjugateConics
  rw [h]
  simp only [bind, Except.bind, hi, Bool.false_eq_true, if_false, Fin.sum_univ_two, Matrix.cons_val_zero,
    Matrix.cons_val_one]
  rfl

lemma focus_sq {x y a b c : ℝ} (hb : b ≠ 0) (hx : x ^ 2 = a ^ 2 * (y ^ 2 / b ^ 2 - 1)) (hc : c ^ 2 = a ^ 2 + b ^ 2) :
    x ^ 2 + (y - c) ^ 2 = (y * c / b - b) ^ 2 := by
  have h1 : y * c / b * b = y * c := div_mul_cancel₀ _ hb
  have h2 : y ^ 2 / b ^ 2 * b ^ 2 = y ^ 2 := div_mul_cancel₀ _ (pow_ne_zero 2 hb)
  have h3 : (y * c / b) ^ 2 = y ^ 2 / b ^ 2 * c ^ 2 := by rw [div_pow, mul_pow]; ring
  linear_combination hx + (1 - y ^ 2 / b ^ 2) * hc - h3 - h2 + 2 * h1

/-- The foci of the hyperbola: the distances of a point of the hyperbola from the two marks differ by twice the
semi-axis. -/
theorem C252_hyperbola_foci (a b : ℝ) (ha : 0 < a) (hb : 0 < b) (w : Option ℝ) :
    ∃ d F G, plotConjugateConics ![a, b] w true = .ok (some d) ∧ d.hyperbolaFoci = [F, G] ∧
      ∀ p, Spec.OnHyperbola a b p → |Spec.distance2 p F - Spec.distance2 p G| = 2 * b := by
  obtain ⟨hyp, -, h⟩ := conics_eq ha hb w true
  refine ⟨_, _, _, h, rfl, ?_⟩
  intro p hp
  set c := Real.sqrt (a ^ 2 + b ^ 2) with hc
  have hc2 : c ^ 2 = a ^ 2 + b ^ 2 := Real.sq_sqrt (by positivity)
  have hc0 : 0 ≤ c := Real.sqrt_nonneg _
  have hcb : b ≤ c := Real.le_sqrt_of_sq_le (by nlinarith)
  unfold Spec.OnHyperbola at hp
  have hx : p 0 ^ 2 = a ^ 2 * (p 1 ^ 2 / b ^ 2 - 1) := by
    field_simp at hp ⊢
    linarith
  have hF : Spec.distance2 p ![0, c] = |p 1 * c / b - b| := by
    unfold Spec.distance2
    simp only [Matrix.cons_val_zero, Matrix.cons_val_one, sub_zero]
    rw [focus_sq hb.ne' hx hc2, Real.sqrt_sq_eq_abs]
  have hG : Spec.distance2 p ![0, -c] = |p 1 * c / b + b| := by
    unfold Spec.distance2
    simp only [Matrix.cons_val_zero, Matrix.cons_val_one, sub_zero]
    rw [focus_sq hb.ne' hx ((neg_sq c).trans hc2), Real.sqrt_sq_eq_abs,
      show p 1 * -c / b - b = -(p 1 * c / b + b) by ring, abs_neg]
  rw [hF, hG]
  have hy : b ^ 2 ≤ p 1 ^ 2 := by
    have h1 : 0 ≤ p 0 ^ 2 := sq_nonneg _
    rw [hx] at h1
    have h2 : 0 ≤ p 1 ^ 2 / b ^ 2 - 1 := by
      by_contra h
      push Not at h
      nlinarith [sq_pos_of_pos ha]
    have h3 : 1 ≤ p 1 ^ 2 / b ^ 2 := by linarith
    rwa [le_div_iff₀ (by positivity), one_mul] at h3
  have habs : b ≤ |p 1| := by
    have := sq_le_sq.1 hy
    rwa [abs_of_pos hb] at this
  rcases le_total 0 (p 1) with h0 | h0
  · rw [abs_of_nonneg h0] at habs
    have : b ≤ p 1 * c / b := by
      rw [le_div_iff₀ hb]
      nlinarith
    rw [abs_of_nonneg (a := p 1 * c / b - b) (by linarith), abs_of_nonneg (a := p 1 * c / b + b) (by linarith),
      show p 1 * c / b - b - (p 1 * c / b + b) = -(2 * b) by ring, abs_neg, abs_of_pos (by linarith)]
  · rw [abs_of_nonpos h0] at habs
    have : p 1 * c / b ≤ -b := by
      rw [div_le_iff₀ hb]
      nlinarith
    rw [abs_of_nonpos (a := p 1 * c / b - b) (by linarith), abs_of_nonpos (a := p 1 * c / b + b) (by linarith),
      show -(p 1 * c / b - b) - -(p 1 * c / b + b) = 2 * b by ring, abs_of_pos (by linarith)]

lemma ellipse_focus_sq {x y A b e : ℝ} (hb : b ≠ 0) (hx : x ^ 2 = A ^ 2 * (1 - y ^ 2 / b ^ 2))
    (he : e ^ 2 = -A ^ 2 + b ^ 2) : x ^ 2 + (y - e) ^ 2 = (b - y * e / b) * (b - y * e / b) := by
  have h1 : y * e / b * b = y * e := div_mul_cancel₀ _ hb
  have h2 : y ^ 2 / b ^ 2 * b ^ 2 = y ^ 2 := div_mul_cancel₀ _ (pow_ne_zero 2 hb)
  have h3 : (y * e / b) ^ 2 = y ^ 2 / b ^ 2 * e ^ 2 := by rw [div_pow, mul_pow]; ring
  linear_combination hx + (1 - y ^ 2 / b ^ 2) * he - h3 - h2 + 2 * h1

/-- The foci of the ellipse of normal vectors, for a hyperbola that is not steeper than 45°: the distances from the two
marks add up to the same for all its points.  What is missing: steeper hyperbolas (`C252_normals_foci_false`). -/
theorem C252_normals_foci_partial (a b : ℝ) (hb : 0 < b) (hab : b ≤ a) (w : Option ℝ) :
    ∃ d F G, plotConjugateConics ![a, b] w true = .ok (some d) ∧ d.normalsFoci = [F, G] ∧
      ∀ p, Spec.OnNormals a b p → Spec.distance2 p F + Spec.distance2 p G = 2 * b := by
  have ha : 0 < a := hb.trans_le hab
  obtain ⟨hyp, -, h⟩ := conics_eq ha hb w true
  refine ⟨_, _, _, h, rfl, ?_⟩
  intro p hp
  have hA : b ^ 2 / a ≤ b := by rw [div_le_iff₀ ha]; nlinarith
  have hA0 : 0 < b ^ 2 / a := by positivity
  set A := b ^ 2 / a with hAd
  have hA2 : A ^ 2 ≤ b ^ 2 := by nlinarith
  rw [min_eq_left hA2, max_eq_right hA2]
  set e := Real.sqrt (-A ^ 2 + b ^ 2) with he
  have he2 : e ^ 2 = -A ^ 2 + b ^ 2 := Real.sq_sqrt (by linarith)
  have he0 : 0 ≤ e := Real.sqrt_nonneg _
  have heb : e ≤ b := by nlinarith
  unfold Spec.OnNormals at hp
  rw [← hAd] at hp
  set y := p 1 - Real.sqrt 2 * b with hy
  have hx : p 0 ^ 2 = A ^ 2 * (1 - y ^ 2 / b ^ 2) := by
    have hA' : A ≠ 0 := hA0.ne'
    clear_value A y
    field_simp at hp ⊢
    linarith
  have hyb : y ^ 2 ≤ b ^ 2 := by
    have h1 : 0 ≤ p 0 ^ 2 := sq_nonneg _
    rw [hx] at h1
    have h2 : 0 ≤ 1 - y ^ 2 / b ^ 2 := by
      by_contra h
      push Not at h
      nlinarith [sq_pos_of_pos hA0]
    have h3 : y ^ 2 / b ^ 2 ≤ 1 := by linarith
    rwa [div_le_iff₀ (by positivity), one_mul] at h3
  obtain ⟨hy1, hy2⟩ := abs_le_of_sq_le_sq' hyb hb.le
  have hye1 : y * e / b ≤ b := by rw [div_le_iff₀ hb]; nlinarith
  have hye2 : -b ≤ y * e / b := by rw [le_div_iff₀ hb]; nlinarith
  have hF : Spec.distance2 p ![0, Real.sqrt 2 * b + e] = b - y * e / b := by
    unfold Spec.distance2
    rw [Real.sqrt_eq_iff_mul_self_eq (by positivity) (by linarith)]
    simp only [Matrix.cons_val_zero, Matrix.cons_val_one, sub_zero]
    rw [show p 1 - (Real.sqrt 2 * b + e) = y - e by rw [hy]; ring]
    exact ellipse_focus_sq hb.ne' hx he2
  have hG : Spec.distance2 p ![0, Real.sqrt 2 * b - e] = b + y * e / b := by
    unfold Spec.distance2
    rw [Real.sqrt_eq_iff_mul_self_eq (by positivity) (by linarith)]
    simp only [Matrix.cons_val_zero, Matrix.cons_val_one, sub_zero]
    rw [show p 1 - (Real.sqrt 2 * b - e) = y - -e by rw [hy]; ring,
      ellipse_focus_sq hb.ne' hx ((neg_sq e).trans he2)]
    ring
  rw [hF, hG]
  ring

/-- Refutation: for every hyperbola steeper than 45° the marks are not the foci of the ellipse of normal vectors, which is
then wider than high: its foci are beside the centre, the marks above and below it. -/
theorem C252_normals_foci_false (a b : ℝ) (ha : 0 < a) (hab : a < b) (w : Option ℝ) :
    ∃ d F G, plotConjugateConics ![a, b] w true = .ok (some d) ∧ d.normalsFoci = [F, G] ∧
      ∃ p q, Spec.OnNormals a b p ∧ Spec.OnNormals a b q ∧
        Spec.distance2 p F + Spec.distance2 p G < Spec.distance2 q F + Spec.distance2 q G := by
  have hb : 0 < b := ha.trans hab
  obtain ⟨hyp, -, h⟩ := conics_eq ha hb w true
  have hA : b < b ^ 2 / a := by rw [lt_div_iff₀ ha]; nlinarith
  have hA2 : b ^ 2 ≤ (b ^ 2 / a) ^ 2 := by nlinarith
  refine ⟨_, _, _, h, rfl, ![0, Real.sqrt 2 * b + b], ![b ^ 2 / a, Real.sqrt 2 * b], ?_, ?_, ?_⟩
  · simp [Spec.OnNormals, hb.ne']
  · simp only [Spec.OnNormals, Matrix.cons_val_zero, Matrix.cons_val_one, sub_self]
    rw [div_self (by positivity)]
    simp
  · rw [min_eq_right hA2, max_eq_left hA2]
    set A := b ^ 2 / a with hAd
    set e := Real.sqrt (-b ^ 2 + A ^ 2) with he
    have he2 : e ^ 2 = -b ^ 2 + A ^ 2 := Real.sq_sqrt (by linarith)
    have he0 : 0 ≤ e := Real.sqrt_nonneg _
    have hA0 : 0 < A := hb.trans hA
    have heA : e < A := by nlinarith
    have h1 : Spec.distance2 ![0, Real.sqrt 2 * b + b] ![0, Real.sqrt 2 * b + e] = |b - e| := by
      unfold Spec.distance2
      simp only [Matrix.cons_val_zero, Matrix.cons_val_one]
      rw [← Real.sqrt_sq_eq_abs, show (0 - 0) ^ 2 + (Real.sqrt 2 * b + b - (Real.sqrt 2 * b + e)) ^ 2 = (b - e) ^ 2 by ring]
    have h2 : Spec.distance2 ![0, Real.sqrt 2 * b + b] ![0, Real.sqrt 2 * b - e] = b + e := by
      unfold Spec.distance2
      rw [Real.sqrt_eq_iff_mul_self_eq (by positivity) (by linarith)]
      simp only [Matrix.cons_val_zero, Matrix.cons_val_one]
      ring
    have h3 : A ≤ Spec.distance2 ![A, Real.sqrt 2 * b] ![0, Real.sqrt 2 * b + e] := by
      apply Real.le_sqrt_of_sq_le
      simp only [Matrix.cons_val_zero, Matrix.cons_val_one]
      nlinarith [sq_nonneg e]
    have h4 : A ≤ Spec.distance2 ![A, Real.sqrt 2 * b] ![0, Real.sqrt 2 * b - e] := by
      apply Real.le_sqrt_of_sq_le
      simp only [Matrix.cons_val_zero, Matrix.cons_val_one]
      nlinarith [sq_nonneg e]
    rw [h1, h2]
    rcases abs_cases (b - e) with ⟨h5, -⟩ | ⟨h5, -⟩ <;> rw [h5] <;> linarith

/-- The dotted lines are the asymptotes: they go through the centre, no point of the hyperbola is between them, and the
vertical distance of its points from them is at most `a b` divided by the distance from the axis. -/
theorem C252_asymptotes (a b : ℝ) (ha : 0 < a) (hb : 0 < b) (w : Option ℝ) (foci : Bool) :
    ∃ d, plotConjugateConics ![a, b] w foci = .ok (some d) ∧ d.tangents.length = 2 ∧
      (∀ s ∈ d.tangents, s.1 = -s.2 ∧ s.2 0 = 500 ∧ |s.2 1| = b / a * |s.2 0|) ∧
      ∀ p, Spec.OnHyperbola a b p → b / a * |p 0| < |p 1| ∧ |p 0| * (|p 1| - b / a * |p 0|) ≤ a * b := by
  obtain ⟨hyp, -, h⟩ := conics_eq ha hb w foci
  refine ⟨_, h, rfl, ?_, ?_⟩
  · intro s hs
    have hba : 0 < b / a := by positivity
    simp only [List.mem_cons, List.not_mem_nil, or_false] at hs
    rcases hs with rfl | rfl
    · refine ⟨?_, rfl, ?_⟩
      · funext i; fin_cases i <;> simp
      · simp [abs_of_pos hba, abs_of_pos ha, abs_of_pos hb]
    · refine ⟨?_, rfl, ?_⟩
      · funext i; fin_cases i <;> simp
      · simp [abs_of_pos hba, abs_of_pos ha, abs_of_pos hb]
  · intro p hp
    unfold Spec.OnHyperbola at hp
    have hk : |p 1| ^ 2 = b ^ 2 + (b / a * |p 0|) ^ 2 := by
      rw [sq_abs, mul_pow, sq_abs]
      field_simp at hp ⊢
      linarith
    have hu : 0 ≤ b / a * |p 0| := by positivity
    have h1 : b / a * |p 0| < |p 1| := by
      have : 0 ≤ |p 1| := abs_nonneg _
      nlinarith [sq_pos_of_pos hb]
    refine ⟨h1, ?_⟩
    have h2 : (|p 1| - b / a * |p 0|) * (|p 1| + b / a * |p 0|) = b ^ 2 := by ring_nf; ring_nf at hk; linarith
    have h3 : (|p 1| - b / a * |p 0|) * (b / a * |p 0|) ≤ b ^ 2 := by
      rw [← h2]
      apply mul_le_mul_of_nonneg_left _ (by linarith)
      linarith [abs_nonneg (p 1)]
    have h4 : (|p 1| - b / a * |p 0|) * (b / a * |p 0|) = b / a * (|p 0| * (|p 1| - b / a * |p 0|)) := by ring
    rw [h4] at h3
    have h5 : b / a * (|p 0| * (|p 1| - b / a * |p 0|)) ≤ b / a * (a * b) := by
      refine h3.trans (le_of_eq ?_)
      field_simp
    exact le_of_mul_le_mul_left h5 (by positivity)

/-- The dotted lines of the normal vectors are perpendicular to the asymptotes and touch the ellipse of normal vectors
in exactly one point. -/
theorem C252_normal_tangents (a b : ℝ) (ha : 0 < a) (hb : 0 < b) (w : Option ℝ) (foci : Bool) :
    ∃ d, plotConjugateConics ![a, b] w foci = .ok (some d) ∧ d.normalTangents.length = 2 ∧
      ∀ s ∈ d.normalTangents, s.1 = -s.2 ∧ (∃ t ∈ d.tangents, vdot s.2 t.2 = 0) ∧
        ∃! t : ℝ, Spec.OnNormals a b (fun i => t * s.2 i) := by
  obtain ⟨hyp, -, h⟩ := conics_eq ha hb w foci
  have h2 : Real.sqrt 2 ^ 2 = 2 := Real.sq_sqrt (by norm_num)
  have hs2 : 0 < Real.sqrt 2 := by positivity
  have key : ∀ (σ : ℝ) (hσ : σ = 1 ∨ σ = -1) (t : ℝ),
      Spec.OnNormals a b (fun i => t * (![b / a * 500, σ * 500] : Vec 2) i) ↔
        (Real.sqrt 2 * (t * 500 * σ) - b) ^ 2 = 0 := by
    intro σ hσ t
    have hσ2 : σ ^ 2 = 1 := by rcases hσ with rfl | rfl <;> norm_num
    unfold Spec.OnNormals
    simp only [Matrix.cons_val_zero, Matrix.cons_val_one]
    have hb2 : b ^ 2 ≠ 0 := by positivity
    rw [← sub_eq_zero]
    have e : (t * (b / a * 500)) ^ 2 / (b ^ 2 / a) ^ 2 + (t * (σ * 500) - Real.sqrt 2 * b) ^ 2 / b ^ 2 - 1
        = ((t * 500) ^ 2 + (t * 500 * σ - Real.sqrt 2 * b) ^ 2 - b ^ 2) / b ^ 2 := by
      field_simp
    rw [e, div_eq_zero_iff, or_iff_left hb2]
    have : (t * 500) ^ 2 + (t * 500 * σ - Real.sqrt 2 * b) ^ 2 - b ^ 2 = (Real.sqrt 2 * (t * 500 * σ) - b) ^ 2 := by
      linear_combination (b ^ 2 - (t * 500 * σ) ^ 2) * h2 - (t * 500) ^ 2 * hσ2
    rw [this]
  have huniq : ∀ (σ : ℝ) (hσ : σ = 1 ∨ σ = -1),
      ∃! t : ℝ, Spec.OnNormals a b (fun i => t * (![b / a * 500, σ * 500] : Vec 2) i) := by
    intro σ hσ
    have hσ2 : σ * σ = 1 := by rcases hσ with rfl | rfl <;> norm_num
    refine ⟨b / (Real.sqrt 2 * 500) * σ, ?_, ?_⟩
    · simp only
      rw [key σ hσ]
      have : Real.sqrt 2 * (b / (Real.sqrt 2 * 500) * σ * 500 * σ) = b := by
        field_simp
        rw [sq, hσ2]
      rw [this]
      ring
    · intro t ht
      rw [key σ hσ] at ht
      have h0 : Real.sqrt 2 * (t * 500 * σ) - b = 0 := by simpa using ht
      have h1 : b = Real.sqrt 2 * (t * 500 * σ) := by linarith
      rw [h1]
      field_simp
      rw [sq, hσ2, mul_one]
  refine ⟨_, h, rfl, ?_⟩
  intro s hs
  simp only [List.mem_cons, List.not_mem_nil, or_false] at hs
  rcases hs with rfl | rfl
  · refine ⟨?_, ⟨(![-500, -(b / a * (-500))], ![500, -(b / a * 500)]), by simp, ?_⟩, ?_⟩
    · funext i; fin_cases i <;> simp
    · simp only [vdot, Fin.sum_univ_two, Matrix.cons_val_zero, Matrix.cons_val_one]; ring
    · have := huniq 1 (Or.inl rfl)
      rwa [one_mul] at this
  · refine ⟨?_, ⟨(![-500, b / a * (-500)], ![500, b / a * 500]), by simp, ?_⟩, ?_⟩
    · funext i; fin_cases i <;> simp
    · simp only [vdot, Fin.sum_univ_two, Matrix.cons_val_zero, Matrix.cons_val_one]; ring
    · have := huniq (-1) (Or.inr rfl)
      rwa [show (-1 : ℝ) * 500 = -500 by norm_num] at this

/-- The view chosen by default shows both ellipses, for hyperbolas that are not steeper than 45°.  What is missing:
steeper ones (`C252_view_false`). -/
theorem C252_view_partial (a b : ℝ) (hb : 0 < b) (hab : b ≤ a) (foci : Bool) :
    ∃ d, plotConjugateConics ![a, b] none foci = .ok (some d) ∧ d.normals.length = 500 ∧ d.variance.length = 500 ∧
      (∀ p ∈ d.normals, Spec.OnNormals a b p ∧ Spec.InView d p) ∧
      ∀ p ∈ d.variance, (p 0) ^ 2 / a ^ 2 + (p 1) ^ 2 / b ^ 2 = 1 ∧ Spec.InView d p := by
  have ha : 0 < a := hb.trans_le hab
  obtain ⟨hyp, -, h⟩ := conics_eq ha hb none foci
  have hs2 : Real.sqrt 2 < 1.4143 := by
    rw [Real.sqrt_lt' (by norm_num)]; norm_num
  have hs0 : 0 < Real.sqrt 2 := by positivity
  have hs2' : 1 ≤ Real.sqrt 2 := Real.le_sqrt_of_sq_le (by norm_num)
  have hn : norm (![a, b] : Vec 2) = Real.sqrt (a ^ 2 + b ^ 2) := by
    unfold norm
    simp [Fin.sum_univ_two]
  set r := Real.sqrt (a ^ 2 + b ^ 2) with hr
  have hra : a ≤ r := Real.le_sqrt_of_sq_le (by nlinarith)
  have hrb : Real.sqrt 2 * b ≤ r := by
    apply Real.le_sqrt_of_sq_le
    rw [mul_pow, Real.sq_sqrt (by norm_num)]
    nlinarith
  have hw : 4 * a ≤ r * (if b > 0.5 * a then 6 else 4) := by
    split_ifs <;> nlinarith
  have hw' : 2 * (2.42 * b) ≤ r * (if b > 0.5 * a then 6 else 4) * 0.6 := by
    split_ifs with h
    · have : 1.414 ≤ Real.sqrt 2 := Real.le_sqrt_of_sq_le (by norm_num)
      nlinarith
    · have h5 : 2.236 * b ≤ r := by
        apply Real.le_sqrt_of_sq_le
        have : 2 * b ≤ a := by
          push Not at h
          linarith
        nlinarith
      nlinarith
  have hA : b ^ 2 / a ≤ a := by rw [div_le_iff₀ ha]; nlinarith
  have hA0 : 0 < b ^ 2 / a := by positivity
  have hcs : ∀ t : ℝ, |Real.cos t| ≤ 1 ∧ |Real.sin t| ≤ 1 := fun t => ⟨Real.abs_cos_le_one t, Real.abs_sin_le_one t⟩
  refine ⟨_, h, by simp [angles_length], by simp [angles_length], ?_, ?_⟩
  · intro p hp
    simp only [List.mem_map] at hp
    obtain ⟨t, -, rfl⟩ := hp
    refine ⟨?_, ?_⟩
    · have := (C89_ellipse ![b ^ 2 / a, b] ![0, Real.sqrt 2 * b] (by simpa using hA0) (by simpa using hb) _).2 ⟨t, rfl⟩
      unfold Spec.OnNormals
      simpa using this
    · obtain ⟨hc, hs⟩ := hcs t
      obtain ⟨c1, c2⟩ := abs_le.1 hc
      obtain ⟨s1, s2⟩ := abs_le.1 hs
      simp only [Spec.InView, parametricEllipse, Matrix.cons_val_zero, Matrix.cons_val_one, Option.getD_none, hn]
      clear h
      generalize r * (if b > 0.5 * a then 6 else 4) = W at *
      have x1 : b ^ 2 / a * Real.cos t ≤ a := by nlinarith
      have x2 : -a ≤ b ^ 2 / a * Real.cos t := by nlinarith
      have y1 : b * Real.sin t ≤ b := by nlinarith
      have y2 : -b ≤ b * Real.sin t := by nlinarith
      have z1 : Real.sqrt 2 * b ≤ 1.4143 * b := by nlinarith
      have z2 : b ≤ Real.sqrt 2 * b := by nlinarith
      refine ⟨⟨?_, ?_⟩, ?_, ?_⟩ <;> linarith
  · intro p hp
    simp only [List.mem_map] at hp
    obtain ⟨t, -, rfl⟩ := hp
    refine ⟨?_, ?_⟩
    · have := (C89_ellipse ![a, b] 0 (by simpa using ha) (by simpa using hb) _).2 ⟨t, rfl⟩
      simpa using this
    · obtain ⟨hc, hs⟩ := hcs t
      obtain ⟨c1, c2⟩ := abs_le.1 hc
      obtain ⟨s1, s2⟩ := abs_le.1 hs
      simp only [Spec.InView, parametricEllipse, Matrix.cons_val_zero, Matrix.cons_val_one, Option.getD_none, hn,
        Pi.zero_apply, add_zero]
      clear h
      generalize r * (if b > 0.5 * a then 6 else 4) = W at *
      have x1 : a * Real.cos t ≤ a := by nlinarith
      have x2 : -a ≤ a * Real.cos t := by nlinarith
      have y1 : b * Real.sin t ≤ b := by nlinarith
      have y2 : -b ≤ b * Real.sin t := by nlinarith
      refine ⟨⟨?_, ?_⟩, ?_, ?_⟩ <;> linarith

/-- Refutation: for hyperbolas steeper than about 50° the ellipse of normal vectors ends outside the view. -/
theorem C252_view_false (a b : ℝ) (ha : 0 < a) (hab : 6 / 5 * a ≤ b) (foci : Bool) :
    ∃ d p, plotConjugateConics ![a, b] none foci = .ok (some d) ∧ Spec.OnNormals a b p ∧ ¬ Spec.InView d p := by
  have hb : 0 < b := by linarith
  obtain ⟨hyp, -, h⟩ := conics_eq ha hb none foci
  refine ⟨_, ![0, Real.sqrt 2 * b + b], h, by simp [Spec.OnNormals, hb.ne'], ?_⟩
  rintro ⟨-, -, hv⟩
  have hn : norm (![a, b] : Vec 2) = Real.sqrt (a ^ 2 + b ^ 2) := by
    unfold norm
    simp [Fin.sum_univ_two]
  simp only [Matrix.cons_val_one, Matrix.cons_val_zero, Option.getD_none, hn] at hv
  rw [if_pos (by linarith)] at hv
  have h1 : 1.414 ≤ Real.sqrt 2 := Real.le_sqrt_of_sq_le (by norm_num)
  have h2 : Real.sqrt (a ^ 2 + b ^ 2) ≤ 1.31 * b := by
    rw [Real.sqrt_le_left (by positivity)]
    nlinarith
  nlinarith

/-- Refutation: the inverse hyperbola cannot be drawn, whatever the axes. -/
theorem C252_inverse_false (a b : ℝ) (ha : 0 < a) (hb : 0 < b) (w : Option ℝ) (foci : Bool) :
    plotConjugateConics ![a, b] w foci true = .error .nameError := by
  obtain ⟨hyp, h, -⟩ := conics_eq ha hb w foci
  unfold plotConjugateConics
  rw [h]
  simp [bind, Except.bind, inverseEllipse, ha.ne', hb.ne']

/-- A flat hyperbola and a steep one. -/
example : (∃ d F G, plotConjugateConics ![3, 1] none true = .ok (some d) ∧ d.normalsFoci = [F, G] ∧
      ∀ p, Spec.OnNormals 3 1 p → Spec.distance2 p F + Spec.distance2 p G = 2 * 1) ∧
    (∃ d p, plotConjugateConics ![1, 2] none false = .ok (some d) ∧ Spec.OnNormals 1 2 p ∧ ¬ Spec.InView d p) ∧
    Spec.OnHyperbola 3 1 ![0, 1] ∧ plotConjugateConics ![3, 1] none false true = .error .nameError :=
  ⟨C252_normals_foci_partial 3 1 (by norm_num) (by norm_num) none, C252_view_false 1 2 (by norm_num) (by norm_num) false,
    by simp [Spec.OnHyperbola], C252_inverse_false 3 1 (by norm_num) (by norm_num) none false⟩

end Attitude.Props
