import Verif.Props.GroupConsistent

/-!
# C224: the noise that fits estimate
-/

namespace Attitude.Props

open Attitude Pca Matrix Grouping MeasureTheory ProbabilityTheory Filter Topology

variable {Ω : Type*} [MeasurableSpace Ω] {P : Measure Ω} {m : ℕ}

/-! ## Helper lemmas -/

/-- The last eigenvalue of a fit whose form is close to another one. -/
lemma eigenvalue_close {n : ℕ} {a : Fin n → Vec 3} {f : Fit n} {U : Mat n 3} (hF : IsFit a f U) {w : Vec 3}
    (hw : ∑ j, w j ^ 2 = 1) (q : Vec 3 → ℝ) (δ : ℝ) (hδ : 0 ≤ δ)
    (hq : ∀ u : Vec 3, ∑ j, u j ^ 2 = 1 →
      |(∑ i, (Matrix.of (Coordinates.centered a) *ᵥ u) i ^ 2) / n - q u| ≤ δ)
    (hg : ∀ u : Vec 3, ∑ j, u j ^ 2 = 1 → q w ≤ q u) :
    |eigenvalues f 2 - q w| ≤ 2 * δ + |q w| / (n - 1) := by
  have hn : (3 : ℝ) ≤ n := by exact_mod_cast hF.size
  obtain ⟨-, hlow, -⟩ := fit_close hF hw q δ 0 le_rfl hq (by
    intro u hu
    rw [zero_mul, add_zero]
    exact hg u hu)
  have hopt := hF.svd.optimal w
  rw [hw, mul_one] at hopt
  have hup := (abs_le.1 (hq w hw)).2
  have h1 : f.s 2 ^ 2 ≤ n * (q w + δ) := by
    refine hopt.trans ?_
    have : (∑ i, (Matrix.of (Coordinates.centered a) *ᵥ w) i ^ 2) / n ≤ q w + δ := by linarith
    rw [div_le_iff₀ (by linarith)] at this
    linarith
  have hd : (0 : ℝ) < n - 1 := by linarith
  have e : eigenvalues f 2 - q w = (f.s 2 ^ 2 - n * q w + q w) / (n - 1) := by
    unfold eigenvalues
    field_simp
    ring
  rw [e, abs_div, abs_of_pos hd, div_le_iff₀ hd, add_mul, div_mul_cancel₀ _ hd.ne']
  have h2 : |f.s 2 ^ 2 - n * q w| ≤ n * δ := abs_le.2 ⟨by linarith, by linarith⟩
  calc |f.s 2 ^ 2 - n * q w + q w| ≤ |f.s 2 ^ 2 - n * q w| + |q w| := abs_add_le _ _
    _ ≤ 2 * δ * (n - 1) + |q w| := by nlinarith

/-- The bound of `eigenvalue_close` is small for many points. -/
lemma bound_small (v : ℝ) {ε : ℝ} (hε : 0 < ε) : ∃ N : ℕ, ∀ n : ℕ, N ≤ n → 3 ≤ n →
    2 * (ε / 8) + |v| / ((n : ℝ) - 1) < ε := by
  obtain ⟨N, hN⟩ := exists_nat_gt (4 * |v| / ε)
  refine ⟨N + 1, fun n hn h3 => ?_⟩
  have h1 : (3 : ℝ) ≤ n := by exact_mod_cast h3
  have h2 : (N : ℝ) + 1 ≤ n := by exact_mod_cast hn
  have h3 : |v| / ((n : ℝ) - 1) ≤ ε / 4 := by
    rw [div_le_iff₀ (by linarith)]
    rw [div_lt_iff₀ hε] at hN
    nlinarith
  linarith

/-! ## C224 -/

/-- Fits of more and more points of one plane: the variance that is left over converges to that of the
errors of measurement. -/
theorem C224_single_partial (svd : SvdFn) (hs : svd.Valid) (P : Measure Ω) [IsProbabilityMeasure P]
    (T E X : ℕ → Ω → Vec 3) (w : Vec 3) (h : Spec.IndependentPoints P X)
    (hw : Spec.MeasuredPlane P T E X w) (σ : ℝ) (hE : Spec.EqualErrors P E σ) :
    ∀ᵐ ω ∂P, ∀ ε > 0, ∃ N, ∀ n ≥ N, ∃ f, init svd (Spec.first X ω n) none none = .ok (some f) ∧
      |eigenvalues f 2 - σ ^ 2| < ε := by
  filter_upwards [variance_converges h] with ω hω ε hε
  obtain ⟨N, h3, hN⟩ := hω (ε / 8) (by positivity)
  obtain ⟨M, hM⟩ := bound_small (σ ^ 2) hε
  refine ⟨max N M, fun n hn => ?_⟩
  have hn3 : 3 ≤ n := h3.trans ((le_max_left _ _).trans hn)
  obtain ⟨f, hf⟩ := init_default_exists svd hn3 (Spec.first X ω n)
  obtain ⟨U, hF⟩ := init_default hs hf
  refine ⟨f, hf, ?_⟩
  obtain ⟨g, hg, hx⟩ := hw.extent
  have ew : Spec.varianceAlong P X w = σ ^ 2 := by
    rw [variance_measured hw, variance_onPlane hw, variance_equal hE hw.finiteE hw.unit, zero_add]
  have := eigenvalue_close hF (norm_one_iff.1 hw.unit) (Spec.varianceAlong P X) (ε / 8) (by positivity)
    (hN n ((le_max_left _ _).trans hn)) (by
      intro u hu
      rw [ew, variance_measured hw, variance_equal hE hw.finiteE (norm_one_iff.2 hu)]
      linarith [variance_nonneg' (P := P) (X := T) u])
  rw [ew] at this
  exact this.trans_lt (hM n ((le_max_right _ _).trans hn) hn3)

/-- Groups of more and more traces of `m` points: what is left over converges to less than the variance
of the errors, by the factor `1 - 1/m`. -/
theorem C224_groups_partial (svd : SvdFn) (hs : svd.Valid) (P : Measure Ω) (hm : 0 < m)
    (T E Y : ℕ → Ω → Fin m → Vec 3) (w : Vec 3) (σ : ℝ) (h : Spec.IndependentTraces P Y)
    (hb : Spec.MeasuredBeds P T E Y w σ) :
    ∀ᵐ ω ∂P, ∀ ε > 0, ∃ N, ∀ K ≥ N, ∀ (t : ℕ → Vec 3) (H : HashFn) (hp : Heap) (os : List ℕ) (ex : Bool)
      (g : ℕ), Spec.Exists hp os → (newGroup H hp os false ex).1 = .ok g →
      os.map (fun o => (hp.obj o).array) = (Spec.tracesAt (fun k => Y k ω) t K).map some →
      ∃ arr f, ((newGroup H hp os false ex).2.obj g).array = some arr ∧
        init svd arr.get none none = .ok (some f) ∧ |eigenvalues f 2 - (1 - 1 / m) * σ ^ 2| < ε := by
  have hm' : (0 : ℝ) < m := by exact_mod_cast hm
  filter_upwards [group_spread svd hs hm h] with ω hω ε hε
  obtain ⟨N, h3, hN⟩ := hω (ε / 8) (by positivity)
  obtain ⟨M, hM⟩ := bound_small ((1 - 1 / m) * σ ^ 2) hε
  obtain ⟨γ, hγ, hx⟩ := beds_gap hm hb
  refine ⟨max N M, fun K hK t H hp os ex g hl hk hps => ?_⟩
  obtain ⟨arr, f, U, a1, hf, hF, hlen, hq⟩ := hN K ((le_max_left _ _).trans hK) t H hp os ex g hl hk hps
  refine ⟨arr, f, a1, hf, ?_⟩
  have ew : Spec.spreadAlong P Y w / m = (1 - 1 / m) * σ ^ 2 := by
    rw [spread_measured hm hb hb.unit, spread_onBed hb]
    field_simp
    ring
  have := eigenvalue_close hF (norm_one_iff.1 hb.unit) (fun u => Spec.spreadAlong P Y u / m) (ε / 8)
    (by positivity) hq (by
      intro u hu
      have h1 := hx u hu
      have h2 : 0 ≤ γ * (1 - (u 0 * w 0 + u 1 * w 1 + u 2 * w 2) ^ 2) := by
        refine mul_nonneg hγ.le ?_
        have hw' := norm_one_iff.1 hb.unit
        rw [Fin.sum_univ_three] at hu hw'
        nlinarith [sq_nonneg (u 0 * w 1 - u 1 * w 0), sq_nonneg (u 0 * w 2 - u 2 * w 0),
          sq_nonneg (u 1 * w 2 - u 2 * w 1)]
      linarith)
  simp only [ew] at this
  refine this.trans_lt (hM _ ?_ hF.size)
  rw [hlen]
  exact ((le_max_right _ _).trans hK).trans (Nat.le_mul_of_pos_right K hm)

/-- So the claim is false for every group of many traces: in the end its estimate of the variance is too
small, for traces of three points by about a third. -/
theorem C224_groups_false (svd : SvdFn) (hs : svd.Valid) (P : Measure Ω) (hm : 0 < m)
    (T E Y : ℕ → Ω → Fin m → Vec 3) (w : Vec 3) (σ : ℝ) (hσ : σ ≠ 0) (h : Spec.IndependentTraces P Y)
    (hb : Spec.MeasuredBeds P T E Y w σ) (c : ℝ) (hc : 1 - 1 / (m : ℝ) < c) :
    ∀ᵐ ω ∂P, ∃ N, ∀ K ≥ N, ∀ (t : ℕ → Vec 3) (H : HashFn) (hp : Heap) (os : List ℕ) (ex : Bool)
      (g : ℕ), Spec.Exists hp os → (newGroup H hp os false ex).1 = .ok g →
      os.map (fun o => (hp.obj o).array) = (Spec.tracesAt (fun k => Y k ω) t K).map some →
      ∃ arr f, ((newGroup H hp os false ex).2.obj g).array = some arr ∧
        init svd arr.get none none = .ok (some f) ∧ eigenvalues f 2 < c * σ ^ 2 := by
  have hσ2 : 0 < σ ^ 2 := by positivity
  filter_upwards [C224_groups_partial svd hs P hm T E Y w σ h hb] with ω hω
  obtain ⟨N, hN⟩ := hω ((c - (1 - 1 / m)) * σ ^ 2) (mul_pos (by linarith) hσ2)
  refine ⟨N, fun K hK t H hp os ex g hl hk hps => ?_⟩
  obtain ⟨arr, f, h1, h2, h3⟩ := hN K hK t H hp os ex g hl hk hps
  refine ⟨arr, f, h1, h2, ?_⟩
  have := (abs_lt.1 h3).2
  linarith

/-- Non-vacuity: points of a plane that dips by 45 degrees, with errors of variance 1. Some fit of them
estimates that variance to a hundredth. -/
example : ∃ (svd : SvdFn) (n : ℕ) (a : Fin n → Vec 3) (f : Fit n), svd.Valid ∧
    init svd a none none = .ok (some f) ∧ |eigenvalues f 2 - 1| < 1 / 100 := by
  obtain ⟨svd, hs⟩ := exists_valid_svd
  obtain ⟨Ω, mΩ, P, hP, T, E, X, h, hw, hE⟩ := exists_equal
  obtain ⟨ω, hω⟩ := (C224_single_partial svd hs P T E X _ h hw 1 hE).exists
  obtain ⟨N, hN⟩ := hω (1 / 100) (by norm_num)
  obtain ⟨f, h1, h2⟩ := hN N le_rfl
  exact ⟨svd, N, _, f, hs, h1, by simpa using h2⟩

/-- Non-vacuity: traces of three points with errors of variance 1, at arbitrary places. Some group of
them estimates less than 0.67. -/
example (t : ℕ → Vec 3) : ∃ (svd : SvdFn) (y : ℕ → Fin 3 → Vec 3) (K : ℕ) (arr : Points) (f : Fit arr.length),
    svd.Valid ∧
    ((newGroup (fun _ => "g") ⟨K, fun a => { array := (Spec.tracesAt y t K)[a]? }⟩ (List.range K) false
      false).2.obj K).array = some arr ∧
    init svd arr.get none none = .ok (some f) ∧ eigenvalues f 2 < 67 / 100 := by
  obtain ⟨svd, hs⟩ := exists_valid_svd
  obtain ⟨Ω, mΩ, P, hP, T, E, Y, h, hb⟩ := exists_beds
  obtain ⟨ω, hω⟩ := (C224_groups_false svd hs P (by norm_num) T E Y _ 1 one_ne_zero h hb (67 / 100)
    (by norm_num)).exists
  obtain ⟨N, hN⟩ := hω
  obtain ⟨hl, hg, harr⟩ := exists_tracesGroup (fun k => Y k ω) t (le_max_right N 1)
  obtain ⟨arr, f, h1, h2, h3⟩ := hN _ (le_max_left _ _) t _ _ _ false _ hl hg harr
  exact ⟨svd, _, _, arr, f, hs, h1, h2, by simpa using h3⟩

end Attitude.Props
