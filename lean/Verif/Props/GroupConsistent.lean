import Verif.Props.GroupCopies
import Verif.Props.ErrorKinds
import Verif.Props.GroupErrors

/-!
# C222: groups of more and more traces of parallel beds
-/

namespace Attitude.Props

open Attitude Pca Matrix Grouping MeasureTheory ProbabilityTheory Filter Topology

namespace Spec

variable {Ω : Type*} [MeasurableSpace Ω] {m : ℕ}

/-- The sum of squares of the points of one trace along a direction, about their mean. -/
noncomputable def traceSpread (y : Fin m → Vec 3) (u : Vec 3) : ℝ :=
  ∑ i, (∑ j, u j * (y i j - (∑ l, y l j) / m)) ^ 2

/-- Its mean value. -/
noncomputable def spreadAlong (P : Measure Ω) (Y : ℕ → Ω → Fin m → Vec 3) (u : Vec 3) : ℝ :=
  ∫ ω, traceSpread (Y 0 ω) u ∂P

/-- Traces of `m` points that are measured independently of each other with the same distribution; the
points of one trace may depend on each other. -/
structure IndependentTraces (P : Measure Ω) (Y : ℕ → Ω → Fin m → Vec 3) : Prop where
  indep : Pairwise fun i k => IndepFun (Y i) (Y k) P
  ident : ∀ i, IdentDistrib (Y i) (Y 0) P P
  finite : ∀ i j, MemLp (fun ω => Y 0 ω i j) 2 P

/-- The measured traces `Y` are true traces `T`, each in a plane with normal `w`, that extend in two
directions (not each of them, but on average), plus errors `E` of the size `σ` in all coordinates. -/
structure MeasuredBeds (P : Measure Ω) (T E Y : ℕ → Ω → Fin m → Vec 3) (w : Vec 3) (σ : ℝ) : Prop where
  sum : ∀ k ω, Y k ω = T k ω + E k ω
  unit : norm w = 1
  onBed : ∀ k ω, ∃ c, ∀ i, w 0 * T k ω i 0 + w 1 * T k ω i 1 + w 2 * T k ω i 2 = c
  extent : ∃ g > 0, ∀ u, norm u = 1 →
    g * (1 - (u 0 * w 0 + u 1 * w 1 + u 2 * w 2) ^ 2) ≤ spreadAlong P T u
  finiteT : ∀ i j, MemLp (fun ω => T 0 ω i j) 2 P
  finiteE : ∀ i j, MemLp (fun ω => E 0 ω i j) 2 P
  errors : ∀ i l j k, ∫ ω, E 0 ω i j * E 0 ω l k ∂P = if i = l ∧ j = k then σ ^ 2 else 0
  uncorrelated : ∀ i l j k, ∫ ω, T 0 ω i j * E 0 ω l k ∂P = 0

/-- The traces in the memory, moved to arbitrary places: the beds may be at any distances. -/
noncomputable def tracesAt (y : ℕ → Fin m → Vec 3) (t : ℕ → Vec 3) (K : ℕ) : List Points :=
  (List.range K).map fun k => List.ofFn fun i j => y k i j + t k j

end Spec

variable {Ω : Type*} [MeasurableSpace Ω] {P : Measure Ω} {m : ℕ}

/-! ## Helper lemmas -/

/-- The products of the centered coordinates of a trace. -/
noncomputable def traceMoment (j k : Fin 3) (y : Fin m → Vec 3) : ℝ :=
  ∑ i, (y i j - (∑ l, y l j) / m) * (y i k - (∑ l, y l k) / m)

lemma traceSpread_form (y : Fin m → Vec 3) (u : Vec 3) :
    Spec.traceSpread y u = momentForm (fun j k => traceMoment j k y) 0 u := by
  simp only [Spec.traceSpread, momentForm, traceMoment, Pi.zero_apply, mul_zero, sub_zero,
    Finset.mul_sum]
  rw [Finset.sum_comm' (t' := Finset.univ) (s' := fun _ => Finset.univ) (by simp)]
  simp only [Fin.sum_univ_three, ← Finset.sum_add_distrib]
  refine Finset.sum_congr rfl fun i _ => ?_
  ring

lemma measurable_traceMoment (j k : Fin 3) : Measurable (traceMoment (m := m) j k) := by
  unfold traceMoment
  fun_prop

lemma memLp_centered {Y : ℕ → Ω → Fin m → Vec 3} (h : ∀ i j, MemLp (fun ω => Y 0 ω i j) 2 P)
    (i : Fin m) (j : Fin 3) : MemLp (fun ω => Y 0 ω i j - (∑ l, Y 0 ω l j) / m) 2 P := by
  refine (h i j).sub ?_
  simp only [div_eq_inv_mul]
  exact (memLp_finsetSum _ fun l _ => h l j).const_mul _

lemma integrable_traceMoment {Y : ℕ → Ω → Fin m → Vec 3} (h : ∀ i j, MemLp (fun ω => Y 0 ω i j) 2 P)
    (j k : Fin 3) : Integrable (fun ω => traceMoment j k (Y 0 ω)) P := by
  unfold traceMoment
  exact integrable_finsetSum _ fun i _ => (memLp_centered h i j).integrable_mul (memLp_centered h i k)

lemma spread_form {Y : ℕ → Ω → Fin m → Vec 3} (h : ∀ i j, MemLp (fun ω => Y 0 ω i j) 2 P) (u : Vec 3) :
    Spec.spreadAlong P Y u = momentForm (fun j k => ∫ ω, traceMoment j k (Y 0 ω) ∂P) 0 u := by
  simp only [Spec.spreadAlong, traceSpread_form, momentForm, Pi.zero_apply, mul_zero, sub_zero]
  rw [integral_finsetSum _ fun j _ => integrable_finsetSum _ fun k _ =>
    (integrable_traceMoment h j k).const_mul _]
  refine Finset.sum_congr rfl fun j _ => ?_
  rw [integral_finsetSum _ fun k _ => (integrable_traceMoment h j k).const_mul _]
  refine Finset.sum_congr rfl fun k _ => ?_
  rw [integral_const_mul]

/-- The average spread of the first traces converges, in all directions at once. -/
lemma spread_converges {Y : ℕ → Ω → Fin m → Vec 3} (h : Spec.IndependentTraces P Y) :
    ∀ᵐ ω ∂P, ∀ δ > 0, ∃ N, ∀ K ≥ N, ∀ u : Vec 3, ∑ j, u j ^ 2 = 1 →
      |(∑ k ∈ Finset.range K, Spec.traceSpread (Y k ω) u) / K - Spec.spreadAlong P Y u| ≤ δ := by
  have h2 : ∀ᵐ ω ∂P, ∀ j k : Fin 3, Tendsto (fun K : ℕ =>
      (∑ i ∈ Finset.range K, traceMoment j k (Y i ω)) / K) atTop
      (𝓝 (∫ ω, traceMoment j k (Y 0 ω) ∂P)) := by
    rw [ae_all_iff]
    intro j
    rw [ae_all_iff]
    intro k
    exact strong_law_ae_real (fun i ω => traceMoment j k (Y i ω)) (integrable_traceMoment h.finite j k)
      (fun i l hil => (h.indep hil).comp (measurable_traceMoment j k) (measurable_traceMoment j k))
      (fun i => (h.ident i).comp (measurable_traceMoment j k))
  filter_upwards [h2] with ω t2 δ hδ
  have ht : Tendsto (fun K : ℕ => ∑ j, ∑ k, |((∑ i ∈ Finset.range K, traceMoment j k (Y i ω)) / K -
      (0 : Vec 3) j * (0 : Vec 3) k) - ((∫ ω, traceMoment j k (Y 0 ω) ∂P) - (0 : Vec 3) j * (0 : Vec 3) k)|)
      atTop (𝓝 0) := by
    have : (0 : ℝ) = ∑ _j : Fin 3, ∑ _k : Fin 3, 0 := by simp
    rw [this]
    refine tendsto_finsetSum _ fun j _ => tendsto_finsetSum _ fun k _ => ?_
    have := ((t2 j k).sub_const (∫ ω, traceMoment j k (Y 0 ω) ∂P)).abs
    rw [sub_self, abs_zero] at this
    simpa using this
  obtain ⟨N, hN⟩ := eventually_atTop.1 (ht.eventually (gt_mem_nhds hδ))
  refine ⟨N, fun K hK u hu => ?_⟩
  have e : (∑ k ∈ Finset.range K, Spec.traceSpread (Y k ω) u) / K =
      momentForm (fun j k => (∑ i ∈ Finset.range K, traceMoment j k (Y i ω)) / K) 0 u := by
    simp only [traceSpread_form, momentForm, Pi.zero_apply, mul_zero, sub_zero]
    rw [Finset.sum_comm, Finset.sum_div]
    refine Finset.sum_congr rfl fun j _ => ?_
    rw [Finset.sum_comm, Finset.sum_div]
    refine Finset.sum_congr rfl fun k _ => ?_
    rw [← Finset.mul_sum, mul_div_assoc]
  rw [e, spread_form h.finite]
  exact (form_close hu).trans (hN K hK).le

/-- The quadratic form of a trace that is moved. -/
lemma form_trace (hm : 0 < m) (y : Fin m → Vec 3) (t u : Vec 3) :
    ∑ i, (Matrix.of (Coordinates.centered (List.ofFn fun i j => y i j + t j : Points).get) *ᵥ u) i ^ 2
      = Spec.traceSpread y u := by
  have hm' : (m : ℝ) ≠ 0 := by positivity
  have hμ : Spec.IsMean (List.ofFn fun i j => y i j + t j : Points)
      fun j => (∑ l, y l j) / m + t j := by
    intro j
    rw [List.map_ofFn, List.sum_ofFn, List.length_ofFn]
    simp only [Function.comp_apply, Finset.sum_add_distrib, Finset.sum_const, Finset.card_univ,
      Fintype.card_fin, nsmul_eq_mul]
    field_simp
  rw [form_list (by
    intro e
    have := congrArg List.length e
    simp at this
    omega) ⟨_, hμ, rfl⟩]
  simp only [Spec.misfitOf, List.map_ofFn, List.sum_ofFn, Spec.traceSpread, Function.comp_apply,
    Spec.planeDist2, Fin.sum_univ_three]
  refine Finset.sum_congr rfl fun i _ => ?_
  ring

/-! ## Errors of equal size -/

lemma traceSpread_split (y : Fin m → Vec 3) (u : Vec 3) :
    Spec.traceSpread y u = ∑ i, (∑ j, u j * y i j) ^ 2 - (∑ i, ∑ j, u j * y i j) ^ 2 / m := by
  rcases Nat.eq_zero_or_pos m with rfl | hm
  · simp [Spec.traceSpread]
  have hm' : (m : ℝ) ≠ 0 := by positivity
  set a : Fin m → ℝ := fun i => ∑ j, u j * y i j with ha
  have e : ∀ i, ∑ j, u j * (y i j - (∑ l, y l j) / m) = a i - (∑ l, a l) / m := by
    intro i
    simp only [ha, mul_sub, Finset.sum_sub_distrib]
    congr 1
    rw [Finset.sum_comm, Finset.sum_div]
    refine Finset.sum_congr rfl fun j _ => ?_
    rw [← Finset.mul_sum, mul_div_assoc]
  simp only [Spec.traceSpread, e, sub_sq, Finset.sum_add_distrib, Finset.sum_sub_distrib,
    Finset.sum_const, Finset.card_univ, Fintype.card_fin, nsmul_eq_mul]
  rw [← Finset.sum_mul, ← Finset.mul_sum]
  field_simp
  ring

variable {T E Y : ℕ → Ω → Fin m → Vec 3} {w : Vec 3} {σ : ℝ}

/-- Products of the components along a direction. -/
lemma integral_along {A B : ℕ → Ω → Fin m → Vec 3} (hA : ∀ i j, MemLp (fun ω => A 0 ω i j) 2 P)
    (hB : ∀ i j, MemLp (fun ω => B 0 ω i j) 2 P) (u : Vec 3) (i l : Fin m) :
    ∫ ω, (∑ j, u j * A 0 ω i j) * (∑ k, u k * B 0 ω l k) ∂P =
      ∑ j, ∑ k, u j * u k * ∫ ω, A 0 ω i j * B 0 ω l k ∂P := by
  have hi : ∀ j k, Integrable (fun ω => u j * u k * (A 0 ω i j * B 0 ω l k)) P := fun j k =>
    ((hA i j).integrable_mul (hB l k)).const_mul _
  have e : ∀ ω, (∑ j, u j * A 0 ω i j) * (∑ k, u k * B 0 ω l k) =
      ∑ j, ∑ k, u j * u k * (A 0 ω i j * B 0 ω l k) := by
    intro ω
    rw [Finset.sum_mul_sum]
    refine Finset.sum_congr rfl fun j _ => Finset.sum_congr rfl fun k _ => ?_
    ring
  simp only [e]
  rw [integral_finsetSum _ fun j _ => integrable_finsetSum _ fun k _ => hi j k]
  refine Finset.sum_congr rfl fun j _ => ?_
  rw [integral_finsetSum _ fun k _ => hi j k]
  refine Finset.sum_congr rfl fun k _ => ?_
  rw [integral_const_mul]

lemma memLp_along {A : ℕ → Ω → Fin m → Vec 3} (hA : ∀ i j, MemLp (fun ω => A 0 ω i j) 2 P) (u : Vec 3)
    (i : Fin m) : MemLp (fun ω => ∑ j, u j * A 0 ω i j) 2 P :=
  memLp_finsetSum _ fun j _ => (hA i j).const_mul _

/-- The spread in terms of the products. -/
lemma spread_products {A : ℕ → Ω → Fin m → Vec 3} (hA : ∀ i j, MemLp (fun ω => A 0 ω i j) 2 P)
    (u : Vec 3) : Spec.spreadAlong P A u =
      ∑ i, ∫ ω, (∑ j, u j * A 0 ω i j) * (∑ j, u j * A 0 ω i j) ∂P -
        (∑ i, ∑ l, ∫ ω, (∑ j, u j * A 0 ω i j) * (∑ j, u j * A 0 ω l j) ∂P) / m := by
  have hi : ∀ i l, Integrable (fun ω => (∑ j, u j * A 0 ω i j) * (∑ j, u j * A 0 ω l j)) P := fun i l =>
    (memLp_along hA u i).integrable_mul (memLp_along hA u l)
  have e : ∀ ω, Spec.traceSpread (A 0 ω) u =
      ∑ i, (∑ j, u j * A 0 ω i j) * (∑ j, u j * A 0 ω i j) -
        (∑ i, ∑ l, (∑ j, u j * A 0 ω i j) * (∑ j, u j * A 0 ω l j)) / m := by
    intro ω
    rw [traceSpread_split]
    congr 1
    · exact Finset.sum_congr rfl fun i _ => sq _
    · rw [sq, Finset.sum_mul_sum]
  simp only [Spec.spreadAlong, e]
  rw [integral_sub (integrable_finsetSum _ fun i _ => hi i i)
    ((integrable_finsetSum _ fun i _ => integrable_finsetSum _ fun l _ => hi i l).div_const _),
    integral_finsetSum _ fun i _ => hi i i, integral_div,
    integral_finsetSum _ fun i _ => integrable_finsetSum _ fun l _ => hi i l]
  congr 2
  exact Finset.sum_congr rfl fun i _ => integral_finsetSum _ fun l _ => hi i l

lemma spread_measured (hm : 0 < m) (h : Spec.MeasuredBeds P T E Y w σ) {u : Vec 3} (hu : norm u = 1) :
    Spec.spreadAlong P Y u = Spec.spreadAlong P T u + (m - 1) * σ ^ 2 := by
  have hY : ∀ i j, MemLp (fun ω => Y 0 ω i j) 2 P := by
    intro i j
    have : (fun ω => Y 0 ω i j) = (fun ω => T 0 ω i j) + fun ω => E 0 ω i j := by
      funext ω
      rw [h.sum]
      rfl
    rw [this]
    exact (h.finiteT i j).add (h.finiteE i j)
  have hu' : ∑ j, u j * u j = 1 := by
    rw [← norm_one_iff.1 hu]
    exact Finset.sum_congr rfl fun j _ => (sq _).symm
  have hEE : ∀ i l, ∫ ω, (∑ j, u j * E 0 ω i j) * (∑ j, u j * E 0 ω l j) ∂P =
      if i = l then σ ^ 2 else 0 := by
    intro i l
    rw [integral_along h.finiteE h.finiteE]
    simp only [h.errors]
    split_ifs with hil
    · simp only [hil, true_and, mul_ite, mul_zero, Finset.sum_ite_eq, Finset.mem_univ, if_true]
      rw [← Finset.sum_mul, hu', one_mul]
    · simp [hil]
  have hTE : ∀ i l, ∫ ω, (∑ j, u j * T 0 ω i j) * (∑ j, u j * E 0 ω l j) ∂P = 0 := by
    intro i l
    rw [integral_along h.finiteT h.finiteE]
    simp [h.uncorrelated]
  have hYY : ∀ i l, ∫ ω, (∑ j, u j * Y 0 ω i j) * (∑ j, u j * Y 0 ω l j) ∂P =
      ∫ ω, (∑ j, u j * T 0 ω i j) * (∑ j, u j * T 0 ω l j) ∂P + if i = l then σ ^ 2 else 0 := by
    intro i l
    have tt : Integrable (fun ω => (∑ j, u j * T 0 ω i j) * (∑ j, u j * T 0 ω l j)) P :=
      (memLp_along h.finiteT u i).integrable_mul (memLp_along h.finiteT u l)
    have te : Integrable (fun ω => (∑ j, u j * T 0 ω i j) * (∑ j, u j * E 0 ω l j)) P :=
      (memLp_along h.finiteT u i).integrable_mul (memLp_along h.finiteE u l)
    have et : Integrable (fun ω => (∑ j, u j * T 0 ω l j) * (∑ j, u j * E 0 ω i j)) P :=
      (memLp_along h.finiteT u l).integrable_mul (memLp_along h.finiteE u i)
    have ee : Integrable (fun ω => (∑ j, u j * E 0 ω i j) * (∑ j, u j * E 0 ω l j)) P :=
      (memLp_along h.finiteE u i).integrable_mul (memLp_along h.finiteE u l)
    have tte : Integrable (fun ω => (∑ j, u j * T 0 ω i j) * (∑ j, u j * T 0 ω l j) +
        (∑ j, u j * T 0 ω i j) * (∑ j, u j * E 0 ω l j)) P := tt.add te
    have ttee : Integrable (fun ω => (∑ j, u j * T 0 ω i j) * (∑ j, u j * T 0 ω l j) +
        (∑ j, u j * T 0 ω i j) * (∑ j, u j * E 0 ω l j) +
        (∑ j, u j * T 0 ω l j) * (∑ j, u j * E 0 ω i j)) P := tte.add et
    have e : ∀ ω, (∑ j, u j * Y 0 ω i j) * (∑ j, u j * Y 0 ω l j) =
        (∑ j, u j * T 0 ω i j) * (∑ j, u j * T 0 ω l j) + (∑ j, u j * T 0 ω i j) * (∑ j, u j * E 0 ω l j)
        + (∑ j, u j * T 0 ω l j) * (∑ j, u j * E 0 ω i j)
        + (∑ j, u j * E 0 ω i j) * (∑ j, u j * E 0 ω l j) := by
      intro ω
      rw [h.sum]
      simp only [Pi.add_apply, mul_add, Finset.sum_add_distrib]
      ring
    simp only [e]
    rw [integral_add ttee ee, integral_add tte et, integral_add tt te, hTE, hTE,
      hEE]
    ring
  have hm' : (m : ℝ) ≠ 0 := by positivity
  rw [spread_products hY, spread_products h.finiteT]
  simp only [hYY, Finset.sum_add_distrib, Finset.sum_ite_eq, Finset.mem_univ, if_true, Finset.sum_const,
    Finset.card_univ, Fintype.card_fin, nsmul_eq_mul]
  field_simp
  ring

lemma spread_onBed (h : Spec.MeasuredBeds P T E Y w σ) : Spec.spreadAlong P T w = 0 := by
  have : ∀ ω, Spec.traceSpread (T 0 ω) w = 0 := by
    intro ω
    obtain ⟨c, hc⟩ := h.onBed 0 ω
    have hc' : ∀ i, ∑ j, w j * T 0 ω i j = c := fun i => by rw [Fin.sum_univ_three]; exact hc i
    rw [traceSpread_split]
    simp only [hc', Finset.sum_const, Finset.card_univ, Fintype.card_fin, nsmul_eq_mul]
    rcases Nat.eq_zero_or_pos m with rfl | hm
    · simp
    · have : (m : ℝ) ≠ 0 := by positivity
      field_simp
      ring
  simp [Spec.spreadAlong, this]

/-- The forms of the groups converge, in all directions at once. -/
lemma group_spread (svd : SvdFn) (hs : svd.Valid) (hm : 0 < m) (h : Spec.IndependentTraces P Y) :
    ∀ᵐ ω ∂P, ∀ δ > 0, ∃ N, 3 ≤ N ∧ ∀ K ≥ N, ∀ (t : ℕ → Vec 3) (H : HashFn) (hp : Heap) (os : List ℕ)
      (ex : Bool) (g : ℕ), Spec.Exists hp os → (newGroup H hp os false ex).1 = .ok g →
      os.map (fun o => (hp.obj o).array) = (Spec.tracesAt (fun k => Y k ω) t K).map some →
      ∃ (arr : Points) (f : Fit arr.length) (U : Mat arr.length 3),
        ((newGroup H hp os false ex).2.obj g).array = some arr ∧
        init svd arr.get none none = .ok (some f) ∧ IsFit arr.get f U ∧ arr.length = K * m ∧
        ∀ u : Vec 3, ∑ j, u j ^ 2 = 1 →
          |(∑ i, (Matrix.of (Coordinates.centered arr.get) *ᵥ u) i ^ 2) / arr.length -
            Spec.spreadAlong P Y u / m| ≤ δ := by
  have hm' : (0 : ℝ) < m := by exact_mod_cast hm
  filter_upwards [spread_converges h] with ω hω δ hδ
  obtain ⟨N, hN⟩ := hω (δ * m) (by positivity)
  refine ⟨max N 3, le_max_right _ _, fun K hK t H hp os ex g hl hk hps => ?_⟩
  have hK3 : 3 ≤ K := (le_max_right _ _).trans hK
  have hK' : (0 : ℝ) < K := by
    have : 0 < K := by omega
    exact_mod_cast this
  obtain ⟨arr, a1, a2, a3⟩ := group_form hl hk hps (by
    intro p hp e
    simp only [Spec.tracesAt, List.mem_map] at hp
    obtain ⟨k, -, rfl⟩ := hp
    have := congrArg List.length e
    simp at this
    omega)
  have hlen : arr.length = K * m := by
    rw [a2, Spec.tracesAt, List.map_map]
    simp [Function.comp_def]
  have h3 : 3 ≤ arr.length := by
    rw [hlen]
    exact hK3.trans (Nat.le_mul_of_pos_right K hm)
  obtain ⟨f, hf⟩ := init_default_exists svd h3 arr.get
  obtain ⟨U, hF⟩ := init_default hs hf
  refine ⟨arr, f, U, a1, hf, hF, hlen, fun u hu => ?_⟩
  have hform : ∑ i, (Matrix.of (Coordinates.centered arr.get) *ᵥ u) i ^ 2 =
      ∑ k ∈ Finset.range K, Spec.traceSpread (Y k ω) u := by
    rw [a3 h3, Spec.tracesAt, List.map_map, ← List.sum_toFinset _ List.nodup_range, List.toFinset_range]
    exact Finset.sum_congr rfl fun k _ => form_trace hm (Y k ω) (t k) u
  have := hN K ((le_max_left _ _).trans hK) u hu
  rw [hform, hlen]
  push_cast
  rw [← div_div, ← sub_div, abs_div, abs_of_pos hm', div_le_iff₀ hm']
  exact this

/-- The normal of the beds is the direction of the smallest spread. -/
lemma beds_gap (hm : 0 < m) (hb : Spec.MeasuredBeds P T E Y w σ) : ∃ γ > 0, ∀ u : Vec 3, ∑ j, u j ^ 2 = 1 →
    Spec.spreadAlong P Y w / m + γ * (1 - (u 0 * w 0 + u 1 * w 1 + u 2 * w 2) ^ 2) ≤
      Spec.spreadAlong P Y u / m := by
  have hm' : (0 : ℝ) < m := by exact_mod_cast hm
  obtain ⟨γ, hγ, hx⟩ := hb.extent
  refine ⟨γ / m, by positivity, fun u hu => ?_⟩
  rw [spread_measured hm hb hb.unit, spread_measured hm hb (norm_one_iff.2 hu), spread_onBed hb,
    div_mul_eq_mul_div, ← add_div]
  refine div_le_div_of_nonneg_right ?_ hm'.le
  linarith [hx u (norm_one_iff.2 hu)]

/-- The normals of the fits converge. -/
lemma group_normal (svd : SvdFn) (hs : svd.Valid) (hm : 0 < m) (h : Spec.IndependentTraces P Y)
    (hb : Spec.MeasuredBeds P T E Y w σ) :
    ∀ᵐ ω ∂P, ∀ ε > 0, ∃ N, ∀ K ≥ N, ∀ (t : ℕ → Vec 3) (H : HashFn) (hp : Heap) (os : List ℕ) (ex : Bool)
      (g : ℕ), Spec.Exists hp os → (newGroup H hp os false ex).1 = .ok g →
      os.map (fun o => (hp.obj o).array) = (Spec.tracesAt (fun k => Y k ω) t K).map some →
      ∃ arr f, ((newGroup H hp os false ex).2.obj g).array = some arr ∧
        init svd arr.get none none = .ok (some f) ∧ Spec.sineBetween f.normal w < ε := by
  filter_upwards [group_spread svd hs hm h] with ω hω ε hε
  obtain ⟨γ, hγ, hx⟩ := beds_gap hm hb
  obtain ⟨N, -, hN⟩ := hω (γ * ε ^ 2 / 4) (by positivity)
  refine ⟨N, fun K hK t H hp os ex g hl hk hps => ?_⟩
  obtain ⟨arr, f, U, a1, hf, hF, -, hq⟩ := hN K hK t H hp os ex g hl hk hps
  refine ⟨arr, f, a1, hf, ?_⟩
  obtain ⟨k1, -, -⟩ := fit_close hF (norm_one_iff.1 hb.unit) (fun u => Spec.spreadAlong P Y u / m) _ γ
    hγ.le hq hx
  have k2 : γ * Spec.sineBetween f.normal w ^ 2 ≤ γ * (ε ^ 2 / 2) := by
    refine k1.trans (le_of_eq ?_)
    ring
  have k3 := le_of_mul_le_mul_left k2 hγ
  have : Spec.sineBetween f.normal w ^ 2 < ε ^ 2 := by nlinarith [sq_pos_of_pos hε]
  exact lt_of_pow_lt_pow_left₀ 2 hε.le this

/-! ## C222 -/

/-- Strike and dip of groups of more and more traces of parallel beds converge to those of the beds, at
whatever places the traces are. -/
theorem C222_strike_dip (svd : SvdFn) (hs : svd.Valid) (P : Measure Ω) (hm : 0 < m)
    (T E Y : ℕ → Ω → Fin m → Vec 3) (w : Vec 3) (σ : ℝ) (h : Spec.IndependentTraces P Y)
    (hb : Spec.MeasuredBeds P T E Y w σ)
    (s₀ d₀ : ℝ) (h0 : 0 ≤ d₀) (h1 : d₀ < 90) (hw2 : 0 ≤ w 2) (hrule : Spec.RightHandRule w s₀ d₀) :
    ∀ᵐ ω ∂P, ∀ ε > 0, ∃ N, ∀ K ≥ N, ∀ (t : ℕ → Vec 3) (H : HashFn) (hp : Heap) (os : List ℕ) (ex : Bool)
      (g : ℕ), Spec.Exists hp os → (newGroup H hp os false ex).1 = .ok g →
      os.map (fun o => (hp.obj o).array) = (Spec.tracesAt (fun k => Y k ω) t K).map some →
      ∃ arr f s d, ((newGroup H hp os false ex).2.obj g).array = some arr ∧
        init svd arr.get none none = .ok (some f) ∧ strikeDip f = some (s, d) ∧ |d - d₀| < ε ∧
        (0 < d₀ → ∃ k : ℤ, |s - s₀ - 360 * k| < ε) := by
  have hpi := Real.pi_pos
  have hsd := normal_of_rule hb.unit h0 h1 hw2 hrule
  have hpos : 0 < w 2 := by
    rw [hsd]
    show 0 < Real.cos (radians d₀)
    refine Real.cos_pos_of_mem_Ioo ⟨?_, ?_⟩ <;> unfold radians <;> nlinarith
  filter_upwards [group_normal svd hs hm h hb] with ω hω ε hε
  obtain ⟨δ, hδ, hclose⟩ := sd_close (s₀ := s₀) h0 h1 hε
  obtain ⟨N, hN⟩ := hω (min (w 2 / 2) (Real.sqrt δ)) (lt_min (by linarith) (Real.sqrt_pos.2 hδ))
  refine ⟨N, fun K hK t H hp os ex g hl hk hps => ?_⟩
  obtain ⟨arr, f, ha, hf, hsine⟩ := hN K hK t H hp os ex g hl hk hps
  obtain ⟨U, hF⟩ := init_default hs hf
  obtain ⟨s, d, h', -, -, r1, r2, -⟩ := strikeDipOf_spec (fit_axis_ne_zero hF 2)
  obtain ⟨s', d', e', -, hup, hn'⟩ := C14_fit_right_hand_rule svd hs _ f hf
  have hun : norm f.normal = 1 := by
    rw [hF.normal]
    rcases upward_eq (f.V 2) with h | h <;> rw [h]
    · exact hF.svd.row_norm 2
    · rw [norm_neg']
      exact hF.svd.row_norm 2
  have h'' : strikeDip f = some (s, d) := h'
  rw [e'] at h''
  obtain ⟨rfl, rfl⟩ := Prod.mk.inj (Option.some.inj h'')
  have hc := upward_close hun hb.unit hup hpos (min_le_left _ _) hsine
  have hlt : Spec.sineBetween f.normal w ^ 2 < δ := by
    have h1 := lt_of_lt_of_le hsine (min_le_right _ _)
    have h2 : 0 ≤ Spec.sineBetween f.normal w := Real.sqrt_nonneg _
    calc _ < Real.sqrt δ ^ 2 := by gcongr
      _ = δ := Real.sq_sqrt hδ.le
  have hn'' : f.normal = sdNormal s' d' := hn'
  have hfin := lt_of_le_of_lt hc hlt
  rw [hn'', hsd] at hfin
  obtain ⟨q1, q2⟩ := hclose s' d' r1 r2 hfin
  exact ⟨arr, f, s', d', ha, hf, e', q1, q2⟩

/-! ## A concrete case -/

/-- Traces of three points on straight lines in random directions, with normally distributed errors. -/
lemma exists_beds : ∃ (Ω : Type) (_ : MeasurableSpace Ω) (P : Measure Ω) (_ : IsProbabilityMeasure P)
    (T E Y : ℕ → Ω → Fin 3 → Vec 3), Spec.IndependentTraces P Y ∧
      Spec.MeasuredBeds P T E Y (sdNormal 0 45) 1 := by
  obtain ⟨Ω, mΩ, P, hP, Z, hm, hi, hid, hLp, h0, hcov⟩ := exists_normals (Fin 2 ⊕ Fin 3 × Fin 3)
  have hZ : ∀ a b, ∫ ω, Z 0 ω a * Z 0 ω b ∂P = if a = b then 1 else 0 := by
    intro a b
    have h1 := hcov (fun c => if a = c then 1 else 0) (fun c => if b = c then 1 else 0)
    simp only [ite_mul, one_mul, zero_mul, Finset.sum_ite_eq, Finset.mem_univ, if_true] at h1
    rw [covariance_eq_sub (hLp a) (hLp b), h0, h0] at h1
    simp only [mul_zero, sub_zero] at h1
    rw [show ∫ ω, Z 0 ω a * Z 0 ω b ∂P = P[(fun ω => Z 0 ω a) * fun ω => Z 0 ω b] from rfl, h1]
    by_cases hab : a = b <;> simp [hab, eq_comm]
  have i1 : ∀ (c : ℝ) a b, Integrable (fun ω => c * (Z 0 ω a * Z 0 ω b)) P := fun c a b =>
    ((hLp a).integrable_mul (hLp b)).const_mul c
  have i2 : ∀ (c d : ℝ) a b a' b',
      Integrable (fun ω => c * (Z 0 ω a * Z 0 ω b) + d * (Z 0 ω a' * Z 0 ω b')) P :=
    fun c d a b a' b' => (i1 c a b).add (i1 d a' b')
  set q := Real.sqrt 2 / 2 with hq
  have hq2 : q * q = 1 / 2 := by
    rw [hq]
    have := Real.mul_self_sqrt (by norm_num : (0 : ℝ) ≤ 2)
    linarith
  have hw : sdNormal 0 45 = ![q, 0, q] := by
    have e : radians 45 = Real.pi / 4 := by unfold radians; ring
    have e0 : radians 0 = 0 := by unfold radians; ring
    simp [sdNormal, e, e0, hq]
  -- the direction of a trace
  set D : Fin 3 → Fin 2 → ℝ := ![![0, q], ![1, 0], ![0, -q]] with hD
  set G : (Fin 2 ⊕ Fin 3 × Fin 3 → ℝ) → Fin 3 → Vec 3 := fun z i j =>
    (i : ℕ) * (D j 0 * z (.inl 0) + D j 1 * z (.inl 1)) with hG
  set F : (Fin 2 ⊕ Fin 3 × Fin 3 → ℝ) → Fin 3 → Vec 3 := fun z i j => z (.inr (i, j)) with hF
  have hGm : Measurable G := by
    rw [measurable_pi_iff]
    intro i
    rw [measurable_pi_iff]
    intro j
    show Measurable fun z : Fin 2 ⊕ Fin 3 × Fin 3 → ℝ => ((i : ℕ) : ℝ) * (D j 0 * z (.inl 0) + D j 1 * z (.inl 1))
    fun_prop
  have hFm : Measurable F := by
    rw [measurable_pi_iff]
    intro i
    rw [measurable_pi_iff]
    intro j
    exact measurable_pi_apply _
  have hYm : Measurable fun z => G z + F z := hGm.add hFm
  have hT : ∀ i j, MemLp (fun ω => G (Z 0 ω) i j) 2 P := fun i j =>
    (((hLp (.inl 0)).const_mul (D j 0)).add ((hLp (.inl 1)).const_mul (D j 1))).const_mul _
  have hE : ∀ i j, MemLp (fun ω => F (Z 0 ω) i j) 2 P := fun i j => hLp (.inr (i, j))
  refine ⟨Ω, mΩ, P, hP, fun k ω => G (Z k ω), fun k ω => F (Z k ω), fun k ω => G (Z k ω) + F (Z k ω),
    ⟨fun i k hik => (hi hik).comp hYm hYm, fun i => (hid i).comp hYm, fun i j => (hT i j).add (hE i j)⟩,
    ⟨fun k ω => rfl, ?_, fun k ω => ⟨0, fun i => ?_⟩, ⟨2, by norm_num, fun u hu => ?_⟩, hT, hE,
      fun i l j k => ?_, fun i l j k => ?_⟩⟩
  · rw [hw, norm_one_iff, Fin.sum_univ_three]
    simp only [Matrix.cons_val_zero, Matrix.cons_val_one, Matrix.cons_val]
    linarith [hq2, sq q]
  · rw [hw]
    simp only [hG, hD, Matrix.cons_val_zero, Matrix.cons_val_one, Matrix.cons_val]
    ring
  · have hu' := norm_one_iff.1 hu
    rw [Fin.sum_univ_three] at hu'
    have e : ∀ ω, Spec.traceSpread (G (Z 0 ω)) u = 2 * (u 1) ^ 2 * (Z 0 ω (.inl 0) * Z 0 ω (.inl 0)) +
        4 * (u 1 * q * (u 0 - u 2)) * (Z 0 ω (.inl 0) * Z 0 ω (.inl 1)) +
        (u 0 - u 2) ^ 2 * (Z 0 ω (.inl 1) * Z 0 ω (.inl 1)) := by
      intro ω
      simp only [Spec.traceSpread, hG, hD, Fin.sum_univ_three, Matrix.cons_val_zero, Matrix.cons_val_one,
        Matrix.cons_val, Fin.val_zero, Fin.val_one, Fin.val_two]
      push_cast
      linear_combination (2 * (u 0 - u 2) ^ 2 * (Z 0 ω (.inl 1) * Z 0 ω (.inl 1))) * hq2
    simp only [Spec.spreadAlong, e]
    rw [integral_add (i2 _ _ _ _ _ _) (i1 _ _ _), integral_add (i1 _ _ _) (i1 _ _ _),
      integral_const_mul, integral_const_mul, integral_const_mul, hZ, hZ, hZ, hw]
    simp only [Matrix.cons_val_zero, Matrix.cons_val_one, Matrix.cons_val, if_true, mul_one, mul_zero,
      add_zero]
    have e2 : (u 0 * q + u 2 * q) ^ 2 = (u 0 + u 2) ^ 2 / 2 := by
      linear_combination (u 0 + u 2) ^ 2 * hq2
    rw [e2]
    simp only [Sum.inl.injEq, Fin.reduceEq, if_false]
    nlinarith
  · show ∫ ω, Z 0 ω (.inr (i, j)) * Z 0 ω (.inr (l, k)) ∂P = _
    rw [hZ]
    simp
  · show ∫ ω, ((i : ℕ) * (D j 0 * Z 0 ω (.inl 0) + D j 1 * Z 0 ω (.inl 1))) * Z 0 ω (.inr (l, k)) ∂P = 0
    have e : ∀ ω, ((i : ℕ) * (D j 0 * Z 0 ω (.inl 0) + D j 1 * Z 0 ω (.inl 1))) * Z 0 ω (.inr (l, k)) =
        ((i : ℕ) * D j 0) * (Z 0 ω (.inl 0) * Z 0 ω (.inr (l, k))) +
        ((i : ℕ) * D j 1) * (Z 0 ω (.inl 1) * Z 0 ω (.inr (l, k))) := by
      intro ω
      ring
    simp only [e]
    rw [integral_add (i1 _ _ _) (i1 _ _ _), integral_const_mul, integral_const_mul, hZ, hZ]
    simp

/-- Traces of three points each can be grouped. -/
lemma exists_tracesGroup (y : ℕ → Fin 3 → Vec 3) (t : ℕ → Vec 3) {K : ℕ} (hK : 1 ≤ K) :
    let hp : Heap := ⟨K, fun a => { array := (Spec.tracesAt y t K)[a]? }⟩
    Spec.Exists hp (List.range K) ∧ (newGroup (fun _ => "g") hp (List.range K) false false).1 = .ok K ∧
    (List.range K).map (fun o => (hp.obj o).array) = (Spec.tracesAt y t K).map some := by
  intro hp
  have hlen : (Spec.tracesAt y t K).length = K := by simp [Spec.tracesAt]
  have hl : Spec.Exists hp (List.range K) := fun o ho => List.mem_range.1 ho
  have hget : ∀ a, ∀ ha : a < K, (hp.obj a).array = some ((Spec.tracesAt y t K)[a]'(by omega)) := by
    intro a ha
    exact List.getElem?_eq_getElem _
  have hcount : Spec.countPoints hp (List.range K) = K * 3 := by
    have : ∀ o ∈ List.range K, (((hp.obj o).array).getD []).length = 3 := by
      intro o ho
      rw [hget o (List.mem_range.1 ho)]
      simp [Spec.tracesAt]
    rw [Spec.countPoints, List.map_congr_left this]
    simp
  obtain ⟨g, hg⟩ := (C223_succeeds (fun _ => "g") hl false false).2 ⟨by
      intro e
      have := congrArg List.length e
      simp at this
      omega, fun o ho => ⟨_, hget o (List.mem_range.1 ho)⟩, by
      rintro ⟨o, -, ms, e⟩
      simp [hp] at e, by rw [hcount]; omega, rfl⟩
  have hgK : g = K := (newGroup_spec (fun _ => "g") _ hl false false).1.ok_self g hg
  refine ⟨hl, hgK ▸ hg, ?_⟩
  apply List.ext_getElem
  · simp [hlen]
  · intro i h1 h2
    simp only [List.getElem_map, List.getElem_range]
    exact hget i (by simpa using h1)

/-- Traces of three points each, at arbitrary places: some group of them has a dip within a hundredth of
a degree of the true 45 degrees. -/
example (t : ℕ → Vec 3) : ∃ (svd : SvdFn) (y : ℕ → Fin 3 → Vec 3) (K : ℕ) (arr : Points) (f : Fit arr.length)
    (s d : ℝ), svd.Valid ∧
    ((newGroup (fun _ => "g") ⟨K, fun a => { array := (Spec.tracesAt y t K)[a]? }⟩ (List.range K) false
      false).2.obj K).array = some arr ∧
    init svd arr.get none none = .ok (some f) ∧ strikeDip f = some (s, d) ∧ |d - 45| < 1 / 100 := by
  obtain ⟨svd, hs⟩ := exists_valid_svd
  obtain ⟨Ω, mΩ, P, hP, T, E, Y, h, hb⟩ := exists_beds
  obtain ⟨r1, r2⟩ := example_rule
  obtain ⟨ω, hω⟩ := (C222_strike_dip svd hs P (by norm_num) T E Y _ 1 h hb 0 45 (by norm_num) (by norm_num)
    r2 r1).exists
  obtain ⟨N, hN⟩ := hω (1 / 100) (by norm_num)
  obtain ⟨hl, hg, harr⟩ := exists_tracesGroup (fun k => Y k ω) t (le_max_right N 1)
  obtain ⟨arr, f, s, d, h1, h2, h3, h4, -⟩ := hN _ (le_max_left _ _) t _ _ _ false _ hl hg harr
  exact ⟨svd, _, _, arr, f, s, d, hs, h1, h2, h3, h4⟩

end Attitude.Props
