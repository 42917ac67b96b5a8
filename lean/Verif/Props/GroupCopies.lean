import Verif.Props.GroupBeds
import Verif.Props.Accumulate

/-!
# C219: groups and the spread of their members
-/

namespace Attitude.Props

open Attitude Pca Matrix Grouping ErrorAxes

/-! ## Specification -/

/-- The points of `q` are those of `p`, moved by one vector. -/
def Spec.Moved (p q : Points) : Prop := ∃ t : Vec 3, q = p.map fun v j => v j + t j

/-! ## Helper lemmas -/

/-- The quadratic form of the centered points, over indices. -/
lemma form_list {p q : Points} (hp : p ≠ []) (h : Spec.IsCentered p q) (w : Vec 3) :
    ∑ i, (Matrix.of (Coordinates.centered p.get) *ᵥ w) i ^ 2 = Spec.misfitOf q w 0 := by
  obtain ⟨μ, hμ, rfl⟩ := h
  have hm := meanRows_get hp hμ
  have : ∀ i, (Matrix.of (Coordinates.centered p.get) *ᵥ w) i ^ 2
      = Spec.planeDist2 w 0 (fun j => p.get i j - μ j) := by
    intro i
    simp only [Matrix.mulVec, dotProduct, Fin.sum_univ_three, Matrix.of_apply, Coordinates.centered,
      hm, Spec.planeDist2]
    ring
  simp only [this, Spec.misfitOf, List.map_map, List.get_eq_getElem]
  exact Fin.sum_univ_fun_getElem p fun v => Spec.planeDist2 w 0 (fun j => v j - μ j)

/-- The array of a group and its quadratic form. -/
lemma group_form {H : HashFn} {h : Heap} {os : List ℕ} (hl : Spec.Exists h os) {ex : Bool} {g : ℕ}
    (hk : (newGroup H h os false ex).1 = .ok g) {ps : List Points}
    (hps : os.map (fun o => (h.obj o).array) = ps.map some) (hpne : ∀ p ∈ ps, p ≠ []) :
    ∃ (arr : Points), ((newGroup H h os false ex).2.obj g).array = some arr ∧
      arr.length = (ps.map List.length).sum ∧ (3 ≤ arr.length → ∀ w,
        ∑ i, (Matrix.of (Coordinates.centered arr.get) *ᵥ w) i ^ 2
          = (ps.map fun p => ∑ i, (Matrix.of (Coordinates.centered p.get) *ᵥ w) i ^ 2).sum) := by
  obtain ⟨hm, ha, ms, ps', qs, arr, μ, h1, h2, h3, h4, h5, h6, -⟩ :=
    C43_group_has_member_data hl hk
  rw [hm] at h1
  cases h1
  have hps' : ps' = ps := by
    have : os.map (fun o => (h.obj o).array) = ps'.map some := by
      rw [← h2]
      exact List.map_congr_left fun o ho => (ha o (hl o ho)).symm
    rw [hps] at this
    exact (List.map_injective_iff.2 (Option.some_injective _) this).symm
  subst hps'
  have hcen : List.Forall₂ Spec.IsCentered ps' qs := by
    simp only [Bool.false_eq_true, if_false] at h3
    clear h2 h4 h5 h6 hps
    induction h3 with
    | nil => exact .nil
    | cons hc _ ih =>
      exact .cons (hc (hpne _ List.mem_cons_self))
        (ih fun p hp => hpne p (List.mem_cons_of_mem _ hp))
  refine ⟨arr, h4, h6, fun h3' w => ?_⟩
  have hne : arr ≠ [] := by
    rintro rfl
    simp at h3'
  have hc0 : Spec.IsMean arr 0 := by
    intro j
    rw [h5, sum_centered hcen j]
    simp
  rw [form_list (q := arr) hne ⟨0, hc0, by simp⟩, h5, misfitOf_flatten]
  clear h2 h3 h4 h5 h6 hps h3' hc0 hne
  induction hcen with
  | nil => simp
  | cons hc _ ih =>
    simp only [List.map_cons, List.sum_cons]
    rw [form_list (hpne _ List.mem_cons_self) hc,
      ih fun p hp => hpne p (List.mem_cons_of_mem _ hp)]

lemma form_moved {p q : Points} (hp : p ≠ []) (h : Spec.Moved p q) (w : Vec 3) :
    ∑ i, (Matrix.of (Coordinates.centered q.get) *ᵥ w) i ^ 2
      = ∑ i, (Matrix.of (Coordinates.centered p.get) *ᵥ w) i ^ 2 := by
  obtain ⟨t, rfl⟩ := h
  obtain ⟨μ, -, hμ⟩ := isMean_meanPts hp
  have hl : (p.length : ℝ) ≠ 0 := by
    have : p.length ≠ 0 := by simpa using hp
    exact_mod_cast this
  have hμ' : Spec.IsMean (p.map fun v j => v j + t j) fun j => μ j + t j := by
    intro j
    have := hμ j
    have hs : ((p.map fun v j => v j + t j).map fun v => v j).sum
        = (p.map fun v => v j).sum + p.length * t j := by
      clear hμ this hl hp
      induction p with
      | nil => simp
      | cons v p ih =>
        simp only [List.map_cons, List.sum_cons, List.length_cons, Nat.cast_add, Nat.cast_one] at ih ⊢
        rw [ih]
        ring
    rw [hs, List.length_map, ← this]
    ring
  rw [form_list hp ⟨μ, hμ, rfl⟩, form_list (by simpa using hp) ⟨_, hμ', rfl⟩]
  simp [Spec.misfitOf, Function.comp_def]

lemma trace_form {m : ℕ} {A U : Mat m 3} {s : Vec 3} {V : Mat 3 3} (h : IsSVD A U s V) :
    ∑ j, s j ^ 2 = ∑ k, (A *ᵥ ![1, 0, 0]) k ^ 2 + ∑ k, (A *ᵥ ![0, 1, 0]) k ^ 2
      + ∑ k, (A *ᵥ ![0, 0, 1]) k ^ 2 := by
  rw [h.sum_sq, h.sum_sq, h.sum_sq]
  have hr := h.row_norm
  have hn : ∀ j, V j 0 ^ 2 + V j 1 ^ 2 + V j 2 ^ 2 = 1 := by
    intro j
    have := norm_sq' (V j)
    rw [Fin.sum_univ_three] at this
    rw [hr j] at this
    linarith
  simp only [Fin.sum_univ_three, Matrix.mulVec, dotProduct, Matrix.cons_val_zero,
    Matrix.cons_val_one, Matrix.cons_val, mul_one, mul_zero, add_zero, zero_add]
  linear_combination -(s 0 ^ 2 * hn 0) - s 1 ^ 2 * hn 1 - s 2 ^ 2 * hn 2

lemma sum_get_fin (ps : List Points) (F : Points → ℝ) :
    (ps.map F).sum = ∑ k : Fin ps.length, F (ps.get k) := by
  simp only [List.get_eq_getElem]
  exact (Fin.sum_univ_fun_getElem ps F).symm

/-! ## C219 -/

/-- The spread of a group is the sum of the spreads of its members: in total exactly; the longest axis
is at most, and the shortest at least, that of all members together. -/
theorem C219_spread (svd : SvdFn) (hs : svd.Valid) {H : HashFn} {h : Heap} {os : List ℕ}
    (hl : Spec.Exists h os) {ex : Bool} {g : ℕ} (hk : (newGroup H h os false ex).1 = .ok g)
    (ps : List Points) (hps : os.map (fun o => (h.obj o).array) = ps.map some)
    (fits : ∀ k : Fin ps.length, Fit (ps.get k).length)
    (hfits : ∀ k, init svd (ps.get k).get none none = .ok (some (fits k))) :
    ∃ arr : Points, ((newGroup H h os false ex).2.obj g).array = some arr ∧
      ∀ f, init svd arr.get none none = .ok (some f) →
        ∑ j, f.s j ^ 2 = ∑ k, ∑ j, (fits k).s j ^ 2 ∧
        f.s 0 ^ 2 ≤ ∑ k, (fits k).s 0 ^ 2 ∧ ∑ k, (fits k).s 2 ^ 2 ≤ f.s 2 ^ 2 := by
  have hF := fun k => init_default hs (hfits k)
  choose U hF using hF
  have hpne : ∀ p ∈ ps, p ≠ [] := by
    intro p hp e
    obtain ⟨k, hk⟩ := List.get_of_mem hp
    have := (hF k).size
    rw [hk, e] at this
    simp at this
  obtain ⟨arr, h1, -, h2⟩ := group_form hl hk hps hpne
  refine ⟨arr, h1, fun f hf => ?_⟩
  obtain ⟨U', hG⟩ := init_default hs hf
  have hq := fun w => (h2 hG.size w).trans (sum_get_fin ps _)
  refine ⟨?_, ?_, ?_⟩
  · rw [trace_form hG.svd, hq, hq, hq, ← Finset.sum_add_distrib, ← Finset.sum_add_distrib]
    exact Finset.sum_congr rfl fun k _ => (trace_form (hF k).svd).symm
  · rw [← hG.svd.sum_sq_row 0, hq]
    refine Finset.sum_le_sum fun k _ => ?_
    have := (hF k).svd.upper (f.V 0)
    rwa [row_sq hG.svd 0, mul_one] at this
  · rw [← hG.svd.sum_sq_row 2, hq]
    refine Finset.sum_le_sum fun k _ => ?_
    have := (hF k).svd.optimal (f.V 2)
    rwa [row_sq hG.svd 2, mul_one] at this

/-- A group of measurements that have the same shape at different places: the group has the strike and
dip of a single one (as far as these are determined), singular values larger by the square root of
their number, and angular errors that never fall below the angles of the scatter of a single one. -/
theorem C219_copies (Q : Quantiles) (hQ : Spec.QuantilesOK Q) (svd svd' : SvdFn) (hs : svd.Valid)
    (hs' : svd'.Valid) {H : HashFn} {h : Heap} {os : List ℕ}
    (hl : Spec.Exists h os) {ex : Bool} {g : ℕ} (hk : (newGroup H h os false ex).1 = .ok g)
    (p : Points) (hps : ∀ o ∈ os, ∃ q, (h.obj o).array = some q ∧ Spec.Moved p q)
    (f : Fit p.length) (hf : init svd p.get none none = .ok (some f)) :
    ∃ arr : Points, ((newGroup H h os false ex).2.obj g).array = some arr ∧
      arr.length = os.length * p.length ∧
      ∀ f', init svd' arr.get none none = .ok (some f') →
        (∀ j, f'.s j = Real.sqrt os.length * f.s j) ∧
        (f.s 2 < f.s 1 → ∀ s d, strikeDip f = some (s, d) → ∃ s', strikeDip f' = some (s', d) ∧
          (d ≠ 0 → d ≠ 90 → s' = s) ∧ (d ≠ 0 → s' = s ∨ s' = s + 180 ∨ s' = s - 180)) ∧
        ∀ sampling cl, 0 ≤ cl → cl < 1 → ∃ x y, errorsAt Q f' sampling cl = some (x, y) ∧
          Spec.scatterAngle f 0 ≤ x ∧ Spec.scatterAngle f 1 ≤ y := by
  obtain ⟨U, hF⟩ := init_default hs hf
  have hp : p ≠ [] := by
    rintro rfl
    have := hF.size
    simp at this
  obtain ⟨ps, e, hm⟩ : ∃ ps : List Points, os.map (fun o => (h.obj o).array) = ps.map some ∧
      ∀ q ∈ ps, Spec.Moved p q := by
    clear hk hl
    induction os with
    | nil => exact ⟨[], rfl, by simp⟩
    | cons o os ih =>
      obtain ⟨ps, e, hm⟩ := ih fun o ho => hps o (List.mem_cons_of_mem _ ho)
      obtain ⟨q, hq, ht⟩ := hps o List.mem_cons_self
      refine ⟨q :: ps, by simp [e, hq], fun r hr => ?_⟩
      rcases List.mem_cons.1 hr with rfl | hr
      · exact ht
      · exact hm r hr
  have hlen : ps.length = os.length := by simpa using (congrArg List.length e).symm
  obtain ⟨arr, h1, h3, h2⟩ := group_form hl hk e fun q hq => by
    obtain ⟨t, rfl⟩ := hm q hq
    simpa using hp
  have hsum : ∀ F : Points → ℝ, ∀ c, (∀ q ∈ ps, F q = c) → (ps.map F).sum = os.length * c := by
    intro F c hc
    rw [← hlen, List.map_congr_left hc, List.map_const', List.sum_replicate, nsmul_eq_mul]
  refine ⟨arr, h1, ?_, fun f' hf' => ?_⟩
  · rw [h3, ← hlen]
    have : ps.map List.length = ps.map fun _ => p.length :=
      List.map_congr_left fun q hq => by
        obtain ⟨t, rfl⟩ := hm q hq
        simp
    rw [this, List.map_const', List.sum_replicate, smul_eq_mul]
  obtain ⟨U', hG⟩ := init_default hs' hf'
  have hpos : 0 < os.length := by
    rcases Nat.eq_zero_or_pos os.length with h0 | h0
    · have := hG.size
      have hz : ps = [] := List.length_eq_zero_iff.1 (hlen.trans h0)
      rw [h3, hz] at this
      simp at this
    · exact h0
  have hk' : (0 : ℝ) < os.length := by exact_mod_cast hpos
  have hsq := Real.sqrt_pos.2 hk'
  obtain ⟨hsv, hax⟩ := related_fits (R := 1) hF hG (by simp) hsq (by
    intro w
    rw [Real.sq_sqrt hk'.le, Matrix.one_mulVec, h2 hG.size]
    exact hsum _ _ fun q hq => form_moved hp (hm q hq) w)
  refine ⟨hsv, fun hlt s d e => ?_, fun sampling cl h0 h1 => ?_⟩
  · have hax' := hax hlt
    rw [Matrix.one_mulVec] at hax'
    rcases hax' with q | q
    · exact ⟨s, by rw [strikeDip, q]; exact e, fun _ _ => rfl, fun _ => .inl rfl⟩
    · obtain ⟨s', k1, k2, k3⟩ := strikeDip_neg (fit_axis_ne_zero hF 2) e
      exact ⟨s', by rw [strikeDip, q]; exact k1, k2, k3⟩
  · obtain ⟨x, y, e, hx, hy⟩ := C204_floor Q hQ svd' hs' _ f' hf' sampling cl h0 h1
    have hsc : ∀ j, Spec.scatterAngle f' j = Spec.scatterAngle f j := by
      intro j
      have := angle_smul (s := f.s j) (b := 0) (t := f.s 2) (k := 0) hsq
      rw [angle_zero (hF.svd.nonneg' _) (hF.svd.nonneg' _), mul_zero,
        angle_zero (mul_nonneg hsq.le (hF.svd.nonneg' _)) (mul_nonneg hsq.le (hF.svd.nonneg' _))]
        at this
      rw [Spec.scatterAngle, Spec.scatterAngle, hsv, hsv, this]
    rw [hsc] at hx hy
    exact ⟨x, y, e, hx, hy⟩

/-- Two traces of the same shape, the second five units higher. -/
example : ∃ (svd : SvdFn) (arr p : Points) (f : Fit p.length) (f' : Fit arr.length), svd.Valid ∧
    init svd p.get none none = .ok (some f) ∧
    ((newGroup (fun _ => "g") (Witness.traceHeap 200 35 [(![0, 0, 0], [(0, 0), (1, 0), (0, 2)]),
      (![0, 0, 5], [(0, 0), (1, 0), (0, 2)])]) [0, 1] false false).2.obj 2).array = some arr ∧
    init svd arr.get none none = .ok (some f') ∧ f'.s 0 = Real.sqrt 2 * f.s 0 := by
  obtain ⟨svd, hs⟩ := exists_valid_svd
  obtain ⟨hk, hl, hb⟩ := traces_group false 200 35 (![0, 0, 0], [(0, 0), (1, 0), (0, 2)])
    (![0, 0, 5], [(0, 0), (1, 0), (0, 2)]) (by simp)
  let p : Points := [(0, 0), (1, 0), (0, 2)].map fun q : ℝ × ℝ => Spec.inBed ![0, 0, 0] 200 35 q.1 q.2
  obtain ⟨f, hf⟩ := init_default_exists svd (by simp [p] : 3 ≤ p.length) p.get
  have hm : ∀ o ∈ [0, 1], ∃ q, ((Witness.traceHeap 200 35 [(![0, 0, 0], [(0, 0), (1, 0), (0, 2)]),
      (![0, 0, 5], [(0, 0), (1, 0), (0, 2)])]).obj o).array = some q ∧ Spec.Moved p q := by
    intro o ho
    rcases List.mem_cons.1 ho with rfl | ho
    · refine ⟨_, rfl, 0, ?_⟩
      simp [p]
    · obtain rfl := List.mem_singleton.1 ho
      refine ⟨_, rfl, ![0, 0, 5], ?_⟩
      simp only [p, List.map_map]
      refine List.map_congr_left fun q _ => ?_
      funext j
      fin_cases j <;> simp [Spec.inBed]
      ring
  obtain ⟨arr, h1, h2, h3⟩ := C219_copies Spec.quantiles2 Spec.quantiles2_ok svd svd hs hs hl hk p hm f hf
  obtain ⟨f', hf'⟩ := init_default_exists svd (by rw [h2]; simp [p]) arr.get
  exact ⟨svd, arr, p, f, f', hs, hf, h1, hf', by simpa using (h3 f' hf').1 0⟩

end Attitude.Props
