import Verif.Props.PcaGroups

/-!
# C213 - C214: groups of parallel beds
-/

namespace Attitude.Props

open Attitude Pca Matrix Grouping

/-! ## Helper lemmas -/

/-- The array of a group with `same_plane=False`, and the misfit of a fit of it. -/
lemma group_fit {svd : SvdFn} (hs : svd.Valid) {H : HashFn} {h : Heap} {os : List ℕ}
    (hl : Spec.Exists h os) {ex : Bool} {g : ℕ} (hk : (newGroup H h os false ex).1 = .ok g)
    {ps : List Points} (hps : os.map (fun o => (h.obj o).array) = ps.map some)
    (hpne : ∀ p ∈ ps, p ≠ []) :
    ∃ arr : Points, ((newGroup H h os false ex).2.obj g).array = some arr ∧
      arr.length = (ps.map List.length).sum ∧
      ∀ f, init svd arr.get none none = .ok (some f) →
        (∃ ds, ds.length = ps.length ∧ Spec.residualSum f = Spec.parallelMisfit ps f.normal ds) ∧
        ∀ m es, norm m = 1 → es.length = ps.length →
          Spec.residualSum f ≤ Spec.parallelMisfit ps m es := by
  obtain ⟨hm, ha, ms, ps', qs, arr, μ, h1, h2, h3, h4, h5, h6, -⟩ :=
    C43_group_has_member_data hl hk
  rw [hm] at h1
  cases h1
  have hps' : ps' = ps := by
    have : os.map (fun o => (h.obj o).array) = ps'.map some := by
      rw [← h2]
      exact List.map_congr_left fun o ho => (ha o (hl o ho)).symm
    rw [hps] at this
    exact (List.map_injective_iff.2 (Option.some_injective _) this).symm
  subst hps'
  have hcen : List.Forall₂ Spec.IsCentered ps' qs := by
    simp only [Bool.false_eq_true, if_false] at h3
    clear h2 h4 h5 h6 hps
    induction h3 with
    | nil => exact .nil
    | cons hc _ ih =>
      exact .cons (hc (hpne _ List.mem_cons_self))
        (ih fun p hp => hpne p (List.mem_cons_of_mem _ hp))
  have hq : ∀ m d, Spec.misfitOf arr m d = Spec.misfitOf qs.flatten m d := by
    intro m d; rw [h5]
  refine ⟨arr, h4, h6, fun f hf => ?_⟩
  obtain ⟨U, hF⟩ := init_default hs hf
  obtain ⟨_, _, c, hc, hbest⟩ := C06_best_fit svd hs arr.get f hf
  have hc0 : c = 0 := by
    rw [hF.mean] at hc
    cases hc
    funext j
    simp only [meanRows, List.get_eq_getElem]
    rw [Fin.sum_univ_fun_getElem arr fun v => v j, h5, sum_centered hcen j]
    simp
  have hres : Spec.residualSum f = Spec.misfitOf qs.flatten f.normal 0 := by
    have h1 := (C07_residuals_are_misfits svd hs arr.get f hf c hc).2.2.2
    rw [Spec.residualSum, h1, ← C06_misfit_value svd hs arr.get f hf c hc, hc0, misfit_get, hq]
    simp
  constructor
  · obtain ⟨ds, d1, d2, -⟩ := parallel_offsets hcen hpne f.normal
    exact ⟨ds, d1, by rw [hres, d2]⟩
  · intro m es hm he
    obtain ⟨_, -, -, hle2⟩ := parallel_offsets hcen hpne m
    refine le_trans ?_ (hle2 es he)
    have := residualSum_le hs hf hm 0
    rwa [misfit_get, hq] at this

/-- The array of a group with `same_plane=True`, and the misfit of a fit of it. -/
lemma group_fit_same {svd : SvdFn} (hs : svd.Valid) {H : HashFn} {h : Heap} {os : List ℕ}
    (hl : Spec.Exists h os) {ex : Bool} {g : ℕ} (hk : (newGroup H h os true ex).1 = .ok g)
    {ps : List Points} (hps : os.map (fun o => (h.obj o).array) = ps.map some) :
    ∃ arr : Points, ((newGroup H h os true ex).2.obj g).array = some arr ∧
      arr.length = (ps.map List.length).sum ∧
      ∀ f, init svd arr.get none none = .ok (some f) →
        (∃ d, Spec.residualSum f = (ps.map fun p => Spec.misfitOf p f.normal d).sum) ∧
        ∀ m e, norm m = 1 → Spec.residualSum f ≤ (ps.map fun p => Spec.misfitOf p m e).sum := by
  obtain ⟨hm, ha, ms, ps', qs, arr, μ, h1, h2, h3, h4, h5, h6, -⟩ :=
    C43_group_has_member_data hl hk
  rw [hm] at h1
  cases h1
  have hps' : ps' = ps := by
    have : os.map (fun o => (h.obj o).array) = ps'.map some := by
      rw [← h2]
      exact List.map_congr_left fun o ho => (ha o (hl o ho)).symm
    rw [hps] at this
    exact (List.map_injective_iff.2 (Option.some_injective _) this).symm
  subst hps'
  have hq : qs = ps' := by
    simp only [if_true] at h3
    clear h2 h4 h5 h6 hps
    induction h3 with
    | nil => rfl
    | cons hc _ ih => rw [hc, ih]
  have hq' : ∀ m d, Spec.misfitOf arr m d = (ps'.map fun p => Spec.misfitOf p m d).sum := by
    intro m d
    rw [h5, hq, misfitOf_flatten]
  refine ⟨arr, h4, h6, fun f hf => ⟨?_, fun m e hm => ?_⟩⟩
  · obtain ⟨d, hd⟩ := residualSum_eq hs hf
    exact ⟨d, by rw [hd, misfit_get, hq']⟩
  · have := residualSum_le hs hf hm e
    rwa [misfit_get, hq'] at this

lemma misfitOf_nonneg (p : Points) (m : Vec 3) (d : ℝ) : 0 ≤ Spec.misfitOf p m d := by
  apply List.sum_nonneg
  intro x hx
  obtain ⟨v, -, rfl⟩ := List.mem_map.1 hx
  exact sq_nonneg _

lemma misfitOf_zero {p : Points} {m : Vec 3} {d : ℝ} (h : Spec.misfitOf p m d ≤ 0) :
    ∀ v ∈ p, Spec.OnPlane m d v := by
  induction p with
  | nil => simp
  | cons w p ih =>
    have h1 : Spec.misfitOf (w :: p) m d = Spec.planeDist2 m d w + Spec.misfitOf p m d := by
      simp [Spec.misfitOf]
    have h2 := misfitOf_nonneg p m d
    have h3 : 0 ≤ Spec.planeDist2 m d w := sq_nonneg _
    intro v hv
    rcases List.mem_cons.1 hv with rfl | hv
    · have h4 : Spec.planeDist2 m d v = 0 := by linarith
      have h5 := pow_eq_zero_iff (two_ne_zero) |>.1 h4
      simp only [Spec.OnPlane]
      linarith
    · exact ih (by linarith) v hv

lemma parallelMisfit_nonneg (ps : List Points) (m : Vec 3) (ds : List ℝ) :
    0 ≤ Spec.parallelMisfit ps m ds := by
  induction ps generalizing ds with
  | nil => simp [Spec.parallelMisfit]
  | cons q ps ih =>
    obtain _ | ⟨e, ds⟩ := ds
    · simp [Spec.parallelMisfit]
    · have h1 := ih ds
      have h2 := misfitOf_nonneg q m e
      simp only [Spec.parallelMisfit, List.zipWith_cons_cons, List.sum_cons] at h1 ⊢
      linarith

lemma parallelMisfit_zero {ps : List Points} {m : Vec 3} {ds : List ℝ} (hl : ds.length = ps.length)
    (h : Spec.parallelMisfit ps m ds ≤ 0) : ∀ p ∈ ps, ∃ d, ∀ v ∈ p, Spec.OnPlane m d v := by
  induction ps generalizing ds with
  | nil => simp
  | cons q ps ih =>
    obtain _ | ⟨e, ds⟩ := ds
    · simp at hl
    · have e1 : Spec.parallelMisfit (q :: ps) m (e :: ds)
          = Spec.misfitOf q m e + Spec.parallelMisfit ps m ds := by
        simp [Spec.parallelMisfit]
      have h2 := parallelMisfit_nonneg ps m ds
      have h3 := misfitOf_nonneg q m e
      intro p hp
      rcases List.mem_cons.1 hp with rfl | hp
      · exact ⟨e, misfitOf_zero (by linarith)⟩
      · exact ih (by simpa using hl) (by linarith) p hp

/-! ## C213 -/

/-- Measurements on parallel beds of strike `s` and dip `d`: for each a point of its bed, and the
positions of its points along strike and down dip from there. -/
noncomputable def Spec.onBeds (s d : ℝ) (beds : List (Vec 3 × List (ℝ × ℝ))) : List Points :=
  beds.map fun b => b.2.map fun p => Spec.inBed b.1 s d p.1 p.2

/-- The traces do not all run along one direction. -/
def Spec.TracesDiffer (beds : List (Vec 3 × List (ℝ × ℝ))) : Prop :=
  ∀ u v : ℝ, (∀ b ∈ beds, ∀ p ∈ b.2, ∀ p' ∈ b.2, u * p.1 + v * p.2 = u * p'.1 + v * p'.2) →
    u = 0 ∧ v = 0

/-- A group of measurements on parallel beds gives back the strike and dip of the beds and has no
residuals, wherever the beds are.  Each measurement may be a straight line, for which no plane can be
fitted, as long as not all of them run in one direction. -/
theorem C213_parallel_beds (svd : SvdFn) (hs : svd.Valid) {H : HashFn} {h : Heap} {os : List ℕ}
    (hl : Spec.Exists h os) {ex : Bool} {g : ℕ} (hk : (newGroup H h os false ex).1 = .ok g)
    (s d : ℝ) (hs0 : 0 ≤ s) (hs1 : s < 360) (hd0 : 0 ≤ d) (hd1 : d ≤ 90)
    (beds : List (Vec 3 × List (ℝ × ℝ)))
    (hb : os.map (fun o => (h.obj o).array) = (Spec.onBeds s d beds).map some)
    (hne : ∀ b ∈ beds, b.2 ≠ []) (ht : Spec.TracesDiffer beds) :
    ∃ arr : Points, ((newGroup H h os false ex).2.obj g).array = some arr ∧
      ∀ f, init svd arr.get none none = .ok (some f) →
        Spec.residualSum f = 0 ∧ ∃ s', strikeDip f = some (s', d) ∧
          (0 < d → d < 90 → s' = s) ∧ (d = 90 → s' = s ∨ s' = s + 180 ∨ s' = s - 180) := by
  have hpne : ∀ p ∈ Spec.onBeds s d beds, p ≠ [] := by
    intro p hp
    obtain ⟨b, hb, rfl⟩ := List.mem_map.1 hp
    simpa using hne b hb
  obtain ⟨arr, h1, -, h2⟩ := group_fit hs hl hk hb hpne
  refine ⟨arr, h1, fun f hf => ?_⟩
  obtain ⟨⟨ds, d1, d2⟩, d3⟩ := h2 f hf
  obtain ⟨U, hF⟩ := init_default hs hf
  have hzero : Spec.residualSum f ≤ 0 := by
    have := d3 (sdNormal s d) (beds.map fun b => vdot (sdNormal s d) b.1) (norm_sdNormal s d)
      (by simp [Spec.onBeds])
    refine le_trans this (le_of_eq ?_)
    clear hb hne ht hpne h1 h2 d1 d2 d3 this
    induction beds with
    | nil => simp [Spec.parallelMisfit, Spec.onBeds]
    | cons b beds ih =>
      simp only [Spec.parallelMisfit, Spec.onBeds, List.map_cons, List.zipWith_cons_cons,
        List.sum_cons] at ih ⊢
      rw [ih, add_zero]
      apply List.sum_eq_zero
      intro x hx
      obtain ⟨v, hv, rfl⟩ := List.mem_map.1 hx
      obtain ⟨p, -, rfl⟩ := List.mem_map.1 hv
      have := onPlane_inBed b.1 s d p.1 p.2
      simp only [Spec.OnPlane] at this
      simp only [Spec.planeDist2, this, sub_self]
      norm_num
  have hnn : 0 ≤ Spec.residualSum f := Finset.sum_nonneg fun i _ => by positivity
  refine ⟨le_antisymm hzero hnn, ?_⟩
  have hplanes := parallelMisfit_zero d1 (by rw [← d2]; exact hzero)
  obtain ⟨hu0, hv0⟩ := ht (vdot f.normal (Spec.heading s))
    (vdot f.normal (Spec.plunging (s + 90) d)) (by
      intro b hb p hp p' hp'
      obtain ⟨e, he⟩ := hplanes _ (List.mem_map_of_mem hb)
      have e1 := he _ (List.mem_map_of_mem hp)
      have e2 := he _ (List.mem_map_of_mem hp')
      simp only [Spec.OnPlane, Spec.inBed] at e1 e2
      rw [vdot3, vdot3]
      linear_combination e1 - e2)
  refine strikeDip_of_sdNormal hF hs0 hs1 hd0 hd1 (eq_sdNormal (normal_unit hF) ?_ ?_)
  · rw [Spec.InPlane, ← vdot3]; exact hu0
  · rw [Spec.InPlane, ← vdot3]; exact hv0

/-- Two straight traces on beds of strike 200 and dip 35, one along strike and one down dip, the
second on a bed 5 units higher. -/
def Witness.traces : List (Vec 3 × List (ℝ × ℝ)) :=
  [(![0, 0, 0], [(0, 0), (1, 0), (2, 0)]), (![0, 0, 5], [(0, 0), (0, 1), (0, 3)])]

/-- Objects with these arrays. -/
noncomputable def Witness.traceHeap (s d : ℝ) (beds : List (Vec 3 × List (ℝ × ℝ))) : Heap :=
  ⟨2, fun a => if a = 0 then { array := (Spec.onBeds s d beds)[0]?, uid := some "a" }
    else { array := (Spec.onBeds s d beds)[1]?, uid := some "b" }⟩

lemma traces_group (sp : Bool) (s d : ℝ) (b₁ b₂ : Vec 3 × List (ℝ × ℝ))
    (hn : 3 ≤ b₁.2.length + b₂.2.length) :
    (newGroup (fun _ => "g") (Witness.traceHeap s d [b₁, b₂]) [0, 1] sp false).1 = .ok 2 ∧
    Spec.Exists (Witness.traceHeap s d [b₁, b₂]) [0, 1] ∧
    [0, 1].map (fun o => ((Witness.traceHeap s d [b₁, b₂]).obj o).array)
      = (Spec.onBeds s d [b₁, b₂]).map some := by
  refine ⟨?_, ?_, ?_⟩
  · cases sp <;> simp [newGroup, arraysOf, vstack, markMembers, Heap.alloc, Heap.set,
      Heap.setMemberOf, Witness.traceHeap, Spec.onBeds, centeredPts_length, not_lt.2 hn]
  · intro o ho
    simp at ho
    show o < 2
    omega
  · simp [Witness.traceHeap, Spec.onBeds]

/-- Neither of the two traces has a plane of its own, together they give strike and dip. -/
example : ∃ (svd : SvdFn) (arr : Points) (f : Fit arr.length), svd.Valid ∧
    ((newGroup (fun _ => "g") (Witness.traceHeap 200 35 Witness.traces) [0, 1] false false).2.obj
      2).array = some arr ∧
    init svd arr.get none none = .ok (some f) ∧ strikeDip f = some (200, 35) := by
  obtain ⟨svd, hs⟩ := exists_valid_svd
  obtain ⟨hk, hl, hb⟩ := traces_group false 200 35 (![0, 0, 0], [(0, 0), (1, 0), (2, 0)])
    (![0, 0, 5], [(0, 0), (0, 1), (0, 3)]) (by simp)
  obtain ⟨arr, ha, h⟩ := C213_parallel_beds svd hs hl hk 200 35 (by norm_num) (by norm_num)
    (by norm_num) (by norm_num) Witness.traces hb (by simp [Witness.traces]) (by
      intro u v h
      have h1 := h _ List.mem_cons_self (0, 0) (by simp) (1, 0) (by simp)
      have h2 := h (![0, 0, 5], [(0, 0), (0, 1), (0, 3)]) (by simp [Witness.traces])
        (0, 0) (by simp) (0, 1) (by simp)
      simp at h1 h2
      exact ⟨h1.symm, h2.symm⟩)
  obtain ⟨arr', ha', hlen, -⟩ := group_fit hs hl hk hb (by simp [Spec.onBeds])
  have e : arr' = arr := by
    have := ha.symm.trans ha'
    exact (Option.some_injective _ this).symm
  subst e
  obtain ⟨f, hf⟩ := init_default_exists svd (by rw [hlen]; simp [Spec.onBeds]) arr'.get
  obtain ⟨-, s', e, e', -⟩ := h f hf
  refine ⟨svd, arr', f, hs, ha, hf, ?_⟩
  rw [e, e' (by norm_num) (by norm_num)]

/-- With `same_plane=True` this is not so: two exact measurements of flat beds, ten units above each
other, are given a dip. -/
theorem C213_same_plane_false (svd : SvdFn) (hs : svd.Valid) :
    ∃ (h : Heap) (arr : Points) (beds : List (Vec 3 × List (ℝ × ℝ))),
      Spec.Exists h [0, 1] ∧ (newGroup (fun _ => "g") h [0, 1] true false).1 = .ok 2 ∧
      [0, 1].map (fun o => (h.obj o).array) = (Spec.onBeds 0 0 beds).map some ∧
      (∀ b ∈ beds, b.2 = [(0, 0), (1, 0), (0, 2)]) ∧
      ((newGroup (fun _ => "g") h [0, 1] true false).2.obj 2).array = some arr ∧ 3 ≤ arr.length ∧
      ∀ f, init svd arr.get none none = .ok (some f) →
        ∃ s' d', strikeDip f = some (s', d') ∧ 0 < d' := by
  obtain ⟨hk, hl, hb⟩ := traces_group true 0 0 (![0, 0, 0], [(0, 0), (1, 0), (0, 2)])
    (![0, 0, 10], [(0, 0), (1, 0), (0, 2)]) (by simp)
  obtain ⟨arr, h2, h3, h4⟩ := group_fit_same hs hl hk hb
  refine ⟨_, arr, _, hl, hk, hb, by simp, h2, by rw [h3]; simp [Spec.onBeds], fun f hf => ?_⟩
  obtain ⟨U, hF⟩ := init_default hs hf
  obtain ⟨⟨d, hd⟩, hbest⟩ := h4 f hf
  obtain ⟨s', d', e, a1, a2, a3, a4, a5⟩ := strikeDipOf_spec (fit_axis_ne_zero hF 2)
  rw [hF.svd.row_norm, one_smul, ← hF.normal] at a5
  refine ⟨s', d', e, lt_of_le_of_ne a3 fun h0 => ?_⟩
  have hv : f.normal = ![0, 0, 1] := by
    rw [← a5, ← h0]
    funext j
    fin_cases j <;> simp [sdNormal, radians]
  have := hbest ![0, 1, 0] 0 (by simp [norm, Fin.sum_univ_three])
  rw [hd, hv] at this
  have hp : Spec.plunging 90 0 = ![1, 0, 0] := by
    have := plunging_eq 0 0
    rw [zero_add] at this
    rw [this]
    simp [radians]
  simp [Spec.onBeds, Spec.misfitOf, Spec.planeDist2, Spec.inBed, heading_eq, hp, radians] at this
  nlinarith [sq_nonneg (d - 5)]

/-! ## C214 -/

lemma parallelMisfit_eq_sum (ps : List Points) (m : Vec 3) (ds : List ℝ) (hl : ds.length = ps.length) :
    Spec.parallelMisfit ps m ds = ∑ k : Fin ps.length, Spec.misfit (ps.get k).get m (ds.getD k 0) := by
  induction ps generalizing ds with
  | nil => simp [Spec.parallelMisfit]
  | cons q ps ih =>
    obtain _ | ⟨e, ds⟩ := ds
    · simp at hl
    · have := ih ds (by simpa using hl)
      simp only [Spec.parallelMisfit, List.zipWith_cons_cons, List.sum_cons] at this ⊢
      rw [this, ← misfit_get]
      exact (Fin.sum_univ_succ (n := ps.length) fun k : Fin (ps.length + 1) =>
        Spec.misfit ((q :: ps).get k).get m ((e :: ds).getD k 0)).symm

/-- The residuals of a group are in total at least those of its members fitted separately.  They are
the same exactly if the orientation of the group is a best one for each of the members. -/
theorem C214_members (svd : SvdFn) (hs : svd.Valid) {H : HashFn} {h : Heap} {os : List ℕ}
    (hl : Spec.Exists h os) {ex : Bool} {g : ℕ} (hk : (newGroup H h os false ex).1 = .ok g)
    (ps : List Points) (hps : os.map (fun o => (h.obj o).array) = ps.map some)
    (fits : ∀ k : Fin ps.length, Fit (ps.get k).length)
    (hfits : ∀ k, init svd (ps.get k).get none none = .ok (some (fits k))) :
    ∃ arr : Points, ((newGroup H h os false ex).2.obj g).array = some arr ∧
      ∀ f, init svd arr.get none none = .ok (some f) →
        ∑ k, Spec.residualSum (fits k) ≤ Spec.residualSum f ∧
        (Spec.residualSum f = ∑ k, Spec.residualSum (fits k) ↔
          ∀ k, ∃ d, ∀ m e, norm m = 1 →
            Spec.misfit (ps.get k).get f.normal d ≤ Spec.misfit (ps.get k).get m e) := by
  have hpne : ∀ p ∈ ps, p ≠ [] := by
    intro p hp e
    obtain ⟨k, hk⟩ := List.get_of_mem hp
    obtain ⟨U, hF⟩ := init_default hs (hfits k)
    have := hF.size
    rw [hk, e] at this
    simp at this
  obtain ⟨arr, h1, -, h2⟩ := group_fit hs hl hk hps hpne
  refine ⟨arr, h1, fun f hf => ?_⟩
  obtain ⟨⟨ds, d1, d2⟩, d3⟩ := h2 f hf
  obtain ⟨U, hF⟩ := init_default hs hf
  rw [parallelMisfit_eq_sum _ _ _ d1] at d2
  have hle : ∀ k, Spec.residualSum (fits k) ≤ Spec.misfit (ps.get k).get f.normal (ds.getD k 0) :=
    fun k => residualSum_le hs (hfits k) (normal_unit hF) _
  have hsum : ∑ k, Spec.residualSum (fits k) ≤ Spec.residualSum f := by
    rw [d2]
    exact Finset.sum_le_sum fun k _ => hle k
  refine ⟨hsum, fun heq k => ⟨ds.getD k 0, fun m e hm => ?_⟩, fun hall => ?_⟩
  · rw [d2] at heq
    have := (Finset.sum_eq_sum_iff_of_le fun k _ => hle k).1 heq.symm k (Finset.mem_univ k)
    rw [← this]
    exact residualSum_le hs (hfits k) hm e
  · apply le_antisymm _ hsum
    choose es hes using hall
    have := d3 f.normal (List.ofFn es) (normal_unit hF) (by simp)
    rw [parallelMisfit_eq_sum _ _ _ (by simp)] at this
    refine le_trans this (Finset.sum_le_sum fun k _ => ?_)
    obtain ⟨Uk, hFk⟩ := init_default hs (hfits k)
    obtain ⟨d, hd⟩ := residualSum_eq hs (hfits k)
    rw [hd]
    have e : (List.ofFn es).getD k 0 = es k := by simp
    rw [e]
    exact hes k _ d (normal_unit hFk)

/-- One plane through all members fits no better than parallel planes, one for each. -/
theorem C214_one_plane (svd svd' : SvdFn) (hs : svd.Valid) (hs' : svd'.Valid) {H : HashFn} {h : Heap}
    {os : List ℕ} (hl : Spec.Exists h os) {ex : Bool} {g g' : ℕ}
    (hk : (newGroup H h os false ex).1 = .ok g) (hk' : (newGroup H h os true ex).1 = .ok g')
    (hne : ∀ o ∈ os, (h.obj o).array ≠ some []) :
    ∃ arr arr' : Points, ((newGroup H h os false ex).2.obj g).array = some arr ∧
      ((newGroup H h os true ex).2.obj g').array = some arr' ∧
      ∀ f f', init svd arr.get none none = .ok (some f) →
        init svd' arr'.get none none = .ok (some f') →
        Spec.residualSum f ≤ Spec.residualSum f' := by
  obtain ⟨ps, -, hps, -⟩ := C180_parallel_planes svd hs hl hk hne
  have hpne : ∀ p ∈ ps, p ≠ [] := by
    intro p hp e
    have : some p ∈ ps.map some := List.mem_map_of_mem hp
    rw [← hps, e] at this
    obtain ⟨o, ho, he⟩ := List.mem_map.1 this
    exact hne o ho he
  obtain ⟨arr, h1, -, h2⟩ := group_fit hs hl hk hps hpne
  obtain ⟨arr', h1', -, h2'⟩ := group_fit_same hs' hl hk' hps
  refine ⟨arr, arr', h1, h1', fun f f' hf hf' => ?_⟩
  obtain ⟨⟨d, hd⟩, -⟩ := h2' f' hf'
  obtain ⟨-, hbest⟩ := h2 f hf
  obtain ⟨U, hF⟩ := init_default hs' hf'
  have := hbest f'.normal (ps.map fun _ => d) (normal_unit hF) (by simp)
  rw [hd]
  refine le_trans this (le_of_eq ?_)
  rw [Spec.parallelMisfit, List.zipWith_map_right, List.zipWith_self]

/-- Two measurements on beds of strike 200 and dip 35, three points each. -/
def Witness.triangles : List (Vec 3 × List (ℝ × ℝ)) :=
  [(![0, 0, 0], [(0, 0), (3, 0), (1, 2)]), (![0, 0, 5], [(0, 0), (1, 0), (0, 4)])]

/-- They meet the hypotheses of both theorems. -/
example : ∃ (svd : SvdFn) (h : Heap) (ps : List Points)
    (fits : ∀ k : Fin ps.length, Fit (ps.get k).length), svd.Valid ∧ Spec.Exists h [0, 1] ∧
    (newGroup (fun _ => "g") h [0, 1] false false).1 = .ok 2 ∧
    (newGroup (fun _ => "g") h [0, 1] true false).1 = .ok 2 ∧
    [0, 1].map (fun o => (h.obj o).array) = ps.map some ∧
    (∀ o ∈ [0, 1], (h.obj o).array ≠ some []) ∧
    ∀ k, init svd (ps.get k).get none none = .ok (some (fits k)) := by
  obtain ⟨svd, hs⟩ := exists_valid_svd
  obtain ⟨hk, hl, hb⟩ := traces_group false 200 35 (![0, 0, 0], [(0, 0), (3, 0), (1, 2)])
    (![0, 0, 5], [(0, 0), (1, 0), (0, 4)]) (by simp)
  obtain ⟨hk', -, -⟩ := traces_group true 200 35 (![0, 0, 0], [(0, 0), (3, 0), (1, 2)])
    (![0, 0, 5], [(0, 0), (1, 0), (0, 4)]) (by simp)
  have hex : ∀ k : Fin (Spec.onBeds 200 35 Witness.triangles).length,
      ∃ f, init svd ((Spec.onBeds 200 35 Witness.triangles).get k).get none none = .ok (some f) := by
    intro k
    apply init_default_exists
    have := List.get_mem (Spec.onBeds 200 35 Witness.triangles) k
    simp only [Spec.onBeds, Witness.triangles, List.map_cons, List.map_nil, List.mem_cons,
      List.not_mem_nil, or_false] at this
    simp only [Spec.onBeds, Witness.triangles, List.map_cons, List.map_nil]
    rcases this with h | h <;> rw [h] <;> simp
  choose fits hfits using hex
  refine ⟨svd, _, _, fits, hs, hl, hk, hk', hb, ?_, hfits⟩
  intro o ho
  simp at ho
  rcases ho with rfl | rfl <;> simp [Witness.traceHeap, Spec.onBeds]

end Attitude.Props
