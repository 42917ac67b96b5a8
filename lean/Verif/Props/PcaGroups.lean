import Verif.Props.PcaMotion
import Verif.Props.Grouping

/-!
# C179 - C180: fits of more data: additional points and groups
-/

namespace Attitude.Props

open Attitude Pca Matrix

/-! ## C179 -/

/-- The sum of the squared residuals of a fit. -/
def Spec.residualSum {n : ℕ} (f : Fit n) : ℝ :=
  ∑ i, (residuals f i 0 ^ 2 + residuals f i 1 ^ 2 + residuals f i 2 ^ 2)

lemma residualSum_le {svd : SvdFn} (hs : svd.Valid) {n : ℕ} {a : Fin n → Vec 3} {f : Fit n}
    (hf : init svd a none none = .ok (some f)) {m : Vec 3} (hm : norm m = 1) (d : ℝ) :
    Spec.residualSum f ≤ Spec.misfit a m d := by
  obtain ⟨_, _, c, hc, hbest⟩ := C06_best_fit svd hs a f hf
  have h1 := (C07_residuals_are_misfits svd hs a f hf c hc).2.2.2
  rw [Spec.residualSum, h1, ← C06_misfit_value svd hs a f hf c hc]
  exact hbest m d hm

lemma residualSum_eq {svd : SvdFn} (hs : svd.Valid) {n : ℕ} {a : Fin n → Vec 3} {f : Fit n}
    (hf : init svd a none none = .ok (some f)) :
    ∃ d, Spec.residualSum f = Spec.misfit a f.normal d := by
  obtain ⟨_, _, c, hc, hbest⟩ := C06_best_fit svd hs a f hf
  have h1 := (C07_residuals_are_misfits svd hs a f hf c hc).2.2.2
  exact ⟨_, by rw [Spec.residualSum, h1, ← C06_misfit_value svd hs a f hf c hc]⟩

/-- Adding points to a measurement never reduces the sum of the squared residuals, and it stays the
same only if the new plane is a best plane of the old points that contains all the new ones. -/
theorem C179_more_points (svd svd' : SvdFn) (hs : svd.Valid) (hs' : svd'.Valid) {m n : ℕ}
    (φ : Fin n → Fin m) (hφ : Function.Injective φ) (b : Fin m → Vec 3) (f : Fit n) (g : Fit m)
    (hf : init svd (fun i => b (φ i)) none none = .ok (some f))
    (hg : init svd' b none none = .ok (some g)) :
    Spec.residualSum f ≤ Spec.residualSum g ∧
      (Spec.residualSum f = Spec.residualSum g → ∃ d,
        Spec.misfit (fun i => b (φ i)) g.normal d = Spec.residualSum f ∧
        ∀ j, (∀ i, φ i ≠ j) → Spec.OnPlane g.normal d (b j)) := by
  obtain ⟨U', h'⟩ := init_default hs' hg
  obtain ⟨d, hd⟩ := residualSum_eq hs' hg
  have h1 := residualSum_le hs hf (normal_unit h') d
  have hsplit : Spec.misfit b g.normal d = Spec.misfit (fun i => b (φ i)) g.normal d
      + ∑ j ∈ Finset.univ.filter (fun j => ∀ i, φ i ≠ j), Spec.planeDist2 g.normal d (b j) := by
    unfold Spec.misfit
    have e : (Finset.univ.image φ : Finset (Fin m))
        = Finset.univ.filter (fun j => ¬ ∀ i, φ i ≠ j) := by
      ext j
      simp
    rw [← Finset.sum_filter_add_sum_filter_not Finset.univ (fun j => ∀ i, φ i ≠ j), add_comm, ← e,
      Finset.sum_image fun _ _ _ _ h => hφ h]
  have hnn : ∀ j ∈ Finset.univ.filter (fun j => ∀ i, φ i ≠ j), 0 ≤ Spec.planeDist2 g.normal d (b j) :=
    fun j _ => sq_nonneg _
  have hpos := Finset.sum_nonneg hnn
  refine ⟨by linarith, fun heq => ⟨d, by linarith, fun j hj => ?_⟩⟩
  have h0 := (Finset.sum_eq_zero_iff_of_nonneg hnn).1 (by linarith) j
    (Finset.mem_filter.2 ⟨Finset.mem_univ j, hj⟩)
  have := pow_eq_zero_iff two_ne_zero |>.1 h0
  unfold Spec.OnPlane
  linarith

example : ∃ (svd : SvdFn) (f : Fit 3) (g : Fit 4), svd.Valid ∧
    init svd (fun i : Fin 3 => Witness.tilted i.castSucc) none none = .ok (some f) ∧
    init svd Witness.tilted none none = .ok (some g) ∧
    Function.Injective (Fin.castSucc : Fin 3 → Fin 4) := by
  obtain ⟨svd, g, hs, hg, _⟩ := Witness.exists_tilted
  obtain ⟨f, hf⟩ := init_default_exists svd (le_refl 3) (fun i : Fin 3 => Witness.tilted i.castSucc)
  exact ⟨svd, f, g, hs, hf, hg, Fin.castSucc_injective 3⟩

/-! ## C180 -/

open Grouping

/-- Sum of squared distances of a list of points from a plane. -/
def Spec.misfitOf (p : Points) (m : Vec 3) (d : ℝ) : ℝ := (p.map (Spec.planeDist2 m d)).sum

/-- Sum of squared distances of the points of several measurements, each from its own plane; the
planes are parallel (normal `m`) and have the offsets `ds`. -/
def Spec.parallelMisfit (ps : List Points) (m : Vec 3) (ds : List ℝ) : ℝ :=
  (List.zipWith (fun p d => Spec.misfitOf p m d) ps ds).sum

lemma misfit_get (p : Points) (m : Vec 3) (d : ℝ) : Spec.misfit p.get m d = Spec.misfitOf p m d := by
  simp only [Spec.misfit, Spec.misfitOf, List.get_eq_getElem]
  exact Fin.sum_univ_fun_getElem p _

lemma meanRows_get {p : Points} (hp : p ≠ []) {μ : Vec 3} (h : Spec.IsMean p μ) :
    meanRows p.get = μ := by
  funext j
  have hl : (p.length : ℝ) ≠ 0 := by
    have : p.length ≠ 0 := by simpa using hp
    exact_mod_cast this
  simp only [meanRows, List.get_eq_getElem]
  rw [Fin.sum_univ_fun_getElem p fun v => v j, ← h j]
  field_simp

lemma misfitOf_mean_le {p : Points} (hp : p ≠ []) {μ : Vec 3} (h : Spec.IsMean p μ) (m : Vec 3)
    (d : ℝ) : Spec.misfitOf p m (m 0 * μ 0 + m 1 * μ 1 + m 2 * μ 2) ≤ Spec.misfitOf p m d := by
  rw [← misfit_get, ← misfit_get, misfit_split, misfit_split, meanRows_get hp h]
  have : 0 ≤ (p.length : ℝ) * (m 0 * μ 0 + m 1 * μ 1 + m 2 * μ 2 - d) ^ 2 := by positivity
  rw [sub_self]
  linarith

lemma misfitOf_shift (p : Points) (μ m : Vec 3) :
    Spec.misfitOf (p.map fun v j => v j - μ j) m 0
      = Spec.misfitOf p m (m 0 * μ 0 + m 1 * μ 1 + m 2 * μ 2) := by
  simp only [Spec.misfitOf, List.map_map]
  congr 1
  apply List.map_congr_left
  intro v _
  simp only [Function.comp, Spec.planeDist2]
  ring

lemma misfitOf_flatten (qs : List Points) (m : Vec 3) (d : ℝ) :
    Spec.misfitOf qs.flatten m d = (qs.map fun q => Spec.misfitOf q m d).sum := by
  induction qs with
  | nil => simp [Spec.misfitOf]
  | cons q qs ih =>
    simp only [List.flatten_cons, List.map_cons, List.sum_cons, ← ih]
    simp [Spec.misfitOf]

lemma isMean_unique {p : Points} (hp : p ≠ []) {μ ν : Vec 3} (h : Spec.IsMean p μ)
    (h' : Spec.IsMean p ν) : μ = ν := by
  rw [← meanRows_get hp h, meanRows_get hp h']

/-- For every orientation the best offsets go through the means of the members. -/
lemma parallel_offsets {ps qs : List Points} (h : List.Forall₂ Spec.IsCentered ps qs)
    (hne : ∀ p ∈ ps, p ≠ []) (m : Vec 3) :
    ∃ ds : List ℝ, ds.length = ps.length ∧
      Spec.parallelMisfit ps m ds = Spec.misfitOf qs.flatten m 0 ∧
      ∀ es : List ℝ, es.length = ps.length →
        Spec.misfitOf qs.flatten m 0 ≤ Spec.parallelMisfit ps m es := by
  induction h with
  | nil => exact ⟨[], rfl, by simp [Spec.parallelMisfit, Spec.misfitOf], fun es he => by
      simp [Spec.parallelMisfit, Spec.misfitOf]⟩
  | @cons p q ps qs hc _ ih =>
    obtain ⟨ds, h1, h2, h3⟩ := ih fun p' hp' => hne p' (List.mem_cons_of_mem _ hp')
    obtain ⟨μ, hμ, rfl⟩ := hc
    have hp := hne p List.mem_cons_self
    rw [misfitOf_flatten] at h2 h3
    simp only [misfitOf_flatten, List.map_cons, List.sum_cons, misfitOf_shift]
    refine ⟨(m 0 * μ 0 + m 1 * μ 1 + m 2 * μ 2) :: ds, by simp [h1], ?_, fun es he => ?_⟩
    · rw [← h2]
      simp [Spec.parallelMisfit]
    · obtain _ | ⟨e, es⟩ := es
      · simp at he
      · have := h3 es (by simpa using he)
        have h4 := misfitOf_mean_le hp hμ m e
        simp only [Spec.parallelMisfit, List.zipWith_cons_cons, List.sum_cons] at this ⊢
        linarith

lemma sum_centered {ps qs : List Points} (h : List.Forall₂ Spec.IsCentered ps qs) (j : Fin 3) :
    (qs.flatten.map fun v => v j).sum = 0 := by
  induction h with
  | nil => simp
  | @cons p q ps qs hc _ ih =>
    obtain ⟨μ, hμ, rfl⟩ := hc
    simp only [List.flatten_cons, List.map_append, List.sum_append, ih, add_zero, List.map_map]
    have e : ∀ p : Points, (p.map ((fun v : Vec 3 => v j) ∘ fun v j => v j - μ j)).sum
        = (p.map fun v => v j).sum - p.length * μ j := by
      intro p
      induction p with
      | nil => simp
      | cons v p ih => simp only [List.map_cons, List.sum_cons, ih, Function.comp,
          List.length_cons, Nat.cast_add, Nat.cast_one]; ring
    rw [e, hμ j, sub_self]

/-- A group with `same_plane=False` (the default) finds the best common orientation of parallel
planes: with suitable offsets, one for each member, planes with the fitted normal have the least sum
of squared distances from the points of the members, over all orientations and all offsets. -/
theorem C180_parallel_planes (svd : SvdFn) (hs : svd.Valid) {H : HashFn} {h : Heap} {os : List ℕ}
    (hl : Spec.Exists h os) {ex : Bool} {g : ℕ} (hk : (newGroup H h os false ex).1 = .ok g)
    (hne : ∀ o ∈ os, (h.obj o).array ≠ some []) :
    ∃ (ps : List Points) (arr : Points), os.map (fun o => (h.obj o).array) = ps.map some ∧
      ((newGroup H h os false ex).2.obj g).array = some arr ∧
      ∀ f, init svd arr.get none none = .ok (some f) →
        ∃ ds, ds.length = ps.length ∧ ∀ m es, norm m = 1 → es.length = ps.length →
          Spec.parallelMisfit ps f.normal ds ≤ Spec.parallelMisfit ps m es := by
  obtain ⟨hm, ha, ms, ps, qs, arr, μ, h1, h2, h3, h4, h5, h6, -⟩ :=
    C43_group_has_member_data hl hk
  rw [hm] at h1
  cases h1
  have hps : os.map (fun o => (h.obj o).array) = ps.map some := by
    rw [← h2]
    exact List.map_congr_left fun o ho => (ha o (hl o ho)).symm
  have hpne : ∀ p ∈ ps, p ≠ [] := by
    intro p hp e
    have : some p ∈ ps.map some := List.mem_map_of_mem hp
    rw [← hps, e] at this
    obtain ⟨o, ho, he⟩ := List.mem_map.1 this
    exact hne o ho he
  have hcen : List.Forall₂ Spec.IsCentered ps qs := by
    simp only [Bool.false_eq_true, if_false] at h3
    clear h2 h4 h5 h6 hps
    induction h3 with
    | nil => exact .nil
    | cons hc _ ih =>
      exact .cons (hc (hpne _ List.mem_cons_self))
        (ih fun p hp => hpne p (List.mem_cons_of_mem _ hp))
  refine ⟨ps, arr, hps, h4, fun f hf => ?_⟩
  obtain ⟨ds, d1, d2, -⟩ := parallel_offsets hcen hpne f.normal
  refine ⟨ds, d1, fun m es hm he => ?_⟩
  obtain ⟨_, -, -, hle2⟩ := parallel_offsets hcen hpne m
  rw [d2]
  refine le_trans ?_ (hle2 es he)
  obtain ⟨hu, _, c, hc, hbest⟩ := C06_best_fit svd hs arr.get f hf
  obtain ⟨U, hF⟩ := init_default hs hf
  have hc0 : c = 0 := by
    rw [hF.mean] at hc
    cases hc
    funext j
    simp only [meanRows, List.get_eq_getElem]
    rw [Fin.sum_univ_fun_getElem arr fun v => v j, h5, sum_centered hcen j]
    simp
  have := hbest m 0 hm
  rw [hc0, misfit_get, misfit_get] at this
  subst h5
  simpa using this

/-- Two measurements of parallel beds. -/
noncomputable def twoBeds : Heap :=
  ⟨2, fun a => if a = 0 then { array := some (List.ofFn Witness.tilted), uid := some "a" }
    else { array := some (List.ofFn fun i j => Witness.tilted i j + 5), uid := some "b" }⟩

lemma twoBeds_group : (newGroup (fun _ => "g") twoBeds [0, 1] false false).1 = .ok 2 := by
  simp [newGroup, arraysOf, vstack, markMembers, Heap.alloc, Heap.set, Heap.setMemberOf, twoBeds,
    centeredPts_length]

example : ∃ svd : SvdFn, svd.Valid ∧ Spec.Exists twoBeds [0, 1] ∧
    (newGroup (fun _ => "g") twoBeds [0, 1] false false).1 = .ok 2 ∧
    (∀ o ∈ [0, 1], (twoBeds.obj o).array ≠ some []) ∧
    ∃ arr f, ((newGroup (fun _ => "g") twoBeds [0, 1] false false).2.obj 2).array = some arr ∧
      init svd arr.get none none = .ok (some f) := by
  obtain ⟨svd, hs⟩ := exists_valid_svd
  have he : Spec.Exists twoBeds [0, 1] := by
    intro o ho
    simp at ho
    show o < 2
    omega
  have hne : ∀ o ∈ [0, 1], (twoBeds.obj o).array ≠ some [] := by
    intro o ho
    simp at ho
    rcases ho with rfl | rfl <;> simp [twoBeds]
  obtain ⟨hm, ha, ms, ps, qs, arr, μ, h1, h2, h3, h4, h5, h6, -⟩ :=
    C43_group_has_member_data he twoBeds_group
  rw [hm] at h1
  cases h1
  have hlen : 3 ≤ arr.length := by
    obtain ⟨p, hp⟩ : ∃ p, p ∈ ps ∧ p.length = 4 := by
      have e : (List.map (fun a => (twoBeds.obj a).array) [0, 1]) = ps.map some := by
        rw [← h2]
        exact List.map_congr_left fun o ho => (ha o (he o ho)).symm
      have : some (List.ofFn Witness.tilted) ∈ ps.map some := by
        rw [← e]
        simp [twoBeds]
      obtain ⟨p, hp, e⟩ := List.mem_map.1 this
      cases e
      exact ⟨_, hp, by simp⟩
    have := List.single_le_sum (l := ps.map List.length) (fun _ _ => Nat.zero_le _) p.length
      (List.mem_map_of_mem hp.1)
    omega
  obtain ⟨f, hf⟩ := init_default_exists svd hlen arr.get
  exact ⟨svd, hs, he, twoBeds_group, hne, arr, f, h4, hf⟩

/-- A group with `same_plane=True` is the best single plane through all the points of its members. -/
theorem C180_same_plane (svd : SvdFn) (hs : svd.Valid) {H : HashFn} {h : Heap} {os : List ℕ}
    (hl : Spec.Exists h os) {ex : Bool} {g : ℕ} (hk : (newGroup H h os true ex).1 = .ok g) :
    ∃ (ps : List Points) (arr : Points), os.map (fun o => (h.obj o).array) = ps.map some ∧
      ((newGroup H h os true ex).2.obj g).array = some arr ∧
      ∀ f, init svd arr.get none none = .ok (some f) →
        ∃ d, ∀ m e, norm m = 1 →
          (ps.map fun p => Spec.misfitOf p f.normal d).sum
            ≤ (ps.map fun p => Spec.misfitOf p m e).sum := by
  obtain ⟨hm, ha, ms, ps, qs, arr, μ, h1, h2, h3, h4, h5, h6, -⟩ :=
    C43_group_has_member_data hl hk
  rw [hm] at h1
  cases h1
  have hps : os.map (fun o => (h.obj o).array) = ps.map some := by
    rw [← h2]
    exact List.map_congr_left fun o ho => (ha o (hl o ho)).symm
  have hq : qs = ps := by
    simp only [if_true] at h3
    clear h2 h4 h5 h6 hps
    induction h3 with
    | nil => rfl
    | cons hc _ ih => rw [hc, ih]
  subst hq
  refine ⟨qs, arr, hps, h4, fun f hf => ?_⟩
  obtain ⟨hu, _, c, hc, hbest⟩ := C06_best_fit svd hs arr.get f hf
  refine ⟨f.normal 0 * c 0 + f.normal 1 * c 1 + f.normal 2 * c 2, fun m e hm => ?_⟩
  rw [← misfitOf_flatten, ← misfitOf_flatten]
  subst h5
  rw [← misfit_get, ← misfit_get]
  exact hbest m e hm

example : (newGroup (fun _ => "g") twoBeds [0, 1] true false).1 = .ok 2 ∧
    Spec.Exists twoBeds [0, 1] := by
  constructor
  · simp [newGroup, arraysOf, vstack, markMembers, Heap.alloc, Heap.set, Heap.setMemberOf, twoBeds]
  · intro o ho
    simp at ho
    show o < 2
    omega

end Attitude.Props
