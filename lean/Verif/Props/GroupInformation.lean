import Verif.Props.GroupCopies

/-!
# C221: members of a group that carry no information
-/

namespace Attitude.Props

open Attitude Pca Matrix Grouping ErrorAxes

/-! ## Specification -/

/-- All points of a measurement are at one place: they say nothing about any plane. -/
def Spec.OnePlace (p : Points) : Prop := p ≠ [] ∧ ∃ v, ∀ q ∈ p, q = v

/-! ## Helper lemmas -/

lemma form_onePlace {p : Points} (h : Spec.OnePlace p) (w : Vec 3) :
    ∑ i, (Matrix.of (Coordinates.centered p.get) *ᵥ w) i ^ 2 = 0 := by
  obtain ⟨hp, v, hv⟩ := h
  have hl : (p.length : ℝ) ≠ 0 := by
    have : p.length ≠ 0 := by simpa using hp
    exact_mod_cast this
  have hg : p.get = fun _ => v := funext fun i => hv _ (List.get_mem p i)
  rw [hg]
  refine Finset.sum_eq_zero fun i _ => ?_
  have : ∀ j, Coordinates.centered (fun _ : Fin p.length => v) i j = 0 := by
    intro j
    simp [Coordinates.centered, meanRows, hl]
  simp [Matrix.mulVec, dotProduct, this]

lemma relativeError_lt (sampling : Bool) {n m : ℕ} (hn : 3 ≤ n) (hnm : n < m) {z z' : ℝ}
    (hz0 : 0 < z) (hz' : 0 ≤ z') (hz : z' ≤ z) :
    relativeError sampling m z' < relativeError sampling n z := by
  have hn' : (3 : ℝ) ≤ n := by exact_mod_cast hn
  have hm' : (n : ℝ) < m := by exact_mod_cast hnm
  unfold relativeError
  split_ifs
  · refine mul_lt_mul' hz ?_ (Real.sqrt_nonneg _) hz0
    apply Real.sqrt_lt_sqrt (div_nonneg (by norm_num) (by linarith))
    exact div_lt_div_of_pos_left (by norm_num) (by linarith) (by linarith)
  · have h1 : 0 < Real.sqrt ((n : ℝ) - 2) := Real.sqrt_pos.2 (by linarith)
    have h2 : Real.sqrt ((n : ℝ) - 2) < Real.sqrt ((m : ℝ) - 2) :=
      Real.sqrt_lt_sqrt (by linarith) (by linarith)
    rw [div_lt_div_iff₀ (h1.trans h2) h1]
    have := mul_lt_mul_of_pos_left h2 hz0
    nlinarith

lemma errorAngle_lt_factor {s b t k k' : ℝ} (ht : 0 < t) (hs : 0 < s) (hb : 0 ≤ b) (hk' : 0 ≤ k')
    (hkk : k' < k) (hk : k * b ≤ s) : errorAngle s b t k' < errorAngle s b t k := by
  unfold errorAngle
  have h1 : t * (t + k' * t) < t * (t + k * t) := by
    have := mul_lt_mul_of_pos_right hkk (mul_pos ht ht)
    nlinarith
  have hpos : 0 < t * (t + k' * t) := mul_pos ht (by nlinarith [mul_nonneg hk' ht.le])
  have h2 : k' * b ≤ k * b := mul_le_mul_of_nonneg_right hkk.le hb
  have h3 : s * |s - k * b| ≤ s * |s - k' * b| := by
    rw [abs_of_nonneg (by linarith), abs_of_nonneg (by linarith)]
    exact mul_le_mul_of_nonneg_left (by linarith) hs.le
  have n1 : 0 < Real.sqrt (t * (t + k' * t)) := Real.sqrt_pos.2 hpos
  have n2 : Real.sqrt (t * (t + k' * t)) < Real.sqrt (t * (t + k * t)) :=
    Real.sqrt_lt_sqrt hpos.le h1
  have d1 := Real.sqrt_le_sqrt h3
  rcases (Real.sqrt_nonneg (s * |s - k * b|)).lt_or_eq with h0 | h0
  · rw [arctan2_of_pos _ h0, arctan2_of_pos _ (h0.trans_le d1)]
    apply Real.arctan_strictMono
    exact div_lt_div₀ n2 d1 (n1.trans n2).le h0
  · rcases (Real.sqrt_nonneg (s * |s - k' * b|)).lt_or_eq with h0' | h0'
    · rw [arctan2_of_pos _ h0', ← h0]
      have : arctan2 (Real.sqrt (t * (t + k * t))) 0 = Real.pi / 2 := by
        rw [arctan2, Complex.arg_eq_pi_div_two_iff]
        exact ⟨rfl, n1.trans n2⟩
      rw [this]
      exact Real.arctan_lt_pi_div_two _
    · -- then `k * b = s = k' * b`, which is not so
      have e : s * |s - k' * b| = 0 := (Real.sqrt_eq_zero (by positivity)).1 h0'.symm
      have e' : s * |s - k * b| = 0 := (Real.sqrt_eq_zero (by positivity)).1 h0.symm
      simp only [mul_eq_zero, hs.ne', false_or, abs_eq_zero] at e e'
      have : (k - k') * b = 0 := by linarith
      rcases mul_eq_zero.1 this with h | h
      · linarith
      · rw [h] at e; linarith

/-- The arrays of a group with and without a member at one place. -/
lemma group_added {H : HashFn} {h : Heap} {os : List ℕ} {o : ℕ} (hl : Spec.Exists h (os ++ [o]))
    {ex : Bool} {g g' : ℕ} (hk : (newGroup H h os false ex).1 = .ok g)
    (hk' : (newGroup H h (os ++ [o]) false ex).1 = .ok g')
    (hne : ∀ o ∈ os, (h.obj o).array ≠ some [])
    {p : Points} (ha : (h.obj o).array = some p) (hp : Spec.OnePlace p) :
    ∃ arr arr' : Points, ((newGroup H h os false ex).2.obj g).array = some arr ∧
      ((newGroup H h (os ++ [o]) false ex).2.obj g').array = some arr' ∧
      arr'.length = arr.length + p.length ∧ (3 ≤ arr.length → ∀ w,
        ∑ i, (Matrix.of (Coordinates.centered arr'.get) *ᵥ w) i ^ 2
          = ∑ i, (Matrix.of (Coordinates.centered arr.get) *ᵥ w) i ^ 2) := by
  have hl0 : Spec.Exists h os := fun a ha => hl a (List.mem_append_left _ ha)
  obtain ⟨hm, hold, ms, ps, qs, arr0, μ, h1, h2, -⟩ := C43_group_has_member_data hl0 hk
  rw [hm] at h1
  cases h1
  have hps : os.map (fun o => (h.obj o).array) = ps.map some := by
    rw [← h2]
    exact List.map_congr_left fun o ho => (hold o (hl0 o ho)).symm
  have hpne : ∀ q ∈ ps, q ≠ [] := by
    intro q hq e
    have : some q ∈ ps.map some := List.mem_map_of_mem hq
    rw [← hps, e] at this
    obtain ⟨o, ho, he⟩ := List.mem_map.1 this
    exact hne o ho he
  obtain ⟨arr, a1, a2, a3⟩ := group_form hl0 hk hps hpne
  obtain ⟨arr', b1, b2, b3⟩ := group_form (ps := ps ++ [p]) hl hk' (by simp [hps, ha]) (by
    intro q hq
    rcases List.mem_append.1 hq with hq | hq
    · exact hpne q hq
    · rw [List.mem_singleton.1 hq]
      exact hp.1)
  have hlen : arr'.length = arr.length + p.length := by rw [b2, a2]; simp
  refine ⟨arr, arr', a1, b1, hlen, fun h3 w => ?_⟩
  rw [a3 h3, b3 (by omega)]
  simp [form_onePlace hp]

/-! ## C221 -/

/-- A member whose points are all at one place says nothing about the orientation; adding it to a group
leaves the singular values and, as far as they are determined, strike and dip as they are. -/
theorem C221_orientation_partial (svd svd' : SvdFn) (hs : svd.Valid) (hs' : svd'.Valid) {H : HashFn}
    {h : Heap} {os : List ℕ} {o : ℕ} (hl : Spec.Exists h (os ++ [o]))
    {ex : Bool} {g g' : ℕ} (hk : (newGroup H h os false ex).1 = .ok g)
    (hk' : (newGroup H h (os ++ [o]) false ex).1 = .ok g')
    (hne : ∀ o ∈ os, (h.obj o).array ≠ some [])
    {p : Points} (ha : (h.obj o).array = some p) (hp : Spec.OnePlace p) :
    ∃ arr arr' : Points, ((newGroup H h os false ex).2.obj g).array = some arr ∧
      ((newGroup H h (os ++ [o]) false ex).2.obj g').array = some arr' ∧
      ∀ f f', init svd arr.get none none = .ok (some f) →
        init svd' arr'.get none none = .ok (some f') →
        f'.s = f.s ∧ (f.s 2 < f.s 1 → ∀ s d, strikeDip f = some (s, d) →
          ∃ s', strikeDip f' = some (s', d) ∧ (d ≠ 0 → d ≠ 90 → s' = s) ∧
            (d ≠ 0 → s' = s ∨ s' = s + 180 ∨ s' = s - 180)) := by
  obtain ⟨arr, arr', a1, b1, -, hq⟩ := group_added hl hk hk' hne ha hp
  refine ⟨arr, arr', a1, b1, fun f f' hf hf' => ?_⟩
  obtain ⟨U, hF⟩ := init_default hs hf
  obtain ⟨U', hG⟩ := init_default hs' hf'
  obtain ⟨hsv, hax⟩ := related_fits (R := 1) hF hG (by simp) one_pos (by
    intro w
    rw [Matrix.one_mulVec, hq hF.size, one_pow, one_mul])
  refine ⟨funext fun j => by rw [hsv, one_mul], fun hlt s d e => ?_⟩
  have hax' := hax hlt
  rw [Matrix.one_mulVec] at hax'
  rcases hax' with q | q
  · exact ⟨s, by rw [strikeDip, q]; exact e, fun _ _ => rfl, fun _ => .inl rfl⟩
  · obtain ⟨s', k1, k2, k3⟩ := strikeDip_neg (fit_axis_ne_zero hF 2) e
    exact ⟨s', by rw [strikeDip, q]; exact k1, k2, k3⟩

/-- The errors ought to stay as they are too.  But they become smaller, for every group whose members are
not exactly parallel planes, with both methods and at all levels at which the errors do not exceed the
extent of the data: the points that say nothing are counted. -/
theorem C221_errors_false (Q : Quantiles) (hQ : Spec.QuantilesOK Q) (hQ' : Spec.QuantilesShrink Q)
    (svd svd' : SvdFn) (hs : svd.Valid) (hs' : svd'.Valid) {H : HashFn}
    {h : Heap} {os : List ℕ} {o : ℕ} (hl : Spec.Exists h (os ++ [o]))
    {ex : Bool} {g g' : ℕ} (hk : (newGroup H h os false ex).1 = .ok g)
    (hk' : (newGroup H h (os ++ [o]) false ex).1 = .ok g')
    (hne : ∀ o ∈ os, (h.obj o).array ≠ some [])
    {p : Points} (ha : (h.obj o).array = some p) (hp : Spec.OnePlace p) :
    ∃ arr arr' : Points, ((newGroup H h os false ex).2.obj g).array = some arr ∧
      ((newGroup H h (os ++ [o]) false ex).2.obj g').array = some arr' ∧
      ∀ f f', init svd arr.get none none = .ok (some f) →
        init svd' arr'.get none none = .ok (some f') → f.s 2 ≠ 0 →
        ∀ sampling cl, 0 ≤ cl → cl < 1 → 0 < Q.f cl 2 (arr.length - 2) →
          (∀ j, j ≠ 2 → Q.f cl 2 (arr.length - 2) * Spec.errorScale sampling arr.length (eigenvalues f) j
            ≤ eigenvalues f j) →
          ∃ x y x' y', errorsAt Q f sampling cl = some (x, y) ∧
            errorsAt Q f' sampling cl = some (x', y') ∧ x' < x ∧ y' < y := by
  obtain ⟨arr, arr', a1, b1, hlen, hq⟩ := group_added hl hk hk' hne ha hp
  refine ⟨arr, arr', a1, b1, fun f f' hf hf' h2 sampling cl h0 h1 hpos hin => ?_⟩
  obtain ⟨U, hF⟩ := init_default hs hf
  obtain ⟨U', hG⟩ := init_default hs' hf'
  obtain ⟨hsv, -⟩ := related_fits (R := 1) hF hG (by simp) one_pos (by
    intro w
    rw [Matrix.one_mulVec, hq hF.size, one_pow, one_mul])
  have hsv' : f'.s = f.s := funext fun j => by rw [hsv, one_mul]
  have hpl : 0 < p.length := List.length_pos_iff.2 hp.1
  have s2 : 0 < f.s 2 := lt_of_le_of_ne (hF.svd.nonneg' 2) (Ne.symm h2)
  have s1 : 0 < f.s 1 := s2.trans_le hF.svd.le12
  have s0 : 0 < f.s 0 := s1.trans_le hF.svd.le01
  have hsz := hF.size
  have hz' : 0 ≤ Q.f cl 2 (arr'.length - 2) := hQ.f_nonneg _ _ _ h0 h1 (by norm_num) (by omega)
  have hlt := relativeError_lt sampling hsz (by omega : arr.length < arr'.length) hpos hz'
    (hQ' cl (arr.length - 2) (arr'.length - 2) h0 h1 (by omega) (by omega))
  have hb : ∀ j, 0 ≤ errorBase sampling f.s j := by
    intro j
    unfold errorBase
    split_ifs <;> exact hF.svd.nonneg' _
  have hbound : ∀ j, j ≠ 2 → 0 < f.s j → relativeError sampling arr.length
      (Q.f cl 2 (arr.length - 2)) * errorBase sampling f.s j ≤ f.s j := by
    intro j hj hsj
    obtain ⟨e1, e2⟩ := scaled_error hF sampling (Q.f cl 2 (arr.length - 2)) j
    have hn1 : (0 : ℝ) < (arr.length : ℝ) - 1 := by
      have : (3 : ℝ) ≤ arr.length := by exact_mod_cast hsz
      linarith
    have := mul_le_mul_of_nonneg_left (hin j hj) hn1.le
    rw [e1, e2] at this
    exact le_of_mul_le_mul_left this hsj
  refine ⟨_, _, _, _, errors_angle hQ hs hf sampling cl h0 h1, errors_angle hQ hs' hf' sampling cl h0 h1,
    ?_, ?_⟩ <;> rw [hsv']
  · exact errorAngle_lt_factor s2 s0 (hb 0) (relativeError_nonneg _ _ hz') hlt (hbound 0 (by decide) s0)
  · exact errorAngle_lt_factor s2 s1 (hb 1) (relativeError_nonneg _ _ hz') hlt (hbound 1 (by decide) s1)

/-- A measurement of four points that are not in one plane, and one of three equal points. -/
def Witness.placeHeap : Heap :=
  ⟨2, fun a => if a = 0 then
      { array := some [![0, 0, 0], ![1, 0, 0], ![0, 1, 0], ![0, 0, 1]], uid := some "a" }
    else { array := some [![5, 6, 7], ![5, 6, 7], ![5, 6, 7]], uid := some "b" }⟩

lemma place_groups : (newGroup (fun _ => "g") Witness.placeHeap [0] false false).1 = .ok 2 ∧
    (newGroup (fun _ => "g") Witness.placeHeap ([0] ++ [1]) false false).1 = .ok 2 ∧
    Spec.Exists Witness.placeHeap ([0] ++ [1]) := by
  refine ⟨?_, ?_, ?_⟩
  · simp [newGroup, arraysOf, vstack, markMembers, Heap.alloc, Heap.set, Heap.setMemberOf,
      Witness.placeHeap, centeredPts_length]
  · simp [newGroup, arraysOf, vstack, markMembers, Heap.alloc, Heap.set, Heap.setMemberOf,
      Witness.placeHeap, centeredPts_length]
  · intro o ho
    rcases List.mem_cons.1 ho with rfl | ho
    · simp [Witness.placeHeap]
    · rw [List.mem_singleton.1 ho]
      simp [Witness.placeHeap]

/-- Both errors of the group become smaller when the three equal points are added. -/
example : ∃ (svd : SvdFn) (arr arr' : Points) (f : Fit arr.length) (f' : Fit arr'.length)
    (x y x' y' : ℝ), svd.Valid ∧
    ((newGroup (fun _ => "g") Witness.placeHeap [0] false false).2.obj 2).array = some arr ∧
    ((newGroup (fun _ => "g") Witness.placeHeap ([0] ++ [1]) false false).2.obj 2).array = some arr' ∧
    init svd arr.get none none = .ok (some f) ∧ init svd arr'.get none none = .ok (some f') ∧
    errorsAt Spec.quantiles2 f true (1 / 2) = some (x, y) ∧
    errorsAt Spec.quantiles2 f' true (1 / 2) = some (x', y') ∧ x' < x ∧ y' < y := by
  obtain ⟨svd, hs⟩ := exists_valid_svd
  obtain ⟨hk, hk', hl⟩ := place_groups
  have hl0 : Spec.Exists Witness.placeHeap [0] := fun a ha => hl a (List.mem_append_left _ ha)
  set p : Points := [![0, 0, 0], ![1, 0, 0], ![0, 1, 0], ![0, 0, 1]] with hp
  obtain ⟨fp, hfp⟩ := init_default_exists svd (by simp [hp] : 3 ≤ p.length) p.get
  have hsp : fp.s 2 ≠ 0 := by
    intro h0
    obtain ⟨m, d, hm, hd⟩ := (coplanar_iff hs hfp).2 h0
    have hd' : ∀ q ∈ p, Spec.OnPlane m d q := by
      intro q hq
      obtain ⟨i, rfl⟩ := List.get_of_mem hq
      exact hd i
    have h0 := hd' ![0, 0, 0] (by simp [hp])
    have h1 := hd' ![1, 0, 0] (by simp [hp])
    have h2 := hd' ![0, 1, 0] (by simp [hp])
    have h3 := hd' ![0, 0, 1] (by simp [hp])
    simp [Spec.OnPlane] at h0 h1 h2 h3
    have := norm_sq' m
    rw [hm, Fin.sum_univ_three, h1, h2, h3, ← h0] at this
    norm_num at this
  obtain ⟨arr, arr', a1, b1, h⟩ := C221_errors_false Spec.quantiles2 Spec.quantiles2_ok
    Spec.quantiles2_shrink svd svd hs hs hl hk hk' (by simp [Witness.placeHeap])
    (p := [![5, 6, 7], ![5, 6, 7], ![5, 6, 7]]) rfl ⟨by simp, ![5, 6, 7], by simp⟩
  obtain ⟨c, c1, c2, c3⟩ := C219_copies Spec.quantiles2 Spec.quantiles2_ok svd svd hs hs hl0 hk p
    (by simpa [Witness.placeHeap] using ⟨0, by simp [hp]⟩) fp hfp
  obtain rfl : arr = c := Option.some_injective _ (a1.symm.trans c1)
  obtain ⟨d, d1, d2, -⟩ := group_form (ps := [p, [![5, 6, 7], ![5, 6, 7], ![5, 6, 7]]]) hl hk'
    (by simp [Witness.placeHeap, hp]) (by simp [hp])
  obtain rfl : arr' = d := Option.some_injective _ (b1.symm.trans d1)
  have hlen : arr.length = 4 := by rw [c2]; simp [hp]
  obtain ⟨f, hf⟩ := init_default_exists svd (by omega) arr.get
  obtain ⟨f', hf'⟩ := init_default_exists svd (by rw [d2]; simp [hp]) arr'.get
  obtain ⟨U, hF⟩ := init_default hs hf
  have h1 : Spec.quantiles2.f (1 / 2) 2 (arr.length - 2) = 1 := by
    rw [hlen]
    simp only [Spec.quantiles2, Spec.fisher2]
    norm_num [Real.rpow_neg_one]
  obtain ⟨x, y, x', y', e⟩ := h f f' hf hf' (by rw [(c3 f hf).1 2]; simpa using hsp) true (1 / 2)
    (by norm_num) (by norm_num) (by rw [h1]; norm_num) (by
      intro j _
      have h0 := eigenvalues_nonneg hF j
      have h2 : Real.sqrt (2 / ((arr.length : ℝ) - 1)) ≤ 1 := by
        rw [Real.sqrt_le_one, hlen]
        norm_num
      rw [h1, one_mul, Spec.errorScale, if_pos rfl]
      nlinarith)
  exact ⟨svd, arr, arr', f, f', x, y, x', y', hs, a1, b1, hf, hf', e⟩

end Attitude.Props
