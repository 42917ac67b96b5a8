import Verif.Props.SideView

/-!
# Elements of the side view: C232
-/

namespace Attitude.Props

open Attitude Frontend SideView

/-- How `updateElems` orders elements. -/
def depthOrder (az : ℝ) (a b : Elem) : Prop :=
  depth (viewAngle az) a.bound.offset ≤ depth (viewAngle az) b.bound.offset

lemma elemsAfter_append (r : ℝ) (s : List Shown) (azs : List ℝ) (az : ℝ) :
    elemsAfter r s (azs ++ [az]) = updateElems r s (elemsAfter r s azs) az := by
  simp [elemsAfter]

lemma updateElems_perm (r : ℝ) (s : List Shown) (old : List Elem) (az : ℝ) :
    (updateElems r s old az).Perm (s.mapIdx fun i p => bindElem az r old[i]? p) :=
  List.perm_insertionSort _ _

lemma updateElems_length (r : ℝ) (s : List Shown) (old : List Elem) (az : ℝ) :
    (updateElems r s old az).length = s.length := by
  rw [(updateElems_perm r s old az).length_eq, List.length_mapIdx]

lemma bindElem_bound (az r : ℝ) (old : Option Elem) (p : Shown) : (bindElem az r old p).bound = p := by
  cases old <;> rfl

lemma bound_mapIdx (az r : ℝ) (s : List Shown) (old : List Elem) :
    (s.mapIdx fun i p => bindElem az r old[i]? p).map (fun e => e.bound) = s := by
  apply List.ext_getElem
  · simp
  · intro i h1 h2
    simp [bindElem_bound]

/-- Whatever was drawn before, there is one element for each plane, and the elements show the
planes in the order of the current view. -/
theorem C232_planes (r : ℝ) (s : List Shown) (azs : List ℝ) (az : ℝ) :
    (elemsAfter r s (azs ++ [az])).map (fun e => (⟨e.bound.plane, e.bound.offset⟩ : Hyp))
      = hyperbolas az s := by
  rw [elemsAfter_append]
  unfold updateElems hyperbolas sorted
  rw [List.map_insertionSort (r := fun a b : Elem => depth (viewAngle az) a.bound.offset ≤ depth (viewAngle az) b.bound.offset)
    (s := fun a b : Hyp => depth (viewAngle az) a.offset ≤ depth (viewAngle az) b.offset)]
  · congr 1
    conv_rhs => rw [← bound_mapIdx az r s (elemsAfter r s azs)]
    rw [List.map_map]
    rfl
  · intro a _ b _
    exact Iff.rfl

/-- An element fits its plane: it has the class if the plane belongs to a group, and its mask is
the one for the view. -/
def Spec.Marked (e : Elem) : Prop := e.inGroup = e.bound.group.isSome

/-- The mask is the one for the view. -/
def Spec.Masked (r az : ℝ) (e : Elem) : Prop := e.mask = maskSize az r e.bound.plane.data

/-- In the first view all elements fit their planes. -/
theorem C232_first_partial (r : ℝ) (s : List Shown) (az : ℝ) :
    ∀ e ∈ elemsAfter r s [az], Spec.Marked e ∧ Spec.Masked r az e := by
  intro e he
  have : elemsAfter r s [az] = updateElems r s [] az := rfl
  rw [this] at he
  obtain ⟨i, hi, rfl⟩ := List.mem_mapIdx.1 ((updateElems_perm r s [] az).mem_iff.1 he)
  exact ⟨rfl, rfl⟩

lemma kept {β : Type} (f : Elem → β) (hf : ∀ e p, f { e with bound := p } = f e) (az r : ℝ) (s : List Shown)
    (old : List Elem) (h : old.length = s.length) :
    (s.mapIdx fun i p => bindElem az r old[i]? p).map f = old.map f := by
  apply List.ext_getElem
  · simp [h]
  · intro i h1 h2
    have hi : i < old.length := by simpa using h2
    simp [List.getElem?_eq_getElem hi, bindElem, hf]

lemma kept_perm {β : Type} (f : Elem → β) (hf : ∀ e p, f { e with bound := p } = f e) (r : ℝ) (s : List Shown)
    (az : ℝ) (azs : List ℝ) :
    ((elemsAfter r s (az :: azs)).map f).Perm ((elemsAfter r s [az]).map f) := by
  induction azs using List.reverseRecOn with
  | nil => exact List.Perm.refl _
  | append_singleton azs b ih =>
    rw [← List.cons_append, elemsAfter_append]
    refine ((updateElems_perm r s _ b).map f).trans ?_
    rw [kept f hf]
    · exact ih
    · obtain ⟨l, c, hl⟩ : ∃ l c, az :: azs = l ++ [c] :=
        ⟨_, _, (List.dropLast_append_getLast (List.cons_ne_nil az azs)).symm⟩
      rw [hl, elemsAfter_append, updateElems_length]

/-- The number of elements with the class is the number of planes that belong to groups, in all
views. -/
theorem C232_count (r : ℝ) (s : List Shown) (az : ℝ) (azs : List ℝ) :
    ((elemsAfter r s (az :: azs)).filter fun e => e.inGroup).length
      = (s.filter fun p => p.group.isSome).length := by
  have h1 := kept_perm (fun e => e.inGroup) (fun _ _ => rfl) r s az azs
  have h2 : ((elemsAfter r s [az]).map fun e => e.inGroup).Perm (s.map fun p => p.group.isSome) := by
    have : elemsAfter r s [az] = updateElems r s [] az := rfl
    rw [this]
    refine ((updateElems_perm r s [] az).map _).trans (List.Perm.of_eq ?_)
    apply List.ext_getElem
    · simp
    · intro i h1 h2
      simp [bindElem]
  have h := ((h1.trans h2).filter id).length_eq
  rw [List.filter_map, List.filter_map, List.length_map, List.length_map] at h
  exact h

/-- If the planes were in the order of the data in every earlier view, the classes are right. -/
theorem C232_class_partial (r : ℝ) (s : List Shown) (azs : List ℝ) (az : ℝ)
    (h : ∀ b ∈ azs, s.Pairwise fun p q =>
      vdot p.offset (Spec.towardsViewer b) ≤ vdot q.offset (Spec.towardsViewer b)) :
    ∀ e ∈ elemsAfter r s (azs ++ [az]), Spec.Marked e := by
  have key : ∀ azs : List ℝ, (∀ b ∈ azs, s.Pairwise fun p q =>
      vdot p.offset (Spec.towardsViewer b) ≤ vdot q.offset (Spec.towardsViewer b)) → azs ≠ [] →
      (elemsAfter r s azs).map (fun e => e.bound) = s ∧ ∀ e ∈ elemsAfter r s azs, Spec.Marked e := by
    intro azs
    induction azs using List.reverseRecOn with
    | nil => intro _ h; exact absurd rfl h
    | append_singleton azs b ih =>
      intro hb _
      have e1 : updateElems r s (elemsAfter r s azs) b
          = s.mapIdx fun i p => bindElem b r (elemsAfter r s azs)[i]? p := by
        unfold updateElems
        apply List.Pairwise.insertionSort_eq
        have hs := hb b (by simp)
        rw [← bound_mapIdx b r s (elemsAfter r s azs), List.pairwise_map] at hs
        refine hs.imp fun {x y} h => ?_
        rw [depth_eq, depth_eq]
        exact h
      rw [elemsAfter_append, e1]
      refine ⟨bound_mapIdx _ _ _ _, fun e he => ?_⟩
      obtain ⟨i, hi, rfl⟩ := List.mem_mapIdx.1 he
      rcases eq_or_ne azs [] with rfl | hne
      · rfl
      · obtain ⟨h1, h2⟩ := ih (fun c hc => hb c (by simp [hc])) hne
        have hl : i < (elemsAfter r s azs).length := by
          have := congrArg List.length h1
          rw [List.length_map] at this
          omega
        have hbd : ((elemsAfter r s azs)[i]).bound = s[i] := by
          have := List.getElem_of_eq h1 (i := i) (by simpa using hl)
          simpa using this
        rw [List.getElem?_eq_getElem hl]
        have := h2 _ (List.getElem_mem hl)
        unfold Spec.Marked at this ⊢
        rw [hbd] at this
        exact this
  intro e he
  rw [elemsAfter_append] at he
  obtain ⟨i, hi, rfl⟩ := List.mem_mapIdx.1 ((updateElems_perm r s _ az).mem_iff.1 he)
  rcases eq_or_ne azs [] with rfl | hne
  · rfl
  · obtain ⟨h1, h2⟩ := key azs h hne
    have hl : i < (elemsAfter r s azs).length := by
      have := congrArg List.length h1
      rw [List.length_map] at this
      omega
    have hbd : ((elemsAfter r s azs)[i]).bound = s[i] := by
      have := List.getElem_of_eq h1 (i := i) (by simpa using hl)
      simpa using this
    rw [List.getElem?_eq_getElem hl]
    have := h2 _ (List.getElem_mem hl)
    unfold Spec.Marked at this ⊢
    rw [hbd] at this
    exact this

/-- Two planes, the first of which belongs to a group: if the first is nearer in the first view,
then in the next view, whatever it is, each of the two has the class of the other. -/
theorem C232_class_false (r : ℝ) (p q : Shown) (g : Plane) (hp : p.group = some g) (hq : q.group = none)
    (az : ℝ) (h : vdot q.offset (Spec.towardsViewer az) < vdot p.offset (Spec.towardsViewer az)) (b : ℝ) :
    ∀ e ∈ elemsAfter r [p, q] [az, b], ¬ Spec.Marked e := by
  have h1 : elemsAfter r [p, q] [az] = [⟨false, maskSize az r q.plane.data, q⟩, ⟨true, maskSize az r p.plane.data, p⟩] := by
    have hn : ¬ depth (viewAngle az) p.offset ≤ depth (viewAngle az) q.offset := by
      rw [depth_eq, depth_eq, not_le]; exact h
    simp [elemsAfter, updateElems, bindElem, hp, hq, hn]
  have h2 : elemsAfter r [p, q] [az, b] = updateElems r [p, q] (elemsAfter r [p, q] [az]) b := rfl
  intro e he
  rw [h2, h1] at he
  obtain ⟨i, hi, rfl⟩ := List.mem_mapIdx.1 ((updateElems_perm r _ _ b).mem_iff.1 he)
  have : i = 0 ∨ i = 1 := by simp at hi; omega
  rcases this with rfl | rfl <;> simp [bindElem, Spec.Marked, hp, hq]

/-- The masks are those of the first view for ever. -/
theorem C232_masks_false (r : ℝ) (s : List Shown) (az : ℝ) (azs : List ℝ) :
    ((elemsAfter r s (az :: azs)).map fun e => e.mask).Perm
      (s.map fun p => maskSize az r p.plane.data) := by
  refine (kept_perm (fun e => e.mask) (fun _ _ => rfl) r s az azs).trans ?_
  have : elemsAfter r s [az] = updateElems r s [] az := rfl
  rw [this]
  refine ((updateElems_perm r s [] az).map _).trans (List.Perm.of_eq ?_)
  apply List.ext_getElem
  · simp
  · intro i h1 h2
    simp [bindElem]

lemma abs_cos_arctan2 {b x : ℝ} (hb : 0 < b) : |Real.cos (arctan2 b x)| = |x| / Real.sqrt (x ^ 2 + b ^ 2) := by
  have := sqrt_mul_cos_arctan2 b x
  have hs : 0 < Real.sqrt (x ^ 2 + b ^ 2) := Real.sqrt_pos.2 (by positivity)
  rw [eq_div_iff hs.ne', mul_comm]
  conv_rhs => rw [← this]
  rw [abs_mul, abs_of_pos hs]

/-- A horizontal bed with errors that are larger along north than along east: after the first view,
along the x axis or along the y axis, it has the wrong mask in the other one. -/
theorem C232_mask_false (r : ℝ) (hr : r ≠ 0) (p : Shown) (hax : p.plane.data.axes = 1)
    (hl : p.plane.data.lengths = ![4, 1, 1]) :
    ∀ e ∈ elemsAfter r [p] [0, Real.pi / 2], ¬ Spec.Masked r (Real.pi / 2) e := by
  have ha : ∀ v, planeAngle (1 : Mat 3 3) v = some v := by
    intro v
    have : (1 : Mat 3 3) = Spec.horizontalAxes 0 := by
      unfold Spec.horizontalAxes
      ext i j
      fin_cases i <;> fin_cases j <;> simp
    rw [this, planeAngle_horizontal]
    simp
  have hpos : ∀ i, 0 < (![4, 1, 1] : Vec 3) i := by
    intro i; fin_cases i <;> norm_num
  have m : ∀ az, maskSize az r p.plane.data
      = some |150 / 2 * Real.cos (arctan2 1 (1 / Real.sqrt (Real.sin az ^ 2 / 4 + Real.cos az ^ 2) * r))| := by
    intro az
    unfold maskSize
    rw [hax, hl, semiAxes_eq (ha _) hpos]
    simp only [Option.map_some, viewAngle, Real.cos_sub_pi_div_two, Real.sin_sub_pi_div_two,
      Matrix.cons_val_zero, Matrix.cons_val_one, Matrix.cons_val, Real.sqrt_one, div_one, even_two,
      Even.neg_pow]
  intro e he hm
  have h := C232_masks_false r [p] 0 [Real.pi / 2]
  have he' : e.mask ∈ ([p].map fun p => maskSize 0 r p.plane.data) :=
    h.mem_iff.1 (List.mem_map_of_mem he)
  have hb : e.bound = p := by
    have h2 : elemsAfter r [p] [0, Real.pi / 2]
      = updateElems r [p] (elemsAfter r [p] [0]) (Real.pi / 2) := rfl
    rw [h2] at he
    obtain ⟨i, hi, rfl⟩ := List.mem_mapIdx.1 ((updateElems_perm r _ _ _).mem_iff.1 he)
    rw [bindElem_bound]
    simp
  unfold Spec.Masked at hm
  rw [List.map_singleton, List.mem_singleton, hm, hb, m, m, Option.some.injEq, abs_mul, abs_mul] at he'
  have he' := mul_left_cancel₀ (by norm_num) he'
  rw [abs_cos_arctan2 one_pos, abs_cos_arctan2 one_pos] at he'
  have s4 : Real.sqrt 4 = 2 := by rw [show (4 : ℝ) = 2 ^ 2 by norm_num, Real.sqrt_sq (by norm_num)]
  simp only [Real.sin_pi_div_two, Real.cos_pi_div_two, Real.sin_zero, Real.cos_zero, one_pow, ne_eq,
    OfNat.ofNat_ne_zero, not_false_eq_true, zero_pow, add_zero, zero_div, zero_add, Real.sqrt_one,
    div_one, one_mul, Real.sqrt_div zero_le_one, s4, one_div_one_div, abs_mul, abs_two] at he'
  have hr' : 0 < |r| := abs_pos.2 hr
  have p1 : 0 < Real.sqrt ((2 * r) ^ 2 + 1) := Real.sqrt_pos.2 (by positivity)
  have p2 : 0 < Real.sqrt (r ^ 2 + 1) := Real.sqrt_pos.2 (by positivity)
  rw [div_eq_div_iff p1.ne' p2.ne'] at he'
  have he2 : 2 * Real.sqrt (r ^ 2 + 1) = Real.sqrt ((2 * r) ^ 2 + 1) := by
    apply mul_left_cancel₀ hr'.ne'
    linarith
  have he3 := congrArg (· ^ 2) he2
  simp only [mul_pow] at he3
  rw [Real.sq_sqrt (by positivity), Real.sq_sqrt (by positivity)] at he3
  linarith

/-- Two measurements of which the first belongs to a group, at different positions. -/
noncomputable def Spec.sidePair : List Datum :=
  [{ uid := "a", memberOf := some "g", center := some ![0, 0, 0] },
    { uid := "b", center := some ![2, 0, 0] }, { uid := "g", members := some ["a"] }]

/-- They meet the hypotheses of `C232_class_false`. -/
example : ∃ p q g, mount Spec.sidePair = .ok [p, q] ∧ p.group = some g ∧ q.group = none ∧
    vdot q.offset (Spec.towardsViewer 0) < vdot p.offset (Spec.towardsViewer 0) := by
  obtain ⟨s, c, hs, hk, -⟩ := C230_position (data := Spec.sidePair)
    ⟨_, List.mem_cons_self, rfl⟩ (by
      intro d hd hs
      simp only [Spec.sidePair, List.mem_cons, List.not_mem_nil, or_false] at hd
      rcases hd with rfl | rfl | rfl
      · simp
      · simp
      · simp [Spec.single] at hs)
  have hd := C230_shown hs
  have hl : s.length = 2 := by
    have := congrArg List.length hd
    rw [List.length_map] at this
    rw [this]
    rfl
  obtain ⟨p, q, rfl⟩ := List.length_eq_two.1 hl
  have e2 : Spec.sidePair.filter Spec.single = [{ uid := "a", memberOf := some "g", center := some ![0, 0, 0] },
    { uid := "b", center := some ![2, 0, 0] }] := rfl
  rw [e2] at hd
  simp only [List.map_cons, List.map_nil, List.cons.injEq, and_true] at hd
  obtain ⟨c2, _, hf⟩ := mount_ok hs
  have e : singlePlanes Spec.sidePair = [p.plane, q.plane] := by
    rw [← mount_planes hs, List.map_cons, List.map_cons, List.map_nil]
  rw [e] at hf
  obtain ⟨f1, f2⟩ := List.forall₂_cons.1 hf
  obtain ⟨f2, -⟩ := List.forall₂_cons.1 f2
  obtain ⟨-, mp, -, -, gp⟩ := place_ok f1
  obtain ⟨-, mq, -, -, gq⟩ := place_ok f2
  obtain ⟨kp, k1, k2⟩ := hk p (by simp)
  obtain ⟨kq, k3, k4⟩ := hk q (by simp)
  rw [hd.1] at gp k1
  rw [hd.2] at gq k3
  refine ⟨p, q, planeData { uid := "g", members := some ["a"] } (some mp), hs, ?_, ?_, ?_⟩
  · rw [gp]
    simp [groupOf, Spec.sidePair]
  · rw [gq]
    simp [groupOf]
  · simp only [Option.some.injEq] at k1 k3
    rw [k2, k4, ← k1, ← k3, vdot3, vdot3]
    simp [Spec.towardsViewer, Spec.rightwards, cross]

end Attitude.Props
