import Verif.Model.SideView
import Verif.Model.NotebookUi
import Verif.Props.FrontendView
import Verif.Props.FrontendEllipses
import Verif.Props.PcaAngles
import Verif.Props.Coordinates
import Verif.Lemmas.Pca
import Verif.Lemmas.Witness

/-!
# Planes in the side view: C229 (`PlaneData`), C230 (what is drawn where) and C231 (labels,
changes)
-/

namespace Attitude.Props

open Attitude Frontend SideView

/-! ## C229 -/

/-- `p` stands for the points `l`: it has a position, and its centered points are those points
relative to the position. -/
def Spec.StandsFor (p : Plane) (l : List (Vec 3)) : Prop :=
  ∃ m c, p.mean = .pos m ∧ p.centered = some c ∧ l = c.map fun d => m + d

lemma subtract_add (l : List (Vec 3)) (m : Vec 3) :
    l = (l.map fun d => d - m).map fun d => m + d := by
  rw [List.map_map]
  conv_lhs => rw [← List.map_id l]
  apply List.map_congr_left
  intro d _
  simp

/-- Points without their centered form are stood for, whatever the position given. -/
theorem C229_points (d : Datum) (mean : Option (Vec 3)) (l : List (Vec 3)) (hl : l ≠ [])
    (hx : d.extracted = some l) (hc : d.centeredArray = none) :
    Spec.StandsFor (planeData d mean) l := by
  obtain ⟨x, l, rfl⟩ := List.exists_cons_of_ne_nil hl
  cases hm : mean.or (d.mean.or d.center) with
  | none =>
    refine ⟨fun i => ((x :: l).map fun d => d i).sum / (x :: l).length, _, ?_, ?_, subtract_add _ _⟩
    · simp [planeData, hx, hm, meanOf]
    · simp [planeData, hx, hm, meanOf, hc, subtractMean]
  | some v =>
    refine ⟨v, _, ?_, ?_, subtract_add _ _⟩
    · simp [planeData, hx, hm]
    · simp [planeData, hx, hm, hc, subtractMean]

/-- Without any position the mean of the points is taken: the centered points have mean zero. -/
theorem C229_computed (d : Datum) (l : List (Vec 3)) (hl : l ≠ []) (hx : d.extracted = some l)
    (hm : d.mean = none) (hk : d.center = none) (hc : d.centeredArray = none) :
    ∃ c, (planeData d).centered = some c ∧ ∀ i, (c.map fun p => p i).sum = 0 := by
  obtain ⟨x, l, rfl⟩ := List.exists_cons_of_ne_nil hl
  have gen : ∀ (k : List (Vec 3)) (m : ℝ) (i : Fin 3) , ((k.map fun p => p i - m)).sum
      = (k.map fun p => p i).sum - k.length * m := by
    intro k m i
    induction k with
    | nil => simp
    | cons y k ih => simp only [List.map_cons, List.sum_cons, ih, List.length_cons]; push_cast; ring
  refine ⟨subtractMean (x :: l) (meanOf (x :: l)), by simp [planeData, hx, hm, hk, hc], fun i => ?_⟩
  simp only [meanOf, subtractMean, List.map_map]
  rw [show ((fun p : Vec 3 => p i) ∘ fun d : Vec 3 => d - fun i =>
      ((x :: l).map fun d => d i).sum / ((x :: l).length : ℝ))
    = fun p => p i - ((x :: l).map fun d => d i).sum / ((x :: l).length : ℝ) from rfl, gen]
  have : ((x :: l).length : ℝ) ≠ 0 := by simp only [List.length_cons]; positivity
  field_simp
  ring

/-- The position is the one passed, otherwise `mean`, otherwise `center`. -/
theorem C229_precedence (d : Datum) (a m c : Vec 3) :
    (planeData d (some a)).mean = .pos a ∧
    (planeData { d with mean := some m } none).mean = .pos m ∧
    (planeData { d with mean := none, center := some c } none).mean = .pos c := by
  refine ⟨?_, ?_, ?_⟩ <;> cases h : d.extracted <;> simp [planeData, h]

/-- Centered points that are given are used as they are, with or without the points. -/
theorem C229_given (d : Datum) (mean : Option (Vec 3)) (c : List (Vec 3)) (hc : d.centeredArray = some c) :
    (planeData d mean).centered = some c := by
  cases h : d.extracted <;> simp [planeData, h, hc]

/-- No points and no position: the plane has no position, and the side view refuses it. -/
theorem C229_no_points (d : Datum) (hx : d.extracted = some []) (hm : d.mean = none) (hk : d.center = none)
    (data : List Datum) (c : Vec 3) :
    (∀ v, (planeData d).mean ≠ .pos v) ∧ place data c (planeData d) = .error .typeError := by
  have : (planeData d).mean = .ofNothing := by simp [planeData, hx, hm, hk, meanOf]
  refine ⟨fun v => by rw [this]; simp, ?_⟩
  unfold place
  rw [this]

/-- Measurements of both kinds. -/
example : ∃ d e : Datum, (d.centeredArray = some [![1, 2, 3]] ∧ d.extracted = some [![0, 0, 1]]) ∧
    (e.extracted = some [] ∧ e.mean = none ∧ e.center = none) :=
  ⟨{ uid := "a", centeredArray := some [![1, 2, 3]], extracted := some [![0, 0, 1]] },
    { uid := "b", extracted := some [] }, ⟨rfl, rfl⟩, rfl, rfl, rfl⟩

/-- The measurement that `to_mapping` makes of a fit (center and centered points are those of
the fit, pca.py L277-282 and L509-510). -/
noncomputable def Spec.measurementOf {n : ℕ} (f : Pca.Fit n) (uid : String) (memberOf : Option String) : Datum :=
  { uid := uid, memberOf := memberOf, center := f.mean, axes := f.V,
    centeredArray := some (List.ofFn f.arr) }

/-- A fit sent to the frontend stands for the points that were fitted. -/
theorem C229_python {svd : Pca.SvdFn} (hs : svd.Valid) {n : ℕ} {a : Fin n → Vec 3} {f : Pca.Fit n}
    (h : Pca.init svd a none none = .ok (some f)) (uid : String) (g : Option String) :
    Spec.StandsFor (planeData (Spec.measurementOf f uid g)) (List.ofFn a) := by
  obtain ⟨U, hF⟩ := Pca.init_default hs h
  refine ⟨meanRows a, List.ofFn f.arr, ?_, ?_, ?_⟩
  · simp [planeData, Spec.measurementOf, hF.mean]
  · simp [planeData, Spec.measurementOf]
  · rw [List.map_ofFn, hF.arr]
    congr 1
    funext i j
    simp [Coordinates.centered]

/-- Nothing checks that positions belong together: with a `mean` other than the `center` of its
centered points a measurement stands for points moved by the difference. -/
theorem C229_moved_false {svd : Pca.SvdFn} (hs : svd.Valid) {n : ℕ} {a : Fin n → Vec 3} {f : Pca.Fit n}
    (h : Pca.init svd a none none = .ok (some f)) (uid : String) (g : Option String) (t : Vec 3) (ht : t ≠ 0) :
    ¬ Spec.StandsFor (planeData { Spec.measurementOf f uid g with mean := some (meanRows a + t) })
      (List.ofFn a) := by
  obtain ⟨U, hF⟩ := Pca.init_default hs h
  rintro ⟨m, c, h1, h2, h3⟩
  simp only [planeData, Spec.measurementOf, Option.orElse_none, Option.orElse_some,
    Position.pos.injEq, Option.some.injEq] at h1 h2
  subst h1 h2
  rw [List.map_ofFn, List.ofFn_inj, hF.arr] at h3
  apply ht
  have := congrFun h3 ⟨0, by have := hF.size; omega⟩
  funext j
  have := congrFun this j
  simp only [Coordinates.centered, Function.comp, Pi.add_apply] at this
  simp only [Pi.zero_apply]
  linarith

/-- A fit and a displacement. -/
example (svd : Pca.SvdFn) : ∃ (a : Fin 4 → Vec 3) (f : Pca.Fit 4),
    Pca.init svd a none none = .ok (some f) ∧ (![1, 0, 0] : Vec 3) ≠ 0 := by
  refine ⟨![![0, 0, 0], ![1, 0, 0], ![0, 1, 0], ![0, 0, 1]], ?_⟩
  obtain ⟨f, hf⟩ := Pca.init_default_exists svd (by norm_num) ![![0, 0, 0], ![1, 0, 0], ![0, 1, 0], ![0, 0, 1]]
  exact ⟨f, hf, fun h => by simpa using congrFun h 0⟩

/-- Two points without a position. -/
example : Spec.StandsFor (planeData { uid := "a", extracted := some [![0, 0, 2], ![2, 4, 0]] })
    [![0, 0, 2], ![2, 4, 0]] :=
  C229_points _ _ _ (by simp) rfl rfl

/-! ## C230 -/

lemma mapM_ok {ε α β : Type} {f : α → Except ε β} {l : List α} {r : List β}
    (h : l.mapM f = .ok r) : List.Forall₂ (fun a b => f a = .ok b) l r := by
  induction l generalizing r with
  | nil => simp [pure, Except.pure] at h; subst h; exact .nil
  | cons a l ih =>
    rw [List.mapM_cons] at h
    cases ha : f a with
    | error e => simp [ha, bind, Except.bind] at h
    | ok b =>
      cases hl : l.mapM f with
      | error e => simp [ha, hl, bind, Except.bind] at h
      | ok r' =>
        simp [ha, hl, bind, Except.bind, pure, Except.pure] at h
        subst h
        exact .cons ha (ih hl)

lemma mapM_of {ε α β : Type} {f : α → Except ε β} {g : α → β} {l : List α}
    (h : ∀ a ∈ l, f a = .ok (g a)) : l.mapM f = .ok (l.map g) := by
  induction l with
  | nil => rfl
  | cons a l ih =>
    rw [List.mapM_cons, h a List.mem_cons_self, ih fun b hb => h b (List.mem_cons_of_mem _ hb)]
    rfl

lemma mapM_error {ε α β : Type} {f : α → Except ε β} {l : List α} {a : α} (ha : a ∈ l)
    {e : ε} (he : ∀ b ∈ l, ∀ e', f b = .error e' → e' = e) (h : f a = .error e) :
    l.mapM f = .error e := by
  induction l with
  | nil => simp at ha
  | cons b l ih =>
    rw [List.mapM_cons]
    cases hb : f b with
    | error e' => rw [he b List.mem_cons_self e' hb]; rfl
    | ok v =>
      rcases List.mem_cons.1 ha with rfl | ha
      · rw [hb] at h; cases h
      · rw [ih ha fun b hb => he b (List.mem_cons_of_mem _ hb)]; rfl

lemma planeData_data (d : Datum) (m : Option (Vec 3)) : (planeData d m).data = d := by
  cases h : d.extracted <;> simp [planeData, h]

lemma planeData_centered (d : Datum) (m : Option (Vec 3)) :
    (planeData d m).centered.isSome = (d.centeredArray.isSome || d.extracted.isSome) := by
  cases h : d.extracted <;> simp [planeData, h]

lemma place_ok {data : List Datum} {c : Vec 3} {p : Plane} {q : Shown} (h : place data c p = .ok q) :
    q.plane = p ∧ ∃ m, p.mean = .pos m ∧ q.offset = m - c ∧
      q.group = groupOf data p.data m := by
  unfold place at h
  cases hm : p.mean with
  | pos m =>
    rw [hm] at h
    simp only [Except.ok.injEq] at h
    subst h
    exact ⟨rfl, m, rfl, rfl, rfl⟩
  | missing => rw [hm] at h; cases h
  | ofNothing => rw [hm] at h; cases h

lemma mount_ok {data : List Datum} {s : List Shown} (h : mount data = .ok s) :
    ∃ c, overallCenter (singlePlanes data) = .ok c ∧
      List.Forall₂ (fun p q => place data c p = .ok q) (singlePlanes data) s := by
  unfold mount at h
  cases hc : overallCenter (singlePlanes data) with
  | error e => rw [hc] at h; cases h
  | ok c =>
    rw [hc] at h
    exact ⟨c, rfl, mapM_ok h⟩

lemma mount_planes {data : List Datum} {s : List Shown} (h : mount data = .ok s) :
    s.map (fun q => q.plane) = singlePlanes data := by
  obtain ⟨c, -, hf⟩ := mount_ok h
  clear h
  generalize singlePlanes data = l at hf ⊢
  induction hf with
  | nil => rfl
  | cons h _ ih => rw [List.map_cons, ih, (place_ok h).1]

/-- A measurement that is not a group. -/
def Spec.single (d : Datum) : Bool := d.members.isNone

/-- Exactly the measurements that are not groups are shown, each once. -/
theorem C230_shown {data : List Datum} {s : List Shown} (h : mount data = .ok s) :
    s.map (fun q => q.plane.data) = data.filter Spec.single := by
  have := congrArg (List.map fun p : Plane => p.data) (mount_planes h)
  rw [List.map_map] at this
  rw [show (fun q : Shown => q.plane.data) = (fun p : Plane => p.data) ∘ fun q => q.plane from rfl,
    this, singlePlanes, List.map_map]
  conv_rhs => rw [← List.map_id (data.filter Spec.single)]
  apply List.map_congr_left
  intro d _
  exact planeData_data d none

/-- Measurements that have a center are placed according to it, around the middle of the
picture: the outermost ones are at the same distance on both sides, in every direction. -/
theorem C230_position {data : List Datum} (hne : ∃ d ∈ data, Spec.single d)
    (hc : ∀ d ∈ data, Spec.single d → d.center ≠ none ∧ d.mean = none) :
    ∃ s c, mount data = .ok s ∧
      (∀ q ∈ s, ∃ k, q.plane.data.center = some k ∧ q.offset = k - c) ∧
      ∀ i, ∃ a ∈ s, ∃ b ∈ s, (∀ q ∈ s, a.offset i ≤ q.offset i ∧ q.offset i ≤ b.offset i) ∧
        a.offset i + b.offset i = 0 := by
  have hc' : ∀ p ∈ singlePlanes data, ∃ k, p.data.center = some k ∧ p.mean = .pos k := by
    intro p hp
    obtain ⟨d, hd, rfl⟩ := List.mem_map.1 hp
    obtain ⟨hd, hs⟩ := List.mem_filter.1 hd
    obtain ⟨h1, h2⟩ := hc d hd hs
    obtain ⟨k, hk⟩ := Option.ne_none_iff_exists'.1 h1
    refine ⟨k, by rw [planeData_data, hk], ?_⟩
    cases h : d.extracted <;> simp [planeData, h, h2, hk]
  have hn : singlePlanes data ≠ [] := by
    obtain ⟨d, hd, hs⟩ := hne
    intro e
    have : planeData d ∈ singlePlanes data := List.mem_map.2 ⟨d, List.mem_filter.2 ⟨hd, hs⟩, rfl⟩
    rw [e] at this
    simp at this
  have e1 : (singlePlanes data).mapM planeCenter
      = .ok ((singlePlanes data).map fun p => ⟨p.data.center.getD 0, none⟩) := by
    apply mapM_of
    intro p hp
    obtain ⟨k, hk, -⟩ := hc' p hp
    simp [planeCenter, hk]
  obtain ⟨c, ec, hmid⟩ := C116_extrema ((singlePlanes data).map fun p => ⟨p.data.center.getD 0, none⟩)
    (by simpa using hn)
  have e2 : overallCenter (singlePlanes data) = .ok c := by
    unfold overallCenter
    rw [e1]
    exact ec
  set g : Plane → Shown := fun p =>
    ⟨p, p.data.center.getD 0 - c, groupOf data p.data (p.data.center.getD 0)⟩ with hg
  have e3 : mount data = .ok ((singlePlanes data).map g) := by
    unfold mount
    rw [e2]
    apply mapM_of
    intro p hp
    obtain ⟨k, hk, hm⟩ := hc' p hp
    simp only [place, hm, hg, hk, Option.getD_some]
  refine ⟨_, c, e3, ?_, fun i => ?_⟩
  · intro q hq
    obtain ⟨p, hp, rfl⟩ := List.mem_map.1 hq
    obtain ⟨k, hk, -⟩ := hc' p hp
    exact ⟨k, hk, by simp [hg, hk]⟩
  · obtain ⟨a, ha, b, hb, h1, h2⟩ := hmid i
    obtain ⟨a, ha', rfl⟩ := List.mem_map.1 ha
    obtain ⟨b, hb', rfl⟩ := List.mem_map.1 hb
    refine ⟨g a, List.mem_map_of_mem ha', g b, List.mem_map_of_mem hb', ?_, ?_⟩
    · intro q hq
      obtain ⟨p, hp, rfl⟩ := List.mem_map.1 hq
      have := h1 _ (List.mem_map.2 ⟨p, hp, rfl⟩)
      simp only [hg, Pi.sub_apply]
      constructor <;> linarith [this.1, this.2]
    · simp only [hg, Pi.sub_apply, h2]
      ring

/-- The horizontal direction that is to the right in the picture. -/
noncomputable def Spec.rightwards (azimuth : ℝ) : Vec 3 := ![Real.sin azimuth, -Real.cos azimuth, 0]

/-- The direction out of the picture: right, up and it are a right-handed frame. -/
noncomputable def Spec.towardsViewer (azimuth : ℝ) : Vec 3 :=
  cross (Spec.rightwards azimuth) ![0, 0, 1]

/-- `rightwards` is the direction of the section in which `transform` draws. -/
lemma onScreen_rightwards (az : ℝ) (xs ys : ℝ → ℝ) (P : Vec 3) :
    Spec.onScreen (viewAngle az) xs ys P = (xs (vdot P (Spec.rightwards az)), ys (P 2)) := by
  unfold Spec.onScreen viewAngle Spec.rightwards
  rw [Real.cos_sub_pi_div_two, Real.sin_sub_pi_div_two, vdot3]
  simp

lemma depth_eq (az : ℝ) (P : Vec 3) :
    depth (viewAngle az) P = vdot P (Spec.towardsViewer az) := by
  unfold depth viewAngle
  rw [Matrix.vecMul_one, vecMul_rotZ, Real.cos_add_pi, Real.sin_add_pi, Real.cos_sub_pi_div_two,
    Real.sin_sub_pi_div_two, vdot3]
  simp [Spec.towardsViewer, Spec.rightwards, cross]

lemma sorted_pairwise_depth (az : ℝ) (l : List Hyp) :
    (sorted (viewAngle az) l).Pairwise fun a b =>
      vdot a.offset (Spec.towardsViewer az) ≤ vdot b.offset (Spec.towardsViewer az) := by
  have : Std.Total fun a b : Hyp => depth (viewAngle az) a.offset ≤ depth (viewAngle az) b.offset :=
    ⟨fun a b => le_total _ _⟩
  have : IsTrans Hyp fun a b => depth (viewAngle az) a.offset ≤ depth (viewAngle az) b.offset :=
    ⟨fun a b c => le_trans⟩
  have := List.pairwise_insertionSort
    (fun a b : Hyp => depth (viewAngle az) a.offset ≤ depth (viewAngle az) b.offset) l
  refine this.imp fun {a b} h => ?_
  rwa [depth_eq, depth_eq] at h

/-- Every plane has one hyperbola, at the place of the plane, and nearer ones are drawn over
farther ones. -/
theorem C230_hyperbolas {data : List Datum} {s : List Shown} (h : mount data = .ok s) (az : ℝ) :
    ((hyperbolas az s).map fun q => q.plane.data).Perm (data.filter Spec.single) ∧
    (∀ q ∈ hyperbolas az s, ∃ p ∈ s, q.plane = p.plane ∧ q.offset = p.offset) ∧
    (hyperbolas az s).Pairwise fun a b =>
      vdot a.offset (Spec.towardsViewer az) ≤ vdot b.offset (Spec.towardsViewer az) := by
  have hp := List.perm_insertionSort
    (fun a b : Hyp => depth (viewAngle az) a.offset ≤ depth (viewAngle az) b.offset)
    (s.map fun p => (⟨p.plane, p.offset⟩ : Hyp))
  refine ⟨?_, fun q hq => ?_, sorted_pairwise_depth az _⟩
  · have := hp.map fun q : Hyp => q.plane.data
    rw [List.map_map] at this
    rw [← C230_shown h]
    exact this
  · obtain ⟨p, hp', rfl⟩ := List.mem_map.1 (hp.mem_iff.1 hq)
    exact ⟨p, hp', rfl, rfl⟩

/-- The hyperbolas of groups: one for each plane that belongs to a group of the data, with the
errors of the group and at the place of the plane; nearer ones over farther ones. -/
theorem C230_groups {data : List Datum} {s : List Shown} (h : mount data = .ok s) (az : ℝ) :
    (∀ q, q ∈ groupHyperbolas az s → ∃ p ∈ s, ∃ u, p.plane.data.memberOf = some u ∧
      data.find? (fun d => d.uid = u) = some q.plane.data ∧ q.offset = p.offset) ∧
    (∀ p ∈ s, ∀ u g, p.plane.data.memberOf = some u → data.find? (fun d => d.uid = u) = some g →
      ∃ q ∈ groupHyperbolas az s, q.plane.data = g ∧ q.offset = p.offset) ∧
    (groupHyperbolas az s).Pairwise fun a b =>
      vdot a.offset (Spec.towardsViewer az) ≤ vdot b.offset (Spec.towardsViewer az) := by
  have hp := List.perm_insertionSort
    (fun a b : Hyp => depth (viewAngle az) a.offset ≤ depth (viewAngle az) b.offset)
    (s.filterMap fun p => p.group.map fun g => (⟨g, p.offset⟩ : Hyp))
  have hgroup : ∀ p ∈ s, ∃ m, p.group = groupOf data p.plane.data m := by
    obtain ⟨c, -, hf⟩ := mount_ok h
    intro p hps
    obtain ⟨i, hi, rfl⟩ := List.mem_iff_getElem.1 hps
    have := (List.forall₂_iff_get.1 hf).2 i (by rw [hf.length_eq]; exact hi) hi
    obtain ⟨e, m, -, -, e4⟩ := place_ok this
    refine ⟨m, ?_⟩
    rw [← e] at e4
    exact e4
  refine ⟨fun q hq => ?_, fun p hps u g hu hg => ?_, sorted_pairwise_depth az _⟩
  · obtain ⟨p, hps, e⟩ := List.mem_filterMap.1 (hp.mem_iff.1 hq)
    obtain ⟨g, hg, rfl⟩ := Option.map_eq_some_iff.1 e
    obtain ⟨m, hm⟩ := hgroup p hps
    rw [hm] at hg
    unfold groupOf at hg
    cases hu : p.plane.data.memberOf with
    | none => rw [hu] at hg; cases hg
    | some u =>
      rw [hu] at hg
      obtain ⟨d, hd, rfl⟩ := Option.map_eq_some_iff.1 hg
      exact ⟨p, hps, u, hu, by rw [planeData_data]; exact hd, rfl⟩
  · obtain ⟨m, hm⟩ := hgroup p hps
    unfold groupOf at hm
    rw [hu] at hm
    simp only [hg, Option.map_some] at hm
    refine ⟨⟨planeData g (some m), p.offset⟩, hp.mem_iff.2 (List.mem_filterMap.2 ⟨p, hps, ?_⟩),
      planeData_data g _, rfl⟩
    rw [hm]
    rfl

/-- The plane along which a measurement is drawn: that of its group if it is in the data. -/
def Spec.drawnAlong (data : List Datum) (d : Datum) : Datum :=
  match d.memberOf with
  | none => d
  | some u => (data.find? fun g => g.uid = u).getD d

/-- Every measurement with points has one trace.  It is drawn along the section of the plane of
the measurement, or of its group, through the center of the measurement. -/
theorem C230_traces {data : List Datum} {s : List Shown} (h : mount data = .ok s) (az : ℝ)
    (xs ys : ℝ → ℝ) (hx : Spec.LinearScale xs) (hy : Spec.LinearScale ys) :
    (traces az xs ys s).map (fun t => t.uid) = ((data.filter Spec.single).filter fun d =>
      d.centeredArray.isSome || d.extracted.isSome).map (fun d => d.uid) ∧
    ∀ t ∈ traces az xs ys s, ∃ p ∈ s, t.uid = p.plane.data.uid ∧
      t.normal = (Spec.drawnAlong data p.plane.data).axes 2 ∧
      (t.normal 2 ≠ 0 → ∃ pl, t.placement = some pl ∧
        {q | ∃ r, q = Spec.placed pl (r, 0)}
          = Spec.onScreen (viewAngle az) xs ys '' Spec.sectionLine t.normal p.offset (viewAngle az)) := by
  constructor
  · rw [← C230_shown h, List.filter_map, List.map_map, traces, List.map_map]
    have e : (fun p : Shown => p.plane.centered.isSome) = fun p => p.plane.centered.isSome := rfl
    have hs : ∀ p ∈ s, p.plane.centered.isSome
        = (p.plane.data.centeredArray.isSome || p.plane.data.extracted.isSome) := by
      intro p hp
      have : p.plane ∈ singlePlanes data := by
        rw [← mount_planes h]
        exact List.mem_map_of_mem hp
      obtain ⟨d, -, e⟩ := List.mem_map.1 this
      rw [← e, planeData_data, planeData_centered]
    rw [List.filter_congr hs]
    rfl
  · intro t ht
    obtain ⟨p, hp, rfl⟩ := List.mem_map.1 ht
    have hp := (List.mem_filter.1 hp).1
    refine ⟨p, hp, rfl, ?_, fun hn => C119_section_line _ _ hn _ xs ys hx hy⟩
    obtain ⟨c, -, hf⟩ := mount_ok h
    obtain ⟨i, hi, rfl⟩ := List.mem_iff_getElem.1 hp
    have := (List.forall₂_iff_get.1 hf).2 i (by rw [hf.length_eq]; exact hi) hi
    obtain ⟨e, m, -, -, e4⟩ := place_ok this
    rw [← e] at e4
    simp only [List.get_eq_getElem] at e4
    dsimp only
    rw [e4]
    unfold Spec.drawnAlong groupOf
    cases hu : (s[i]).plane.data.memberOf with
    | none => rfl
    | some u =>
      cases hg : data.find? fun d => d.uid = u with
      | none => simp [hg]
      | some g => simp [hg, planeData_data]

lemma overallCenter_error {ps : List Plane} {p : Plane} (hp : p ∈ ps) (h : p.data.center = none) :
    overallCenter ps = .error .typeError := by
  unfold overallCenter
  rw [mapM_error hp (e := JsErr.typeError)]
  · rfl
  · intro b _ e' he
    cases hb : b.data.center <;> simp [planeCenter, hb] at he
    exact he.symm
  · simp [planeCenter, h]

/-- One measurement without a `center`, as every `ReconstructedPlane` is (base.py L84-85), and
nothing at all is drawn; also if the points are given, from which `PlaneData` computes it. -/
theorem C230_no_center_false {data : List Datum} {d : Datum} (hd : d ∈ data) (hs : Spec.single d)
    (h : d.center = none) : mount data = .error .typeError := by
  unfold mount
  rw [overallCenter_error (p := planeData d)]
  · rfl
  · exact List.mem_map.2 ⟨d, List.mem_filter.2 ⟨hd, hs⟩, rfl⟩
  · rw [planeData_data, h]

/-- Groups without their members cannot be shown. -/
theorem C230_groups_alone_false {data : List Datum} (h : ∀ d ∈ data, ¬ Spec.single d) :
    mount data = .error .typeError := by
  have e : singlePlanes data = [] := by
    unfold singlePlanes
    rw [List.map_eq_nil_iff, List.filter_eq_nil_iff]
    exact h
  unfold mount
  rw [e]
  rfl

/-- Planes are placed according to `mean` but the middle is that of `center`: a single
measurement with both is off the middle by their difference. -/
theorem C230_mean_false (d : Datum) (hs : Spec.single d) (k m : Vec 3) (hk : d.center = some k)
    (hm : d.mean = some m) : ∃ q, mount [d] = .ok [q] ∧ q.offset = m - k := by
  have e : singlePlanes [d] = [planeData d] := by
    have : d.members.isNone = true := hs
    simp [singlePlanes, this]
  have ec : overallCenter [planeData d] = .ok k := by
    unfold overallCenter
    simp only [List.mapM_cons, List.mapM_nil, planeCenter, planeData_data, hk]
    simp only [bind, Except.bind, pure, Except.pure, centroidExtrema, extrema, List.foldl]
    simp only [Option.getD_none, lt_irrefl, if_false]
    congr 1
    funext i
    fin_cases i <;> simp
  have em : (planeData d).mean = .pos m := by
    cases h : d.extracted <;> simp [planeData, h, hm]
  have ep : ∃ q, place [d] k (planeData d) = .ok q := by
    unfold place
    rw [em]
    exact ⟨_, rfl⟩
  obtain ⟨q, hq⟩ := ep
  obtain ⟨-, m', em', eo, -⟩ := place_ok hq
  rw [em] at em'
  cases em'
  refine ⟨q, ?_, eo⟩
  unfold mount
  rw [e, ec]
  simp only [bind, Except.bind, List.mapM_cons, hq, List.mapM_nil, pure, Except.pure]

/-- Two measurements that belong to a group, and the group. -/
noncomputable def Spec.sideData : List Datum :=
  [{ uid := "a", memberOf := some "g", center := some ![0, 0, 0], centeredArray := some [![1, 0, 0]] },
   { uid := "b", memberOf := some "g", center := some ![2, 4, 6] },
   { uid := "g", members := some ["a", "b"] }]

example : ∃ s, mount Spec.sideData = .ok s ∧
    s.map (fun q => q.plane.data.uid) = ["a", "b"] := by
  obtain ⟨s, c, hs, -⟩ := C230_position (data := Spec.sideData)
    ⟨_, List.mem_cons_self, rfl⟩ (by
      intro d hd hs
      simp only [Spec.sideData, List.mem_cons, List.not_mem_nil, or_false] at hd
      rcases hd with rfl | rfl | rfl
      · simp
      · simp
      · simp [Spec.single] at hs)
  refine ⟨s, hs, ?_⟩
  have := congrArg (List.map fun d : Datum => d.uid) (C230_shown hs)
  rw [List.map_map] at this
  rw [show (fun q : Shown => q.plane.data.uid) = (fun d : Datum => d.uid) ∘ fun q => q.plane.data from rfl,
    this]
  rfl

/-! ## C231 -/

/-- The axis on the left shows elevations: a point of elevation `e` is at the position on the
axis where `e` is written. -/
theorem C231_elevation (m r0 r1 c e : ℝ) (hm : m ≠ 0) :
    (⟨some m, r0, r1⟩ : NotebookUi.Scale).eval (e - c) = some (elevationScale m r0 r1 c e) := by
  simp only [NotebookUi.Scale.eval, Option.bind_some, if_neg hm, elevationScale, Option.some.injEq]
  ring

/-- The angle in the label "Distance along" is the azimuth of the direction to the right in the
picture for the azimuths of 45 and 225 degrees only. -/
theorem C231_label_false (az : ℝ) :
    Spec.heading (labelAngle az) = Spec.rightwards az ↔ Real.sin az = Real.cos az := by
  obtain ⟨-, ⟨k, hk⟩, -⟩ := C117_fix_angle (viewAngle az + Real.pi)
  have e : labelAngle az * Real.pi / 180 = az + Real.pi / 2 + k * (2 * Real.pi) := by
    have hp := Real.pi_ne_zero
    unfold labelAngle
    rw [hk]
    unfold viewAngle
    field_simp
    ring
  unfold Spec.heading Spec.rightwards
  rw [e, Real.sin_add_int_mul_two_pi, Real.cos_add_int_mul_two_pi, Real.sin_add_pi_div_two,
    Real.cos_add_pi_div_two]
  constructor
  · intro h
    have := congrFun h 0
    simpa using this.symm
  · intro h
    rw [h]

/-- For the view of the start, azimuth 0, the label says 90 (east); the picture is along the
direction to the south. -/
theorem C231_label_start_false : labelAngle 0 = 90 ∧ Spec.rightwards 0 = Spec.heading 180 := by
  have hp := Real.pi_pos
  constructor
  · unfold labelAngle viewAngle
    rw [(C117_fix_angle _).2.2 ⟨by linarith, by linarith⟩]
    field_simp
    ring
  · unfold Spec.rightwards Spec.heading
    have : 180 * Real.pi / 180 = Real.pi := by ring
    rw [this]
    simp

lemma updateHovered_same {v w : View} {l : Option (List (Option String))}
    (h : updateHovered v l = .ok w) : w.planes = v.planes ∧ w.azimuth = v.azimuth := by
  unfold updateHovered at h
  cases l with
  | none => cases h; exact ⟨rfl, rfl⟩
  | some l =>
    dsimp only at h
    split at h
    · cases h
    · cases h; exact ⟨rfl, rfl⟩

lemma updateHovered_bright {v w : View} {l : List (Option String)}
    (h : updateHovered v (some l) = .ok w) :
    w.bright = w.traceIds.filter fun u => some u ∈ l := by
  unfold updateHovered at h
  dsimp only at h
  split at h
  · cases h
  · cases h; rfl

/-- What holds of a component with the properties `p`. -/
def Spec.UpToDate (p : SideView.Props) (v : View) : Prop :=
  v.azimuth = p.azimuth ∧
    ∀ l, p.hovered = some l → v.bright = v.traceIds.filter fun u => some u ∈ l

lemma didUpdate_spec {prev p : SideView.Props} {v w : View} (hv : Spec.UpToDate prev v)
    (h : didUpdate prev p v = .ok w) : Spec.UpToDate p w ∧ w.planes = v.planes := by
  unfold didUpdate at h
  generalize hv' : (if prev.azimuth ≠ p.azimuth then { v with azimuth := p.azimuth } else v) = v' at h
  have h1 : v'.azimuth = p.azimuth ∧ v'.planes = v.planes ∧ v'.bright = v.bright := by
    by_cases e : prev.azimuth ≠ p.azimuth
    · rw [if_pos e] at hv'; subst hv'; exact ⟨rfl, rfl, rfl⟩
    · rw [if_neg e] at hv'
      subst hv'
      exact ⟨by rw [hv.1]; exact not_not.1 e, rfl, rfl⟩
  dsimp only at h
  split at h
  · have h2 := updateHovered_same h
    refine ⟨⟨h2.2.trans h1.1, fun l hl => ?_⟩, h2.1.trans h1.2.1⟩
    rw [hl] at h
    exact updateHovered_bright h
  · rename_i e
    cases h
    refine ⟨⟨h1.1, fun l hl => ?_⟩, h1.2.1⟩
    have := hv.2 l ((not_not.1 e).trans hl)
    rw [h1.2.2, this]
    unfold View.traceIds
    rw [h1.2.1]

lemma runFrom_spec {prev : SideView.Props} {v w : View} (hv : Spec.UpToDate prev v)
    {ps : List SideView.Props} (h : runFrom prev v ps = .ok w) :
    Spec.UpToDate (ps.getLastD prev) w ∧ w.planes = v.planes := by
  induction ps generalizing prev v with
  | nil => cases h; exact ⟨hv, rfl⟩
  | cons p ps ih =>
    unfold runFrom at h
    cases e : didUpdate prev p v with
    | error e' => rw [e] at h; cases h
    | ok v1 =>
      rw [e] at h
      obtain ⟨h1, h2⟩ := didUpdate_spec hv e
      obtain ⟨g1, g2⟩ := ih h1 h
      refine ⟨?_, g2.trans h2⟩
      rw [List.getLastD_cons]
      exact g1

lemma run_spec {p : SideView.Props} {ps : List SideView.Props} {w : View} (h : run p ps = .ok w) :
    Spec.UpToDate (ps.getLastD p) w ∧ mount p.data = .ok w.planes := by
  unfold run at h
  cases e : didMount p with
  | error e' => rw [e] at h; cases h
  | ok v =>
    rw [e] at h
    unfold didMount at e
    cases hm : mount p.data with
    | error e' => rw [hm] at e; cases e
    | ok s =>
      rw [hm] at e
      have h2 := updateHovered_same e
      have hv : Spec.UpToDate p v := by
        refine ⟨h2.2, fun l hl => ?_⟩
        simp only [hl] at e
        exact updateHovered_bright e
      obtain ⟨g1, g2⟩ := runFrom_spec hv h
      exact ⟨g1, by rw [g2, h2.1]⟩

/-- After any changes of its properties the view is for the current azimuth, and while the mouse
is on measurements their traces, and no others, are highlighted. -/
theorem C231_current_partial {p : SideView.Props} {ps : List SideView.Props} {v : View}
    (h : run p ps = .ok v) :
    v.azimuth = (ps.getLastD p).azimuth ∧
    ∀ l, (ps.getLastD p).hovered = some l →
      ∀ u, u ∈ v.bright ↔ u ∈ v.traceIds ∧ some u ∈ l := by
  obtain ⟨⟨h1, h2⟩, -⟩ := run_spec h
  refine ⟨h1, fun l hl u => ?_⟩
  rw [h2 l hl, List.mem_filter, decide_eq_true_iff]

/-- The planes are for ever those of the data with which the view was made: other data given to
it later is not drawn. -/
theorem C231_data_false {p : SideView.Props} {ps : List SideView.Props} {v : View}
    (h : run p ps = .ok v) : v.planes.map (fun q => q.plane.data) = p.data.filter Spec.single :=
  C230_shown (run_spec h).2

/-- When the mouse leaves a measurement its trace stays highlighted. -/
theorem C231_leave_false {p : SideView.Props} {v : View} (h : run p [] = .ok v)
    (l : List (Option String)) (hl : p.hovered = some l) (az : ℝ) :
    ∃ w, run p [{ p with azimuth := az, hovered := none }] = .ok w ∧ w.bright = v.bright ∧
      w.azimuth = az := by
  unfold run at h ⊢
  cases e : didMount p with
  | error e' => rw [e] at h; cases h
  | ok v0 =>
    rw [e] at h
    cases h
    have hz := (run_spec (p := p) (ps := []) (w := v) (by unfold run; rw [e]; rfl)).1.1
    by_cases ha : p.azimuth = az
    · refine ⟨v, ?_, rfl, by rw [← ha]; exact hz⟩
      simp [bind, Except.bind, runFrom, didUpdate, updateHovered, hl, ha]
    · refine ⟨{ v with azimuth := az }, ?_, rfl, rfl⟩
      simp [bind, Except.bind, runFrom, didUpdate, updateHovered, hl, ha]

/-- Moving the mouse to a group one of whose members is not in the data, for which `onHover`
passes `undefined` (index.ts L60-67 and L149-150), is an error. -/
theorem C231_missing_member_false {p : SideView.Props} {v : View} (h : run p [] = .ok v)
    (l : List (Option String)) (hl : none ∈ l) (hp : p.hovered ≠ some l) (az : ℝ) :
    run p [{ p with azimuth := az, hovered := some l }] = .error .typeError := by
  unfold run at h ⊢
  cases e : didMount p with
  | error e' => rw [e] at h; cases h
  | ok v0 =>
    by_cases ha : p.azimuth = az <;>
    simp [bind, Except.bind, runFrom, didUpdate, updateHovered, hp, hl]

/-- The data above with the mouse on the measurement "a": its trace is highlighted. -/
example : ∃ v, run ⟨Spec.sideData, 0, some [some "a"]⟩ [] = .ok v ∧ v.bright = ["a"] := by
  obtain ⟨s, c, hs, -⟩ := C230_position (data := Spec.sideData)
    ⟨_, List.mem_cons_self, rfl⟩ (by
      intro d hd hs
      simp only [Spec.sideData, List.mem_cons, List.not_mem_nil, or_false] at hd
      rcases hd with rfl | rfl | rfl
      · simp
      · simp
      · simp [Spec.single] at hs)
  have ht := (C230_traces hs 0 (fun t => t) (fun t => -t) ⟨1, by norm_num, by simp⟩
    ⟨-1, by norm_num, by simp⟩).1
  have e : run ⟨Spec.sideData, 0, some [some "a"]⟩ [] = .ok
      { planes := s, azimuth := 0,
        bright := (⟨s, 0, []⟩ : View).traceIds.filter fun u => some u ∈ [some "a"] } := by
    simp [run, didMount, hs, bind, Except.bind, updateHovered, runFrom]
  refine ⟨_, e, ?_⟩
  have e2 : (⟨s, 0, []⟩ : View).traceIds = ["a"] := by
    have : (⟨s, 0, []⟩ : View).traceIds = (traces 0 (fun t => t) (fun t => -t) s).map fun t => t.uid := by
      simp [View.traceIds, traces]
    rw [this, ht]
    rfl
  simp [e2]

end Attitude.Props
