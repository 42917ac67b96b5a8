import Verif.Model.FrontendStereonet
import Verif.Props.FrontendPoles

/-!
# Properties of the stereonet component of the frontend
-/

namespace Attitude.Props

open Attitude Frontend

/-! ## C124 -/

/-- Directions (east, north, up) by name. -/
def Spec.compass : String → Option (Vec 3)
  | "N" => some ![0, 1, 0]
  | "E" => some ![1, 0, 0]
  | "S" => some ![0, -1, 0]
  | "W" => some ![-1, 0, 0]
  | "Up" => some ![0, 0, 1]
  | "Down" => some ![0, 0, -1]
  | _ => none

lemma radians_180 : radians 180 = Real.pi := by unfold radians; field_simp
lemma radians_90 : radians 90 = Real.pi / 2 := by unfold radians; ring
lemma radians_neg (x : ℝ) : radians (-x) = -radians x := by unfold radians; ring
lemma radians_zero : radians 0 = 0 := by unfold radians; ring
lemma radians_sub (x y : ℝ) : radians (x - y) = radians x - radians y := by unfold radians; ring

/-- The labels are where directions of that name are shown in the layout of the
stereonet. -/
theorem C124_labels : ∀ l ∈ labels, Spec.compass l.1
    = some (Spec.shown (stereonetOpts.degrees.getD false)
        (stereonetOpts.traditionalLayout.getD false) l.2) := by
  intro l hl
  simp only [labels, List.mem_cons, List.not_mem_nil, or_false] at hl
  rcases hl with rfl | rfl | rfl | rfl | rfl | rfl <;>
  simp [Spec.compass, Spec.shown, Spec.direction, stereonetOpts, Rotations.sph2cart, radians_180,
    radians_90, radians_neg, radians_zero]

/-- Data in these directions are drawn there. -/
theorem C124_data (l : String × (ℝ × ℝ)) (hl : l ∈ labels) (d : Vec 3)
    (hd : Spec.compass l.1 = some d) : ∃ q, Frontend.cart2sph stereonetOpts d = some q ∧
      Spec.shown true false q = Spec.shown true false l.2 := by
  have h := C124_labels l hl
  rw [hd, Option.some.injEq] at h
  have hn : Attitude.norm d = 1 := by
    simp only [labels, List.mem_cons, List.not_mem_nil, or_false] at hl
    rcases hl with rfl | rfl | rfl | rfl | rfl | rfl <;>
    (simp [Spec.compass] at hd
     subst hd
     rw [norm3]
     simp)
  have hne : d ≠ 0 := by
    rintro rfl
    simp [Attitude.norm] at hn
  obtain ⟨q, hq, hs⟩ := jsPosition (o := stereonetOpts) rfl hne
  refine ⟨q, hq, ?_⟩
  have : Spec.shown true false q = (1 / Attitude.norm d) • d := hs
  rw [this, hn, div_one, one_smul, h]
  rfl

example : ∃ l ∈ labels, ∃ d, Spec.compass l.1 = some d := by
  have h : ("N", ((180 : ℝ), (0 : ℝ))) ∈ labels := by simp [labels]
  exact ⟨_, h, _, C124_labels _ h⟩

/-- With the options of the stereonet, errors are drawn as given: the girdle is on the error cone of
the standard deviations, and the 200 positions of the ellipse are the normals of the planes that touch the
same cone. -/
theorem C124_errors_as_given (cov : Vec 3) (axes : Mat 3 3) (ho : Spec.OrthonormalRows axes)
    (h0 : 0 < cov 0) (h1 : 0 < cov 1) (h2 : 0 < cov 2) (sheet : String)
    (hsh : sheet = "upper" ∨ sheet = "lower") :
    (∀ q ∈ (Frontend.planeErrors cov (some axes) { stereonetOpts with sheet := some sheet }).1,
      ∃ p, q = some p ∧
        Spec.shown true false p ∈ Spec.ErrorCone axes (fun i => Real.sqrt (cov i)) (Real.sqrt (cov 2))) ∧
    ∃ c o', Frontend.normalErrors cov (some axes) { stereonetOpts with sheet := some sheet }
        = some (c, o') ∧ c.length = 200 ∧
      ∀ q ∈ c, ∃ p, q = some p ∧
        Spec.TangentNormal axes (fun i => Real.sqrt (cov i)) (Real.sqrt (cov 2))
          (Spec.shown true false p) := by
  constructor
  · intro q hq
    obtain ⟨p, hp, -, hm⟩ := C106_sheets cov axes ho h0 h1 h2 _ (by simp [stereonetOpts])
      (if sheet = "upper" then (if axes 2 2 < 0 then 1 else -1) else (if axes 2 2 < 0 then -1 else 1))
      (by rcases hsh with rfl | rfl <;> simp) q hq
    exact ⟨p, hp, hm.1⟩
  · obtain ⟨c, o', e, hl, hc⟩ := C107_poles cov axes ho h0 h1 h2
      { stereonetOpts with sheet := some sheet } (by simp [stereonetOpts]) (by simp [stereonetOpts])
      (by simp [stereonetOpts]) (if sheet = "upper" then 1 else -1)
      (by rcases hsh with rfl | rfl <;> simp)
    refine ⟨c, o', e, by simpa [stereonetOpts] using hl, fun q hq => ?_⟩
    obtain ⟨p, hp, -, -, ht⟩ := hc q hq
    exact ⟨p, hp, by simpa [stereonetOpts] using ht⟩

example : ∃ c o', Frontend.normalErrors ![9, 4, 1] (some dippingAxes)
    { stereonetOpts with sheet := some "upper" } = some (c, o') ∧ c.length = 200 := by
  obtain ⟨-, c, o', h, hl, -⟩ := C124_errors_as_given ![9, 4, 1] dippingAxes dipping_orthonormal
    (by simp) (by simp) (by simp) "upper" (.inl rfl)
  exact ⟨c, o', h, hl⟩

/-! ## C125 -/

lemma rem360_of_lt {x : ℝ} (h : |x| < 360) : rem360 x = x := by
  rw [abs_lt] at h
  unfold rem360
  split_ifs with h0
  · have : ⌊x / 360⌋ = 0 := by
      rw [Int.floor_eq_iff]
      constructor
      · simp; positivity
      · simp; rw [div_lt_one (by norm_num)]; exact h.2
    rw [this]; simp
  · have : ⌈x / 360⌉ = 0 := by
      rw [Int.ceil_eq_iff]
      push Not at h0
      constructor
      · simp; rw [lt_div_iff₀ (by norm_num)]; linarith
      · simp; exact div_nonpos_of_nonpos_of_nonneg h0.le (by norm_num)
    rw [this]; simp

lemma cos_arctan2_zero {y : ℝ} (hy : y ≠ 0) : Real.cos (arctan2 y 0) = 0 := by
  have := sqrt_mul_cos_arctan2 y 0
  have hp : 0 < Real.sqrt (0 ^ 2 + y ^ 2) := Real.sqrt_pos.2 (by positivity)
  exact (mul_eq_zero.1 this).resolve_left hp.ne'

/-- A horizontal direction of azimuth `az` in a view along the vertical (from above for
`σ = 1`, from below for `σ = -1`). -/
lemma project_vertical (scale center az σ : ℝ) (hσ : σ = 1 ∨ σ = -1) :
    project (Rotation.of 0 (-(σ * 90))) scale center (180 - az, 0)
      = some (center + scale * (Real.sqrt 2 * Real.sin (radians az)),
          center - scale * (Real.sqrt 2 * (σ * Real.cos (radians az)))) := by
  have h1 : |-(σ * 90)| < 360 := by rcases hσ with rfl | rfl <;> norm_num
  have hrot : Rotation.of 0 (-(σ * 90)) = ⟨0, -(σ * 90), 0⟩ := by
    simp only [Rotation.of, rem360_of_lt h1, rem360_of_lt (show |(0 : ℝ)| < 360 by norm_num)]
  have hphi : Real.cos (radians (-(σ * 90))) = 0 ∧ Real.sin (radians (-(σ * 90))) = -σ := by
    rcases hσ with rfl | rfl
    · rw [one_mul, radians_neg, radians_90]; simp
    · rw [neg_one_mul, neg_neg, radians_90]; simp
  have hsq : σ ^ 2 = 1 := by rcases hσ with rfl | rfl <;> norm_num
  set t := radians az with ht
  have hl : radians (180 - az) + radians 0 = Real.pi - t := by
    rw [radians_sub, radians_180, radians_zero, add_zero]
  have hap : (⟨0, -(σ * 90), 0⟩ : Rotation).apply (180 - az, 0)
      = (arctan2 (Real.sin t) 0, Real.arcsin (σ * Real.cos t)) := by
    simp only [Rotation.apply]
    rw [hl, hphi.1, hphi.2, radians_zero]
    simp [Real.sin_pi_sub, Real.cos_pi_sub, mul_comm]
  have hc1 : |σ * Real.cos t| ≤ 1 := by
    rw [abs_mul]
    have : |σ| = 1 := by rcases hσ with rfl | rfl <;> simp
    rw [this, one_mul]; exact Real.abs_cos_le_one t
  obtain ⟨hc2, hc3⟩ := abs_le.1 hc1
  have hsin : Real.sin (Real.arcsin (σ * Real.cos t)) = σ * Real.cos t := Real.sin_arcsin hc2 hc3
  have hcos : Real.cos (Real.arcsin (σ * Real.cos t)) = |Real.sin t| := by
    rw [Real.cos_arcsin, mul_pow, hsq, one_mul, ← Real.sqrt_sq_eq_abs]
    congr 1
    have := Real.sin_sq_add_cos_sq t
    linarith
  have hprod : Real.cos (arctan2 (Real.sin t) 0) * |Real.sin t| = 0 := by
    by_cases h : Real.sin t = 0
    · simp [h]
    · rw [cos_arctan2_zero h, zero_mul]
  have hx : |Real.sin t| * Real.sin (arctan2 (Real.sin t) 0) = Real.sin t := by
    have := sqrt_mul_sin_arctan2 (Real.sin t) 0
    rwa [show (0 : ℝ) ^ 2 + Real.sin t ^ 2 = Real.sin t ^ 2 by ring, Real.sqrt_sq_eq_abs] at this
  unfold project
  rw [hrot, hap]
  simp only [hcos, hsin, hprod, hx, add_zero, one_ne_zero, if_false, div_one]

/-- In the view that `clipAngle` sets, the labels of azimuths made by `vertical` are in the
directions in which data of that azimuth are drawn. -/
theorem C125_azimuth_labels (s : Net) (c pad scale : ℝ) (hs : 0 < scale)
    (hz : 0 < s.scale / 2 - s.margin + pad + 5) (l : String × ℝ) (hl : l ∈ azimuths)
    (pos : ℝ × ℝ) (hpos : (l.1, pos) ∈ labels) :
    ∃ q k k', project (s.step (.clipAngle c)).rotation scale (s.scale / 2) pos = some q ∧ 0 < k ∧ 0 < k' ∧
      ((azimuthLabel s.scale s.margin pad l.2).1 - s.scale / 2 = k * (q.1 - s.scale / 2) ∧
      (azimuthLabel s.scale s.margin pad l.2).2 - s.scale / 2 = k' * (q.2 - s.scale / 2)) := by
  have hrot : (s.step (.clipAngle c)).rotation = Rotation.of 0 (-(1 * 90)) := by
    simp only [Net.step, Net.setScale]
    split_ifs <;> simp
  have h2 : 0 < Real.sqrt 2 := by positivity
  have hp : pos = (180 - l.2, 0) := by
    simp only [azimuths, labels, List.mem_cons, List.not_mem_nil, or_false] at hl hpos
    rcases hl with rfl | rfl | rfl | rfl <;> simp at hpos <;> rw [hpos] <;> norm_num
  have hang : ∀ loc : ℝ, (loc - 90) * Real.pi / 180 = radians loc - Real.pi / 2 := by
    intro loc; unfold radians; ring
  set z := s.scale / 2 - s.margin + pad + 5 with hzdef
  have hx : (azimuthLabel s.scale s.margin pad l.2).1 - s.scale / 2 = z * Real.sin (radians l.2) := by
    simp only [azimuthLabel, hang, Real.cos_sub_pi_div_two]
    ring
  have hy : (azimuthLabel s.scale s.margin pad l.2).2 - s.scale / 2
      = -(if l.2 = 0 then z + 3 else z) * Real.cos (radians l.2) := by
    simp only [azimuthLabel, hang, Real.sin_sub_pi_div_two]
    split_ifs with h
    · rw [h, radians_zero, Real.cos_zero]; ring
    · ring
  rw [hrot, hp, project_vertical _ _ _ 1 (Or.inl rfl)]
  refine ⟨_, z / (scale * Real.sqrt 2), (if l.2 = 0 then z + 3 else z) / (scale * Real.sqrt 2), rfl,
    by positivity, ?_, ?_, ?_⟩
  · split_ifs <;> positivity
  · rw [hx]; simp only; field_simp; ring
  · rw [hy]; simp only; field_simp; ring

example : ∃ q, project (({} : Net).step (.clipAngle 90)).rotation 100 (({} : Net).scale / 2) (90, 0)
    = some q := by
  obtain ⟨q, _, _, h, _⟩ := C125_azimuth_labels {} 90 5 100 (by norm_num) (by norm_num) ("E", 90)
    (by simp [azimuths]) (90, 0) (by simp [labels])
  exact ⟨q, h⟩

/-- After `center("vertical")` they are not: north is drawn at the bottom, where the
label is S, and vice versa. -/
theorem C125_center_vertical_false (s : Net) (pad scale : ℝ) (hs : 0 < scale)
    (hz : 0 < s.scale / 2 - s.margin + pad + 5) :
    ∃ q, project (s.step .centerVertical).rotation scale (s.scale / 2) (180, 0) = some q ∧
      s.scale / 2 < q.2 ∧ (azimuthLabel s.scale s.margin pad 0).2 < s.scale / 2 := by
  have hrot : (s.step .centerVertical).rotation = Rotation.of 0 (-(-1 * 90)) := by
    simp [Net.step]
  have h2 : 0 < Real.sqrt 2 := by positivity
  have h := project_vertical scale (s.scale / 2) 0 (-1) (Or.inr rfl)
  rw [sub_zero] at h
  rw [hrot, h]
  refine ⟨_, rfl, ?_, ?_⟩
  · simp [radians_zero]
    positivity
  · simp only [azimuthLabel]
    rw [show ((0 : ℝ) - 90) * Real.pi / 180 = -(Real.pi / 2) by ring]
    simp
    linarith

example : ∃ q, project (({} : Net).step .centerVertical).rotation 100 (({} : Net).scale / 2) (180, 0)
    = some q := by
  obtain ⟨q, h, _⟩ := C125_center_vertical_false {} 5 100 (by norm_num) (by norm_num)
  exact ⟨q, h⟩

/-- The labels of dips are at the latitude of the upward normals of planes with this dip. -/
theorem C125_dip_labels (d : ℝ) (h0 : 0 ≤ d) (h1 : d ≤ 180) (w : Vec 3) (hw : Attitude.norm w = 1)
    (hd : w 2 = Real.cos (radians d)) :
    ∃ p, Frontend.cart2sph stereonetOpts w = some p ∧ p.2 = (dipLabel d).2 := by
  refine ⟨_, by simp only [Frontend.cart2sph, stereonetOpts, hw]; simp; rfl, ?_⟩
  simp only [dipLabel, hd]
  have hr0 : 0 ≤ radians d := by unfold radians; positivity
  have hr1 : radians d ≤ Real.pi := by
    unfold radians
    have := Real.pi_pos
    rw [div_le_iff₀ (by norm_num)]
    nlinarith
  have : Real.arcsin (Real.cos (radians d)) = Real.pi / 2 - radians d := by
    rw [← Real.sin_pi_div_two_sub, Real.arcsin_sin (by linarith) (by linarith)]
  rw [this]
  unfold radians
  field_simp
  ring

/-- A stereonet of default size. -/
example : 0 < ({} : Net).scale / 2 - ({} : Net).margin + 2 + 5 := by norm_num

/-! ## C126 -/

/-- While the button is down, the start of the drag is kept. -/
lemma drag_moves (s : Drag) (ms : List (ℝ × ℝ)) :
    ((ms.map Mouse.move).foldl Drag.step s).start = s.start := by
  induction ms generalizing s with
  | nil => rfl
  | cons p ms ih =>
    rw [List.map_cons, List.foldl_cons, ih]
    obtain ⟨rot, st⟩ := s
    cases st <;> rfl

/-- The view after a drag depends only on the view before it and on the two ends: not
on the path in between. -/
theorem C126_drag (s : Drag) (p q : ℝ × ℝ) (path : List (ℝ × ℝ)) :
    ([Mouse.down p] ++ path.map Mouse.move ++ [Mouse.up q]).foldl Drag.step s
      = { rotation := Rotation.of (s.rotation.lambda + (q.1 - p.1) / 3)
            (clampLatitude (s.rotation.phi + (p.2 - q.2) / 3)), start := none } := by
  rw [List.foldl_append, List.foldl_append]
  simp only [List.foldl_cons, List.foldl_nil]
  have h := drag_moves (s.step (.down p)) path
  simp only [Drag.step] at h ⊢
  rw [h]
  simp only [Drag.move, h]

/-- Without the button down nothing happens. -/
theorem C126_hover (s : Drag) (h : s.start = none) (es : List Mouse)
    (he : ∀ p, Mouse.down p ∉ es) : es.foldl Drag.step s = s := by
  induction es with
  | nil => rfl
  | cons e es ih =>
    have hs : s.step e = s := by
      cases e with
      | down p => exact absurd List.mem_cons_self (he p)
      | move p => simp [Drag.step, Drag.move, h]
      | up p => simp [Drag.step, h]
    rw [List.foldl_cons, hs]
    exact ih (fun p hp => he p (List.mem_cons_of_mem _ hp))

example : [Mouse.move (1, 2), .up (3, 4)].foldl Drag.step ⟨⟨10, 45, 5⟩, none⟩ = ⟨⟨10, 45, 5⟩, none⟩ :=
  C126_hover _ rfl _ (by simp)

lemma clampLatitude_mem (x : ℝ) : |clampLatitude x| ≤ 90 := by
  unfold clampLatitude
  rw [abs_le]
  split_ifs with h1 h2
  · norm_num
  · norm_num
  · exact ⟨not_lt.1 h2, not_lt.1 h1⟩

/-- The view never turns over. -/
theorem C126_latitude (s : Drag) (h : |s.rotation.phi| ≤ 90) (es : List Mouse) :
    |(es.foldl Drag.step s).rotation.phi| ≤ 90 := by
  have move : ∀ (s : Drag) p, |s.rotation.phi| ≤ 90 → |(s.move p).rotation.phi| ≤ 90 := by
    intro s p h
    unfold Drag.move
    cases s.start with
    | none => exact h
    | some x =>
      simp only [Rotation.of]
      have := clampLatitude_mem (x.2.phi + (x.1.2 - p.2) / 3)
      rw [rem360_of_lt (by linarith)]
      exact this
  induction es generalizing s with
  | nil => exact h
  | cons e es ih =>
    apply ih
    cases e with
    | down p => exact h
    | move p => exact move s p h
    | up p =>
      simp only [Drag.step]
      cases s.start with
      | none => exact h
      | some x => exact move s p h

example : |([Mouse.down (0, 0), .move (50, 7), .up (30, 900)].foldl Drag.step
    ⟨⟨0, 45, 0⟩, none⟩).rotation.phi| ≤ 90 :=
  C126_latitude _ (by norm_num) _

/-- A click (press and release at the same place) leaves views without roll as they
are ... -/
theorem C126_click_partial (s : Drag) (p : ℝ × ℝ) (hl : |s.rotation.lambda| < 360)
    (hp : |s.rotation.phi| ≤ 90) (hg : s.rotation.gamma = 0) :
    ([Mouse.down p, Mouse.up p].foldl Drag.step s).rotation = s.rotation := by
  have h := C126_drag s p p []
  simp only [List.map_nil, List.append_nil, List.cons_append, List.nil_append] at h
  rw [h]
  obtain ⟨⟨l, f, g⟩, st⟩ := s
  simp only at hl hp hg
  subst hg
  have hc : clampLatitude f = f := by
    rw [abs_le] at hp
    unfold clampLatitude
    rw [if_neg (by linarith), if_neg (by linarith)]
  simp only [sub_self, zero_div, add_zero, Rotation.of, hc, rem360_of_lt hl,
    rem360_of_lt (show |f| < 360 by linarith)]

example : ([Mouse.down (3, 4), Mouse.up (3, 4)].foldl Drag.step ⟨⟨10, 45, 0⟩, none⟩).rotation
    = ⟨10, 45, 0⟩ :=
  C126_click_partial ⟨⟨10, 45, 0⟩, none⟩ (3, 4) (by norm_num) (by norm_num) rfl

/-- ... but resets the roll of others. -/
theorem C126_click_false (s : Drag) (p : ℝ × ℝ) (hg : s.rotation.gamma ≠ 0) :
    ([Mouse.down p, Mouse.up p].foldl Drag.step s).rotation ≠ s.rotation := by
  have h := C126_drag s p p []
  simp only [List.map_nil, List.append_nil, List.cons_append, List.nil_append] at h
  rw [h]
  intro hc
  apply hg
  rw [← hc]
  simp [Rotation.of]

/-- A drag of 30 pixels to the right. -/
example : ([Mouse.down (0, 0), .move (50, 7), .up (30, 0)].foldl Drag.step ⟨⟨0, 0, 0⟩, none⟩).rotation.lambda
    = 10 := by
  have h := C126_drag ⟨⟨0, 0, 0⟩, none⟩ (0, 0) (30, 0) [(50, 7)]
  simp only [List.map_cons, List.map_nil, List.cons_append, List.nil_append] at h
  rw [h]
  simp only [Rotation.of]
  rw [rem360_of_lt] <;> norm_num

/-! ## C127 -/

lemma setScale_fields (s : Net) (n : Option ℝ) : (s.setScale n).margin = s.margin ∧
    (s.setScale n).shouldClip = s.shouldClip ∧ (s.setScale n).clipAngle = s.clipAngle ∧
    (s.setScale n).scale = n.getD s.scale := by
  unfold Net.setScale
  simp only
  split <;> exact ⟨rfl, rfl, rfl, rfl⟩

/-- A setting keeps its value until it is set again, whatever else is called. -/
theorem C127_settings (s : Net) (calls : List NetCall) :
    (∀ m, (∀ m', NetCall.margin m' ∉ calls) → (s.run (.margin m :: calls)).margin = m) ∧
    (∀ n, (∀ n', NetCall.size n' ∉ calls) → (s.run (.size n :: calls)).scale = n) ∧
    (∀ b, (∀ b', NetCall.clip b' ∉ calls) → (s.run (.clip b :: calls)).shouldClip = b) ∧
    (∀ c, (∀ c', NetCall.clipAngle c' ∉ calls) → (s.run (.clipAngle c :: calls)).clipAngle = c) := by
  have key : ∀ {α : Type} (get : Net → α) (p : NetCall → Prop),
      (∀ s c, ¬ p c → get (s.step c) = get s) → ∀ (calls : List NetCall) (s : Net),
      (∀ c ∈ calls, ¬ p c) → get (s.run calls) = get s := by
    intro α get p hstep calls
    induction calls with
    | nil => intro s _; rfl
    | cons c cs ih =>
      intro s h
      rw [show s.run (c :: cs) = (s.step c).run cs from rfl,
        ih _ (fun c' hc' => h c' (List.mem_cons_of_mem _ hc')), hstep s c (h c List.mem_cons_self)]
  have run_cons : ∀ c cs, s.run (c :: cs) = (s.step c).run cs := fun _ _ => rfl
  refine ⟨fun m h => ?_, fun n h => ?_, fun b h => ?_, fun c h => ?_⟩
  · rw [run_cons, key Net.margin (fun c => ∃ m', c = .margin m') _ _ _ (by
      rintro c hc ⟨m', rfl⟩; exact h m' hc)]
    · rfl
    · intro s c hc
      cases c with
      | margin m => exact absurd ⟨m, rfl⟩ hc
      | size n => exact (setScale_fields s _).1
      | clipAngle c => exact (setScale_fields _ _).1
      | draw => exact (setScale_fields { s with drawn := true } none).1
      | call fn => simp only [Net.step]; split <;> rfl
      | _ => rfl
  · rw [run_cons, key Net.scale (fun c => ∃ m', c = .size m') _ _ _ (by
      rintro c hc ⟨m', rfl⟩; exact h m' hc)]
    · exact (setScale_fields s (some n)).2.2.2
    · intro s c hc
      cases c with
      | size m => exact absurd ⟨m, rfl⟩ hc
      | clipAngle c => exact (setScale_fields _ none).2.2.2
      | draw => exact (setScale_fields { s with drawn := true } none).2.2.2
      | call fn => simp only [Net.step]; split <;> rfl
      | _ => rfl
  · rw [run_cons, key Net.shouldClip (fun c => ∃ m', c = .clip m') _ _ _ (by
      rintro c hc ⟨m', rfl⟩; exact h m' hc)]
    · rfl
    · intro s c hc
      cases c with
      | clip m => exact absurd ⟨m, rfl⟩ hc
      | size n => exact (setScale_fields s _).2.1
      | clipAngle c => exact (setScale_fields _ _).2.1
      | draw => exact (setScale_fields { s with drawn := true } none).2.1
      | call fn => simp only [Net.step]; split <;> rfl
      | _ => rfl
  · rw [run_cons, key Net.clipAngle (fun c => ∃ m', c = .clipAngle m') _ _ _ (by
      rintro c hc ⟨m', rfl⟩; exact h m' hc)]
    · exact (setScale_fields { s with clipAngle := c, rotation := Rotation.of 0 (-90) } none).2.2.1
    · intro s c hc
      cases c with
      | clipAngle m => exact absurd ⟨m, rfl⟩ hc
      | size n => exact (setScale_fields s _).2.2.1
      | draw => exact (setScale_fields { s with drawn := true } none).2.2.1
      | call fn => simp only [Net.step]; split <;> rfl
      | _ => rfl

/-- `scale(n)` is not what `scale()` returns, and has no effect if the stereonet is drawn
afterwards. -/
theorem C127_scale_false (s : Net) (n : ℝ) :
    (s.step (.scale n)).scale = s.scale ∧
    s.run [.scale n, .draw] = s.run [.draw] := by
  refine ⟨rfl, ?_⟩
  have h : ({ s with projScale := n, drawn := true } : Net).setScale none
      = { s with drawn := true }.setScale none := by
    unfold Net.setScale
    simp only
  simp only [Net.run, List.foldl, Net.step, h]

/-- The clipping circle stays when the clip angle is set back to 90 degrees. -/
theorem C127_clip_angle_false :
    (({} : Net).run [.clipAngle 30, .clipAngle 90]).clipAngle = 90 ∧
    (({} : Net).run [.clipAngle 30, .clipAngle 90]).projClip = 30 := by
  norm_num [Net.run, Net.step, Net.setScale]

/-- Setting the clip angle discards the center. -/
theorem C127_center_false (s : Net) (c l p : ℝ) :
    (s.run [.center l p, .clipAngle c]).rotation = Rotation.of 0 (-90) ∧
    (s.run [.clipAngle c, .center l p]).rotation = Rotation.of l p := by
  constructor
  · simp only [Net.run, List.foldl, Net.step, Net.setScale]
    split_ifs <;> rfl
  · rfl

/-! ## C128 -/

/-- The size of a net with a small clip angle: larger than the space inside the margins
by the factor 1/cos(c/2). -/
theorem C128_clipped (s : Net) (hc0 : 0 < s.clipAngle) (hc : s.clipAngle < 89)
    (hs : s.shouldClip = true) :
    (s.step .draw).radius * Real.cos (radians s.clipAngle / 2) = s.scale / 2 - s.margin := by
  have hp := Real.pi_pos
  have h90 : s.clipAngle ≠ 90 := by linarith
  have e : Real.pi / 180 * s.clipAngle = 2 * (radians s.clipAngle / 2) := by unfold radians; ring
  have hr0 : 0 < radians s.clipAngle / 2 := by unfold radians; positivity
  have hr1 : radians s.clipAngle / 2 < Real.pi / 2 := by
    unfold radians
    have : s.clipAngle * Real.pi < 89 * Real.pi := mul_lt_mul_of_pos_right hc hp
    linarith
  have hsin := Real.sin_pos_of_pos_of_lt_pi hr0 (by linarith)
  have hcos := Real.cos_pos_of_mem_Ioo ⟨by linarith, hr1⟩
  simp only [Net.step, Net.setScale, Option.getD_none, if_neg h90, if_pos hc, hs, if_true,
    Net.radius, e, Real.sin_two_mul]
  field_simp

example : (({ clipAngle := 30 } : Net).step .draw).radius * Real.cos (radians 30 / 2)
    = ({ clipAngle := 30 } : Net).scale / 2 - ({ clipAngle := 30 } : Net).margin :=
  C128_clipped { clipAngle := 30 } (by norm_num) (by norm_num) rfl

/-- So it extends over the margin. -/
theorem C128_margin_false (s : Net) (hc0 : 0 < s.clipAngle) (hc : s.clipAngle < 89)
    (hs : s.shouldClip = true) (hm : s.margin < s.scale / 2) :
    s.scale / 2 - s.margin < (s.step .draw).radius := by
  have h := C128_clipped s hc0 hc hs
  have hp := Real.pi_pos
  have hr0 : 0 < radians s.clipAngle / 2 := by unfold radians; positivity
  have hr1 : radians s.clipAngle / 2 < Real.pi / 2 := by
    unfold radians
    have : s.clipAngle * Real.pi < 89 * Real.pi := mul_lt_mul_of_pos_right hc hp
    linarith
  have hcos := Real.cos_pos_of_mem_Ioo ⟨by linarith, hr1⟩
  have hcos1 : Real.cos (radians s.clipAngle / 2) < 1 := by
    rw [← Real.cos_zero]
    exact Real.cos_lt_cos_of_nonneg_of_le_pi_div_two le_rfl hr1.le hr0
  have hpos : 0 < (s.step .draw).radius := by
    by_contra hneg
    push Not at hneg
    have := mul_nonpos_of_nonpos_of_nonneg hneg hcos.le
    linarith
  rw [← h]
  exact mul_lt_of_lt_one_right hpos hcos1

example : ({ clipAngle := 30 } : Net).scale / 2 - ({ clipAngle := 30 } : Net).margin
    < (({ clipAngle := 30 } : Net).step .draw).radius :=
  C128_margin_false { clipAngle := 30 } (by norm_num) (by norm_num) rfl (by norm_num)

/-- A net of a hemisphere: its size, and when it fits in the drawing and inside the
margins. -/
theorem C128_hemisphere (s : Net) (hc : s.clipAngle = 90) (hp : s.projClip = 90) :
    (s.step .draw).radius = Real.sqrt 2 * (s.scale / 2.5 - s.margin) := by
  have e : radians 90 / 2 = Real.pi / 4 := by rw [radians_90]; ring
  have hn : ¬ (90 : ℝ) < 89 := by norm_num
  simp only [Net.step, Net.setScale, Option.getD_none, hc, if_true, if_neg hn, Net.radius, hp, e,
    Real.sin_pi_div_four]
  ring

example : (({} : Net).step .draw).radius
    = Real.sqrt 2 * (({} : Net).scale / 2.5 - ({} : Net).margin) :=
  C128_hemisphere {} rfl rfl

/-- The default net extends over the margin of 20 but not over the drawing ... -/
theorem C128_default_false :
    (({} : Net).step .draw).radius < ({} : Net).scale / 2 ∧
    ({} : Net).scale / 2 - ({} : Net).margin < (({} : Net).step .draw).radius := by
  rw [C128_hemisphere {} rfl rfl]
  have h1 : Real.sqrt 2 < 3 / 2 := by rw [Real.sqrt_lt' (by norm_num)]; norm_num
  have h2 : 13 / 10 < Real.sqrt 2 := by rw [Real.lt_sqrt (by norm_num)]; norm_num
  norm_num
  constructor <;> linarith

/-- ... whereas one of size 1000 extends over the drawing. -/
theorem C128_large_false :
    ((({} : Net).step (.size 1000)).step .draw).scale / 2
      < ((({} : Net).step (.size 1000)).step .draw).radius := by
  have hn : ¬ (90 : ℝ) < 89 := by norm_num
  have e : (({} : Net).step (.size 1000)) = { ({} : Net) with scale := 1000, projScale := 380 } := by
    simp only [Net.step, Net.setScale, if_neg hn, if_true, Option.getD_some]
    norm_num
  rw [e, C128_hemisphere _ rfl rfl]
  have h2 : 7 / 5 < Real.sqrt 2 := by rw [Real.lt_sqrt (by norm_num)]; norm_num
  simp only [Net.step, Net.setScale, if_neg hn, if_true, Option.getD_none]
  norm_num
  linarith

/-! ## C129 -/

/-- Opacity by angular error: between 0.8 without error and 0.1 from five degrees on,
decreasing; strokes are darker by 0.2 and never more than opaque. -/
theorem C129_opacity : ∃ f : ℝ → ℝ, (∀ e, ({} : Opacity).paint e = some (f e, f e + 0.2)) ∧
    f 0 = 0.8 ∧ (∀ e, 5 ≤ e → f e = 0.1) ∧ (∀ e, 0.1 ≤ f e ∧ f e + 0.2 ≤ 1) ∧
    Antitone f ∧ ∀ e e', 0 ≤ e → e < e' → e' ≤ 5 → f e' < f e := by
  refine ⟨fun e => 0.8 + (0.1 - 0.8) * max 0 (min 1 (e / 5)), ?_, ?_, ?_, ?_, ?_, ?_⟩
  · intro e; norm_num [Opacity.paint, Opacity.alpha, fdiv]
  · norm_num
  · intro e he
    have : 1 ≤ e / 5 := by rw [le_div_iff₀ (by norm_num)]; linarith
    simp only [min_eq_left this]; norm_num
  · intro e
    have h0 : 0 ≤ max 0 (min 1 (e / 5)) := le_max_left _ _
    have h1 : max 0 (min 1 (e / 5)) ≤ 1 := max_le (by norm_num) (min_le_left _ _)
    constructor <;> nlinarith
  · intro a b hab
    have : max 0 (min 1 (a / 5)) ≤ max 0 (min 1 (b / 5)) :=
      max_le_max le_rfl (min_le_min le_rfl (by linarith))
    simp only
    nlinarith
  · intro a b h0 hab h5
    have ha : max 0 (min 1 (a / 5)) = a / 5 := by
      rw [min_eq_right (by linarith), max_eq_right (by linarith)]
    have hb : max 0 (min 1 (b / 5)) = b / 5 := by
      rw [min_eq_right (by linarith), max_eq_right (by linarith)]
    simp only [ha, hb]
    nlinarith

/-! ## C130 -/

/-- The error from which on planes are faint is set by `domain` ... -/
theorem C130_domain_partial (m : ℝ) (hm : 0 < m) (e : ℝ) (he : m ≤ e) :
    (({} : Opacity).step (.domain 0 m)).alpha e = some 0.1 := by
  have : 1 ≤ e / m := by rw [le_div_iff₀ hm]; linarith
  simp only [Opacity.step, Opacity.alpha, fdiv, sub_zero, hm.ne', if_false, Option.bind_eq_bind,
    Option.bind_some, min_eq_left this]
  norm_num

example : (({} : Opacity).step (.domain 0 10)).alpha 12 = some 0.1 :=
  C130_domain_partial 10 (by norm_num) 12 (by norm_num)

/-- ... but not by `max`, which has no effect. -/
theorem C130_max_false (s : Opacity) (ms : List ℝ) (e : ℝ) :
    ((ms.map OpacityCall.max).foldl Opacity.step s).alpha e = s.alpha e := by
  induction ms generalizing s with
  | nil => rfl
  | cons m ms ih => rw [List.map_cons, List.foldl_cons, ih]; rfl

/-- None of the four getters returns a value. -/
theorem C130_getters_false : ∀ g ∈ [Getter.scale, .angularError, .num 5, .arr [0, 5]],
    ∀ v, g.get ≠ .ok (some v) := by
  intro g hg v
  simp only [List.mem_cons, List.not_mem_nil, or_false] at hg
  rcases hg with rfl | rfl | rfl | rfl <;> simp [Getter.get]

/-! ## C131 -/

/-- Labels are up to date after any calls but `center` and `clipAngle` ... -/
theorem C131_labels_partial (s : Net) (calls : List NetCall)
    (hc : ∀ c ∈ calls, match c with
      | .center _ _ | .centerVertical | .clipAngle _ => False
      | _ => True) :
    (s.run (.addLabels :: calls)).labelled = some (s.run (.addLabels :: calls)).rotation := by
  have inv : ∀ (calls : List NetCall) (s : Net), s.labelled = some s.rotation →
      (∀ c ∈ calls, match c with
        | .center _ _ | .centerVertical | .clipAngle _ => False
        | _ => True) → (s.run calls).labelled = some (s.run calls).rotation := by
    intro calls
    induction calls with
    | nil => intro s h _; exact h
    | cons c cs ih =>
      intro s h hc
      apply ih (s.step c) _ (fun c' hc' => hc c' (List.mem_cons_of_mem _ hc'))
      have := hc c List.mem_cons_self
      cases c with
      | margin m => exact h
      | size n => simp only [Net.step, Net.setScale]; split_ifs <;> exact h
      | scale n => exact h
      | clip b => exact h
      | center l p => exact this.elim
      | centerVertical => exact this.elim
      | clipAngle c => exact this.elim
      | rotate l p => simp [Net.step, h]
      | call fn => simp only [Net.step]; split_ifs <;> exact h
      | addLabels => rfl
      | draw => simp only [Net.step, Net.setScale]; split_ifs <;> exact h
  exact inv calls (s.step .addLabels) rfl hc

example : (({} : Net).run [.addLabels, .size 300, .draw]).labelled
    = some (({} : Net).run [.addLabels, .size 300, .draw]).rotation :=
  C131_labels_partial {} [.size 300, .draw] (by simp)

/-- ... but not after these. -/
theorem C131_labels_false : ∃ s : Net, s.labelled = some s.rotation ∧
    (s.step .centerVertical).labelled ≠ some (s.step .centerVertical).rotation := by
  refine ⟨({} : Net).step .addLabels, rfl, ?_⟩
  simp only [Net.step, Rotation.of, ne_eq, Option.some.injEq, Rotation.mk.injEq, not_and]
  intro _ h
  rw [rem360_of_lt (by norm_num)] at h
  norm_num at h

/-! ## C132 -/

/-- `vertical` called with new options draws the label at the same place each time ... -/
theorem C132_fresh_partial (x : ℝ) : startOffset none = 110 ∧ startOffset (some x) = x + 100 := by
  norm_num [startOffset]

/-- ... but with the same options object it is moved by another 100 degrees each time. -/
theorem C132_repeated_false (o : Option ℝ) (k : ℕ) :
    Nat.iterate (fun o => some (startOffset o)) (k + 1) o = some (o.getD 10 + 100 * (k + 1)) := by
  induction k generalizing o with
  | zero => simp [startOffset]
  | succ k ih =>
    rw [Function.iterate_succ_apply, ih]
    simp only [startOffset, Option.getD_some]
    push_cast
    congr 1
    ring

/-! ## C133 -/

/-- The option for the lower hemisphere mirrors the vertical in the layout of the
stereonet ... -/
theorem C133_lower_partial (o : Opts) (hu : o.upperHemisphere = some false)
    (ht : o.traditionalLayout.getD false = false) (d : Vec 3) (hd : d ≠ 0) :
    ∃ p, Frontend.cart2sph o d = some p ∧
      Spec.shown (o.degrees.getD false) false p = (1 / Attitude.norm d) • ![d 0, d 1, -d 2] := by
  have hn : Attitude.norm ![d 0, d 1, -d 2] = Attitude.norm d := by rw [norm3, norm3]; simp
  have hne : (![d 0, d 1, -d 2] : Vec 3) ≠ 0 := by
    rw [← norm_pos_iff', hn, norm_pos_iff']; exact hd
  obtain ⟨p, hp, hs⟩ := jsPosition (o := { o with upperHemisphere := some true }) rfl hne
  refine ⟨p, ?_, ?_⟩
  · rw [← hp]
    simp [Frontend.cart2sph, hu, ht, hn]
  · rw [hn] at hs
    simp only [ht] at hs
    exact hs

example : ∃ p, Frontend.cart2sph { upperHemisphere := some false } ![1, 2, 3] = some p := by
  obtain ⟨p, h, _⟩ := C133_lower_partial { upperHemisphere := some false } rfl rfl ![1, 2, 3]
    (fun h => by simpa using congrFun h 0)
  exact ⟨p, h⟩

/-- ... but north and south in the traditional layout. -/
theorem C133_traditional_false (o : Opts) (hu : o.upperHemisphere = some false)
    (ht : o.traditionalLayout = some true) (d : Vec 3) (hd : d ≠ 0) :
    ∃ p, Frontend.cart2sph o d = some p ∧
      Spec.shown (o.degrees.getD false) true p = (1 / Attitude.norm d) • ![d 0, -d 1, d 2] := by
  have hn : Attitude.norm ![d 0, -d 1, d 2] = Attitude.norm d := by rw [norm3, norm3]; simp
  have hne : (![d 0, -d 1, d 2] : Vec 3) ≠ 0 := by
    rw [← norm_pos_iff', hn, norm_pos_iff']; exact hd
  obtain ⟨p, hp, hs⟩ := jsPosition (o := { o with upperHemisphere := some true }) rfl hne
  refine ⟨p, ?_, ?_⟩
  · rw [← hp]
    simp [Frontend.cart2sph, hu, ht, hn]
  · rw [hn] at hs
    simp only [ht, Option.getD_some] at hs
    exact hs

example : ∃ p, Frontend.cart2sph { upperHemisphere := some false, traditionalLayout := some true }
    ![1, 2, 3] = some p := by
  obtain ⟨p, h, _⟩ := C133_traditional_false
    { upperHemisphere := some false, traditionalLayout := some true } rfl rfl ![1, 2, 3]
    (fun h => by simpa using congrFun h 0)
  exact ⟨p, h⟩

/-! ## C134 -/

/-- The functions passed to `call`, in order. -/
def Spec.called (calls : List NetCall) : List ℕ :=
  calls.filterMap fun c => match c with
    | .call fn => some fn
    | _ => none

lemma setScale_queue (s : Net) (n : Option ℝ) : (s.setScale n).queue = s.queue ∧
    (s.setScale n).ran = s.ran ∧ (s.setScale n).drawn = s.drawn := by
  unfold Net.setScale
  simp only
  split_ifs <;> exact ⟨rfl, rfl, rfl⟩

lemma run_calls (calls : List NetCall) (h : NetCall.draw ∉ calls) (s : Net) :
    (s.run calls).drawn = s.drawn ∧
    (s.run calls).queue = (if s.drawn then s.queue else s.queue ++ Spec.called calls) ∧
    (s.run calls).ran = (if s.drawn then s.ran ++ Spec.called calls else s.ran) := by
  induction calls generalizing s with
  | nil => simp [Net.run, Spec.called]
  | cons c cs ih =>
    have ih' := ih (fun hm => h (List.mem_cons_of_mem _ hm)) (s.step c)
    rw [show s.run (c :: cs) = (s.step c).run cs from rfl]
    have plain : (s.step c).drawn = s.drawn → (s.step c).queue = s.queue → (s.step c).ran = s.ran →
        Spec.called (c :: cs) = Spec.called cs →
        ((s.step c).run cs).drawn = s.drawn ∧
        ((s.step c).run cs).queue = (if s.drawn then s.queue else s.queue ++ Spec.called (c :: cs)) ∧
        ((s.step c).run cs).ran = (if s.drawn then s.ran ++ Spec.called (c :: cs) else s.ran) := by
      intro h1 h2 h3 h4
      rw [h1, h2, h3, ← h4] at ih'
      exact ih'
    cases c with
    | margin m => exact plain rfl rfl rfl rfl
    | size n =>
      obtain ⟨h1, h2, h3⟩ := setScale_queue s (some n)
      exact plain h3 h1 h2 rfl
    | scale n => exact plain rfl rfl rfl rfl
    | clip b => exact plain rfl rfl rfl rfl
    | center l p => exact plain rfl rfl rfl rfl
    | centerVertical => exact plain rfl rfl rfl rfl
    | clipAngle c =>
      obtain ⟨h1, h2, h3⟩ := setScale_queue
        { s with clipAngle := c, rotation := Rotation.of 0 (-90) } none
      exact plain h3 h1 h2 rfl
    | rotate l p => exact plain rfl rfl rfl rfl
    | addLabels => exact plain rfl rfl rfl rfl
    | draw => exact absurd List.mem_cons_self h
    | call fn =>
      by_cases hd : s.drawn
      · have e : s.step (.call fn) = { s with ran := s.ran ++ [fn] } := by simp [Net.step, hd]
        rw [e] at ih' ⊢
        simp only [hd, if_true] at ih' ⊢
        refine ⟨ih'.1, ih'.2.1, ?_⟩
        rw [ih'.2.2]; simp [Spec.called]
      · have e : s.step (.call fn) = { s with queue := s.queue ++ [fn] } := by simp [Net.step, hd]
        rw [e] at ih' ⊢
        simp only [hd] at ih' ⊢
        refine ⟨ih'.1, ?_, ih'.2.2⟩
        rw [ih'.2.1]; simp [Spec.called]

/-- With a single drawing, all functions passed to `call` run once, in order. -/
theorem C134_calls_partial (before later : List NetCall) (hb : NetCall.draw ∉ before)
    (hl : NetCall.draw ∉ later) :
    (({} : Net).run (before ++ [.draw] ++ later)).ran = Spec.called (before ++ later) := by
  have run_app : ∀ (s : Net) a b, s.run (a ++ b) = (s.run a).run b := fun s a b => by
    simp [Net.run, List.foldl_append]
  rw [run_app, run_app]
  obtain ⟨h1, h2, h3⟩ := run_calls before hb {}
  simp only [Bool.false_eq_true, if_false, List.nil_append] at h2 h3
  set s := ({} : Net).run before
  have e : s.run [.draw] = s.step .draw := rfl
  obtain ⟨g1, g2, g3⟩ := setScale_queue { s with drawn := true } none
  have d1 : (s.step .draw).drawn = true := g3
  have d2 : (s.step .draw).ran = Spec.called before := by
    have : (s.step .draw).ran = ({ s with drawn := true }.setScale none).ran
      ++ ({ s with drawn := true }.setScale none).queue := rfl
    rw [this, g1, g2, h2, h3, List.nil_append]
  obtain ⟨k1, k2, k3⟩ := run_calls later hl (s.step .draw)
  rw [e, k3, d1, d2]
  simp [Spec.called]

example : (({} : Net).run ([.call 1, .call 2] ++ [.draw] ++ [.call 3])).ran
    = Spec.called ([.call 1, .call 2] ++ [.call 3]) :=
  C134_calls_partial _ _ (by simp) (by simp)

/-- Drawing a second time runs again those that were passed before the first. -/
theorem C134_calls_false : (({} : Net).run [.call 1, .draw, .draw]).ran = [1, 1] := by
  have hn : ¬ (90 : ℝ) < 89 := by norm_num
  simp [Net.run, Net.step, Net.setScale, hn]

/-- What a call runs once the net is drawn: a function passed to `call`, or all functions passed
before the first drawing. -/
def Spec.runsWhenDrawn (waiting : List ℕ) : NetCall → List ℕ
  | .call fn => [fn]
  | .draw => waiting
  | _ => []

lemma run_drawn (later : List NetCall) (s : Net) (hd : s.drawn = true) :
    (s.run later).ran = s.ran ++ later.flatMap (Spec.runsWhenDrawn s.queue) := by
  induction later generalizing s with
  | nil => simp [Net.run]
  | cons c cs ih =>
    have key : (s.step c).drawn = true ∧ (s.step c).queue = s.queue ∧
        (s.step c).ran = s.ran ++ Spec.runsWhenDrawn s.queue c := by
      cases c with
      | size n => obtain ⟨h1, h2, h3⟩ := setScale_queue s (some n); exact ⟨h3.trans hd, h1, by simp [Net.step, h2, Spec.runsWhenDrawn]⟩
      | clipAngle c =>
        obtain ⟨h1, h2, h3⟩ := setScale_queue { s with clipAngle := c, rotation := Rotation.of 0 (-90) } none
        exact ⟨h3.trans hd, h1, by simp [Net.step, h2, Spec.runsWhenDrawn]⟩
      | draw =>
        obtain ⟨h1, h2, h3⟩ := setScale_queue { s with drawn := true } none
        exact ⟨h3, h1, by simp [Net.step, h1, h2, Spec.runsWhenDrawn]⟩
      | call fn => simp [Net.step, hd, Spec.runsWhenDrawn]
      | _ => simp [Net.step, hd, Spec.runsWhenDrawn]
    rw [show s.run (c :: cs) = (s.step c).run cs from rfl, ih _ key.1, key.2.2, key.2.1, List.flatMap_cons,
      List.append_assoc]

/-- What runs, and in which order, for all sequences of calls: at the first drawing the functions passed
before, afterwards those passed at once, and at each further drawing those passed before the first again.
Functions passed to a net that is never drawn do not run. -/
theorem C134_order (before later : List NetCall) (hb : NetCall.draw ∉ before) :
    (({} : Net).run before).ran = [] ∧
    (({} : Net).run (before ++ [.draw] ++ later)).ran
      = Spec.called before ++ later.flatMap (Spec.runsWhenDrawn (Spec.called before)) := by
  have run_app : ∀ (s : Net) a b, s.run (a ++ b) = (s.run a).run b := fun s a b => by
    simp [Net.run, List.foldl_append]
  obtain ⟨h1, h2, h3⟩ := run_calls before hb {}
  simp only [Bool.false_eq_true, if_false, List.nil_append] at h2 h3
  refine ⟨h3, ?_⟩
  rw [run_app, run_app]
  set s := ({} : Net).run before
  obtain ⟨g1, g2, g3⟩ := setScale_queue { s with drawn := true } none
  have e : s.run [.draw] = s.step .draw := rfl
  have d2 : (s.step .draw).ran = Spec.called before := by
    have : (s.step .draw).ran = ({ s with drawn := true }.setScale none).ran
      ++ ({ s with drawn := true }.setScale none).queue := rfl
    rw [this, g1, g2, h2, h3, List.nil_append]
  have d3 : (s.step .draw).queue = Spec.called before := g1.trans h2
  have d1 : (s.step .draw).drawn = true := g3
  rw [e, run_drawn later _ d1, d2, d3]

example : (({} : Net).run ([.call 1, .call 2] ++ [.draw] ++ [.call 3, .margin 5, .draw, .call 4])).ran
    = [1, 2, 3, 1, 2, 4] :=
  (C134_order [.call 1, .call 2] [.call 3, .margin 5, .draw, .call 4] (by simp)).2

/-- So every function runs as often as it was passed exactly if none was passed before the first drawing
or there is no further one. -/
theorem C134_once_iff (before later : List NetCall) (hb : NetCall.draw ∉ before) :
    (∀ fn, (({} : Net).run (before ++ [.draw] ++ later)).ran.count fn
      = (Spec.called (before ++ later)).count fn) ↔ Spec.called before = [] ∨ NetCall.draw ∉ later := by
  rw [(C134_order before later hb).2]
  have hcall : Spec.called (before ++ later) = Spec.called before ++ Spec.called later := by
    simp [Spec.called]
  have hle : ∀ (l : List NetCall) fn, (Spec.called l).count fn
      ≤ (l.flatMap (Spec.runsWhenDrawn (Spec.called before))).count fn := by
    intro l fn
    induction l with
    | nil => simp [Spec.called]
    | cons c cs ih =>
      rw [List.flatMap_cons, List.count_append]
      cases c <;> simp_all [Spec.called, Spec.runsWhenDrawn, List.count_cons] <;> omega
  constructor
  · intro h
    by_contra hc
    push Not at hc
    obtain ⟨hne, hd⟩ := hc
    obtain ⟨fn, hfn⟩ := List.exists_mem_of_ne_nil _ hne
    have hpos : 0 < (Spec.called before).count fn := List.count_pos_iff.2 hfn
    obtain ⟨l₁, l₂, rfl⟩ := List.append_of_mem hd
    have h0 := h fn
    rw [hcall, List.count_append, List.count_append, List.flatMap_append, List.flatMap_cons, List.count_append,
      List.count_append] at h0
    have e : Spec.called (l₁ ++ NetCall.draw :: l₂) = Spec.called l₁ ++ Spec.called l₂ := by simp [Spec.called]
    rw [e, List.count_append] at h0
    have h1 := hle l₁ fn
    have h2 := hle l₂ fn
    have h3 : (Spec.runsWhenDrawn (Spec.called before) NetCall.draw).count fn = (Spec.called before).count fn := rfl
    omega
  · intro h fn
    rw [hcall, List.count_append, List.count_append]
    congr 1
    induction later with
    | nil => simp [Spec.called]
    | cons c cs ih =>
      have ih' := ih (by simp [Spec.called]) (by
        rcases h with h | h
        · exact .inl h
        · exact .inr fun hm => h (List.mem_cons_of_mem _ hm))
      rw [List.flatMap_cons, List.count_append, ih']
      cases c with
      | draw =>
        rcases h with h | h
        · rw [show Spec.runsWhenDrawn (Spec.called before) NetCall.draw = Spec.called before from rfl, h]
          simp [Spec.called]
        · exact absurd (List.mem_cons_self ..) h
      | call k => simp [Spec.called, Spec.runsWhenDrawn, List.count_cons]; omega
      | _ => simp [Spec.called, Spec.runsWhenDrawn]

example : ¬ ∀ fn, (({} : Net).run ([.call 1] ++ [.draw] ++ [.draw])).ran.count fn
    = (Spec.called ([.call 1] ++ [NetCall.draw])).count fn := by
  rw [C134_once_iff [.call 1] [.draw] (by simp)]
  simp [Spec.called]

end Attitude.Props
