import Verif.Props.FrontendStereonet
import Mathlib.Analysis.Real.Pi.Bounds

/-!
# C182: the labels of the stereonet that are shown, and where their texts are
-/

namespace Attitude.Props

open Attitude Frontend

/-! ## Specification -/

/-- The direction (east, north, up) in the middle of a view. -/
noncomputable def Spec.facing (r : Rotation) : Vec 3 := Spec.shown true false (-r.lambda, -r.phi)

/-- The angle between two directions. -/
noncomputable def Spec.angleBetween (v w : Vec 3) : ℝ := Real.arccos (vdot v w)

/-- What a text of length `len` covers horizontally, by its anchor and position. -/
noncomputable def Spec.covers (anchor : String) (x len : ℝ) : Set ℝ :=
  if anchor = "end" then Set.Icc (x - len) x
  else if anchor = "middle" then Set.Icc (x - len / 2) (x + len / 2)
  else Set.Icc x (x + len)

/-! ## Helper lemmas -/

lemma geoDirection_dot (p q : ℝ × ℝ) :
    vdot (geoDirection p) (geoDirection q) = vdot (Spec.shown true false p) (Spec.shown true false q) := by
  rw [vdot3, vdot3]
  simp [geoDirection, Spec.shown, Spec.direction, Rotations.sph2cart]
  ring

lemma facing_unit (r : Rotation) :
    Spec.facing r 0 ^ 2 + Spec.facing r 1 ^ 2 + Spec.facing r 2 ^ 2 = 1 := by
  simp [Spec.facing, Spec.shown, Spec.direction, Rotations.sph2cart]
  have e1 := Real.sin_sq_add_cos_sq (radians (-r.lambda))
  have e2 := Real.sin_sq_add_cos_sq (radians (-r.phi))
  linear_combination (Real.cos (radians (-r.phi)) ^ 2) * e1 + e2

lemma shownLabels_iff (r : Rotation) (name : String) (d : Vec 3) (hd : Spec.compass name = some d) :
    name ∈ shownLabels r ↔ labelShown name (Spec.angleBetween (Spec.facing r) d) = true := by
  have key : ∀ l ∈ labels, geoDistance (viewCenter r) l.2
      = (Spec.compass l.1).elim 0 (Spec.angleBetween (Spec.facing r)) := by
    intro l hl
    rw [C124_labels l hl, geoDistance, geoDirection_dot]
    rfl
  simp only [shownLabels, List.mem_map, List.mem_filter]
  constructor
  · rintro ⟨l, ⟨hl, hs⟩, rfl⟩
    rw [key l hl, hd] at hs
    exact hs
  · intro hs
    have : ∃ l ∈ labels, l.1 = name := by
      unfold Spec.compass at hd
      split at hd <;> simp [labels] at hd ⊢
    obtain ⟨l, hl, rfl⟩ := this
    refine ⟨l, ⟨hl, ?_⟩, rfl⟩
    rw [key l hl, hd]
    exact hs

lemma labelShown_iff (name : String) (t : ℝ) : labelShown name t = true ↔
    ¬ ((name = "Up" ∨ name = "Down") ∧ t < Real.pi / 4) ∧ 0.01 ≤ t ∧ t ≤ Real.pi / 2 + 0.01 := by
  unfold labelShown
  split_ifs with h1 h2 h3
  · simp [h1]
  · simp only [false_iff]; intro h; exact absurd h.2.1 (not_le.2 h2)
  · simp only [false_iff]; intro h; exact absurd h.2.2 (not_le.2 h3)
  · exact ⟨fun _ => ⟨h1, not_lt.1 h2, not_lt.1 h3⟩, fun _ => rfl⟩

/-- The middle coordinates of a turned position. -/
lemma apply_cos (r : Rotation) (p : ℝ × ℝ) :
    Real.cos (r.apply p).1 * Real.cos (r.apply p).2
      = vdot (geoDirection (viewCenter r)) (geoDirection p) := by
  simp only [Rotation.apply]
  set l := radians p.1 + radians r.lambda with hl
  set f := radians p.2
  set φ := radians r.phi
  set g := radians r.gamma
  set k := Real.sin f * Real.cos φ + Real.cos l * Real.cos f * Real.sin φ with hk
  set X := Real.cos l * Real.cos f * Real.cos φ - Real.sin f * Real.sin φ with hX
  set Y := Real.sin l * Real.cos f * Real.cos g - k * Real.sin g with hY
  set Z := k * Real.cos g + Real.sin l * Real.cos f * Real.sin g with hZ
  have e1 := Real.sin_sq_add_cos_sq l
  have e2 := Real.sin_sq_add_cos_sq f
  have e3 := Real.sin_sq_add_cos_sq φ
  have e4 := Real.sin_sq_add_cos_sq g
  have hone : X ^ 2 + Y ^ 2 + Z ^ 2 = 1 := by
    have h1 : Y ^ 2 + Z ^ 2 = (Real.sin l * Real.cos f) ^ 2 + k ^ 2 := by
      rw [hY, hZ]
      linear_combination ((Real.sin l * Real.cos f) ^ 2 + k ^ 2) * e4
    have h2 : X ^ 2 + k ^ 2 = Real.sin f ^ 2 + (Real.cos l * Real.cos f) ^ 2 := by
      rw [hX, hk]
      linear_combination (Real.sin f ^ 2 + (Real.cos l * Real.cos f) ^ 2) * e3
    linear_combination h1 + h2 + Real.cos f ^ 2 * e1 + e2
  have hz : Real.cos (Real.arcsin Z) = Real.sqrt (X ^ 2 + Y ^ 2) := by
    rw [Real.cos_arcsin]
    congr 1
    linarith
  rw [hz, mul_comm, sqrt_mul_cos_arctan2, vdot3, hX, hl, Real.cos_add]
  simp only [geoDirection, viewCenter, radians_neg, Real.cos_neg, Real.sin_neg, Matrix.cons_val]
  ring

/-! ## C182 -/

/-- A label is shown exactly if its direction is not behind the view (with a tolerance of 0.01), not in
its middle, and, for the vertical directions, at least 45 degrees off the middle. -/
theorem C182_shown_iff (r : Rotation) (name : String) (d : Vec 3) (hd : Spec.compass name = some d) :
    name ∈ shownLabels r ↔ 0.01 ≤ Spec.angleBetween (Spec.facing r) d ∧
      Spec.angleBetween (Spec.facing r) d ≤ Real.pi / 2 + 0.01 ∧
      (d 2 ≠ 0 → Real.pi / 4 ≤ Spec.angleBetween (Spec.facing r) d) := by
  rw [shownLabels_iff r name d hd, labelShown_iff]
  have : (name = "Up" ∨ name = "Down") ↔ d 2 ≠ 0 := by
    unfold Spec.compass at hd
    split at hd <;> simp at hd <;> subst hd <;> simp
  rw [this]
  constructor
  · rintro ⟨h1, h2, h3⟩
    exact ⟨h2, h3, fun h => not_lt.1 fun h' => h1 ⟨h, h'⟩⟩
  · rintro ⟨h2, h3, h1⟩
    exact ⟨fun h => absurd (h1 h.1) (not_le.2 h.2), h2, h3⟩

/-- Two opposite labels are shown together only if both are at the edge of the view. -/
theorem C182_opposite (r : Rotation) (n1 n2 : String) (d : Vec 3) (h1 : Spec.compass n1 = some d)
    (h2 : Spec.compass n2 = some (-d)) (s1 : n1 ∈ shownLabels r) (s2 : n2 ∈ shownLabels r) :
    |Spec.angleBetween (Spec.facing r) d - Real.pi / 2| ≤ 0.01 := by
  have a1 := ((C182_shown_iff r n1 d h1).1 s1).2.1
  have a2 := ((C182_shown_iff r n2 (-d) h2).1 s2).2.1
  have e : Spec.angleBetween (Spec.facing r) (-d) = Real.pi - Spec.angleBetween (Spec.facing r) d := by
    have : vdot (Spec.facing r) (-d) = -vdot (Spec.facing r) d := by simp [vdot]
    rw [Spec.angleBetween, this, Real.arccos_neg]
    rfl
  rw [e] at a2
  rw [abs_le]
  constructor <;> linarith

/-- In every view one of the four directions of the compass is labelled. -/
theorem C182_compass_always (r : Rotation) : ∃ name ∈ shownLabels r,
    name = "N" ∨ name = "E" ∨ name = "S" ∨ name = "W" := by
  have hu := facing_unit r
  set u := Spec.facing r with hudef
  have hpi := Real.pi_gt_three
  -- a horizontal direction with a cosine between 0 and cos 0.01 is shown
  have show1 : ∀ name d, Spec.compass name = some d → d 2 = 0 → 0 ≤ vdot u d →
      vdot u d ≤ Real.cos 0.01 → name ∈ shownLabels r := by
    intro name d hd h2 h0 hc
    rw [C182_shown_iff r name d hd]
    refine ⟨?_, ?_, fun h => absurd h2 h⟩
    · unfold Spec.angleBetween
      rw [← Real.arccos_cos (by norm_num : (0 : ℝ) ≤ 0.01) (by linarith)]
      exact Real.arccos_le_arccos hc
    · have := Real.arccos_le_pi_div_two.2 h0
      unfold Spec.angleBetween
      linarith
  have eN : vdot u ![0, 1, 0] = u 1 := by rw [vdot3]; simp
  have eS : vdot u ![0, -1, 0] = -u 1 := by rw [vdot3]; simp
  have eE : vdot u ![1, 0, 0] = u 0 := by rw [vdot3]; simp
  have eW : vdot u ![-1, 0, 0] = -u 0 := by rw [vdot3]; simp
  have hc : (9 : ℝ) / 10 ≤ Real.cos 0.01 := by
    have := Real.one_sub_sq_div_two_le_cos (x := 0.01)
    norm_num at this ⊢
    linarith
  by_cases h1 : |u 1| ≤ 9 / 10
  · rcases le_total 0 (u 1) with h | h
    · rw [abs_of_nonneg h] at h1
      exact ⟨"N", show1 "N" _ rfl (by simp) (by rw [eN]; exact h) (by rw [eN]; linarith), .inl rfl⟩
    · rw [abs_of_nonpos h] at h1
      exact ⟨"S", show1 "S" _ rfl (by simp) (by rw [eS]; linarith) (by rw [eS]; linarith),
        .inr (.inr (.inl rfl))⟩
  · have h1' : (9 / 10 : ℝ) ^ 2 ≤ u 1 ^ 2 := by
      rw [← sq_abs (u 1)]
      exact pow_le_pow_left₀ (by norm_num) (not_le.1 h1).le 2
    have h0 : |u 0| ≤ 9 / 10 := by
      apply abs_le_of_sq_le_sq _ (by norm_num)
      nlinarith [sq_nonneg (u 2)]
    rcases le_total 0 (u 0) with h | h
    · rw [abs_of_nonneg h] at h0
      exact ⟨"E", show1 "E" _ rfl (by simp) (by rw [eE]; exact h) (by rw [eE]; linarith),
        .inr (.inl rfl)⟩
    · rw [abs_of_nonpos h] at h0
      exact ⟨"W", show1 "W" _ rfl (by simp) (by rw [eW]; linarith) (by rw [eW]; linarith),
        .inr (.inr (.inr rfl))⟩

/-- The distance from the center at which a position is drawn: twice the sine of half the angle. -/
theorem C182_radius (r : Rotation) (scale center : ℝ) (p q : ℝ × ℝ)
    (h : project r scale center p = some q) :
    (q.1 - center) ^ 2 + (q.2 - center) ^ 2 = (scale * (2 * Real.sin
      (Spec.angleBetween (Spec.facing r) (Spec.shown true false p) / 2))) ^ 2 := by
  have hc := apply_cos r p
  rw [geoDirection_dot] at hc
  change _ = vdot (Spec.facing r) (Spec.shown true false p) at hc
  have b1 : Real.cos (r.apply p).1 * Real.cos (r.apply p).2 ≤ 1 := by
    have h1 := Real.abs_cos_le_one (r.apply p).1
    have h2 := Real.abs_cos_le_one (r.apply p).2
    have := mul_le_mul h1 h2 (abs_nonneg _) zero_le_one
    rw [← abs_mul] at this
    linarith [le_abs_self (Real.cos (r.apply p).1 * Real.cos (r.apply p).2)]
  have b2 : -1 ≤ Real.cos (r.apply p).1 * Real.cos (r.apply p).2 := by
    have h1 := Real.abs_cos_le_one (r.apply p).1
    have h2 := Real.abs_cos_le_one (r.apply p).2
    have := mul_le_mul h1 h2 (abs_nonneg _) zero_le_one
    rw [← abs_mul] at this
    linarith [neg_abs_le (Real.cos (r.apply p).1 * Real.cos (r.apply p).2)]
  unfold project at h
  set l := (r.apply p).1
  set f := (r.apply p).2
  have h' : (if 1 + Real.cos l * Real.cos f = 0 then none else
    some (center + scale * (Real.sqrt (2 / (1 + Real.cos l * Real.cos f)) * (Real.cos f * Real.sin l)),
      center - scale * (Real.sqrt (2 / (1 + Real.cos l * Real.cos f)) * Real.sin f))) = some q := h
  split_ifs at h' with h0
  cases h'
  have hpos : 0 < 1 + Real.cos l * Real.cos f := lt_of_le_of_ne (by linarith) (Ne.symm h0)
  have hs : Real.sin (Spec.angleBetween (Spec.facing r) (Spec.shown true false p) / 2) ^ 2
      = (1 - Real.cos l * Real.cos f) / 2 := by
    rw [Real.sin_sq_eq_half_sub, mul_div_cancel₀ _ (two_ne_zero), Spec.angleBetween, ← hc,
      Real.cos_arccos b2 b1]
    ring
  have hk := Real.sq_sqrt (show 0 ≤ 2 / (1 + Real.cos l * Real.cos f) by positivity)
  have e1 := Real.sin_sq_add_cos_sq l
  have e2 := Real.sin_sq_add_cos_sq f
  have hm : Real.sqrt (2 / (1 + Real.cos l * Real.cos f)) ^ 2 * (1 - (Real.cos l * Real.cos f) ^ 2)
      = 2 * (1 - Real.cos l * Real.cos f) := by
    rw [hk]; field_simp; ring
  simp only [add_sub_cancel_left, mul_pow, hs]
  set S := Real.sqrt (2 / (1 + Real.cos l * Real.cos f))
  linear_combination scale ^ 2 * hm + (scale ^ 2 * S ^ 2 * Real.cos f ^ 2) * e1
    + scale ^ 2 * S ^ 2 * e2

/-- Labels that are shown are drawn inside of the stereonet (which shows angles up to 90 degrees), up to
a tolerance of 0.01 in the angle. -/
theorem C182_inside (r : Rotation) (scale center : ℝ) (hs : 0 ≤ scale) (l : String × (ℝ × ℝ))
    (hl : l ∈ labels) (hshown : l.1 ∈ shownLabels r) (q : ℝ × ℝ)
    (h : project r scale center l.2 = some q) :
    Real.sqrt ((q.1 - center) ^ 2 + (q.2 - center) ^ 2)
      ≤ scale * (2 * Real.sin ((Real.pi / 2 + 0.01) / 2)) := by
  have hpi := Real.pi_gt_three
  have hd := C124_labels l hl
  have h1 := (C182_shown_iff r l.1 _ hd).1 hshown
  have hle : Real.sin (Spec.angleBetween (Spec.facing r) (Spec.shown true false l.2) / 2)
      ≤ Real.sin ((Real.pi / 2 + 0.01) / 2) := by
    apply Real.sin_le_sin_of_le_of_le_pi_div_two
    · have := Real.arccos_nonneg (vdot (Spec.facing r) (Spec.shown true false l.2))
      unfold Spec.angleBetween
      linarith
    · linarith
    · have := h1.2.1
      change Spec.angleBetween (Spec.facing r) (Spec.shown true false l.2) ≤ _ at this
      linarith
  rw [C182_radius r scale center l.2 q h, Real.sqrt_sq]
  · exact mul_le_mul_of_nonneg_left (by linarith) hs
  · apply mul_nonneg hs
    apply mul_nonneg zero_le_two
    apply Real.sin_nonneg_of_nonneg_of_le_pi
    · have := Real.arccos_nonneg (vdot (Spec.facing r) (Spec.shown true false l.2))
      unfold Spec.angleBetween
      linarith
    · have := Real.arccos_le_pi (vdot (Spec.facing r) (Spec.shown true false l.2))
      unfold Spec.angleBetween
      linarith

/-- The text of a label at least 20 pixels to the right or the left of the center is beside the point
that it labels, on the side away from the center, whatever its length. -/
theorem C182_text (offset width len : ℝ) (ho : 0 < offset) (p : ℝ × ℝ) :
    (p.1 < width / 2 - 20 → ∀ x ∈ Spec.covers (labelAnchor width p.1)
      (labelTranslate offset width p).1 len, x < p.1) ∧
    (width / 2 + 20 ≤ p.1 → ∀ x ∈ Spec.covers (labelAnchor width p.1)
      (labelTranslate offset width p).1 len, p.1 < x) ∧
    (p.2 < width / 2 - 20 → (labelTranslate offset width p).2 < p.2) ∧
    (width / 2 + 20 < p.2 → p.2 < (labelTranslate offset width p).2) := by
  refine ⟨fun h x hx => ?_, fun h x hx => ?_, fun h => ?_, fun h => ?_⟩
  · simp only [labelAnchor, if_pos h, Spec.covers, labelTranslate, if_true, Set.mem_Icc] at hx
    rw [if_pos (by linarith)] at hx
    linarith [hx.2]
  · simp only [labelAnchor, if_neg (show ¬ p.1 < width / 2 - 20 by linarith),
      if_neg (show ¬ p.1 < width / 2 + 20 by linarith), Spec.covers, labelTranslate] at hx
    rw [if_neg (by decide), if_neg (by decide), if_neg (by linarith), Set.mem_Icc] at hx
    linarith [hx.1]
  · simp only [labelTranslate]
    rw [if_neg (by linarith), if_pos h]
    linarith
  · simp only [labelTranslate]
    rw [if_pos h]
    linarith

/-- The view to the south: its label is hidden, those of east and west are shown. -/
example : "S" ∉ shownLabels ⟨0, 0, 0⟩ ∧ "E" ∈ shownLabels ⟨0, 0, 0⟩ ∧ "W" ∈ shownLabels ⟨0, 0, 0⟩ ∧
    "Up" ∈ shownLabels ⟨0, 0, 0⟩ ∧ "N" ∉ shownLabels ⟨0, 0, 0⟩ := by
  have hpi := Real.pi_gt_three
  have hf : Spec.facing ⟨0, 0, 0⟩ = ![0, -1, 0] := by
    simp [Spec.facing, Spec.shown, Spec.direction, Rotations.sph2cart, radians_zero]
  have a : ∀ d : Vec 3, Spec.angleBetween (Spec.facing ⟨0, 0, 0⟩) d = Real.arccos (-d 1) := by
    intro d; rw [Spec.angleBetween, hf, vdot3]; simp
  rw [C182_shown_iff _ "S" _ rfl, C182_shown_iff _ "E" _ rfl, C182_shown_iff _ "W" _ rfl,
    C182_shown_iff _ "Up" _ rfl, C182_shown_iff _ "N" _ rfl]
  simp only [a]
  refine ⟨?_, ?_, ?_, ?_, ?_⟩ <;> simp <;> norm_num <;> (try constructor) <;> intros <;> linarith

/-- The point labelled "E" of that view is drawn. -/
example : ∃ q, project ⟨0, 0, 0⟩ 100 200 (90, 0) = some q := by
  unfold project
  simp only
  rw [if_neg]
  · exact ⟨_, rfl⟩
  · rw [apply_cos, vdot3]
    simp [geoDirection, viewCenter, radians_zero, radians_90]

end Attitude.Props
