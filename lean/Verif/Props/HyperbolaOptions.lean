import Verif.Model.HyperbolaOptions
import Verif.Lemmas.Trig
import Mathlib.Tactic.Linarith
import Mathlib.Tactic.NormNum
import Mathlib.Tactic.Positivity
import Mathlib.Tactic.FieldSimp
import Mathlib.Tactic.Ring

/-!
# C276, C277: options of hyperbolas, and the nominal line
-/

namespace Attitude.Props

open Attitude Attitude.Frontend Attitude.HyperbolaOptions

/-! ## Specification -/

/-- The value that was given last by one of the calls `cs`, or the initial one. -/
def Spec.lastGiven {C T : Type} (given : C → Option T) (initial : T) (cs : List C) : T :=
  ((cs.reverse.filterMap given).head?).getD initial

/-- The value given to `width`, if the call gives one. -/
def Spec.givenWidth {α : Type} : SetCall α → Option ℝ
  | .width o => o
  | _ => none

/-- The value given to `nominal`, if the call gives one. -/
def Spec.givenNominal {α : Type} : SetCall α → Option Bool
  | .nominal o => o
  | _ => none

/-- The value given to `scaleErrorAngles`, if the call gives one. -/
def Spec.givenScaleErrors {α : Type} : SetCall α → Option Bool
  | .scaleErrorAngles o => o
  | _ => none

/-- The value given to `alphaScale`, if the call gives one. -/
def Spec.givenAlpha {α : Type} : SetCall α → Option α
  | .alphaScale o => o
  | _ => none

/-- The calls of methods among the actions. -/
def Spec.setsOf {α : Type} : List (Act α) → List (SetCall α)
  | [] => []
  | .set c :: l => c :: Spec.setsOf l
  | .draw _ _ :: l => Spec.setsOf l

/-- Whether there was a drawing at a time at which the nominal line was asked for. -/
def Spec.DrawnWithNominal {α : Type} (l : List (Act α)) : Prop :=
  ∃ before a b after, l = before ++ .draw a b :: after ∧
    Spec.lastGiven Spec.givenNominal false (Spec.setsOf before) = true

/-- The opacity of a gradient at `x`: linear between two stops, constant after the last. -/
noncomputable def Spec.opacityAt : List Stop → ℝ → ℝ
  | [], _ => 0
  | [s], _ => s.opacity
  | s :: t :: rest, x =>
      if x ≤ t.offset then
        s.opacity + (t.opacity - s.opacity) * ((x - s.offset) / (t.offset - s.offset))
      else Spec.opacityAt (t :: rest) x

/-! ## Lemmas -/

lemma lastGiven_append {C T : Type} (given : C → Option T) (i : T) (cs : List C) (c : C) :
    Spec.lastGiven given i (cs ++ [c]) = (given c).getD (Spec.lastGiven given i cs) := by
  unfold Spec.lastGiven
  rw [List.reverse_append, List.reverse_singleton, List.singleton_append, List.filterMap_cons]
  cases given c <;> simp

lemma calls_append {α : Type} (s : Opts α) (cs : List (SetCall α)) (c : SetCall α) :
    s.calls (cs ++ [c]) = ((s.calls cs).call c).1 := by
  simp [Opts.calls, List.foldl_append]

lemma setsOf_append {α : Type} (l m : List (Act α)) : Spec.setsOf (l ++ m) = Spec.setsOf l ++ Spec.setsOf m := by
  induction l with
  | nil => rfl
  | cons a l ih => cases a <;> simp [Spec.setsOf, ih]

lemma acts_append {α : Type} (rx sr : ℝ) (p : Opts α × Option Drawn) (l : List (Act α)) (x : Act α) :
    acts rx sr p (l ++ [x]) = (acts rx sr p l).bind fun q => act rx sr q x := by
  simp only [acts, List.foldlM_append, List.foldlM_cons, List.foldlM_nil]
  cases List.foldlM (act rx sr) p l with
  | none => rfl
  | some q => cases h : act rx sr q x <;> simp [h]

lemma fdiv_ne {a b : ℝ} (h : b ≠ 0) : fdiv a b = some (a / b) := by simp [fdiv, h]

lemma drawnWithNominal_append {α : Type} (l : List (Act α)) (x : Act α) :
    Spec.DrawnWithNominal (l ++ [x]) ↔ Spec.DrawnWithNominal l ∨
      ((∃ a b, x = .draw a b) ∧ Spec.lastGiven Spec.givenNominal false (Spec.setsOf l) = true) := by
  constructor
  · rintro ⟨before, a, b, after, h, hn⟩
    rcases List.eq_nil_or_concat after with rfl | ⟨after', y, rfl⟩
    · have := List.append_inj' h rfl
      right
      refine ⟨⟨a, b, by simpa using this.2⟩, ?_⟩
      rw [this.1]; exact hn
    · left
      rw [List.concat_eq_append, ← List.cons_append, ← List.append_assoc] at h
      have := List.append_inj' h rfl
      exact ⟨before, a, b, after', this.1, hn⟩
  · rintro (⟨before, a, b, after, rfl, hn⟩ | ⟨⟨a, b, rfl⟩, hn⟩)
    · exact ⟨before, a, b, after ++ [x], by simp, hn⟩
    · exact ⟨l, a, b, [], rfl, hn⟩

lemma opacityAt_gradient (x : ℝ) : Spec.opacityAt gradient x =
    if x ≤ 1 / 5 then x / 2 else if x ≤ 9 / 20 then 1 / 10 + 18 / 5 * (x - 1 / 5)
    else if x ≤ 11 / 20 then 1 else if x ≤ 4 / 5 then 1 - 18 / 5 * (x - 11 / 20)
    else if x ≤ 1 then 1 / 10 - (x - 4 / 5) / 2 else 0 := by
  have e1 : (0.2 : ℝ) = 1 / 5 := by norm_num
  have e2 : (0.45 : ℝ) = 9 / 20 := by norm_num
  have e3 : (0.55 : ℝ) = 11 / 20 := by norm_num
  have e4 : (0.8 : ℝ) = 4 / 5 := by norm_num
  have e5 : (0.1 : ℝ) = 1 / 10 := by norm_num
  simp only [gradient, stop, Spec.opacityAt, e1, e2, e3, e4, e5]
  split_ifs <;> ring

lemma opacityAt_mono {x y : ℝ} (h0 : 0 ≤ x) (hxy : x ≤ y) (h1 : y ≤ 1 / 2) :
    Spec.opacityAt gradient x ≤ Spec.opacityAt gradient y := by
  rw [opacityAt_gradient, opacityAt_gradient]
  have hx : x ≤ 11 / 20 := by linarith
  have hy : y ≤ 11 / 20 := by linarith
  rw [if_pos hx, if_pos hy]
  split_ifs <;> linarith

/-! ## C276 -/

/-- After any calls, every option has the value that was given last, or its initial value: 400,
no nominal line, no scale, and scaled error angles. -/
theorem C276_last_given {α : Type} (cs : List (SetCall α)) :
    (({} : Opts α).calls cs).width = Spec.lastGiven Spec.givenWidth 400 cs ∧
    (({} : Opts α).calls cs).nominal = Spec.lastGiven Spec.givenNominal false cs ∧
    (({} : Opts α).calls cs).scaleErrorAngles = Spec.lastGiven Spec.givenScaleErrors true cs ∧
    (({} : Opts α).calls cs).alphaScale =
      Spec.lastGiven (fun c => (Spec.givenAlpha c).map some) none cs := by
  induction cs using List.reverseRecOn with
  | nil => simp [Opts.calls, Spec.lastGiven]
  | append_singleton cs c ih =>
    obtain ⟨h1, h2, h3, h4⟩ := ih
    rw [calls_append, lastGiven_append, lastGiven_append, lastGiven_append, lastGiven_append]
    rcases c with o | o | o | o <;> cases o <;>
      simp [Opts.call, Spec.givenWidth, Spec.givenNominal, Spec.givenScaleErrors, Spec.givenAlpha, h1, h2, h3, h4]

/-- A width and a nominal line that are given, and a call that gives nothing. -/
example : (({} : Opts ℕ).calls [.width (some 150), .nominal (some true), .width none]).width = 150 ∧
    (({} : Opts ℕ).calls [.width (some 150), .nominal (some true), .width none]).nominal = true := by
  obtain ⟨h1, h2, -, -⟩ := C276_last_given (α := ℕ) [.width (some 150), .nominal (some true), .width none]
  exact ⟨h1.trans (by simp [Spec.lastGiven, Spec.givenWidth, List.findSome?]),
    h2.trans (by simp [Spec.lastGiven, Spec.givenNominal, List.findSome?])⟩

/-- A method that is given nothing returns the value of its option and changes nothing; one that
is given a value returns the function, for chaining. -/
theorem C276_returns {α : Type} (s : Opts α) :
    s.call (.width none) = (s, .number s.width) ∧
    s.call (.nominal none) = (s, .bool s.nominal) ∧
    s.call (.scaleErrorAngles none) = (s, .bool s.scaleErrorAngles) ∧
    s.call (.alphaScale none) = (s, .scale s.alphaScale) ∧
    ∀ c : SetCall α, ((Spec.givenWidth c).isSome ∨ (Spec.givenNominal c).isSome ∨
      (Spec.givenScaleErrors c).isSome ∨ (Spec.givenAlpha c).isSome) ↔ (s.call c).2 = .self := by
  refine ⟨rfl, rfl, rfl, rfl, fun c => ?_⟩
  rcases c with o | o | o | o <;> cases o <;>
    simp [Opts.call, Spec.givenWidth, Spec.givenNominal, Spec.givenScaleErrors, Spec.givenAlpha]

example : ((({} : Opts ℕ).call (.width (some 150))).1.call (.width none)).2 = .number 150 := by
  rw [(C276_returns _).1]; rfl

/-- The scale of opacities cannot be taken away again: once one was given, no calls whatever lead
back to the initial state without one. -/
theorem C276_reset_false {α : Type} (s : Opts α) (a : α) (cs : List (SetCall α)) :
    ((s.call (.alphaScale (some a))).1.calls cs).alphaScale ≠ none := by
  induction cs using List.reverseRecOn with
  | nil => simp [Opts.calls, Opts.call]
  | append_singleton cs c ih =>
    rw [calls_append]
    generalize (s.call (SetCall.alphaScale (some a))).1.calls cs = t at ih ⊢
    rcases c with o | o | o | o <;> cases o <;> simp [Opts.call, ih]

example : ((({} : Opts ℕ).call (.alphaScale (some 3))).1.calls [.alphaScale none]).alphaScale = some 3 := rfl

/-- The gradient that fades the ends of hyperbolas: the same from both sides, opaque in the tenth
around the middle and only there, fully transparent at the ends and only there, and never
decreasing from an end to the middle.  The gray of a stop is its opacity on the scale to 255,
rounded. -/
theorem C276_gradient :
    (∀ x, 0 ≤ x → x ≤ 1 → Spec.opacityAt gradient (1 - x) = Spec.opacityAt gradient x) ∧
    (∀ x, 0 ≤ x → x ≤ 1 → 0 ≤ Spec.opacityAt gradient x ∧ Spec.opacityAt gradient x ≤ 1) ∧
    (∀ x, 0 ≤ x → x ≤ 1 → (Spec.opacityAt gradient x = 1 ↔ |x - 1 / 2| ≤ 1 / 20)) ∧
    (∀ x, 0 ≤ x → x ≤ 1 → (Spec.opacityAt gradient x = 0 ↔ x = 0 ∨ x = 1)) ∧
    (∀ x y, 0 ≤ x → x ≤ y → y ≤ 1 / 2 → Spec.opacityAt gradient x ≤ Spec.opacityAt gradient y) ∧
    (∀ s ∈ gradient, |(s.gray : ℝ) - 255 * s.opacity| ≤ 1 / 2) := by
  refine ⟨fun x h0 h1 => ?_, fun x h0 h1 => ?_, fun x h0 h1 => ?_, fun x h0 h1 => ?_, fun x y h0 hxy h1 => ?_, fun s hs => ?_⟩
  · rw [opacityAt_gradient, opacityAt_gradient]
    split_ifs <;> linarith
  · rw [opacityAt_gradient]
    split_ifs <;> constructor <;> linarith
  · rw [opacityAt_gradient, abs_le]
    constructor
    · intro h
      split_ifs at h <;> constructor <;> linarith
    · rintro ⟨h, h'⟩
      split_ifs <;> linarith
  · rw [opacityAt_gradient]
    constructor
    · intro h
      split_ifs at h <;> first | (exfalso; linarith) | (left; linarith) | (right; linarith)
    · rintro (h | h) <;> split_ifs <;> linarith
  · exact opacityAt_mono h0 hxy h1
  · have h : ∃ o p, s = stop o p := by
      simp only [gradient, List.mem_cons, List.not_mem_nil, or_false] at hs
      rcases hs with h | h | h | h | h | h <;> exact ⟨_, _, h⟩
    obtain ⟨o, p, rfl⟩ := h
    simp only [stop, abs_le]
    have h1 := Int.floor_le (p * 255 + 1 / 2)
    have h2 := Int.lt_floor_add_one (p * 255 + 1 / 2)
    constructor <;> linarith

/-! ## C277 -/

/-- The options after some actions are those after the calls among them. -/
lemma acts_state {α : Type} (rx sr : ℝ) (hr : rx ≠ 0) (l : List (Act α)) :
    ∃ e, acts rx sr (({} : Opts α), none) l = some (({} : Opts α).calls (Spec.setsOf l), e) ∧
      ((e.bind (·.line)).isSome = true ↔ Spec.DrawnWithNominal l) := by
  induction l using List.reverseRecOn with
  | nil =>
    refine ⟨none, rfl, ?_⟩
    constructor
    · intro h; simp at h
    · rintro ⟨before, a, b, after, h, -⟩
      simp at h
  | append_singleton l x ih =>
    obtain ⟨e, he, hl⟩ := ih
    rw [acts_append, he, setsOf_append, drawnWithNominal_append, ← hl, ← (C276_last_given (Spec.setsOf l)).2.1]
    cases x with
    | set c =>
      refine ⟨e, ?_, by simp⟩
      simp [act, Spec.setsOf, calls_append]
    | draw a b =>
      simp only [Option.bind_some, act, draw, largeNumber, fdiv_ne hr, Spec.setsOf, List.append_nil]
      refine ⟨_, rfl, ?_⟩
      cases hn : (({} : Opts α).calls (Spec.setsOf l)).nominal <;> simp

/-- Over all sequences of calls and drawings on a scale that is not constant, drawing works, and
the element has a nominal line exactly if it was drawn at a time when the line was asked for. -/
theorem C277_line_iff {α : Type} (rx sr : ℝ) (hr : rx ≠ 0) (l : List (Act α)) :
    ∃ s e, acts rx sr (({} : Opts α), none) l = some (s, e) ∧
      ((e.bind (·.line)).isSome = true ↔ Spec.DrawnWithNominal l) := by
  obtain ⟨e, h, hl⟩ := acts_state rx sr hr l
  exact ⟨_, e, h, hl⟩

example : Spec.DrawnWithNominal ([.set (.nominal (some true)), .draw 1 1] : List (Act ℕ)) :=
  ⟨[.set (.nominal (some true))], 1, 1, [], rfl, by simp [Spec.setsOf, Spec.lastGiven, Spec.givenNominal]⟩

/-- Turning the nominal line off does not take it away: after it was drawn once, the element keeps
it through whatever is called and drawn later. -/
theorem C277_off_false {α : Type} (rx sr : ℝ) (hr : rx ≠ 0) (before : List (Act α)) (a b : ℝ)
    (after : List (Act α))
    (hn : Spec.lastGiven Spec.givenNominal false (Spec.setsOf before) = true) :
    ∃ s e, acts rx sr (({} : Opts α), none)
        (before ++ .draw a b :: after ++ [.set (.nominal (some false)), .draw a b]) = some (s, some e) ∧
      s.nominal = false ∧ e.line.isSome = true := by
  obtain ⟨e, h, hl⟩ := acts_state rx sr hr
    (before ++ .draw a b :: after ++ [.set (.nominal (some false)), .draw a b])
  have hd : Spec.DrawnWithNominal
      (before ++ .draw a b :: after ++ [.set (.nominal (some false)), .draw a b]) :=
    ⟨before, a, b, after ++ [.set (.nominal (some false)), .draw a b], by simp, hn⟩
  cases e with
  | none => exact absurd (hl.2 hd) (by simp)
  | some e =>
    refine ⟨_, e, h, ?_, hl.2 hd⟩
    rw [(C276_last_given _).2.1, setsOf_append]
    simp only [Spec.setsOf]
    rw [lastGiven_append]
    rfl

/-- Actions with a nominal line. -/
example : Spec.lastGiven Spec.givenNominal false
    (Spec.setsOf ([.set (.nominal (some true))] : List (Act ℕ))) = true := by
  simp [Spec.setsOf, Spec.lastGiven, Spec.givenNominal]

/-- Drawing with a nominal line: the border ends at the width in pixels to both sides, whatever
the scale; the nominal line, which has the same ends in the coordinates of the data, is not scaled
and ends at the width divided by the pixels per unit. -/
theorem C277_length {α : Type} (s : Opts α) (rx sr a b : ℝ) (hr : rx ≠ 0) (old : Option Drawn) :
    ∃ e, draw s rx sr a b old = some e ∧ e.ends = s.width ∧
      (s.nominal = true → ∃ ln, e.line = some ln ∧ ln.half * rx = s.width) := by
  simp only [draw, largeNumber, fdiv_ne hr]
  refine ⟨_, rfl, by field_simp, fun h => ⟨⟨s.width / rx⟩, by simp [h], by simp only; field_simp⟩⟩

/-- The visible part is as wide as the option says, times the cosine of the error angle as it
appears on the screen; it is set by the first drawing and kept by all others, whatever is called
or drawn between. -/
theorem C277_mask {α : Type} (s : Opts α) (rx sr a b : ℝ) (hr : rx ≠ 0) (hw : 0 ≤ s.width)
    (l : List (Act α)) :
    ∃ t e, acts rx sr (s, none) (.draw a b :: l) = some (t, some e) ∧
      2 * e.mask * Real.sqrt ((if s.scaleErrorAngles then a * sr else a) ^ 2 + b ^ 2) =
        s.width * |if s.scaleErrorAngles then a * sr else a| := by
  induction l using List.reverseRecOn with
  | nil =>
    simp only [acts, List.foldlM_cons, List.foldlM_nil, act, draw, largeNumber, fdiv_ne hr]
    refine ⟨s, _, rfl, ?_⟩
    simp only [maskLim]
    have key : ∀ x : ℝ, 2 * |s.width / 2 * Real.cos (arctan2 b x)| * Real.sqrt (x ^ 2 + b ^ 2) = s.width * |x| := by
      intro x
      have h := sqrt_mul_cos_arctan2 b x
      conv_rhs => rw [← h]
      rw [abs_mul, abs_mul, abs_of_nonneg (Real.sqrt_nonneg _), abs_of_nonneg (by positivity : 0 ≤ s.width / 2)]
      ring
    split_ifs <;> exact key _
  | append_singleton l x ih =>
    obtain ⟨t, e, he, hm⟩ := ih
    rw [← List.cons_append, acts_append, he]
    cases x with
    | set c => exact ⟨_, e, rfl, hm⟩
    | draw a' b' =>
      simp only [Option.bind_some, act, draw, largeNumber, fdiv_ne hr]
      exact ⟨t, _, rfl, hm⟩

/-- A hyperbola with semi-axes 3 and 4, drawn with a width of 100, then asked to be wider. -/
example : ∃ t e, acts 1 1 ((⟨100, false, none, true⟩ : Opts ℕ), none)
    [.draw 3 4, .set (.width (some 500)), .draw 3 4] = some (t, some e) ∧ e.mask = 30 := by
  obtain ⟨t, e, h, hm⟩ := C277_mask (⟨100, false, none, true⟩ : Opts ℕ) 1 1 3 4 one_ne_zero (by norm_num)
    [.set (.width (some 500)), .draw 3 4]
  refine ⟨t, e, h, ?_⟩
  simp only [if_true] at hm
  rw [show ((3:ℝ) * 1) ^ 2 + 4 ^ 2 = 5 ^ 2 by norm_num, Real.sqrt_sq (by norm_num),
    show |(3:ℝ) * 1| = 3 by norm_num] at hm
  linarith

/-- So the nominal line and the border end at the same place only at one pixel per unit. -/
theorem C277_length_false {α : Type} (s : Opts α) (rx sr a b : ℝ) (hr : rx ≠ 0) (hw : s.width ≠ 0)
    (hn : s.nominal = true) (old : Option Drawn) :
    ∃ e ln, draw s rx sr a b old = some e ∧ e.line = some ln ∧ (|ln.half| = |e.ends| ↔ |rx| = 1) := by
  obtain ⟨e, he, hend, hl⟩ := C277_length s rx sr a b hr old
  obtain ⟨ln, hln, hh⟩ := hl hn
  refine ⟨e, ln, he, hln, ?_⟩
  rw [hend, ← hh, abs_mul]
  have : 0 < |ln.half| := by
    rw [abs_pos]; rintro h; rw [h, zero_mul] at hh; exact hw hh.symm
  constructor
  · intro h
    have : |ln.half| * 1 = |ln.half| * |rx| := by rw [mul_one]; exact h
    exact (mul_left_cancel₀ (by positivity) this).symm
  · intro h; rw [h, mul_one]

example : (⟨150, true, none, true⟩ : Opts ℕ).width ≠ 0 ∧ (⟨150, true, none, true⟩ : Opts ℕ).nominal = true := by
  norm_num

lemma cos_arctan2_near {c : ℝ} (hc : c < 1) : ∃ b > 0, c < Real.cos (arctan2 b 1) := by
  obtain ⟨t, ht1, ht2⟩ := exists_between (max_lt hc (show (1/2 : ℝ) < 1 by norm_num))
  have ht0 : (1:ℝ)/2 < t := lt_of_le_of_lt (le_max_right _ _) ht1
  have htc : c < t := lt_of_le_of_lt (le_max_left _ _) ht1
  refine ⟨Real.sqrt (1 / t ^ 2 - 1), ?_, ?_⟩
  · apply Real.sqrt_pos.2
    have : t ^ 2 < 1 := by nlinarith
    have h2 : 0 < t ^ 2 := by positivity
    rw [sub_pos, lt_div_iff₀ h2]; linarith
  · have h := sqrt_mul_cos_arctan2 (Real.sqrt (1 / t ^ 2 - 1)) 1
    have hnn : 0 ≤ 1 / t ^ 2 - 1 := by
      have : t ^ 2 ≤ 1 := by nlinarith
      have h2 : 0 < t ^ 2 := by positivity
      rw [sub_nonneg, le_div_iff₀ h2]; linarith
    have hs : Real.sqrt (1 ^ 2 + Real.sqrt (1 / t ^ 2 - 1) ^ 2) = 1 / t := by
      rw [Real.sq_sqrt hnn]
      have : (1:ℝ) ^ 2 + (1 / t ^ 2 - 1) = (1 / t) ^ 2 := by ring
      rw [this, Real.sqrt_sq (by positivity)]
    rw [hs] at h
    have : Real.cos (arctan2 (Real.sqrt (1 / t ^ 2 - 1)) 1) = t := by
      generalize Real.cos (arctan2 (Real.sqrt (1 / t ^ 2 - 1)) 1) = k at h
      field_simp at h
      exact h
    rw [this]; exact htc

/-- The nominal line reaches over the visible part of every hyperbola (the side of the mask) if
and only if a unit is at most two pixels; on larger scales it is cut short for some. -/
theorem C277_covers_iff (rx : ℝ) (hr : rx ≠ 0) :
    (∀ (s : Opts Unit) (sr a b : ℝ), 0 < s.width → s.nominal = true → 0 < a → 0 < b →
      ∃ e ln, draw s rx sr a b none = some e ∧ e.line = some ln ∧ e.mask ≤ |ln.half|) ↔ |rx| ≤ 2 := by
  have hrx : 0 < |rx| := abs_pos.2 hr
  constructor
  · intro h
    by_contra hgt
    push Not at hgt
    obtain ⟨b, hb, hc⟩ := cos_arctan2_near (c := 2 / |rx|) (by rw [div_lt_one hrx]; exact hgt)
    obtain ⟨e, ln, he, hln, hle⟩ := h ⟨2, true, none, true⟩ 1 1 b (by norm_num) rfl one_pos hb
    simp only [draw, largeNumber, fdiv_ne hr, Option.bind_eq_bind, Option.bind_some, Option.some.injEq] at he
    subst he
    simp only [ite_true, Option.some.injEq] at hln
    subst hln
    simp only [maskLim, ite_true, mul_one] at hle
    rw [abs_div] at hle
    have : (2:ℝ) / 2 * Real.cos (arctan2 b 1) ≤ |2| / |rx| := le_trans (le_abs_self _) hle
    rw [abs_of_pos (by norm_num : (0:ℝ) < 2)] at this
    linarith
  · intro h s sr a b hw hn ha hb
    refine ⟨_, ⟨s.width / rx⟩, by simp only [draw, largeNumber, fdiv_ne hr, Option.bind_eq_bind, Option.bind_some]; rfl,
      by simp [hn], ?_⟩
    have hc : ∀ x : ℝ, |s.width / 2 * Real.cos x| ≤ s.width / 2 := fun x => by
      rw [abs_mul, abs_of_pos (by positivity)]
      have := Real.abs_cos_le_one x
      nlinarith
    have h2 : s.width / 2 ≤ |s.width / rx| := by
      rw [abs_div, abs_of_pos hw]
      exact div_le_div_of_nonneg_left hw.le hrx h
    exact le_trans (hc _) h2

example : |(2 : ℝ)| ≤ 2 ∧ (2 : ℝ) ≠ 0 ∧ ¬ |(10 : ℝ)| ≤ 2 := by norm_num

end Attitude.Props
