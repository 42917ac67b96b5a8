import Verif.Model.Page
import Verif.Props.Webapp

/-!
# What the tabs of the web application show
-/

namespace Attitude.Props

open Attitude Webapp NotebookUi

/-! ## C267 -/

/-- The changes of the sheet among the events of a page. -/
def Spec.sheetEvents : List PageEvent → List Webapp.Event
  | [] => []
  | .sheet e :: l => e :: Spec.sheetEvents l
  | _ :: l => Spec.sheetEvents l

/-- The positions of the two switches, planes and poles, after events: each press reverses one while the
interactive stereonet is shown, and they return to "only poles" when the tab is opened again. -/
def Spec.switches : Bool → Bool × Bool → List PageEvent → Option (Bool × Bool)
  | true, s, [] => some s
  | false, _, [] => none
  | _, _, .selectClipped :: l => Spec.switches false (false, true) l
  | false, _, .selectInteractive :: l => Spec.switches true (false, true) l
  | true, s, .togglePlanes :: l => Spec.switches true (!s.1, s.2) l
  | true, s, .togglePoles :: l => Spec.switches true (s.1, !s.2) l
  | b, s, _ :: l => Spec.switches b s l

/-- The position of the two switches if they are shown. -/
def switchesOf (p : Page) : Option (Bool × Bool) :=
  match p.panel with
  | .interactive a b .. => some (a, b)
  | .clipped .. => none

/-- The invariant of a panel on the page. -/
def PanelInv (p : Page) : Panel → Prop
  | .interactive a b c prev d =>
    prev = pageProps p.data a b c ∧ d.planes = (if a then some p.data.items else none) ∧
      d.poles = (if b then some p.data.items else none) ∧ d.hoveredPlanes = [] ∧ d.hoveredPoles = [] ∧ c.id < p.fresh
  | .clipped c deps s => deps = (p.data.id, c) ∧ s = [⟨p.data.items, c⟩]

/-- The invariant of a page. -/
structure PageInv (g : Value → Bool) (p : Page) : Prop where
  items : p.data.items = cleanedData g p.sheet
  old : p.data.id < p.fresh
  panel : PanelInv p p.panel

lemma didUpdate_same {a b a' b' : Bool} {c c' : Arr ℝ} {data data' : Arr RowData} {d : Drawn RowData}
    (hp : d.planes = (if a then some data.items else none)) (hq : d.poles = (if b then some data.items else none))
    (h1 : d.hoveredPlanes = []) (h2 : d.hoveredPoles = []) (hid : data'.id = data.id → data' = data) :
    (didUpdate (pageProps data a b c) (pageProps data' a' b' c') d).planes
        = (if a' then some data'.items else none) ∧
      (didUpdate (pageProps data a b c) (pageProps data' a' b' c') d).poles
        = (if b' then some data'.items else none) ∧
      (didUpdate (pageProps data a b c) (pageProps data' a' b' c') d).hoveredPlanes = [] ∧
      (didUpdate (pageProps data a b c) (pageProps data' a' b' c') d).hoveredPoles = [] := by
  by_cases he : data'.id = data.id
  · obtain rfl := hid he
    cases a <;> cases a' <;> cases b <;> cases b' <;> by_cases hc : c.id = c'.id <;>
      simp_all [didUpdate, pageProps, updatePlanes, updatePoles, updateHovered]
  · cases a <;> cases a' <;> cases b <;> cases b' <;> by_cases hc : c.id = c'.id <;>
      simp_all [didUpdate, pageProps, updatePlanes, updatePoles, updateHovered]

lemma open_inv (g : Value → Bool) : PageInv g (openPage g) := by
  refine ⟨rfl, by simp [openPage], ?_⟩
  simp [openPage, mountInteractive, PanelInv, mount, updatePlanes, updatePoles, pageProps]

lemma step_inv (g : Value → Bool) (p : Page) (h : PageInv g p) (e : PageEvent) : PageInv g (pageStep g p e) := by
  obtain ⟨sheet, data, stored, panel, fresh⟩ := p
  obtain ⟨hi, ho, hp⟩ := h
  simp only at hi ho hp
  cases panel with
  | interactive a b c prev d =>
    simp only [PanelInv] at hp
    obtain ⟨rfl, h1, h2, h3, h4, h5⟩ := hp
    cases e with
    | sheet e =>
      refine ⟨rfl, Nat.lt_succ_self _, rfl, ?_⟩
      obtain ⟨q1, q2, q3, q4⟩ := didUpdate_same (c := c) (c' := c) (a' := a) (b' := b)
        (data' := ⟨fresh, cleanedData g (step sheet e)⟩) h1 h2 h3 h4 fun hid => absurd hid (by simp; omega)
      exact ⟨q1, q2, q3, q4, Nat.lt_succ_of_lt h5⟩
    | selectInteractive => exact ⟨hi, ho, rfl, h1, h2, h3, h4, h5⟩
    | selectClipped => exact ⟨hi, ho, rfl, by simp [verticalEffect, pageStep]⟩
    | togglePlanes =>
      obtain ⟨q1, q2, q3, q4⟩ := didUpdate_same (c := c) (c' := c) (a' := !a) (b' := b) (data' := data)
        h1 h2 h3 h4 fun _ => rfl
      exact ⟨hi, ho, rfl, q1, q2, q3, q4, h5⟩
    | togglePoles =>
      obtain ⟨q1, q2, q3, q4⟩ := didUpdate_same (c := c) (c' := c) (a' := a) (b' := !b) (data' := data)
        h1 h2 h3 h4 fun _ => rfl
      exact ⟨hi, ho, rfl, q1, q2, q3, q4, h5⟩
    | vertical =>
      obtain ⟨q1, q2, q3, q4⟩ := didUpdate_same (c := c) (c' := ⟨fresh, [0, -90]⟩) (a' := a) (b' := b) (data' := data)
        h1 h2 h3 h4 fun _ => rfl
      exact ⟨hi, Nat.lt_succ_of_lt ho, rfl, q1, q2, q3, q4, Nat.lt_succ_self _⟩
    | setClip x => exact ⟨hi, ho, rfl, h1, h2, h3, h4, h5⟩
  | clipped c deps s =>
    simp only [PanelInv] at hp
    obtain ⟨rfl, rfl⟩ := hp
    cases e with
    | sheet e =>
      refine ⟨rfl, Nat.lt_succ_self _, rfl, ?_⟩
      have hne : (data.id, c) ≠ (fresh, c) := fun h => by simp at h; omega
      simp [verticalEffect, hne, pageStep]
    | selectInteractive =>
      refine ⟨hi, Nat.lt_succ_of_lt ho, ?_⟩
      simp [pageStep, mountInteractive, PanelInv, mount, updatePlanes, updatePoles, pageProps]
    | selectClipped => exact ⟨hi, ho, rfl, rfl⟩
    | togglePlanes => exact ⟨hi, ho, rfl, rfl⟩
    | togglePoles => exact ⟨hi, ho, rfl, rfl⟩
    | vertical => exact ⟨hi, ho, rfl, rfl⟩
    | setClip x =>
      refine ⟨hi, ho, rfl, ?_⟩
      by_cases hx : c = x <;> simp [verticalEffect, hx, pageStep]

lemma pageRun_snoc (g : Value → Bool) (l : List PageEvent) (e : PageEvent) :
    pageRun g (l ++ [e]) = pageStep g (pageRun g l) e := by
  simp [pageRun]

lemma run_inv (g : Value → Bool) (events : List PageEvent) : PageInv g (pageRun g events) := by
  induction events using List.reverseRecOn with
  | nil => exact open_inv g
  | append_singleton l e ih => rw [pageRun_snoc]; exact step_inv g _ ih e

lemma pageStep_sheet (g : Value → Bool) (p : Page) (e : PageEvent) :
    (pageStep g p e).sheet = (Spec.sheetEvents [e]).foldl Webapp.step p.sheet := by
  obtain ⟨sheet, data, stored, panel, fresh⟩ := p
  cases panel <;> cases e <;> rfl

lemma sheetEvents_cons (e : PageEvent) (l : List PageEvent) :
    Spec.sheetEvents (e :: l) = Spec.sheetEvents [e] ++ Spec.sheetEvents l := by
  cases e <;> rfl

lemma sheetEvents_append (l l' : List PageEvent) :
    Spec.sheetEvents (l ++ l') = Spec.sheetEvents l ++ Spec.sheetEvents l' := by
  induction l with
  | nil => rfl
  | cons e l ih => rw [List.cons_append, sheetEvents_cons, ih, sheetEvents_cons e l, List.append_assoc]

lemma foldl_sheet (g : Value → Bool) (events : List PageEvent) (p : Page) :
    (events.foldl (pageStep g) p).sheet = (Spec.sheetEvents events).foldl Webapp.step p.sheet := by
  induction events generalizing p with
  | nil => rfl
  | cons e l ih => rw [List.foldl_cons, ih, pageStep_sheet, sheetEvents_cons e l, List.foldl_append]

/-- Edits while planes and poles are shown, and then the other tab. -/
def somePageEvents : List PageEvent :=
  [.togglePlanes, .sheet (.edit [⟨2, 0, .num 40⟩, ⟨2, 1, .num 30⟩]), .vertical, .selectClipped, .sheet .addRows, .setClip 30]

/-- The sheet depends on the changes made to it only, not on what is done with the plots. -/
theorem C267_sheet (g : Value → Bool) (events : List PageEvent) :
    (pageRun g events).sheet = Webapp.run (Spec.sheetEvents events) := foldl_sheet g events _

example : (pageRun (fun _ => true) somePageEvents).sheet
    = Webapp.run [.edit [⟨2, 0, .num 40⟩, ⟨2, 1, .num 30⟩], .addRows] := C267_sheet _ _

/-- Whatever was done before: the interactive stereonet shows the planes of the current rows of the sheet
exactly if the switch for planes is on, their poles exactly if the switch for poles is on, and nothing
highlighted. -/
theorem C267_interactive (g : Value → Bool) (events : List PageEvent) (a b : Bool) (c : Arr ℝ)
    (prev : NetProps RowData) (d : Drawn RowData) (h : (pageRun g events).panel = .interactive a b c prev d) :
    d.planes = (if a then some (cleanedData g (Webapp.run (Spec.sheetEvents events))) else none) ∧
      d.poles = (if b then some (cleanedData g (Webapp.run (Spec.sheetEvents events))) else none) ∧
      d.hoveredPlanes = [] ∧ d.hoveredPoles = [] := by
  obtain ⟨hi, -, hp⟩ := run_inv g events
  rw [h] at hp
  obtain ⟨-, h1, h2, h3, h4, -⟩ := hp
  rw [hi, C267_sheet] at h1 h2
  exact ⟨h1, h2, h3, h4⟩

example : ∃ c prev d, (pageRun (fun _ => true) (somePageEvents.take 3)).panel = .interactive true true c prev d ∧
    d.planes = some (cleanedData (fun _ => true) (Webapp.run [.edit [⟨2, 0, .num 40⟩, ⟨2, 1, .num 30⟩]])) := by
  refine ⟨_, _, _, rfl, ?_⟩
  exact (C267_interactive _ (somePageEvents.take 3) true true _ _ _ rfl).1

/-- Whatever was done before: the clipped stereonet is drawn once, with the current rows of the sheet and the
clip angle that is shown. -/
theorem C267_clipped (g : Value → Bool) (events : List PageEvent) (c : ℚ) (deps : ℕ × ℚ) (s : List Drawing)
    (h : (pageRun g events).panel = .clipped c deps s) :
    s = [⟨cleanedData g (Webapp.run (Spec.sheetEvents events)), c⟩] := by
  obtain ⟨hi, -, hp⟩ := run_inv g events
  rw [h] at hp
  obtain ⟨-, h1⟩ := hp
  rw [h1, hi, C267_sheet]

example : ∃ deps s, (pageRun (fun _ => true) somePageEvents).panel = .clipped 30 deps s ∧ s.length = 1 := by
  refine ⟨_, _, rfl, ?_⟩
  exact congrArg List.length (C267_clipped (fun _ => true) somePageEvents 30 _ _ rfl)

lemma switches_foldl (g : Value → Bool) (events : List PageEvent) (p : Page) (s : Bool × Bool)
    (hs : ∀ q, switchesOf p = some q → s = q) :
    switchesOf (events.foldl (pageStep g) p) = Spec.switches (switchesOf p).isSome s events := by
  induction events generalizing p s with
  | nil =>
    cases h : switchesOf p with
    | none => simp [Spec.switches, h]
    | some q => simp [Spec.switches, h, hs q h]
  | cons e l ih =>
    obtain ⟨sheet, data, stored, panel, fresh⟩ := p
    rw [List.foldl_cons]
    cases panel with
    | interactive a b c prev d =>
      obtain rfl : s = (a, b) := hs _ rfl
      cases e with
      | sheet e => exact ih _ (a, b) fun q hq => by cases hq; rfl
      | selectInteractive => exact ih _ (a, b) fun q hq => by cases hq; rfl
      | selectClipped => exact ih _ (false, true) fun q hq => by cases hq
      | togglePlanes => exact ih _ (!a, b) fun q hq => by cases hq; rfl
      | togglePoles => exact ih _ (a, !b) fun q hq => by cases hq; rfl
      | vertical => exact ih _ (a, b) fun q hq => by cases hq; rfl
      | setClip x => exact ih _ (a, b) fun q hq => by cases hq; rfl
    | clipped c deps t =>
      cases e with
      | sheet e => exact ih _ s fun q hq => by cases hq
      | selectInteractive => exact ih _ (false, true) fun q hq => by cases hq; rfl
      | selectClipped => exact ih _ (false, true) fun q hq => by cases hq
      | togglePlanes => exact ih _ s fun q hq => by cases hq
      | togglePoles => exact ih _ s fun q hq => by cases hq
      | vertical => exact ih _ s fun q hq => by cases hq
      | setClip x => exact ih _ s fun q hq => by cases hq

/-- The switches: each press reverses one, and leaving the tab returns them to poles without planes. -/
theorem C267_switches (g : Value → Bool) (events : List PageEvent) :
    switchesOf (pageRun g events) = Spec.switches true (false, true) events :=
  switches_foldl g events (openPage g) (false, true) fun q hq => by cases hq; rfl

example : switchesOf (pageRun (fun _ => true) (somePageEvents ++ [.selectInteractive])) = some (false, true) := by
  rw [C267_switches]; rfl

/-- The button "Vertical" sets the view to the vertical whatever was done before, also when it was pressed
before and the net has been turned since. -/
theorem C267_vertical (g : Value → Bool) (events : List PageEvent) (s : Bool × Bool)
    (hs : Spec.switches true (false, true) events = some s) :
    ∃ c prev d, (pageRun g (events ++ [.vertical])).panel = .interactive s.1 s.2 c prev d ∧ d.center = some [0, -90] := by
  rw [← C267_switches g events] at hs
  obtain ⟨-, -, hp⟩ := run_inv g events
  rw [pageRun_snoc]
  generalize pageRun g events = p at *
  obtain ⟨sheet, data, stored, panel, fresh⟩ := p
  cases panel with
  | clipped c deps t => cases hs
  | interactive a b c prev d =>
    cases hs
    simp only [PanelInv] at hp
    obtain ⟨rfl, -, -, -, -, h5⟩ := hp
    refine ⟨_, _, _, rfl, ?_⟩
    have hc : c.id ≠ fresh := h5.ne
    simp [didUpdate, pageProps, hc]

example : ∃ c prev d, (pageRun (fun _ => true) [.vertical, .togglePoles, .vertical]).panel
    = .interactive false false c prev d ∧ d.center = some [0, -90] :=
  C267_vertical (fun _ => true) [.vertical, .togglePoles] (false, false) rfl

/-- When the tab is opened the clip angle is above zero and at most 90 degrees, whatever was entered before;
an angle in that range is kept. -/
theorem C267_clip_partial (g : Value → Bool) (events : List PageEvent)
    (hs : Spec.switches true (false, true) events ≠ none) :
    ∃ c deps t, (pageRun g (events ++ [.selectClipped])).panel = .clipped c deps t ∧ 0 < c ∧ c ≤ 90 ∧
      (0 < (pageRun g events).storedClip → (pageRun g events).storedClip ≤ 90 → c = (pageRun g events).storedClip) := by
  rw [← C267_switches g events] at hs
  rw [pageRun_snoc]
  generalize pageRun g events = p at *
  obtain ⟨sheet, data, stored, panel, fresh⟩ := p
  cases panel with
  | clipped c deps t => exact absurd rfl hs
  | interactive a b c prev d =>
    refine ⟨_, _, _, rfl, ?_⟩
    have hv : clipAngleValid (.num stored) = (decide (0 < stored) && decide (stored ≤ 90)) := rfl
    simp only [loadClip, hv]
    by_cases h0 : 0 < stored <;> by_cases h9 : stored ≤ 90 <;> simp [h0, h9] <;> norm_num

example : ∃ c deps t, (pageRun (fun _ => true) [.selectClipped, .setClip (-5), .selectInteractive, .selectClipped]).panel
    = .clipped c deps t ∧ 0 < c := by
  obtain ⟨c, deps, t, h, h0, -⟩ := C267_clip_partial (fun _ => true)
    [.selectClipped, .setClip (-5), .selectInteractive] (by simp [Spec.switches])
  exact ⟨c, deps, t, h, h0⟩

/-- An angle that is entered is used without the test: any number is drawn with. -/
theorem C267_clip_false (g : Value → Bool) (events : List PageEvent) (x : ℚ)
    (hs : Spec.switches true (false, true) events = none) :
    ∃ deps, (pageRun g (events ++ [.setClip x])).panel
      = .clipped x deps [⟨cleanedData g (Webapp.run (Spec.sheetEvents events)), x⟩] := by
  rw [← C267_switches g events] at hs
  have hse : Spec.sheetEvents (events ++ [.setClip x]) = Spec.sheetEvents events := by
    rw [sheetEvents_append]; simp [Spec.sheetEvents]
  have hp : ∃ deps t, (pageRun g (events ++ [.setClip x])).panel = .clipped x deps t := by
    rw [pageRun_snoc]
    generalize pageRun g events = p at *
    obtain ⟨sheet, data, stored, panel, fresh⟩ := p
    cases panel with
    | clipped c deps t => exact ⟨_, _, rfl⟩
    | interactive a b c prev d => cases hs
  obtain ⟨deps, t, ht⟩ := hp
  have := C267_clipped g _ x deps t ht
  rw [hse] at this
  exact ⟨deps, by rw [ht, this]⟩

example : ∃ deps t, (pageRun (fun _ => true) [.selectClipped, .setClip 0]).panel = .clipped 0 deps t := by
  obtain ⟨deps, h⟩ := C267_clip_false (fun _ => true) [.selectClipped] 0 rfl
  exact ⟨deps, _, h⟩

lemma rectangular_foldl (data : List (Arr RowData)) (hd : (data.map Arr.id).Nodup) (k : Option ℕ)
    (hk : ∀ i, k = some i → i ∉ data.map Arr.id) (content : List (List RowData)) :
    (data.foldl (fun s d => (some d.id, rectangularEffect s.1 d s.2)) (k, content)).2
      = content ++ data.map Arr.items := by
  induction data generalizing k content with
  | nil => simp
  | cons d l ih =>
    rw [List.map_cons, List.nodup_cons] at hd
    have hne : k ≠ some d.id := fun h => hk _ h (by simp)
    rw [List.foldl_cons, rectangularEffect, if_neg hne, ih hd.2 _ (fun i hi => by cases hi; exact hd.1)]
    simp

/-- `VerticalClippedStereonet` shows the last data and clip angle that it was given, and nothing else;
`RectangularStereonet` ... -/
theorem C267_component_vertical (l : List (Arr RowData × ℚ)) (hl : ∀ x ∈ l, ∀ y ∈ l, x.1.id = y.1.id → x.1 = y.1)
    (d : Arr RowData × ℚ) (hd : l.getLast? = some d) : verticalRun l = [⟨d.1.items, d.2⟩] := by
  have key : ∀ l : List (Arr RowData × ℚ), (∀ x ∈ l, ∀ y ∈ l, x.1.id = y.1.id → x.1 = y.1) → ∀ d, l.getLast? = some d →
      l.foldl (fun s d => (some (d.1.id, d.2), verticalEffect s.1 d.1 d.2 s.2)) (none, [])
        = (some (d.1.id, d.2), [⟨d.1.items, d.2⟩]) := by
    intro l
    induction l using List.reverseRecOn with
    | nil => intro _ d hd; cases hd
    | append_singleton l e ih =>
      intro hl d hd
      rw [List.getLast?_concat, Option.some.injEq] at hd
      subst hd
      rw [List.foldl_append]
      cases hlast : l.getLast? with
      | none =>
        rw [List.getLast?_eq_none_iff] at hlast
        subst hlast
        simp [verticalEffect]
      | some f =>
        rw [ih (fun x hx y hy => hl x (by simp [hx]) y (by simp [hy])) f hlast]
        simp only [List.foldl_cons, List.foldl_nil, verticalEffect]
        by_cases h : some (f.1.id, f.2) = some (e.1.id, e.2)
        · rw [if_pos h]
          simp only [Option.some.injEq, Prod.mk.injEq] at h
          rw [hl f (by simp [List.mem_of_getLast? hlast]) e (by simp) h.1, h.2]
        · rw [if_neg h, List.nil_append]
  rw [verticalRun, key l hl d hd]

example : verticalRun [(⟨0, [[]]⟩, 15), (⟨1, []⟩, 15)] = [⟨[], 15⟩] :=
  C267_component_vertical _ (by simp) (⟨1, []⟩, 15) rfl

/-- ... keeps the drawings of all data that it was ever given, so that it shows the last alone only if
nothing was given before. -/
theorem C267_rectangular_false (l : List (Arr RowData)) (hl : (l.map Arr.id).Nodup) :
    rectangularRun l = l.map Arr.items ∧ ∀ d, l.getLast? = some d → (rectangularRun l = [d.items] ↔ l = [d]) := by
  have h := rectangular_foldl l hl none (by simp) []
  rw [List.nil_append] at h
  refine ⟨h, fun d hd => ⟨fun he => ?_, fun he => ?_⟩⟩
  · rw [rectangularRun, h] at he
    have := congrArg List.length he
    simp at this
    obtain ⟨x, rfl⟩ := List.length_eq_one_iff.1 this
    cases hd
    rfl
  · subst he; exact h

example : rectangularRun [⟨0, [[]]⟩, ⟨1, []⟩] = [[[]], []] := (C267_rectangular_false _ (by simp)).1

end Attitude.Props
