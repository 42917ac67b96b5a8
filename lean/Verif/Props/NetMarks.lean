import Verif.Model.NetMarks
import Mathlib.Tactic.NormNum
import Mathlib.Tactic.Linarith

/-!
# C278, C279: paths of the stereonet component
-/

namespace Attitude.Props

open Attitude Attitude.NetMarks
open Attitude.NotebookUi (NetProps Arr)

/-! ## Specification -/

section

variable {D G : Type}

/-- A group of elements shows the shape `s` with a path of the class `c`. -/
def Spec.ShowsShape (c : Cls) (s : G) (g : GroupEl D G) : Prop := ∃ q ∈ g.paths, q.cls = c ∧ q.d = some s

/-- Nothing of a group of elements can be seen. -/
def Spec.BlankMark (g : GroupEl D G) : Prop := ∀ q ∈ g.paths, q.d = none

/-- The mouse can find a measurement: something that can be seen listens. -/
def Spec.CanPoint (g : GroupEl D G) : Prop := ∃ q ∈ g.paths, q.listens = true ∧ q.d.isSome = true

/-- The angular error is known and above 45 degrees. -/
def Spec.LargeError (sh : Shapes D G) (d : D) : Prop := ∃ e, sh.maxError d = some e ∧ 45 < e

/-- Measurements are not GeoJSON themselves. -/
def Spec.NotGeo (sh : Shapes D G) : Prop := ∀ d, sh.bare d = none

/-- The measurements of which there are elements. -/
def Spec.measurements (v : View D G) : Option (List D) × Option (List D) × List D × List D :=
  (v.planes.map (List.map (·.data)), v.poles.map (List.map (·.data)), v.hoveredPlanes.map (·.data),
    v.hoveredPoles.map (·.data))

/-- The same for the model of the component that has the measurements only. -/
def Spec.measurementsOf (d : NotebookUi.Drawn D) : Option (List D) × Option (List D) × List D × List D :=
  (d.planes, d.poles, d.hoveredPlanes, d.hoveredPoles)

/-- One event in that model: rotation changes nothing. -/
def Spec.drawnStep (s : NetProps D × NotebookUi.Drawn D) : NetMarks.Event D → NetProps D × NotebookUi.Drawn D
  | .update p => (p, NotebookUi.didUpdate s.1 p s.2)
  | .rotate => s

/-- The properties `p` show another highlight than before, while the data and the kinds of elements
stay as they are. -/
def Spec.NewHighlight (prev p : NetProps D) : Prop :=
  p.data.id = prev.data.id ∧ p.drawPlanes = prev.drawPlanes ∧ p.drawPoles = prev.drawPoles ∧
    p.hovered.map Arr.id ≠ prev.hovered.map Arr.id

/-! ## Lemmas -/

variable (sh : Shapes D G)

lemma tooLarge_iff (d : D) : tooLarge sh d = true ↔ Spec.LargeError sh d := by
  unfold tooLarge Spec.LargeError
  cases h : sh.maxError d <;> simp

/-- A plane between its creation and the end of an update. -/
def PlanePre (g : GroupEl D G) : Prop :=
  ∃ l x, g.paths = (if tooLarge sh g.data then [] else
    [⟨.error, .shape (sh.surface g.data), some (sh.surface g.data), l⟩]) ++ [⟨.nominal, .own g.data, x, false⟩]

/-- A plane after an update. -/
def PlaneOk (g : GroupEl D G) : Prop :=
  g.paths = (if tooLarge sh g.data then [] else
    [⟨.error, .shape (sh.surface g.data), some (sh.surface g.data), true⟩]) ++
      [⟨.nominal, .own g.data, sh.bare g.data, false⟩]

/-- A pole between its creation and the end of an update. -/
def PolePre (g : GroupEl D G) : Prop :=
  ∃ l, g.paths = [⟨.error, .shape (sh.ellipse g.data), some (sh.ellipse g.data), l⟩]

/-- A pole after an update. -/
def PoleOk (g : GroupEl D G) : Prop :=
  g.paths = [⟨.error, .shape (sh.ellipse g.data), some (sh.ellipse g.data), true⟩]

/-- A highlighted plane or pole. -/
def HovAny (g : GroupEl D G) : Prop := ∃ l x, g.paths = [⟨.error, .own g.data, x, l⟩]

/-- A highlighted plane or pole after the net was drawn again. -/
def HovGone (g : GroupEl D G) : Prop := ∃ l, g.paths = [⟨.error, .own g.data, sh.bare g.data, l⟩]

/-- All groups of elements of a kind. -/
def AllGroups (P Q R : GroupEl D G → Prop) (v : View D G) : Prop :=
  (∀ gs, v.planes = some gs → ∀ g ∈ gs, P g) ∧ (∀ gs, v.poles = some gs → ∀ g ∈ gs, Q g) ∧
    (∀ g ∈ v.hoveredPlanes, R g) ∧ (∀ g ∈ v.hoveredPoles, R g)

lemma AllGroups.mapPaths {P Q R P' Q' R' : GroupEl D G → Prop} {f : PathEl D G → PathEl D G} {v : View D G}
    (h : AllGroups P Q R v) (hP : ∀ g, P g → P' (g.mapPaths f)) (hQ : ∀ g, Q g → Q' (g.mapPaths f))
    (hR : ∀ g, R g → R' (g.mapPaths f)) : AllGroups P' Q' R' (v.mapPaths f) := by
  obtain ⟨h1, h2, h3, h4⟩ := h
  refine ⟨fun gs hg g hm => ?_, fun gs hg g hm => ?_, fun g hm => ?_, fun g hm => ?_⟩
  · simp only [View.mapPaths, Option.map_eq_some_iff] at hg
    obtain ⟨gs', hg', rfl⟩ := hg
    obtain ⟨g', hm', rfl⟩ := List.mem_map.1 hm
    exact hP _ (h1 _ hg' _ hm')
  · simp only [View.mapPaths, Option.map_eq_some_iff] at hg
    obtain ⟨gs', hg', rfl⟩ := hg
    obtain ⟨g', hm', rfl⟩ := List.mem_map.1 hm
    exact hQ _ (h2 _ hg' _ hm')
  · obtain ⟨g', hm', rfl⟩ := List.mem_map.1 hm
    exact hR _ (h3 _ hm')
  · obtain ⟨g', hm', rfl⟩ := List.mem_map.1 hm
    exact hR _ (h4 _ hm')

lemma AllGroups.mono {P Q R P' Q' R' : GroupEl D G → Prop} {v : View D G} (h : AllGroups P Q R v)
    (hP : ∀ g, P g → P' g) (hQ : ∀ g, Q g → Q' g) (hR : ∀ g, R g → R' g) : AllGroups P' Q' R' v :=
  ⟨fun gs a g b => hP _ (h.1 gs a g b), fun gs a g b => hQ _ (h.2.1 gs a g b), fun g b => hR _ (h.2.2.1 g b),
    fun g b => hR _ (h.2.2.2 g b)⟩

/-- Between updates. -/
def Pre (v : View D G) : Prop := AllGroups (PlanePre sh) (PolePre sh) HovAny v

/-- After updates and rotations. -/
def Ok (v : View D G) : Prop := AllGroups (PlaneOk sh) (PoleOk sh) HovAny v

lemma PlaneOk.pre {g : GroupEl D G} (h : PlaneOk sh g) : PlanePre sh g := ⟨true, sh.bare g.data, h⟩

lemma PoleOk.pre {g : GroupEl D G} (h : PoleOk sh g) : PolePre sh g := ⟨true, h⟩

lemma Ok.pre {v : View D G} (h : Ok sh v) : Pre sh v :=
  h.mono (fun _ => PlaneOk.pre sh) (fun _ => PoleOk.pre sh) (fun _ => id)

lemma redraw_pre {v : View D G} (h : Pre sh v) : AllGroups (PlanePre sh) (PolePre sh) (HovGone sh) (redraw sh v) := by
  refine h.mapPaths ?_ ?_ ?_
  · rintro g ⟨l, x, hg⟩
    refine ⟨l, sh.bare g.data, ?_⟩
    simp only [GroupEl.mapPaths, hg]
    split_ifs <;> simp [PathEl.redraw, geoPath]
  · rintro g ⟨l, hg⟩
    exact ⟨l, by simp [GroupEl.mapPaths, hg, PathEl.redraw, geoPath]⟩
  · rintro g ⟨l, x, hg⟩
    exact ⟨l, by simp [GroupEl.mapPaths, hg, PathEl.redraw, geoPath]⟩

lemma HovGone.any {g : GroupEl D G} (h : HovGone sh g) : HovAny g := by
  obtain ⟨l, h⟩ := h
  exact ⟨l, _, h⟩

lemma redraw_ok {v : View D G} (h : Ok sh v) : AllGroups (PlaneOk sh) (PoleOk sh) (HovGone sh) (redraw sh v) := by
  refine h.mapPaths ?_ ?_ ?_
  · rintro g hg
    unfold PlaneOk at hg
    simp only [PlaneOk, GroupEl.mapPaths, hg]
    split_ifs <;> simp [PathEl.redraw, geoPath]
  · rintro g hg
    unfold PoleOk at hg
    simp [PoleOk, GroupEl.mapPaths, hg, PathEl.redraw, geoPath]
  · rintro g ⟨l, x, hg⟩
    exact ⟨l, by simp [GroupEl.mapPaths, hg, PathEl.redraw, geoPath]⟩

lemma finishUpdate_ok {v : View D G} (h : Pre sh v) :
    AllGroups (PlaneOk sh) (PoleOk sh) (HovGone sh) (finishUpdate sh v) := by
  unfold finishUpdate redraw
  have : (v.mapPaths (PathEl.redraw sh)).mapPaths PathEl.listen = v.mapPaths (PathEl.listen ∘ PathEl.redraw sh) := by
    simp only [View.mapPaths, Option.map_map, List.map_map]
    congr 2 <;> (funext gs; simp [GroupEl.mapPaths, Function.comp_def])
  rw [this]
  refine h.mapPaths ?_ ?_ ?_
  · rintro g ⟨l, x, hg⟩
    simp only [PlaneOk, GroupEl.mapPaths, hg]
    split_ifs <;> simp [PathEl.redraw, PathEl.listen, geoPath]
  · rintro g ⟨l, hg⟩
    simp [PoleOk, GroupEl.mapPaths, hg, PathEl.redraw, PathEl.listen, geoPath]
  · rintro g ⟨l, x, hg⟩
    exact ⟨true, by simp [GroupEl.mapPaths, hg, PathEl.redraw, PathEl.listen, geoPath]⟩

lemma finishPlane_new (d : D) : PlanePre sh (finishPlane sh ((newPlane sh d).mapPaths (PathEl.redraw sh))) := by
  refine ⟨false, some (sh.trace d), ?_⟩
  unfold finishPlane
  cases h : tooLarge sh d <;>
    simp [newPlane, GroupEl.mapPaths, GroupEl.select, GroupEl.removePath, PathEl.redraw, geoPath, h]

lemma updatePlanes_pre {v : View D G} (p : NetProps D) (h : Pre sh v) : Pre sh (updatePlanes sh p v) := by
  unfold updatePlanes
  split_ifs
  · have h0 := redraw_pre sh (v := { v with planes := none }) ⟨by simp, h.2⟩
    refine ⟨?_, h0.2.1, fun g hg => HovGone.any sh (h0.2.2.1 g hg), fun g hg => HovGone.any sh (h0.2.2.2 g hg)⟩
    intro gs hgs g hg
    simp only [redraw, View.mapPaths, Option.map_some, Option.some.injEq] at hgs
    subst hgs
    simp only [List.map_map, List.mem_map, Function.comp_apply] at hg
    obtain ⟨d, -, rfl⟩ := hg
    exact finishPlane_new sh d
  · exact ⟨by simp, h.2⟩

lemma updatePoles_pre {v : View D G} (p : NetProps D) (h : Pre sh v) : Pre sh (updatePoles sh p v) := by
  unfold updatePoles
  split_ifs
  · have h0 := redraw_pre sh (v := { v with poles := none }) ⟨h.1, by simp, h.2.2⟩
    refine ⟨h0.1, ?_, fun g hg => HovGone.any sh (h0.2.2.1 g hg), fun g hg => HovGone.any sh (h0.2.2.2 g hg)⟩
    intro gs hgs g hg
    simp only [redraw, View.mapPaths, Option.map_some, Option.some.injEq] at hgs
    subst hgs
    simp only [List.map_map, List.mem_map, Function.comp_apply] at hg
    obtain ⟨d, -, rfl⟩ := hg
    exact ⟨false, by simp [newNormal, GroupEl.mapPaths, PathEl.redraw, geoPath]⟩
  · exact ⟨h.1, by simp, h.2.2⟩

/-- A highlighted plane as it is made. -/
lemma hover_plane_new (d : D) :
    setHoveredFill ((((newPlane sh d).mapPaths (PathEl.redraw sh))).removePath .nominal) =
      ⟨d, [⟨.error, .own d, some (sh.surface d), false⟩]⟩ := by
  simp [newPlane, GroupEl.mapPaths, GroupEl.select, GroupEl.removePath, PathEl.redraw, geoPath, setHoveredFill]

/-- A highlighted pole as it is made. -/
lemma hover_pole_new (d : D) :
    setHoveredFill ((newNormal sh d).mapPaths (PathEl.redraw sh)) =
      ⟨d, [⟨.error, .own d, some (sh.ellipse d), false⟩]⟩ := by
  simp [newNormal, GroupEl.mapPaths, GroupEl.select, PathEl.redraw, geoPath, setHoveredFill]

lemma hoverPlanes_planes (xs : List D) (v : View D G) : (hoverPlanes sh xs v).hoveredPlanes =
    xs.map fun d => ⟨d, [⟨.error, .own d, some (sh.surface d), false⟩]⟩ := by
  simp only [hoverPlanes, redraw, View.mapPaths, List.map_map]
  exact List.map_congr_left fun d _ => hover_plane_new sh d

lemma hoverPoles_poles (xs : List D) (v : View D G) : (hoverPoles sh xs v).hoveredPoles =
    xs.map fun d => ⟨d, [⟨.error, .own d, some (sh.ellipse d), false⟩]⟩ := by
  simp only [hoverPoles, redraw, View.mapPaths, List.map_map]
  exact List.map_congr_left fun d _ => hover_pole_new sh d

lemma hoverPlanes_ok (xs : List D) {v : View D G} (h : Ok sh v) : Ok sh (hoverPlanes sh xs v) := by
  have h0 := redraw_ok sh (v := { v with hoveredPlanes := [] }) ⟨h.1, h.2.1, by simp, h.2.2.2⟩
  refine ⟨h0.1, h0.2.1, ?_, fun g hg => HovGone.any sh (h0.2.2.2 g hg)⟩
  rw [hoverPlanes_planes]
  intro g hg
  obtain ⟨d, -, rfl⟩ := List.mem_map.1 hg
  exact ⟨_, _, rfl⟩

lemma hoverPoles_ok (xs : List D) {v : View D G} (h : Ok sh v) : Ok sh (hoverPoles sh xs v) := by
  have h0 := redraw_ok sh (v := { v with hoveredPoles := [] }) ⟨h.1, h.2.1, h.2.2.1, by simp⟩
  refine ⟨h0.1, h0.2.1, fun g hg => HovGone.any sh (h0.2.2.1 g hg), ?_⟩
  rw [hoverPoles_poles]
  intro g hg
  obtain ⟨d, -, rfl⟩ := List.mem_map.1 hg
  exact ⟨_, _, rfl⟩

lemma updateHovered_ok (p : NetProps D) {v : View D G} (h : Ok sh v) : Ok sh (updateHovered sh p v) := by
  have h0 : Ok sh ({ v with hoveredPlanes := [], hoveredPoles := [] } : View D G) := ⟨h.1, h.2.1, by simp, by simp⟩
  unfold updateHovered
  cases hp : p.hovered with
  | none => exact h0
  | some a =>
    simp only
    split_ifs
    · exact h0
    · exact hoverPoles_ok sh _ (hoverPlanes_ok sh _ h0)
    · exact hoverPoles_ok sh _ h0
    · exact hoverPlanes_ok sh _ h0
    · exact h0

lemma Ok.of_gone {v : View D G} (h : AllGroups (PlaneOk sh) (PoleOk sh) (HovGone sh) v) : Ok sh v :=
  h.mono (fun _ => id) (fun _ => id) (fun _ => HovGone.any sh)

/-- The elements before the end of an update. -/
noncomputable def beforeFinish (prev p : NetProps D) (v : View D G) : View D G :=
  let dataChanged := p.data.id ≠ prev.data.id
  let drawPlanes := if dataChanged then none else some p.drawPlanes
  let drawPoles := if dataChanged then none else some p.drawPoles
  let v1 := if some prev.drawPlanes ≠ drawPlanes then updatePlanes sh p v else v
  let v2 := if some prev.drawPoles ≠ drawPoles then updatePoles sh p v1 else v1
  if prev.center.id ≠ p.center.id then redraw sh v2 else v2

lemma beforeFinish_pre (prev p : NetProps D) {v : View D G} (h : Ok sh v) : Pre sh (beforeFinish sh prev p v) := by
  have h0 := h.pre sh
  have hr : ∀ {v : View D G}, Pre sh v → Pre sh (redraw sh v) := fun h =>
    (redraw_pre sh h).mono (fun _ => id) (fun _ => id) (fun _ => HovGone.any sh)
  unfold beforeFinish
  simp only
  split_ifs <;>
    first
    | exact h0
    | exact hr h0
    | exact updatePlanes_pre sh p h0
    | exact updatePoles_pre sh p h0
    | exact updatePoles_pre sh p (updatePlanes_pre sh p h0)
    | exact hr (updatePlanes_pre sh p h0)
    | exact hr (updatePoles_pre sh p h0)
    | exact hr (updatePoles_pre sh p (updatePlanes_pre sh p h0))

lemma didUpdate_cases (prev p : NetProps D) (v : View D G) :
    didUpdate sh prev p v = updateHovered sh p (finishUpdate sh (beforeFinish sh prev p v)) ∨
      didUpdate sh prev p v = finishUpdate sh (beforeFinish sh prev p v) := by
  unfold didUpdate beforeFinish
  simp only
  split_ifs <;> simp

lemma marksStep_ok (s : NetProps D × View D G) (e : NetMarks.Event D) (h : Ok sh s.2) : Ok sh (step sh s e).2 := by
  cases e with
  | rotate => exact Ok.of_gone sh (redraw_ok sh h)
  | update p =>
    have hf := Ok.of_gone sh (finishUpdate_ok sh (beforeFinish_pre sh s.1 p h))
    simp only [step]
    rcases didUpdate_cases sh s.1 p s.2 with h' | h' <;> rw [h']
    · exact updateHovered_ok sh p hf
    · exact hf

lemma marksMount_ok (p : NetProps D) : Ok sh (mount sh p) := by
  have h0 : Pre sh ({} : View D G) := ⟨by simp, by simp, by simp, by simp⟩
  exact Ok.of_gone sh (finishUpdate_ok sh (updatePlanes_pre sh p (updatePoles_pre sh p h0)))

lemma marksRun_ok (p : NetProps D) (es : List (NetMarks.Event D)) : Ok sh (run sh p es).2 := by
  unfold run
  have : ∀ (es : List (NetMarks.Event D)) (s : NetProps D × View D G), Ok sh s.2 → Ok sh (es.foldl (step sh) s).2 := by
    intro es
    induction es with
    | nil => intro s h; exact h
    | cons e es ih => intro s h; exact ih _ (marksStep_ok sh s e h)
  exact this es _ (marksMount_ok sh p)

/-! ### Which measurements there are elements of -/

lemma measurements_mapPaths (f : PathEl D G → PathEl D G) (v : View D G) :
    Spec.measurements (v.mapPaths f) = Spec.measurements v := by
  simp [Spec.measurements, View.mapPaths, GroupEl.mapPaths, Function.comp_def]

lemma measurements_redraw (v : View D G) : Spec.measurements (redraw sh v) = Spec.measurements v :=
  measurements_mapPaths _ _

lemma measurements_finish (v : View D G) : Spec.measurements (finishUpdate sh v) = Spec.measurements v := by
  unfold finishUpdate
  rw [measurements_mapPaths, measurements_redraw]

lemma finishPlane_data (g : GroupEl D G) : (finishPlane sh g).data = g.data := by
  unfold finishPlane
  cases tooLarge sh g.data <;> simp [GroupEl.select, GroupEl.mapPaths, GroupEl.removePath]

lemma measurements_planes (p : NetProps D) {v : View D G} {d : NotebookUi.Drawn D}
    (h : Spec.measurements v = Spec.measurementsOf d) :
    Spec.measurements (updatePlanes sh p v) = Spec.measurementsOf (NotebookUi.updatePlanes p d) := by
  simp only [Spec.measurements, Spec.measurementsOf, Prod.mk.injEq] at h
  obtain ⟨-, h2, h3, h4⟩ := h
  unfold updatePlanes NotebookUi.updatePlanes
  split_ifs
  · simp [Spec.measurements, Spec.measurementsOf, redraw, View.mapPaths, GroupEl.mapPaths, finishPlane_data,
      newPlane, Function.comp_def, ← h2, ← h3, ← h4]
  · simp [Spec.measurements, Spec.measurementsOf, ← h2, ← h3, ← h4]

lemma measurements_poles (p : NetProps D) {v : View D G} {d : NotebookUi.Drawn D}
    (h : Spec.measurements v = Spec.measurementsOf d) :
    Spec.measurements (updatePoles sh p v) = Spec.measurementsOf (NotebookUi.updatePoles p d) := by
  simp only [Spec.measurements, Spec.measurementsOf, Prod.mk.injEq] at h
  obtain ⟨h1, -, h3, h4⟩ := h
  unfold updatePoles NotebookUi.updatePoles
  split_ifs
  · simp [Spec.measurements, Spec.measurementsOf, redraw, View.mapPaths, GroupEl.mapPaths,
      newNormal, Function.comp_def, ← h1, ← h3, ← h4]
  · simp [Spec.measurements, Spec.measurementsOf, ← h1, ← h3, ← h4]

lemma measurements_hovered (p : NetProps D) {v : View D G} {d : NotebookUi.Drawn D}
    (h : Spec.measurements v = Spec.measurementsOf d) :
    Spec.measurements (updateHovered sh p v) = Spec.measurementsOf (NotebookUi.updateHovered p d) := by
  simp only [Spec.measurements, Spec.measurementsOf, Prod.mk.injEq] at h
  obtain ⟨h1, h2, -, -⟩ := h
  unfold updateHovered NotebookUi.updateHovered
  cases hp : p.hovered with
  | none => simp [Spec.measurements, Spec.measurementsOf, ← h1, ← h2]
  | some a =>
    by_cases hl : a.items.length = 0
    · have : a.items = [] := List.length_eq_zero_iff.1 hl
      simp [Spec.measurements, Spec.measurementsOf, this, ← h1, ← h2]
    · simp only [hl, if_false]
      cases p.drawPlanes <;> cases p.drawPoles <;>
        simp [Spec.measurements, Spec.measurementsOf, hoverPlanes, hoverPoles, redraw, View.mapPaths, GroupEl.mapPaths,
          newNormal, newPlane, setHoveredFill, GroupEl.select, GroupEl.removePath, Function.comp_def, ← h1, ← h2]

lemma measurements_update (prev p : NetProps D) {v : View D G} {d : NotebookUi.Drawn D}
    (h : Spec.measurements v = Spec.measurementsOf d) :
    Spec.measurements (didUpdate sh prev p v) = Spec.measurementsOf (NotebookUi.didUpdate prev p d) := by
  have hpl : ∀ c : Prop, [Decidable c] → Spec.measurements (if c then updatePlanes sh p v else v) =
      Spec.measurementsOf (if c then NotebookUi.updatePlanes p d else d) := by
    intro c _; split_ifs
    · exact measurements_planes sh p h
    · exact h
  have hpo : ∀ (c : Prop) [Decidable c] {v : View D G} {d : NotebookUi.Drawn D},
      Spec.measurements v = Spec.measurementsOf d → Spec.measurements (if c then updatePoles sh p v else v) =
      Spec.measurementsOf (if c then NotebookUi.updatePoles p d else d) := by
    intro c _ v d h; split_ifs
    · exact measurements_poles sh p h
    · exact h
  have hce : ∀ (c : Prop) [Decidable c] {v : View D G} {d : NotebookUi.Drawn D},
      Spec.measurements v = Spec.measurementsOf d → Spec.measurements (finishUpdate sh (if c then redraw sh v else v)) =
      Spec.measurementsOf (if c then { d with center := some p.center.items } else d) := by
    intro c _ v d h
    rw [measurements_finish]
    split_ifs
    · rw [measurements_redraw]; exact h
    · exact h
  have hho : ∀ (c : Prop) [Decidable c] {v : View D G} {d : NotebookUi.Drawn D},
      Spec.measurements v = Spec.measurementsOf d → Spec.measurements (if c then updateHovered sh p v else v) =
      Spec.measurementsOf (if c then NotebookUi.updateHovered p d else d) := by
    intro c _ v d h; split_ifs
    · exact measurements_hovered sh p h
    · exact h
  unfold didUpdate NotebookUi.didUpdate
  exact hho _ (hce _ (hpo _ (hpl _)))

end

/-! ## C278 -/

section

variable {D G : Type} (sh : Shapes D G)

/-- After any updates and rotations there are elements for the same measurements as in the model of
the component that leaves out the paths (of which C163 speaks). -/
theorem C278_measurements (p : NetProps D) (es : List (NetMarks.Event D)) :
    (run sh p es).1 = (es.foldl Spec.drawnStep (p, NotebookUi.mount p)).1 ∧
    Spec.measurements (run sh p es).2 = Spec.measurementsOf (es.foldl Spec.drawnStep (p, NotebookUi.mount p)).2 := by
  have key : ∀ (es : List (NetMarks.Event D)) (s : NetProps D × View D G) (t : NetProps D × NotebookUi.Drawn D),
      s.1 = t.1 → Spec.measurements s.2 = Spec.measurementsOf t.2 →
      (es.foldl (step sh) s).1 = (es.foldl Spec.drawnStep t).1 ∧
      Spec.measurements (es.foldl (step sh) s).2 = Spec.measurementsOf (es.foldl Spec.drawnStep t).2 := by
    intro es
    induction es with
    | nil => intro s t h h'; exact ⟨h, h'⟩
    | cons e es ih =>
      intro s t h h'
      refine ih _ _ ?_ ?_
      · cases e <;> simp [step, Spec.drawnStep, h]
      · cases e with
        | rotate => simp only [step, Spec.drawnStep]; rw [measurements_redraw]; exact h'
        | update q => simp only [step, Spec.drawnStep, h]; exact measurements_update sh _ _ h'
  refine key es _ _ rfl ?_
  simp only [mount, NotebookUi.mount]
  rw [measurements_finish]
  exact measurements_planes sh p (measurements_poles sh p rfl)

/-- After any updates and rotations, the error surface of a plane is shown, and the mouse can find
the plane, exactly if its angular error is not above 45 degrees; an unknown one is not. -/
theorem C278_surface_partial (p : NetProps D) (es : List (NetMarks.Event D)) (gs : List (GroupEl D G))
    (hgs : (run sh p es).2.planes = some gs) (g : GroupEl D G) (hg : g ∈ gs) :
    (Spec.ShowsShape .error (sh.surface g.data) g ↔ ¬ Spec.LargeError sh g.data) ∧
    (Spec.CanPoint g ↔ ¬ Spec.LargeError sh g.data) := by
  have h := (marksRun_ok sh p es).1 gs hgs g hg
  unfold PlaneOk at h
  rw [← tooLarge_iff]
  unfold Spec.ShowsShape Spec.CanPoint
  rw [h]
  cases hl : tooLarge sh g.data <;> simp

/-- But the trace of the plane is never shown, although there is a path for it: to set its color, it
is selected from its group, which makes the measurement its datum, and all paths are drawn after
that. -/
theorem C278_nominal_false (hd : Spec.NotGeo sh) (p : NetProps D) (es : List (NetMarks.Event D))
    (gs : List (GroupEl D G)) (hgs : (run sh p es).2.planes = some gs) (g : GroupEl D G) (hg : g ∈ gs) :
    (∃ q ∈ g.paths, q.cls = .nominal) ∧ ∀ s, ¬ Spec.ShowsShape .nominal s g := by
  have h := (marksRun_ok sh p es).1 gs hgs g hg
  unfold PlaneOk at h
  unfold Spec.ShowsShape
  rw [h, hd]
  cases hl : tooLarge sh g.data <;> simp

/-- So nothing at all is seen of the planes with an angular error above 45 degrees, of which the trace
should remain. -/
theorem C278_blank_false (hd : Spec.NotGeo sh) (p : NetProps D) (es : List (NetMarks.Event D))
    (gs : List (GroupEl D G)) (hgs : (run sh p es).2.planes = some gs) (g : GroupEl D G) (hg : g ∈ gs) :
    Spec.BlankMark g ↔ Spec.LargeError sh g.data := by
  have h := (marksRun_ok sh p es).1 gs hgs g hg
  unfold PlaneOk at h
  unfold Spec.BlankMark
  rw [← tooLarge_iff, h, hd]
  cases hl : tooLarge sh g.data <;> simp

/-- After any updates and rotations, the error ellipse of every pole is shown, and the mouse can find
it, whatever its angular error. -/
theorem C278_poles (p : NetProps D) (es : List (NetMarks.Event D)) (gs : List (GroupEl D G))
    (hgs : (run sh p es).2.poles = some gs) (g : GroupEl D G) (hg : g ∈ gs) :
    Spec.ShowsShape .error (sh.ellipse g.data) g ∧ Spec.CanPoint g := by
  have h := (marksRun_ok sh p es).2.1 gs hgs g hg
  unfold PoleOk at h
  unfold Spec.ShowsShape Spec.CanPoint
  rw [h]
  simp

/-! ## C279 -/

lemma rehover {prev p : NetProps D} (hn : Spec.NewHighlight prev p) (v : View D G) :
    didUpdate sh prev p v = updateHovered sh p (finishUpdate sh (if prev.center.id ≠ p.center.id then redraw sh v else v)) := by
  obtain ⟨h1, h2, h3, h4⟩ := hn
  unfold didUpdate
  simp [h1, h2, h3, Ne.symm h4]

/-- When other measurements are highlighted, their error surfaces are shown over the others if planes
are drawn and poles are not, and their error ellipses if poles are drawn. -/
theorem C279_highlight_partial (s : NetProps D × View D G) (p : NetProps D) (hn : Spec.NewHighlight s.1 p)
    (a : Arr D) (ha : p.hovered = some a) :
    (p.drawPlanes = true → p.drawPoles = false →
      (step sh s (.update p)).2.hoveredPlanes.map (·.data) = a.items ∧
      ∀ g ∈ (step sh s (.update p)).2.hoveredPlanes, Spec.ShowsShape .error (sh.surface g.data) g) ∧
    (p.drawPoles = true →
      (step sh s (.update p)).2.hoveredPoles.map (·.data) = a.items ∧
      ∀ g ∈ (step sh s (.update p)).2.hoveredPoles, Spec.ShowsShape .error (sh.ellipse g.data) g) := by
  simp only [step]
  rw [rehover sh hn]
  generalize finishUpdate sh (if s.1.center.id ≠ p.center.id then redraw sh s.2 else s.2) = w
  unfold updateHovered
  rw [ha]
  simp only
  by_cases hl : a.items.length = 0
  · have : a.items = [] := List.length_eq_zero_iff.1 hl
    simp [this]
  · refine ⟨fun h1 h2 => ?_, fun h1 => ?_⟩
    · simp only [hl, h1, h2, if_true, if_false, Bool.false_eq_true, hoverPlanes_planes]
      refine ⟨by simp [Function.comp_def], fun g hg => ?_⟩
      obtain ⟨d, -, rfl⟩ := List.mem_map.1 hg
      exact ⟨_, List.mem_singleton.2 rfl, rfl, rfl⟩
    · simp only [hl, h1, if_true, if_false, hoverPoles_poles]
      refine ⟨by simp [Function.comp_def], fun g hg => ?_⟩
      obtain ⟨d, -, rfl⟩ := List.mem_map.1 hg
      exact ⟨_, List.mem_singleton.2 rfl, rfl, rfl⟩

/-- With both planes and poles, the highlighted planes vanish at once: drawing the poles draws all
paths again, and those of the highlighted planes have the measurement as their datum by then. -/
theorem C279_both_false (hd : Spec.NotGeo sh) (s : NetProps D × View D G) (p : NetProps D)
    (hn : Spec.NewHighlight s.1 p) (a : Arr D) (ha : p.hovered = some a) (h1 : p.drawPlanes = true)
    (h2 : p.drawPoles = true) :
    (step sh s (.update p)).2.hoveredPlanes.map (·.data) = a.items ∧
    ∀ g ∈ (step sh s (.update p)).2.hoveredPlanes, Spec.BlankMark g := by
  simp only [step]
  rw [rehover sh hn]
  generalize finishUpdate sh (if s.1.center.id ≠ p.center.id then redraw sh s.2 else s.2) = w
  unfold updateHovered
  rw [ha]
  simp only
  by_cases hl : a.items.length = 0
  · have : a.items = [] := List.length_eq_zero_iff.1 hl
    simp [this]
  · simp only [hl, h1, h2, if_true, if_false]
    have : ∀ (w : View D G), (hoverPoles sh a.items (hoverPlanes sh a.items w)).hoveredPlanes =
        a.items.map fun d => ⟨d, [⟨.error, .own d, none, false⟩]⟩ := by
      intro w
      have e : (hoverPoles sh a.items (hoverPlanes sh a.items w)).hoveredPlanes =
          (hoverPlanes sh a.items w).hoveredPlanes.map (GroupEl.mapPaths (PathEl.redraw sh)) := rfl
      rw [e, hoverPlanes_planes]
      simp [GroupEl.mapPaths, PathEl.redraw, geoPath, hd _]
    rw [this]
    refine ⟨by simp [Function.comp_def], fun g hg => ?_⟩
    obtain ⟨d, -, rfl⟩ := List.mem_map.1 hg
    intro q hq
    rw [List.mem_singleton.1 hq]

/-- Rotating the net takes every highlight away, although the same measurements are still highlighted
and there are still elements for them. -/
theorem C279_rotate_false (hd : Spec.NotGeo sh) (p : NetProps D) (es : List (NetMarks.Event D)) :
    let s := run sh p es
    let t := run sh p (es ++ [.rotate])
    t.1 = s.1 ∧ t.2.hoveredPlanes.map (·.data) = s.2.hoveredPlanes.map (·.data) ∧
    t.2.hoveredPoles.map (·.data) = s.2.hoveredPoles.map (·.data) ∧
    ∀ g ∈ t.2.hoveredPlanes ++ t.2.hoveredPoles, Spec.BlankMark g := by
  intro s t
  have ht : t = step sh s .rotate := by simp [t, s, run, List.foldl_append]
  rw [ht]
  have h := redraw_ok sh (marksRun_ok sh p es)
  have hm := measurements_redraw sh s.2
  simp only [Spec.measurements, Prod.mk.injEq] at hm
  refine ⟨rfl, hm.2.2.1, hm.2.2.2, fun g hg => ?_⟩
  have : HovGone sh g := by
    rcases List.mem_append.1 hg with hg | hg
    · exact h.2.2.1 g hg
    · exact h.2.2.2 g hg
  obtain ⟨l, hl⟩ := this
  intro q hq
  rw [hl, List.mem_singleton] at hq
  rw [hq, hd]

end

/-! ## Examples -/

/-- Measurements with their angular errors, and a shape for each kind. -/
def Ex.marks : Shapes ℝ ℕ := ⟨fun _ => 1, fun _ => 2, fun _ => 3, fun _ => none, some⟩

/-- Properties with planes of the errors 10 and 60, the second of them highlighted or not. -/
def Ex.markProps (poles : Bool) (h : Option (Arr ℝ)) : NetProps ℝ :=
  { data := ⟨0, [10, 60]⟩, drawPlanes := true, drawPoles := poles, hovered := h, center := ⟨1, [0, 0]⟩ }

example : Spec.NotGeo Ex.marks := fun _ => rfl

example : Spec.LargeError Ex.marks 60 ∧ ¬ Spec.LargeError Ex.marks 10 :=
  ⟨⟨60, rfl, by norm_num⟩, by rintro ⟨e, h, h'⟩; cases h; norm_num at h'⟩

/-- There are planes and poles after mounting. -/
example : ∃ gs, (run Ex.marks (Ex.markProps true none) []).2.planes = some gs ∧ gs.map (·.data) = [10, 60] ∧
    ∃ gs', (run Ex.marks (Ex.markProps true none) []).2.poles = some gs' ∧ gs'.map (·.data) = [10, 60] := by
  have h := (C278_measurements Ex.marks (Ex.markProps true none) []).2
  simp only [List.foldl_nil, Spec.measurements, Spec.measurementsOf, NotebookUi.mount, NotebookUi.updatePlanes,
    NotebookUi.updatePoles, Ex.markProps, if_true, Prod.mk.injEq, Option.map_eq_some_iff] at h
  obtain ⟨⟨gs, h1, h2⟩, ⟨gs', h3, h4⟩, -, -⟩ := h
  exact ⟨gs, h1, h2, gs', h3, h4⟩

/-- A highlight that is new. -/
example : Spec.NewHighlight (Ex.markProps true none) (Ex.markProps true (some ⟨7, [60]⟩)) := by
  refine ⟨rfl, rfl, rfl, by simp [Ex.markProps]⟩

end Attitude.Props
