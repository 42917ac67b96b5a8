import Verif.Model.SheetPlot
import Verif.Model.NotebookUi

/-!
# The page of the web application (`frontend/packages/webapp/src/app.ts`)

What the two tabs have drawn after any sequence of events.  React is modelled as far as the
components use it: a render of `App` makes a new array `cleanedData`, effects run after the first
render and whenever one of their dependencies is another value, and a tab that is left is removed
with everything that its components hold.
-/

namespace Attitude.Webapp

open Attitude NotebookUi

/-- An element of `cleanedData`, app.ts L138-140. -/
abbrev RowData := List (String × Out)

/-- One drawing in an element `svg`: the data and the clip angle of the stereonet.
plots/src/vertical.ts L32-54 and plots/src/rectangular.ts L16-48. -/
structure Drawing where
  data : List RowData
  clipAngle : ℚ

/-- `useEffect(..., [ref, data, clipAngle])` and `buildPlot`, plots/src/vertical.ts L58-64 and L32-54, for an
element with the drawings `content`: they are removed (L33) and one is added (L44).  `prev` are the
dependencies of the last run, `none` before the first; arrays are compared by identity. -/
def verticalEffect (prev : Option (ℕ × ℚ)) (data : Arr RowData) (clipAngle : ℚ) (content : List Drawing) :
    List Drawing :=
  if prev = some (data.id, clipAngle) then content
  else [] ++ [⟨data.items, clipAngle⟩]

/-- `useEffect(..., [ref, data])` and `drawStereonet`, plots/src/rectangular.ts L81-87 and L37-42: a group is
appended to the element for each run, and nothing is removed. -/
def rectangularEffect (prev : Option ℕ) (data : Arr RowData) (content : List (List RowData)) : List (List RowData) :=
  if prev = some data.id then content else content ++ [data.items]

/-- The drawings of a `RectangularStereonet` to which the arrays were passed one after the other.
plots/src/rectangular.ts L81-87. -/
def rectangularRun (data : List (Arr RowData)) : List (List RowData) :=
  (data.foldl (fun s d => (some d.id, rectangularEffect s.1 d s.2)) (none, [])).2

/-- The same for `VerticalClippedStereonet`.  plots/src/vertical.ts L58-64. -/
def verticalRun (data : List (Arr RowData × ℚ)) : List Drawing :=
  (data.foldl (fun s d => (some (d.1.id, d.2), verticalEffect s.1 d.1 d.2 s.2)) (none, [])).2

/-- The panel of the tab that is shown (`renderActiveTabPanelOnly`, app.ts L99).

`interactive` is `InteractiveStereonetComponent` (stereonet.ts L181-189) with its state, the properties of
the last render of `StereonetComponent` and its drawing.  `clipped` is `ClippedStereonetPanel` (app.ts
L79-96) with its clip angle, the dependencies of the last effect and the drawings in its element. -/
inductive Panel where
  | interactive (drawPlanes drawPoles : Bool) (center : Arr ℝ) (prev : NetProps RowData) (drawn : Drawn RowData)
  | clipped (clipAngle : ℚ) (deps : ℕ × ℚ) (content : List Drawing)

/-- The page: the sheet, the array `cleanedData` of the last render of `App`, the clip angle kept by
`useStoredState`, the panel, and a counter for the identities of new arrays.  app.ts L132-161. -/
structure Page where
  sheet : Sheet
  data : Arr RowData
  storedClip : ℚ := 15
  panel : Panel
  fresh : ℕ

/-- The properties of `StereonetComponent`, app.ts L105-110 and stereonet.ts L190-200; `hovered` is the default
of stereonet.ts L41. -/
def pageProps (data : Arr RowData) (drawPlanes drawPoles : Bool) (center : Arr ℝ) : NetProps RowData :=
  { data, drawPlanes, drawPoles, hovered := some ⟨0, []⟩, center }

/-- The first render of the interactive stereonet, with `drawPlanes` and `drawPoles` of app.ts L108-109, and
`componentDidMount`. -/
def mountInteractive (data : Arr RowData) (fresh : ℕ) : Panel :=
  let center : Arr ℝ := ⟨fresh, [0, 0]⟩
  let p := pageProps data false true center
  .interactive false true center p (mount p)

/-- A later render of the interactive stereonet and `componentDidUpdate`.
components/stereonet.ts L72-95 and L190-200. -/
def updateInteractive (data : Arr RowData) (drawPlanes drawPoles : Bool) (center : Arr ℝ) (prev : NetProps RowData)
    (drawn : Drawn RowData) : Panel :=
  let p := pageProps data drawPlanes drawPoles center
  .interactive drawPlanes drawPoles center p (didUpdate prev p drawn)

/-- The clip angle with which the panel begins: `useStoredState` (of another library: taken to return the
stored value if it passes the test and the default otherwise) in app.ts L80-83. -/
def loadClip (stored : ℚ) : ℚ := if clipAngleValid (.num stored) then stored else 15

/-- The first render of the panel with the clipped stereonet.  app.ts L79-96 and
plots/src/vertical.ts L58-64. -/
def mountClipped (data : Arr RowData) (stored : ℚ) : Panel :=
  let c := loadClip stored
  .clipped c (data.id, c) (verticalEffect none data c [])

/-- A later render of it.  app.ts L79-96 and plots/src/vertical.ts L58-64. -/
def updateClipped (data : Arr RowData) (clipAngle : ℚ) (deps : ℕ × ℚ) (content : List Drawing) : Panel :=
  .clipped clipAngle (data.id, clipAngle) (verticalEffect (some deps) data clipAngle content)

/-- The page when it is opened without stored values: the first tab is selected.  app.ts L98-161. -/
def openPage (getColor : Value → Bool) : Page :=
  let data : Arr RowData := ⟨1, cleanedData getColor defaultData⟩
  { sheet := defaultData, data, panel := mountInteractive data 2, fresh := 3 }

/-- What a user does: change the sheet, select a tab, press one of the switches or the button of the
interactive stereonet (stereonet.ts L201-217), or enter a clip angle (app.ts L89-92). -/
inductive PageEvent where
  | sheet (e : Event)
  | selectInteractive
  | selectClipped
  | togglePlanes
  | togglePoles
  | vertical
  | setClip (x : ℚ)

/-- The page after an event.  Switches, button and clip angle do nothing while their tab is not shown.
app.ts L79-161, sheet.ts L192-213 and L266-273, components/stereonet.ts L201-230. -/
def pageStep (getColor : Value → Bool) (p : Page) : PageEvent → Page
  | .sheet e =>
    let sheet := step p.sheet e
    let data : Arr RowData := ⟨p.fresh, cleanedData getColor sheet⟩
    let panel := match p.panel with
      | .interactive a b c prev d => updateInteractive data a b c prev d
      | .clipped c deps s => updateClipped data c deps s
    { p with sheet, data, panel, fresh := p.fresh + 1 }
  | .selectInteractive =>
    match p.panel with
    | .interactive .. => p
    | .clipped .. => { p with panel := mountInteractive p.data p.fresh, fresh := p.fresh + 1 }
  | .selectClipped =>
    match p.panel with
    | .interactive .. => { p with panel := mountClipped p.data p.storedClip }
    | .clipped .. => p
  | .togglePlanes =>
    match p.panel with
    | .interactive a b c prev d => { p with panel := updateInteractive p.data (!a) b c prev d }
    | .clipped .. => p
  | .togglePoles =>
    match p.panel with
    | .interactive a b c prev d => { p with panel := updateInteractive p.data a (!b) c prev d }
    | .clipped .. => p
  | .vertical =>
    match p.panel with
    | .interactive a b _ prev d =>
      { p with panel := updateInteractive p.data a b ⟨p.fresh, [0, -90]⟩ prev d, fresh := p.fresh + 1 }
    | .clipped .. => p
  | .setClip x =>
    match p.panel with
    | .interactive .. => p
    | .clipped _ deps s => { p with storedClip := x, panel := updateClipped p.data x deps s }

/-- The page after events.  For the handlers of app.ts L79-161. -/
def pageRun (getColor : Value → Bool) (events : List PageEvent) : Page :=
  events.foldl (pageStep getColor) (openPage getColor)

end Attitude.Webapp
