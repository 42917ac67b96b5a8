import Verif.Model.Hyperbola

/-!
# Model of the class `HyperbolicErrors` of `attitude/display/hyperbola.py`

An object with its polygons on the axes of matplotlib.  Lines and polygons of several axes are kept in one
list each, in the order in which they were added; which axes they are on is not modelled.  Of the style only the
colours are kept.
-/

namespace Attitude.BandArtist

open Attitude Hyperbola

/-- Arguments of `hyperbolic_errors`, hyperbola.py L33-36, for three-component `hyp_axes`. -/
structure Request where
  hyp : Vec 3
  xs : List ℝ
  transformation : Mat 3 3 := 1
  axes : Option (Vec 3 × Vec 3) := none
  means : Vec 2 := 0
  reverse : Bool := false

/-- The call `hyperbolic_errors(*args, **kwargs)`, hyperbola.py L215 and L244. -/
noncomputable def Request.eval (r : Request) : Except PyErr (Option Bands) :=
  hyperbolicErrors r.hyp r.xs r.transformation r.axes r.means r.reverse

/-- Keyword arguments, in order; values are colours or other settings as text.  The `**kw` of
display/hyperbola.py L212 and L228-233. -/
abbrev Kw := List (String × String)

/-- `kw.get(key, default)`.  display/hyperbola.py L229-231. -/
def Kw.get (kw : Kw) (key default : String) : String := (kw.lookup key).getD default

/-- `kw` after `kw.pop(key, ...)`.  display/hyperbola.py L232-233. -/
def Kw.without (kw : Kw) (key : String) : Kw := kw.filter fun p => p.1 != key

/-- The keyword arguments that `plot` gives to `Polygon`, hyperbola.py L229-233: `ec` is popped in L232, then
`edgecolor` is popped and set again, so that it is at the end unless it was there. -/
def plotKw (kw : Kw) : Kw :=
  let ec := kw.get "color" "black"
  let ec := kw.get "fc" ec
  let ec := kw.get "facecolor" ec
  let ec := kw.get "ec" ec
  let kw := kw.without "ec"
  let edge := kw.get "edgecolor" ec
  kw.without "edgecolor" ++ [("edgecolor", edge)]

/-- A polygon on the axes: the settings and the vertices last given to it, `none` when they are not finite.
`Polygon` and `add_patch`, display/hyperbola.py L235-236; the vertices are set at L247-249. -/
structure Patch where
  kw : Kw
  xy : Option (List (Vec 2))

/-- The object and what it has drawn.  `data` is `self.data`: `none` is Python's `None`, `some none` arrays with
values that are not finite.  `poly` is the place of `self.poly` among the patches, `none` before the attribute
exists.  display/hyperbola.py L204-250. -/
structure Artist where
  data : Option (Option Bands) := none
  poly : Option ℕ := none
  patches : List Patch := []
  lines : List (Option (List (Vec 2))) := []

/-- How the class is called: with positional arguments, or with keyword arguments only.
`__init__`, display/hyperbola.py L212-217. -/
inductive Construction
  | positional (r : Request)
  | keywords (r : Request)
  | empty

/-- `__init__`, hyperbola.py L212-217: the arguments are used only if there are positional ones. -/
noncomputable def construct : Construction → Except PyErr Artist
  | .positional r => do
    let d ← r.eval
    .ok { data := some d }
  | .keywords _ => .ok {}
  | .empty => .ok {}

/-- `__set_plot_data`, hyperbola.py L247-249, on the patch at a place. -/
def setPlotData (d : Option Bands) (i : ℕ) (s : Artist) : Artist :=
  { s with patches := s.patches.modify i fun p => { p with xy := d.map polygon } }

/-- The methods of the class.  display/hyperbola.py L228-249. -/
inductive Op
  | plot (kw : Kw)
  | plotNominal
  | updateData (r : Request)

/-- `plot`, hyperbola.py L228-238: a new polygon at the origin, filled with the data if there is any. -/
def plot (kw : Kw) (s : Artist) : Artist :=
  let s' := { s with
    patches := s.patches ++ [{ kw := plotKw kw, xy := some [0] }]
    poly := some s.patches.length }
  match s.data with
  | none => s'
  | some d => setPlotData d s.patches.length s'

/-- `plot_nominal`, hyperbola.py L240-241: `None` cannot be indexed. -/
def plotNominal (s : Artist) : Artist × Option PyErr :=
  match s.data with
  | none => (s, some .typeError)
  | some d => ({ s with lines := s.lines ++ [d.map Bands.nominal] }, none)

/-- `update_data`, hyperbola.py L243-245: the data is assigned before the attribute `poly` is looked up. -/
noncomputable def updateData (r : Request) (s : Artist) : Artist × Option PyErr :=
  match r.eval with
  | .error e => (s, some e)
  | .ok d =>
    let s' := { s with data := some d }
    match s.poly with
    | none => (s', some .attributeError)
    | some i => (setPlotData d i s', none)

/-- One call of a method: the object afterwards and the exception, if any.  display/hyperbola.py
L228-249. -/
noncomputable def step (s : Artist) : Op → Artist × Option PyErr
  | .plot kw => (plot kw s, none)
  | .plotNominal => plotNominal s
  | .updateData r => updateData r s

/-- The object after calls of methods by a caller who catches all exceptions.  A caller of the
methods of display/hyperbola.py L228-249. -/
noncomputable def run (s : Artist) (ops : List Op) : Artist := ops.foldl (fun s o => (step s o).1) s

end Attitude.BandArtist
