import Verif.Model.Hyperbola

/-!
# The figure of conjugate conics

Models `hyperbola` (as a curve) and `plot_conjugate_conics` of
`attitude/display/parametric.py`.
-/

namespace Attitude.ConjugateConics

open Attitude Hyperbola

open scoped Classical in
/-- `numpy.argmin`: first position of the smallest entry.  External; used at
display/parametric.py L32. -/
noncomputable def argmin (l : List ℝ) : ℕ := l.findIdx fun x => decide (∀ y ∈ l, x ≤ y)

open scoped Classical in
/-- `numpy.argmax`: first position of the largest entry.  External; used at display/parametric.py
L32. -/
noncomputable def argmax (l : List ℝ) : ℕ := l.findIdx fun x => decide (∀ y ∈ l, y ≤ x)

/-- `hyperbola`, parametric.py L17-40, as a polyline: `nan` (`none`) at the first
smallest and at the first largest x value.  `argmin` of an empty array raises
`ValueError`.  No curve (`none`) if one of the angles has a cosine of zero: with
floats it is a small number of either sign, which is not modelled. -/
noncomputable def hyperbolaCurve (axes : Vec 2) (center : Vec 2 := 0) (opensUp : Bool := true) (n : ℕ := 500) :
    Except PyErr (Option (List (Option (Vec 2)))) :=
  if n = 0 then .error .valueError
  else .ok (((Stereonet.angles n).mapM (parametricHyperbola axes center opensUp)).map fun pts =>
    let x := pts.map fun p => p 0
    pts.mapIdx fun k p => if k = argmin x ∨ k = argmax x then none else some p)

/-- What `plot_conjugate_conics` draws: curves as lists of points, foci, dotted lines
by their ends, and the limits of the view.  display/parametric.py from L70. -/
structure Drawing where
  hyperbola : List (Option (Vec 2))
  normals : List (Vec 2)
  variance : List (Vec 2)
  hyperbolaFoci : List (Vec 2)
  normalsFoci : List (Vec 2)
  tangents : List (Vec 2 × Vec 2)
  normalTangents : List (Vec 2 × Vec 2)
  xlim : ℝ × ℝ
  ylim : ℝ × ℝ

/-- `plot_conjugate_conics`, parametric.py L70-127, without colours, labels and
`set_aspect`.  `color` (L82) is not defined.  No drawing (`none`) if a semi-axis is
zero; the code then divides by zero and draws `inf` and `nan`. -/
noncomputable def plotConjugateConics (axes : Vec 2) (width : Option ℝ := none) (plotFoci : Bool := false)
    (plotInverseHyperbola : Bool := false) : Except PyErr (Option Drawing) := do
  let hyp ← hyperbolaCurve axes
  match hyp, inverseEllipse axes with
  | some hyp, some (ax1, center) =>
      if plotInverseHyperbola then .error .nameError
      else
        let normals := (Stereonet.angles 500).map (parametricEllipse ax1 ![0, center])
        let variance := (Stereonet.angles 500).map (parametricEllipse axes 0)
        let hypC := Real.sqrt (∑ i, axes i ^ 2)
        -- `c.sort()`, `c[0] *= -1`, `N.sum(c)`
        let ellC := Real.sqrt (-min (ax1 0 ^ 2) (ax1 1 ^ 2) + max (ax1 0 ^ 2) (ax1 1 ^ 2))
        let yval : ℝ → ℝ := fun x => axes 1 / axes 0 * x
        let factor : ℝ := if axes 1 > 0.5 * axes 0 then 6 else 4
        let w := width.getD (norm axes * factor)
        .ok (some {
          hyperbola := hyp
          normals := normals
          variance := variance
          hyperbolaFoci := if plotFoci then [![0, hypC], ![0, -hypC]] else []
          normalsFoci := if plotFoci then [![0, center + ellC], ![0, center - ellC]] else []
          tangents := [(![-500, yval (-500)], ![500, yval 500]), (![-500, -yval (-500)], ![500, -yval 500])]
          normalTangents := [(![yval (-500), -500], ![yval 500, 500]), (![yval (-500), 500], ![yval 500, -500])]
          xlim := (-w / 2, w / 2)
          ylim := (-w / 2 * 0.6, w / 2 * 0.6) })
  | _, _ => .ok none

end Attitude.ConjugateConics
