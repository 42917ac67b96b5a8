import Verif.Model.FrontendShapes
import Verif.Props.FrontendAxes

/-!
# Properties of the shapes that the frontend draws

Statements about functions.ts, util.ts and reconstruct.ts.
-/

namespace Attitude.Props

open Attitude Frontend

namespace Spec

/-- Reversing all rings of the polygon turns it into its complement, as far as the
point is concerned (d3 distinguishes the inside of a spherical polygon by the
direction of its rings). -/
def ReversalIsComplement {α : Type} (contains : List (List α) → α → Bool) (rings : List (List α))
    (p : α) : Prop :=
  contains (rings.map List.reverse) p = !contains rings p

/-- The two rings run in opposite directions, relative to the given curves. -/
def OppositeRings {α : Type} (rings : List (List α)) (lower upper : List α) : Prop :=
  rings = [lower, upper.reverse] ∨ rings = [lower.reverse, upper]

end Spec

/-! ## C111 -/

/-- The error polygon has the two error curves as rings, in opposite directions, and
contains the first nominal position, on first use of the curves. -/
theorem C111_surface_partial {α : Type} (contains : List (List α) → α → Bool) (d : Combined α)
    (p : α) (hp : d.nominal.head? = some p)
    (hc : Spec.ReversalIsComplement contains [d.lower, d.upper.reverse] p) :
    ∃ s d', errorSurface contains d = .ok (s, d') ∧ Spec.OppositeRings s d.lower d.upper ∧
      contains s p = true ∧ d'.nominal = d.nominal := by
  obtain ⟨nominal, upper, lower⟩ := d
  cases nominal with
  | nil => simp at hp
  | cons q l =>
    simp only [List.head?_cons, Option.some.injEq] at hp
    subst hp
    simp only [Spec.ReversalIsComplement, List.map_cons, List.map_nil, List.reverse_reverse] at hc
    unfold errorSurface
    simp only
    split_ifs with h
    · exact ⟨_, _, rfl, Or.inl rfl, h, rfl⟩
    · refine ⟨_, _, rfl, Or.inr (by simp), ?_, rfl⟩
      simp only [List.reverse_reverse]
      rw [hc]; simpa using h

/-- Without nominal positions there is a `TypeError`. -/
theorem C111_empty {α : Type} (contains : List (List α) → α → Bool) (u l : List α) :
    errorSurface contains ⟨[], u, l⟩ = .error .typeError := rfl

/-- A second use of the same curves gives rings that run in the same direction (if
they are not symmetric), whatever `geoContains` says; and since the coordinates are
not copied, the first polygon has the same rings then. -/
theorem C111_second_use_false {α : Type} (contains : List (List α) → α → Bool) (d : Combined α)
    (hl : d.lower ≠ d.lower.reverse) (hu : d.upper ≠ d.upper.reverse) (hn : d.nominal ≠ []) :
    ∃ s d' s' d'', errorSurface contains d = .ok (s, d') ∧ errorSurface contains d' = .ok (s', d'') ∧
      s = [d'.lower, d'.upper] ∧ s' = [d''.lower, d''.upper] ∧
      ¬ Spec.OppositeRings s' d.lower d.upper := by
  obtain ⟨nominal, upper, lower⟩ := d
  cases nominal with
  | nil => simp at hn
  | cons q l =>
    simp only at hl hu
    have hl' : lower.reverse ≠ lower := fun h => hl h.symm
    have hu' : upper.reverse ≠ upper := fun h => hu h.symm
    by_cases h : contains [lower, upper.reverse] q
    · refine ⟨[lower, upper.reverse], ⟨q :: l, upper.reverse, lower⟩, ?_⟩
      by_cases h2 : contains [lower, upper] q
      · exact ⟨[lower, upper], ⟨q :: l, upper, lower⟩, by simp [errorSurface, h],
          by simp [errorSurface, h2], by simp, by simp,
          by simp [Spec.OppositeRings, hu, hl]⟩
      · exact ⟨[lower.reverse, upper.reverse], ⟨q :: l, upper.reverse, lower.reverse⟩,
          by simp [errorSurface, h],
          by simp [errorSurface, h2], by simp, by simp,
          by simp [Spec.OppositeRings, hu', hl']⟩
    · refine ⟨[lower.reverse, upper], ⟨q :: l, upper, lower.reverse⟩, ?_⟩
      by_cases h2 : contains [lower.reverse, upper.reverse] q
      · exact ⟨[lower.reverse, upper.reverse], ⟨q :: l, upper.reverse, lower.reverse⟩,
          by simp [errorSurface, h],
          by simp [errorSurface, h2], by simp, by simp,
          by simp [Spec.OppositeRings, hu', hl']⟩
      · exact ⟨[lower, upper], ⟨q :: l, upper, lower⟩, by simp [errorSurface, h],
          by simp [errorSurface, h2], by simp, by simp,
          by simp [Spec.OppositeRings, hu, hl]⟩

/-- There are such polygons: here the inside is to the left of the first ring. -/
example : let contains : List (List ℕ) → ℕ → Bool := fun r _ => r.head? == some [3, 2, 1]
    Spec.ReversalIsComplement contains [[1, 2, 3], [4, 5, 6].reverse] 0 ∧
    errorSurface contains ⟨[0], [4, 5, 6], [1, 2, 3]⟩
      = .ok ([[3, 2, 1], [4, 5, 6]], ⟨[0], [4, 5, 6], [3, 2, 1]⟩) := by
  refine ⟨rfl, rfl⟩

/-! ## C112 -/

lemma flipAxes_22 (axes : Mat 3 3) : 0 ≤ flipAxes axes 2 2 := by
  unfold flipAxes
  split_ifs with h
  · simp; exact h.le
  · exact not_lt.1 h

lemma flipAxes_of_nonneg {axes : Mat 3 3} (h : 0 ≤ axes 2 2) : flipAxes axes = axes := by
  simp [flipAxes, not_lt.2 h]

/-- Turning the third axis over does not change the curves. -/
lemma planeErrors_flip (cov : Vec 3) (axes : Mat 3 3) (o : Opts) :
    Frontend.planeErrors cov (some (flipAxes axes)) o = Frontend.planeErrors cov (some axes) o := by
  by_cases h : axes 2 2 < 0
  swap
  · rw [flipAxes_of_nonneg (not_lt.1 h)]
  ext1
  · rw [Frontend.planeErrors_eq, Frontend.planeErrors_eq]
    apply List.map_congr_left
    intro p _
    congr 1
    have h0 : ¬ flipAxes axes 2 2 < 0 := not_lt.2 (flipAxes_22 axes)
    funext j
    have e0 : flipAxes axes 0 j = axes 0 j := by simp [flipAxes, h]
    have e1 : flipAxes axes 1 j = axes 1 j := by simp [flipAxes, h]
    have e2 : flipAxes axes 2 j = -axes 2 j := by simp [flipAxes, h]
    simp only [Stereonet.toWorld, Fin.sum_univ_three, e0, e1, e2, side, h, h0, if_true, if_false,
      Matrix.cons_val_zero, Matrix.cons_val_one, Matrix.cons_val]
    ring
  · rfl

/-- The axes that are drawn: the third one never points down; the first two are those
given; drawing leaves the same axes in the data, so that drawing again uses them
unchanged. -/
theorem C112_axes (rot : Orientation → Mat 3 3) (p : PlaneProps) (h : Option (Vec 3)) (a : Mat 3 3)
    (p' : PlaneProps) (hok : constructAxes rot p = .ok ((h, a), p')) :
    0 ≤ a 2 2 ∧ constructAxes rot p' = .ok ((h, a), p') ∧
      p'.hyperbolicAxes = p.hyperbolicAxes ∧ p'.covariance = p.covariance ∧
      ((∃ b, p.axes = some b ∧ p'.axes = some a ∧ a 0 = b 0 ∧ a 1 = b 1 ∧
        (a 2 = b 2 ∨ a 2 = -b 2)) ∨ (p' = p ∧ ∃ q, p.orientation = some q)) := by
  obtain ⟨hy, ax, cv, orient⟩ := p
  have case1 : ∀ b hyp, ax = some b → hok = hok → h = hyp → a = flipAxes b →
      p' = ⟨hy, some (flipAxes b), cv, orient⟩ →
      (∃ b, ax = some b ∧ p'.axes = some a ∧ a 0 = b 0 ∧ a 1 = b 1 ∧
        (a 2 = b 2 ∨ a 2 = -b 2)) := by
    rintro b hyp h1 - - rfl rfl
    refine ⟨b, h1, rfl, ?_⟩
    unfold flipAxes
    split_ifs
    · exact ⟨rfl, rfl, Or.inr rfl⟩
    · exact ⟨rfl, rfl, Or.inl rfl⟩
  have idem : ∀ b, flipAxes (flipAxes b) = flipAxes b := fun b =>
    flipAxes_of_nonneg (flipAxes_22 b)
  cases hy <;> cases cv <;> cases orient <;> cases ax <;>
    simp only [constructAxes, reconstructErrors, Option.orElse, reduceCtorEq, Except.ok.injEq,
      Prod.mk.injEq] at hok <;>
    obtain ⟨⟨rfl, rfl⟩, rfl⟩ := hok <;>
    refine ⟨flipAxes_22 _, ?_, rfl, rfl, ?_⟩ <;>
    first
    | rfl
    | (simp [constructAxes, Option.orElse, idem]; done)
    | exact Or.inr ⟨rfl, _, rfl⟩
    | exact Or.inl (case1 _ none rfl rfl rfl rfl rfl)
    | exact Or.inl (case1 _ _ rfl rfl rfl rfl rfl)

/-- Turning the third axis over has no influence on the error curves. -/
theorem C112_curves (cov : Vec 3) (axes : Mat 3 3) (o : Opts) :
    (combinedErrors cov (some (flipAxes axes)) o).1 = (combinedErrors cov (some axes) o).1 := by
  unfold combinedErrors
  simp only [planeErrors_flip]

/-- Data with lengths but no axes are an error, although `planeErrors` by itself would
use the coordinate axes; so are data with axes but no lengths. -/
theorem C112_missing (rot : Orientation → Mat 3 3) (h : Vec 3) (a : Mat 3 3)
    (contains : List (List (Option (ℝ × ℝ))) → Option (ℝ × ℝ) → Bool) (w : Bool) (o : Opts) :
    groupedPlane rot contains w { hyperbolicAxes := some h } o = .error .typeError ∧
    groupedPlane rot contains w { axes := some a } o = .error .typeError ∧
    Frontend.planeErrors h none o = Frontend.planeErrors h (some 1) o :=
  ⟨rfl, rfl, rfl⟩

/-- A drawn plane: polygon around the first nominal position with the error curves as
rings, marked when the error along the normal exceeds the one along the second axis. -/
theorem C112_drawn (rot : Orientation → Mat 3 3)
    (contains : List (List (Option (ℝ × ℝ))) → Option (ℝ × ℝ) → Bool)
    (w : Bool) (p : PlaneProps) (o : Opts)
    (h : Vec 3) (a : Mat 3 3) (hh : p.hyperbolicAxes = some h) (ha : p.axes = some a)
    (hc : ∀ q, Spec.ReversalIsComplement contains [(combinedErrors h (some a) o).1.lower,
      (combinedErrors h (some a) o).1.upper.reverse] q) :
    ∃ s flag nom p' o', groupedPlane rot contains w p o = .ok ((s, flag, nom), p', o') ∧
      (flag = true ↔ h 1 < h 2) ∧
      nom = (if w then some (combinedErrors h (some a) o).1.nominal else none) ∧
      Spec.OppositeRings s (combinedErrors h (some a) o).1.lower
        (combinedErrors h (some a) o).1.upper ∧
      ∃ q, (combinedErrors h (some a) o).1.nominal.head? = some q ∧ contains s q = true := by
  obtain ⟨hy, ax, cv, orient⟩ := p
  simp only at hh ha
  subst hh ha
  have hcon : constructAxes rot ⟨some h, some a, cv, orient⟩
      = .ok ((some h, flipAxes a), ⟨some h, some (flipAxes a), cv, orient⟩) := by
    cases orient <;> rfl
  have hcur := C112_curves h a o
  set d := (combinedErrors h (some a) o).1 with hd
  have hne : ∃ q, d.nominal.head? = some q := by
    have : d.nominal ≠ [] := by
      rw [hd]
      unfold combinedErrors
      simp only [Frontend.planeErrors_eq, ne_eq, List.map_eq_nil_iff]
      simp [ellipse]
    cases hn : d.nominal with
    | nil => exact absurd hn this
    | cons q l => exact ⟨q, rfl⟩
  obtain ⟨q, hq⟩ := hne
  obtain ⟨s, d', h1, h2, h3, h4⟩ := C111_surface_partial contains d q hq (hc q)
  refine ⟨s, decide (h 2 > h 1), if w then some d.nominal else none,
    ⟨some h, some (flipAxes a), cv, orient⟩, (combinedErrors h (some (flipAxes a)) o).2, ?_,
    by simp, rfl, h2, q, hq, h3⟩
  unfold groupedPlane
  simp only [hcon, bind, Except.bind, hcur, h1, h4]

/-- A polygon test as required, for a horizontal plane drawn with two points. -/
example : ∃ contains : List (List (Option (ℝ × ℝ))) → Option (ℝ × ℝ) → Bool,
    ∀ q, Spec.ReversalIsComplement contains
      [(combinedErrors ![9, 4, 1] (some 1) { n := some 1 }).1.lower,
      (combinedErrors ![9, 4, 1] (some 1) { n := some 1 }).1.upper.reverse] q := by
  classical
  set lower := (combinedErrors ![9, 4, 1] (some 1) { n := some 1 }).1.lower with hl
  set upper := (combinedErrors ![9, 4, 1] (some 1) { n := some 1 }).1.upper
  have hne : lower.reverse ≠ lower := by
    intro h
    have h1 := congrArg (fun l : List (Option (ℝ × ℝ)) => ((l.head?.getD none).getD 0).1) h
    beta_reduce at h1
    rw [hl] at h1
    unfold combinedErrors at h1
    simp only [Frontend.planeErrors_eq, Frontend.planeErrors_opts] at h1
    have hell : ellipse 1 (some 3) (some 2) = [(some 0, some (-3)), (some 0, some 3)] := by
      simp [ellipse, sinAngles]
    have r4 : Real.sqrt 4 = 2 := by
      rw [show (4 : ℝ) = 2 ^ 2 by norm_num]; exact Real.sqrt_sq (by norm_num)
    have h9 : ¬ (9 : ℝ) < 0 := by norm_num
    have h4 : ¬ (4 : ℝ) < 0 := by norm_num
    have h10 : ¬ (1 : ℝ) < 0 := by norm_num
    have r9 : Real.sqrt 9 = 3 := by
      rw [show (9 : ℝ) = 3 ^ 2 by norm_num]; exact Real.sqrt_sq (by norm_num)
    simp [side, planeScale, sheetOf, Frontend.cart2sph,
      Opts.defaults, sqrtNum, Stereonet.toWorld, Fin.sum_univ_three, norm_three, h9, h4, h10,
      r9, r4, hell] at h1
    have hs : Real.sqrt (3 ^ 2 + 1) ≠ 0 := by positivity
    simp only [hs, if_false, Option.getD_some] at h1
    rw [arctan2_of_pos _ one_pos, arctan2_of_pos _ one_pos] at h1
    have hp := Real.pi_pos
    have h2 : Real.arctan (3 / 1) = Real.arctan (-3 / 1) := by
      field_simp at h1
      simpa using h1
    have h3 := Real.arctan_injective h2
    norm_num at h3
  refine ⟨fun r _ => decide (r = [lower, upper.reverse]), fun q => ?_⟩
  simp [Spec.ReversalIsComplement, hne]

/-- A constrained plane that is turned over meets the hypotheses. -/
example : ∃ r, constructAxes (fun _ => 1) { axes := some (-dippingAxes), covariance := some ![9, 4, 1] }
    = .ok r ∧ r.1.2 2 2 = 4 / 5 := by
  refine ⟨_, rfl, ?_⟩
  simp [flipAxes, dippingAxes]

end Attitude.Props
