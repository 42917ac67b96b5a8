import Mathlib.Tactic.Linarith
import Mathlib.Tactic.NormNum
import Verif.Model.EllipseStyle
import Verif.Props.StoredSheet
import Verif.Props.Webapp

/-!
# C274: styles of the ellipses in the clipped plot
-/

namespace Attitude.Props

open Attitude Webapp
open Attitude.Frontend (JsErr)

namespace Spec

/-- The color that a datum should have: its own, or a grey. -/
def colorOf (ch : Chroma) (v : Option Value) : Option ch.Color := ch.parse (v.getD (.str "#aaaaaa".toList))

/-- A datum whose color, if there is one, is known. -/
def KnownColor (ch : Chroma) (d : StyleData) : Prop := (colorOf ch d.color).isSome

/-- The style has the color of the datum, for the stroke and, outside of groups, for the fill; ellipses of
members of groups are transparent and dashed. -/
def StyleOf (ch : Chroma) (d : StyleData) (s : EllipseStyle ch.Color) : Prop :=
  colorOf ch d.color = some s.stroke.1 ∧ s.dashed = d.in_group ∧
  (d.in_group = true → s.fill = none) ∧
  (d.in_group = false → ∃ f, s.fill = some f ∧ f.1 = s.stroke.1)

end Spec

lemma style_known (ch : Chroma) (d : StyleData) (h : Spec.KnownColor ch d) :
    ∃ s, translucentEllipseStyle ch d = .ok s ∧ Spec.StyleOf ch d s ∧
      s.stroke.2 = ellipseAlpha 2 (d.max_angular_error <|> d.maxError) ∧
      ∀ f, s.fill = some f → f.2 = ellipseAlpha 1 (d.max_angular_error <|> d.maxError) := by
  obtain ⟨c, hc⟩ := Option.isSome_iff_exists.mp h
  have hs : styleColor ch d = .ok c := by
    simp only [Spec.colorOf] at hc
    simp only [styleColor, hc]
  rcases hg : d.in_group with _ | _
  · refine ⟨⟨some (c, ellipseAlpha 1 (d.max_angular_error <|> d.maxError)),
      (c, ellipseAlpha 2 (d.max_angular_error <|> d.maxError)), false⟩, ?_, ⟨hc, ?_, ?_, ?_⟩, rfl, ?_⟩
    · simp [translucentEllipseStyle, hs, bind, Except.bind, hg]
    · exact hg.symm
    · rw [hg]; simp
    · intro _; exact ⟨_, rfl, rfl⟩
    · rintro f hf; simp only [Option.some.injEq] at hf; rw [← hf]
  · refine ⟨⟨none, (c, ellipseAlpha 2 (d.max_angular_error <|> d.maxError)), true⟩,
      ?_, ⟨hc, ?_, ?_, ?_⟩, rfl, ?_⟩
    · simp [translucentEllipseStyle, hs, bind, Except.bind, hg]
    · exact hg.symm
    · intro _; rfl
    · rw [hg]; simp
    · simp

lemma style_unknown (ch : Chroma) (d : StyleData) (h : ¬ Spec.KnownColor ch d) :
    translucentEllipseStyle ch d = .error .typeError := by
  have hn : ch.parse (d.color.getD (.str "#aaaaaa".toList)) = none := by
    simpa [Spec.KnownColor, Spec.colorOf] using h
  have hs : styleColor ch d = .error .typeError := by simp only [styleColor, hn]
  simp [translucentEllipseStyle, hs, bind, Except.bind]

lemma each_known (ch : Chroma) (data : List StyleData) (h : ∀ d ∈ data, Spec.KnownColor ch d) :
    ∃ ss : List (EllipseStyle ch.Color), eachStyle ch data = (ss.map some, none) ∧
      List.Forall₂ (fun d s => translucentEllipseStyle ch d = .ok s) data ss := by
  induction data with
  | nil => exact ⟨[], rfl, .nil⟩
  | cons d ds ih =>
    obtain ⟨s, hs, -⟩ := style_known ch d (h d (by simp))
    obtain ⟨ss, h1, h2⟩ := ih (fun x hx => h x (List.mem_cons_of_mem _ hx))
    exact ⟨s :: ss, by simp [eachStyle, hs, h1], .cons hs h2⟩

/-- If the colors of all data are known, every ellipse gets the style of its datum, in order, and the plot is
complete, with labels and paths. -/
theorem C274_styles (ch : Chroma) (data : List StyleData) (h : ∀ d ∈ data, Spec.KnownColor ch d) :
    ∃ ss : List (EllipseStyle ch.Color), buildPlot ch data = ⟨ss.map some, true, true, none⟩ ∧
      List.Forall₂ (Spec.StyleOf ch) data ss := by
  obtain ⟨ss, h1, h2⟩ := each_known ch data h
  refine ⟨ss, by simp [buildPlot, h1], ?_⟩
  clear h1
  induction h2 with
  | nil => exact .nil
  | @cons d s ds ss hs _ ih =>
    refine .cons ?_ (ih (fun x hx => h x (List.mem_cons_of_mem _ hx)))
    obtain ⟨s', hs', hst, -⟩ := style_known ch d (h d (by simp))
    rw [hs] at hs'
    simp only [Except.ok.injEq] at hs'
    rw [hs']
    exact hst

/-- Three colors with names, one of them the grey. -/
def threeColors : Chroma where
  Color := Option Bool
  parse v := if v = .str "red".toList then some (some true)
    else if v = .str "blue".toList then some (some false)
    else if v = .str "#aaaaaa".toList then some none else none
  hex _ := []
  name _ := []

/-- A datum with a color, one without, and one of a group. -/
example : ∀ d ∈ ([{ color := some (.str "red".toList), maxError := some 5 }, {},
    { color := some (.str "blue".toList), in_group := true }] : List StyleData), Spec.KnownColor threeColors d := by
  intro d hd
  simp only [List.mem_cons, List.not_mem_nil, or_false] at hd
  rcases hd with rfl | rfl | rfl <;> simp [Spec.KnownColor, Spec.colorOf, threeColors]

/-- Rows of the sheet cannot make the plot fail: the color of a row is kept only if it is known, so that all
plotted rows get their style - the color of the row, or grey if it has none that is known. -/
theorem C274_sheet (ch : Chroma) (hgrey : (ch.parse (.str "#aaaaaa".toList)).isSome) (data : Sheet) :
    ∃ ss : List (EllipseStyle ch.Color), buildPlot ch ((cleanedData (fun v => (ch.parse v).isSome) data).map toStyle) =
        ⟨ss.map some, true, true, none⟩ ∧
      List.Forall₂ (fun o s => Spec.StyleOf ch (toStyle o) s)
        (cleanedData (fun v => (ch.parse v).isSome) data) ss ∧
      ∀ d ∈ (cleanedData (fun v => (ch.parse v).isSome) data).map toStyle, d.in_group = false := by
  have hk : ∀ d ∈ (cleanedData (fun v => (ch.parse v).isSome) data).map toStyle, Spec.KnownColor ch d := by
    intro d hd
    obtain ⟨o, ho, rfl⟩ := List.mem_map.mp hd
    obtain ⟨row, -, hrow⟩ := (C154_rows _ _ _).mp ho
    simp only [Spec.KnownColor, Spec.colorOf, toStyle]
    have key : ∀ v, o.lookup "color" = some (.color v) → (ch.parse v).isSome := by
      intro v hv
      have hs : ∃ c0 c1 c2 c3 c4 c5, constructOrientation (fun v => (ch.parse v).isSome)
          [c0, c1, c2, c3, c4, c5] = some o := by
        have hm : o ∈ cleanedStored (fun v => (ch.parse v).isSome) [Row.stored row] := by
          simp only [cleanedStored, List.mem_filterMap, List.mem_singleton, exists_eq_left, constructStored,
            readable, Row.stored]
          rw [← hrow]
          congr 1
          clear hrow
          induction row with
          | nil => rfl
          | cons c cs ih => simpa using ih
        obtain ⟨c0, c1, c2, c3, c4, c5, _, -, h⟩ := (C271_plotted _ _ _).mp hm
        exact ⟨c0, c1, c2, c3, c4, c5, h⟩
      obtain ⟨c0, c1, c2, c3, c4, c5, h⟩ := hs
      have := (C154_values _ _ _ _ _ _ _ _ h).2.2.2.2.2
      rw [hv] at this
      by_cases hp : (ch.parse c5).isSome
      · simp only [hp, if_true, Option.some.injEq, Out.color.injEq] at this
        rw [this]; exact hp
      · simp [hp] at this
    split
    · simpa using hgrey
    · rename_i v _ hv
      simpa using key v hv
    · simpa using hgrey
  obtain ⟨ss, h1, h2⟩ := C274_styles ch _ hk
  refine ⟨ss, h1, List.forall₂_map_left_iff.mp h2, ?_⟩
  intro d hd
  obtain ⟨o, -, rfl⟩ := List.mem_map.mp hd
  rfl

example : (threeColors.parse (.str "#aaaaaa".toList)).isSome := by decide +kernel

/-- For other data a single color that is not known ends the plot: ellipses before it have their style, it and
all later ones have none, and there are neither labels nor paths. -/
theorem C274_unknown_false (ch : Chroma) (before after : List StyleData) (d : StyleData)
    (hb : ∀ x ∈ before, Spec.KnownColor ch x) (hd : ¬ Spec.KnownColor ch d) :
    ∃ ss : List (EllipseStyle ch.Color), buildPlot ch (before ++ d :: after) =
        ⟨ss.map some ++ List.replicate (after.length + 1) none, false, false, some .typeError⟩ ∧
      ss.length = before.length := by
  have : ∃ ss : List (EllipseStyle ch.Color), eachStyle ch (before ++ d :: after) =
      (ss.map some ++ List.replicate (after.length + 1) none, some .typeError) ∧ ss.length = before.length := by
    induction before with
    | nil =>
      refine ⟨[], ?_, rfl⟩
      simp [eachStyle, style_unknown ch d hd, List.replicate_succ]
    | cons b bs ih =>
      obtain ⟨ss, h1, h2⟩ := ih (fun x hx => hb x (List.mem_cons_of_mem _ hx))
      obtain ⟨s, hs, -⟩ := style_known ch b (hb b (by simp))
      refine ⟨s :: ss, ?_, by simp [h2]⟩
      simp [eachStyle, hs, h1]
  obtain ⟨ss, h1, h2⟩ := this
  exact ⟨ss, by simp [buildPlot, h1], h2⟩

example : Spec.KnownColor threeColors { color := some (.str "red".toList) } ∧
    ¬ Spec.KnownColor threeColors { color := some (.str "transparent".toList) } := by
  constructor <;> simp [Spec.KnownColor, Spec.colorOf, threeColors]

/-- Opacities of a row whose larger error is at least zero: they are positive, that of the stroke is not less
than that of the fill and at most 0.8 ... -/
theorem C274_opacity_partial (ch : Chroma) (d : StyleData) (hk : Spec.KnownColor ch d) (s : EllipseStyle ch.Color)
    (hs : translucentEllipseStyle ch d = .ok s)
    (he : ∀ x, (d.max_angular_error <|> d.maxError) = some x → 0 ≤ x) :
    0 < s.stroke.2 ∧ s.stroke.2 ≤ 0.8 ∧ ∀ f, s.fill = some f → 0 < f.2 ∧ f.2 ≤ s.stroke.2 := by
  obtain ⟨s', hs', -, h2, h1⟩ := style_known ch d hk
  rw [hs] at hs'
  simp only [Except.ok.injEq] at hs'
  subst hs'
  obtain ⟨a, b, c, -⟩ := C158_ellipse_opacity _ he
  refine ⟨by rw [h2]; linarith, by rw [h2]; exact c, ?_⟩
  intro f hf
  rw [h2, h1 f hf]
  exact ⟨a, b⟩

example : ∃ s, translucentEllipseStyle threeColors { color := some (.str "red".toList), maxError := some 5 } = .ok s ∧
    Spec.KnownColor threeColors { color := some (.str "red".toList), maxError := some 5 } := by
  have h : Spec.KnownColor threeColors { color := some (.str "red".toList), maxError := some 5 } := by
    simp [Spec.KnownColor, Spec.colorOf, threeColors]
  obtain ⟨s, hs, -⟩ := style_known threeColors _ h
  exact ⟨s, hs, h⟩

/-- ... but the sheet accepts negative errors, and for these the opacities are negative, that of the stroke
less than that of the fill: the ellipse cannot be seen. -/
theorem C274_negative_false (ch : Chroma) (hgrey : (ch.parse (.str "#aaaaaa".toList)).isSome) (e : ℚ) (he : e < 0) :
    ∃ row o s f, row.length = 6 ∧ constructOrientation (fun v => (ch.parse v).isSome) row = some o ∧
      o.lookup "maxError" = some (.number e) ∧ translucentEllipseStyle ch (toStyle o) = .ok s ∧
      s.fill = some f ∧ f.2 < 0 ∧ s.stroke.2 < f.2 := by
  have hpl : (constructOrientation (fun v => (ch.parse v).isSome)
      [.num 10, .num 8, .num 2, .num e, .num e, .str "#aaaaaa".toList]).isSome := by
    rw [C154_plotted_iff]; simp [Value.parseFloat]
  obtain ⟨o, ho⟩ := Option.isSome_iff_exists.mp hpl
  obtain ⟨-, -, -, v3, -, v5⟩ := C154_values _ _ _ _ _ _ _ _ ho
  have hm : (toStyle o).maxError = some (e : ℝ) := by
    simp [toStyle, number?, v3, Value.parseFloat]
  have hc : (toStyle o).color = some (.str "#aaaaaa".toList) := by
    simp only [toStyle, v5, hgrey, if_true]
  have hk : Spec.KnownColor ch (toStyle o) := by
    simp only [Spec.KnownColor, Spec.colorOf, hc]
    simpa using hgrey
  obtain ⟨s, hs, hst, h2, h1⟩ := style_known ch _ hk
  obtain ⟨f, hf, -⟩ := hst.2.2.2 rfl
  have hor : ((toStyle o).max_angular_error <|> (toStyle o).maxError) = some (e : ℝ) := by
    rw [hm]; rfl
  have heR : (e : ℝ) < 0 := by exact_mod_cast he
  have hneg : ∀ k : ℝ, 0 < k → ellipseAlpha k (some (e : ℝ)) = k / e * 5 := by
    intro k hk
    have : k / (e : ℝ) < 0 := div_neg_of_pos_of_neg hk heR
    simp only [ellipseAlpha, heR.ne, if_false]
    rw [if_neg (by linarith)]
  have h1' : (1 : ℝ) / e < 0 := div_neg_of_pos_of_neg one_pos heR
  have h2' : (2 : ℝ) / e = 2 * (1 / e) := by ring
  refine ⟨_, o, s, f, rfl, ho, by rw [v3]; rfl, hs, hf, ?_, ?_⟩
  · rw [h1 f hf, hor, hneg 1 one_pos]; linarith
  · rw [h2, h1 f hf, hor, hneg 1 one_pos, hneg 2 two_pos, h2']; linarith

example : (-5 : ℚ) < 0 := by norm_num

end Attitude.Props
