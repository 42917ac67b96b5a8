import Verif.Props.Dem
import Verif.Props.DemLines
import Verif.Props.PcaExact

/-!
# C209: from the elevation model to the reported plane
-/

namespace Attitude.Props

open Attitude Dem Pca Matrix

/-! ## Specification -/

/-- Strike and dip (in degrees) of a surface whose elevation grows by `α` per unit to the east and `β` per unit to
the north: the tangent of the dip is the length of the gradient, and the direction 90° clockwise from the strike is
opposite to the gradient. -/
def Spec.IsAttitudeOf (α β s d : ℝ) : Prop :=
  0 ≤ s ∧ s < 360 ∧ 0 ≤ d ∧ d < 90 ∧ Real.tan (radians d) = Real.sqrt (α ^ 2 + β ^ 2) ∧
    Real.sqrt (α ^ 2 + β ^ 2) * Real.sin (radians (s + 90)) = -α ∧
    Real.sqrt (α ^ 2 + β ^ 2) * Real.cos (radians (s + 90)) = -β

/-- Three positions that are not on a line. -/
def Spec.Triangle (p q r : ℝ × ℝ) : Prop :=
  (q.1 - p.1) * (r.2 - p.2) - (q.2 - p.2) * (r.1 - p.1) ≠ 0

/-- The rows of an array without gaps, as points. -/
def Spec.Rows (l : List (Fin 3 → Option ℝ)) (a : Fin l.length → Vec 3) : Prop :=
  ∀ i j, l.get i j = some (a i j)

/-- The points of `l` are fitted exactly, and the plane reported has gradient `α`, `β`. -/
def Spec.FitsExactly (svd : SvdFn) (l : List (Fin 3 → Option ℝ)) (α β : ℝ) : Prop :=
  ∃ (a : Fin l.length → Vec 3) (f : Fit l.length) (s d : ℝ), Spec.Rows l a ∧
    init svd a none none = .ok (some f) ∧ (∀ i j, residuals f i j = 0) ∧
    (∀ Q : ErrorAxes.Quantiles, Spec.QuantilesOK Q → ∀ (sampling : Bool) (cl : ℝ), 0 ≤ cl → cl < 1 →
      errorsAt Q f sampling cl = some (0, 0)) ∧
    strikeDip f = some (s, d) ∧ Spec.IsAttitudeOf α β s d

/-! ## Helper lemmas -/

lemma rows_exist (l : List (Fin 3 → Option ℝ)) (h : ∀ row ∈ l, ∀ j, row j ≠ none) :
    ∃ a, Spec.Rows l a := by
  refine ⟨fun i j => ((l.get i j).getD 0), fun i j => ?_⟩
  have := h _ (l.get_mem i) j
  cases hv : l.get i j with
  | none => exact absurd hv this
  | some x => simp only [hv, Option.getD_some]

/-- The attitude described by an upward unit normal proportional to `(-α, -β, 1)`. -/
lemma attitude_of_normal {α β s d : ℝ} (h0 : 0 ≤ s) (h1 : s < 360) (h2 : 0 ≤ d) (h3 : d ≤ 90)
    (hx : sdNormal s d 0 = -(α * sdNormal s d 2)) (hy : sdNormal s d 1 = -(β * sdNormal s d 2)) :
    Spec.IsAttitudeOf α β s d := by
  have hpi := Real.pi_pos
  simp only [sdNormal, Matrix.cons_val_zero, Matrix.cons_val_one, Matrix.cons_val] at hx hy
  have a1 := Real.sin_sq_add_cos_sq (radians s)
  have a2 := Real.sin_sq_add_cos_sq (radians d)
  have r0 : 0 ≤ radians d := by unfold radians; positivity
  have r1 : radians d ≤ Real.pi / 2 := by unfold radians; nlinarith
  have hS : 0 ≤ Real.sin (radians d) := Real.sin_nonneg_of_nonneg_of_le_pi r0 (by linarith)
  have hC : 0 ≤ Real.cos (radians d) := Real.cos_nonneg_of_mem_Icc ⟨by linarith, r1⟩
  set S := Real.sin (radians d)
  set C := Real.cos (radians d) with hCdef
  set u := Real.sin (radians s)
  set v := Real.cos (radians s)
  have hsq : S ^ 2 = (α ^ 2 + β ^ 2) * C ^ 2 := by
    linear_combination (-S ^ 2) * a1 + (S * v - α * C) * hx + (-(S * u) - β * C) * hy
  have hCpos : 0 < C := by
    rcases hC.lt_or_eq with h | h
    · exact h
    · rw [← h] at hsq a2
      nlinarith
  have ht : S = Real.sqrt (α ^ 2 + β ^ 2) * C := by
    have hg := Real.sq_sqrt (by positivity : 0 ≤ α ^ 2 + β ^ 2)
    have hn : 0 ≤ Real.sqrt (α ^ 2 + β ^ 2) * C := mul_nonneg (Real.sqrt_nonneg _) hC
    nlinarith
  set g := Real.sqrt (α ^ 2 + β ^ 2)
  have e1 : Real.sin (radians (s + 90)) = v := by
    rw [radians_add, radians_90, Real.sin_add_pi_div_two]
  have e2 : Real.cos (radians (s + 90)) = -u := by
    rw [radians_add, radians_90, Real.cos_add_pi_div_two]
  refine ⟨h0, h1, h2, ?_, ?_, ?_, ?_⟩
  · refine lt_of_le_of_ne h3 fun h => ?_
    rw [hCdef, h, radians_90, Real.cos_pi_div_two] at hCpos
    exact lt_irrefl _ hCpos
  · rw [Real.tan_eq_sin_div_cos, div_eq_iff hCpos.ne']
    exact ht
  · rw [e1]
    apply mul_right_cancel₀ hCpos.ne'
    rw [ht] at hx
    linear_combination hx
  · rw [e2]
    apply mul_right_cancel₀ hCpos.ne'
    rw [ht] at hy
    linear_combination hy

/-- Data in the surface `z = α x + β y + γ`, at three or more positions not on a line. -/
lemma fits_surface (svd : SvdFn) (hs : svd.Valid) (l : List (Fin 3 → Option ℝ)) (α β γ : ℝ)
    (hfin : ∀ row ∈ l, ∀ j, row j ≠ none)
    (hpl : ∀ row ∈ l, ∀ x y z, row = ![some x, some y, some z] → z = α * x + β * y + γ)
    (p q r : ℝ × ℝ) (ht : Spec.Triangle p q r) (zp zq zr : ℝ) (hp : ![some p.1, some p.2, some zp] ∈ l)
    (hq : ![some q.1, some q.2, some zq] ∈ l) (hr : ![some r.1, some r.2, some zr] ∈ l) :
    Spec.FitsExactly svd l α β := by
  obtain ⟨a, ha⟩ := rows_exist l hfin
  have hrow : ∀ i, l.get i = ![some (a i 0), some (a i 1), some (a i 2)] := by
    intro i
    funext j
    fin_cases j
    · exact ha i 0
    · exact ha i 1
    · exact ha i 2
  have hsurf : ∀ i, a i 2 = α * a i 0 + β * a i 1 + γ :=
    fun i => hpl _ (l.get_mem i) _ _ _ (hrow i)
  have find : ∀ (w : ℝ × ℝ) (z : ℝ), ![some w.1, some w.2, some z] ∈ l → ∃ i, a i 0 = w.1 ∧ a i 1 = w.2 := by
    intro w z hw
    obtain ⟨i, hi⟩ := List.mem_iff_get.1 hw
    rw [hrow i] at hi
    have h0 := congrFun hi 0
    have h1 := congrFun hi 1
    simp at h0 h1
    exact ⟨i, h0, h1⟩
  obtain ⟨i, i0, i1⟩ := find p zp hp
  obtain ⟨j, j0, j1⟩ := find q zq hq
  obtain ⟨k, k0, k1⟩ := find r zr hr
  unfold Spec.Triangle at ht
  rw [← i0, ← i1, ← j0, ← j1, ← k0, ← k1] at ht
  have hij : i ≠ j := by rintro rfl; exact ht (by ring)
  have hik : i ≠ k := by rintro rfl; exact ht (by ring)
  have hjk : j ≠ k := by rintro rfl; exact ht (by ring)
  have hn : 3 ≤ l.length := by
    have h1 : ({i, j, k} : Finset (Fin l.length)).card = 3 := Finset.card_eq_three.2 ⟨i, j, k, hij, hik, hjk, rfl⟩
    have h2 := Finset.card_le_univ ({i, j, k} : Finset (Fin l.length))
    rw [h1, Fintype.card_fin] at h2
    exact h2
  obtain ⟨f, hf⟩ := init_default_exists svd hn a
  obtain ⟨U, hF⟩ := init_default hs hf
  -- the surface as a plane with a unit normal
  have hk : 0 < α ^ 2 + β ^ 2 + 1 := by positivity
  set κ := Real.sqrt (α ^ 2 + β ^ 2 + 1) with hκ
  have hκ0 : 0 < κ := Real.sqrt_pos.2 hk
  have hκ2 : κ ^ 2 = α ^ 2 + β ^ 2 + 1 := Real.sq_sqrt hk.le
  set m : Vec 3 := ![-α / κ, -β / κ, 1 / κ] with hm
  have hm1 : norm m = 1 := by
    rw [norm3, Real.sqrt_eq_one]
    simp only [hm, Matrix.cons_val_zero, Matrix.cons_val_one, Matrix.cons_val]
    field_simp
    linarith
  have hon : ∀ i, Spec.OnPlane m (γ / κ) (a i) := by
    intro i
    have := hsurf i
    simp only [Spec.OnPlane, hm, Matrix.cons_val_zero, Matrix.cons_val_one, Matrix.cons_val]
    field_simp
    linarith
  have hperp := normal_perp_of_coplanar hs hf m (γ / κ) hm1 hon
  have hj := hperp j i
  have hk' := hperp k i
  rw [hsurf j, hsurf i] at hj
  rw [hsurf k, hsurf i] at hk'
  set X := f.normal 0 + α * f.normal 2 with hX
  set Y := f.normal 1 + β * f.normal 2 with hY
  have e1 : X * (a j 0 - a i 0) + Y * (a j 1 - a i 1) = 0 := by rw [hX, hY]; linear_combination hj
  have e2 : X * (a k 0 - a i 0) + Y * (a k 1 - a i 1) = 0 := by rw [hX, hY]; linear_combination hk'
  have x0 : X = 0 := by
    apply (mul_eq_zero.1 (?_ : X * _ = 0)).resolve_right ht
    linear_combination (a k 1 - a i 1) * e1 - (a j 1 - a i 1) * e2
  have y0 : Y = 0 := by
    apply (mul_eq_zero.1 (?_ : Y * _ = 0)).resolve_right ht
    linear_combination (a j 0 - a i 0) * e2 - (a k 0 - a i 0) * e1
  obtain ⟨s, d, e, a1, a2, a3, a4, a5⟩ := strikeDipOf_spec (fit_axis_ne_zero hF 2)
  rw [hF.svd.row_norm, one_smul, ← hF.normal] at a5
  refine ⟨a, f, s, d, ha, hf, (C07_residuals_zero_iff_coplanar svd hs a f hf).2 ⟨m, _, hm1, hon⟩, ?_, e, ?_⟩
  · intro Q hQ sampling cl c0 c1
    exact (C174_zero_errors_iff_exact Q hQ svd hs a f hf sampling cl c0 c1).2 ⟨m, _, hm1, hon⟩
  · apply attitude_of_normal a1 a2 a3 a4
    · rw [a5]; linarith
    · rw [a5]; linarith

lemma triangle_app (T : Affine) (hT : T.det ≠ 0) {p q r : ℝ × ℝ} (h : Spec.Triangle p q r) :
    Spec.Triangle (T.app p) (T.app q) (T.app r) := by
  unfold Spec.Triangle at *
  have e : ((T.app q).1 - (T.app p).1) * ((T.app r).2 - (T.app p).2) -
      ((T.app q).2 - (T.app p).2) * ((T.app r).1 - (T.app p).1) =
      T.det * ((q.1 - p.1) * (r.2 - p.2) - (q.2 - p.2) * (r.1 - p.1)) := by
    simp only [Affine.app, Affine.det]
    ring
  rw [e]
  exact mul_ne_zero hT h

/-! ## C209 -/

/-- An area of a planar elevation model (outside the area, and in cells without a value, the model may be anything),
with three valid cells that are not in a line: the points extracted are fitted exactly, with the strike and dip of the
surface and no errors. -/
theorem C209_area (svd : SvdFn) (hs : svd.Valid) (sub : List (ℝ × ℝ) → List (ℝ × ℝ)) (area : ℝ) (ha : area ≠ 0)
    (m : Mask) (geom : List (ℝ × ℝ × Option ℝ)) (d : Raster) (T : Affine) (hT : T.det ≠ 0) (α β γ : ℝ)
    (hpl : ∀ r c z, Spec.TrueCell m r c → d.px r c = .val z →
      z = α * (T.app (c + 1 / 2, r + 1 / 2)).1 + β * (T.app (c + 1 / 2, r + 1 / 2)).2 + γ)
    (r₁ c₁ r₂ c₂ r₃ c₃ : ℕ) (z₁ z₂ z₃ : ℝ) (h₁ : Spec.TrueCell m r₁ c₁ ∧ d.px r₁ c₁ = .val z₁)
    (h₂ : Spec.TrueCell m r₂ c₂ ∧ d.px r₂ c₂ = .val z₂) (h₃ : Spec.TrueCell m r₃ c₃ ∧ d.px r₃ c₃ = .val z₃)
    (ht : Spec.Triangle (c₁, r₁) (c₂, r₂) (c₃, r₃)) :
    ∃ l, extractShape sub area m geom d T = .ok l ∧ Spec.FitsExactly svd l α β := by
  obtain ⟨l, hl, hrow⟩ := C79_extract_shape sub area ha m geom d T
  refine ⟨l, hl, ?_⟩
  have ht' : Spec.Triangle ((c₁ : ℝ) + 1 / 2, (r₁ : ℝ) + 1 / 2) ((c₂ : ℝ) + 1 / 2, (r₂ : ℝ) + 1 / 2)
      ((c₃ : ℝ) + 1 / 2, (r₃ : ℝ) + 1 / 2) := by
    unfold Spec.Triangle at *
    simpa using ht
  refine fits_surface svd hs l α β γ ?_ ?_ _ _ _ (triangle_app T hT ht') z₁ z₂ z₃ ?_ ?_ ?_
  · intro row h j
    obtain ⟨r, c, z, -, -, rfl⟩ := (hrow row).1 h
    fin_cases j <;> simp
  · intro row h x y z e
    obtain ⟨r, c, z', t, hz, rfl⟩ := (hrow row).1 h
    have e0 := congrFun e 0
    have e1 := congrFun e 1
    have e2 := congrFun e 2
    simp at e0 e1 e2
    rw [← e0, ← e1, ← e2]
    have := hpl r c z' t hz
    simpa using this
  · exact (hrow _).2 ⟨r₁, c₁, z₁, h₁.1, h₁.2, rfl⟩
  · exact (hrow _).2 ⟨r₂, c₂, z₂, h₂.1, h₂.2, rfl⟩
  · exact (hrow _).2 ⟨r₃, c₃, z₃, h₃.1, h₃.2, rfl⟩

/-- The elevation model `z = 2 x - y + 5` with cells of two units, rows from the north. -/
noncomputable def exampleDem : Raster :=
  ⟨4, 4, fun i j => .val (2 * ((⟨2, 0, 10, 0, -2, 20⟩ : Affine).app (j + 1 / 2, i + 1 / 2)).1 +
    (-1) * ((⟨2, 0, 10, 0, -2, 20⟩ : Affine).app (j + 1 / 2, i + 1 / 2)).2 + 5)⟩

/-- Nine cells of it. -/
example : ∃ (svd : SvdFn), svd.Valid ∧ ∃ l,
    extractShape id 1 ⟨4, 4, fun r c => decide (r < 3) && decide (c < 3)⟩ [] exampleDem ⟨2, 0, 10, 0, -2, 20⟩ = .ok l ∧
      Spec.FitsExactly svd l 2 (-1) := by
  obtain ⟨svd, hs⟩ := exists_valid_svd
  refine ⟨svd, hs, C209_area svd hs id 1 (by norm_num) _ [] exampleDem _ (by norm_num [Affine.det]) 2 (-1) 5 ?_
    0 0 2 0 1 2 _ _ _ ⟨⟨by decide, by decide, by decide⟩, rfl⟩ ⟨⟨by decide, by decide, by decide⟩, rfl⟩
    ⟨⟨by decide, by decide, by decide⟩, rfl⟩ (by norm_num [Spec.Triangle])⟩
  intro r c z _ hz
  simp only [exampleDem, Pixel.val.injEq] at hz
  rw [← hz]
  push_cast
  ring

/-- A line without a constant row or column, whose points are away from the edges of the window read and of the
elevation model. -/
theorem C209_line_partial (svd : SvdFn) (hs : svd.Valid) (sub : List (ℝ × ℝ) → List (ℝ × ℝ)) (m : Mask)
    (geom : List (ℝ × ℝ)) (d : Raster) (T I : Affine) (hI : T.inv = .ok I) (α β γ : ℝ)
    (hpl : ∀ i j : ℤ, 0 ≤ i → i < d.rows → 0 ≤ j → j < d.cols → d.px i j =
      .val (α * (T.app (j + 1 / 2, i + 1 / 2)).1 + β * (T.app (j + 1 / 2, i + 1 / 2)).2 + γ))
    (p : ℝ × ℝ) (l : List (ℝ × ℝ)) (hsub : sub (geom.map I.app) = p :: l)
    (hin : ∀ q ∈ p :: l, (1 / 2 ≤ q.1 ∧ q.1 ≤ d.cols - 1 / 2) ∧ 1 / 2 ≤ q.2 ∧ q.2 ≤ d.rows - 1 / 2)
    (haway : ∀ q ∈ p :: l, Spec.AwayFromEdge (lineWindow p l).1.1 (lineWindow p l).1.2 d.rows q.2 ∧
      Spec.AwayFromEdge (lineWindow p l).2.1 (lineWindow p l).2.2 d.cols q.1)
    (q₁ q₂ q₃ : ℝ × ℝ) (h₁ : q₁ ∈ p :: l) (h₂ : q₂ ∈ p :: l) (h₃ : q₃ ∈ p :: l) (ht : Spec.Triangle q₁ q₂ q₃) :
    ∃ out, extractShape sub 0 m (geom.map fun g => (g.1, g.2, none)) d T = .ok out ∧
      out.length = (p :: l).length ∧ Spec.FitsExactly svd out α β := by
  have hT : T.det ≠ 0 := by
    intro h
    rw [Affine.inv, if_pos h] at hI
    cases hI
  have hr : ¬ ∃ k : ℤ, ∀ q ∈ p :: l, q.2 = k := by
    rintro ⟨k, hk⟩
    unfold Spec.Triangle at ht
    rw [hk _ h₁, hk _ h₂, hk _ h₃] at ht
    exact ht (by ring)
  have hc : ¬ ∃ k : ℤ, ∀ q ∈ p :: l, q.1 = k := by
    rintro ⟨k, hk⟩
    unfold Spec.Triangle at ht
    rw [hk _ h₁, hk _ h₂, hk _ h₃] at ht
    exact ht (by ring)
  obtain ⟨z, hz, hv⟩ := C80_values_partial sub d T I hI geom p l hsub
    (fun q hq => by have := hin q hq; refine ⟨⟨?_, ?_⟩, ?_, ?_⟩ <;> linarith [this.1.1, this.1.2, this.2.1, this.2.2])
    hr hc
  have hval : ∀ q ∈ p :: l, z q = some (α * (T.app q).1 + β * (T.app q).2 + γ) := by
    intro q hq
    rw [hv q hq (haway q hq).1 (haway q hq).2,
      C81_planar d (α * T.b + β * T.e) (α * T.a + β * T.d) (α * T.c + β * T.f + γ) ?_ q (hin q hq).1 (hin q hq).2]
    · simp only [Affine.app, Option.some.injEq]
      ring
    · intro i j i0 i1 j0 j1
      rw [hpl i j i0 i1 j0 j1]
      simp only [Affine.app, Pixel.val.injEq]
      ring
  set rows := (p :: l).map fun q => toRow ((T.app q).1, (T.app q).2, z q) with hrows
  have hfin : ∀ row ∈ rows, Spec.Finite row := by
    intro row h
    obtain ⟨q, hq, rfl⟩ := List.mem_map.1 h
    intro j
    simp only [toRow, hval q hq]
    fin_cases j <;> simp
  have hout : extractShape sub 0 m (geom.map fun g => (g.1, g.2, none)) d T = .ok rows := by
    simp only [extractShape, if_true, hz, bind, Except.bind, List.map_map]
    congr 1
    exact (C77_idempotent rows).2 hfin
  have hmem : ∀ q ∈ p :: l, ![some (T.app q).1, some (T.app q).2,
      some (α * (T.app q).1 + β * (T.app q).2 + γ)] ∈ rows := by
    intro q hq
    refine List.mem_map.2 ⟨q, hq, ?_⟩
    simp only [toRow, hval q hq]
  refine ⟨rows, hout, by simp [hrows], ?_⟩
  refine fits_surface svd hs rows α β γ (fun row h j => hfin row h j) ?_ _ _ _ (triangle_app T hT ht) _ _ _
    (hmem _ h₁) (hmem _ h₂) (hmem _ h₃)
  intro row h x y w e
  obtain ⟨q, hq, rfl⟩ := List.mem_map.1 h
  simp only [toRow, hval q hq] at e
  have e0 := congrFun e 0
  have e1 := congrFun e 1
  have e2 := congrFun e 2
  simp at e0 e1 e2
  rw [← e0, ← e1, ← e2]

lemma exampleDem_inv : (⟨2, 0, 10, 0, -2, 20⟩ : Affine).inv = .ok ⟨1 / 2, 0, -5, 0, -1 / 2, 10⟩ := by
  unfold Affine.inv
  rw [if_neg (by norm_num [Affine.det])]
  norm_num [Affine.det]

/-- A line with three corners. -/
example : ∃ (svd : SvdFn), svd.Valid ∧ ∃ out,
    extractShape id 0 ⟨4, 4, fun _ _ => false⟩ ([((11.2 : ℝ), (18.8 : ℝ)), (14.6, 18.6), (12, 15.2)].map
      fun g => (g.1, g.2, none)) exampleDem ⟨2, 0, 10, 0, -2, 20⟩ = .ok out ∧ out.length = 3 ∧
      Spec.FitsExactly svd out 2 (-1) := by
  obtain ⟨svd, hs⟩ := exists_valid_svd
  have hw : lineWindow ((3 / 5 : ℝ), (3 / 5 : ℝ)) [(23 / 10, 7 / 10), (1, 12 / 5)] = ((0, 3), (0, 3)) := by
    have f : ∀ (x : ℝ) (k : ℤ), (k : ℝ) ≤ x → x < k + 1 → ⌊x⌋ = k := fun x k a b => Int.floor_eq_iff.2 ⟨a, b⟩
    have c : ∀ (x : ℝ) (k : ℤ), (k : ℝ) - 1 < x → x ≤ k → ⌈x⌉ = k := fun x k a b => Int.ceil_eq_iff.2 ⟨a, b⟩
    simp only [lineWindow, minimum, maximum, List.map]
    rw [f _ 0 (by norm_num) (by norm_num), f _ 0 (by norm_num) (by norm_num), c _ 3 (by norm_num) (by norm_num),
      c _ 3 (by norm_num) (by norm_num)]
  refine ⟨svd, hs, C209_line_partial svd hs id _ _ exampleDem _ _ exampleDem_inv 2 (-1) 5 (fun _ _ _ _ _ _ => rfl)
    (3 / 5, 3 / 5) [(23 / 10, 7 / 10), (1, 12 / 5)] ?_ ?_ ?_ (3 / 5, 3 / 5) (23 / 10, 7 / 10) (1, 12 / 5) (by simp)
    (by simp) (by simp) (by norm_num [Spec.Triangle])⟩
  · simp [Affine.app]
    norm_num
  · intro q hq
    simp only [List.mem_cons, List.not_mem_nil, or_false] at hq
    rcases hq with rfl | rfl | rfl <;> norm_num [exampleDem]
  · intro q hq
    rw [hw]
    simp only [List.mem_cons, List.not_mem_nil, or_false] at hq
    rcases hq with rfl | rfl | rfl <;> norm_num [Spec.AwayFromEdge, exampleDem]

/-- Refutation: a line around a triangle inside one cell is fitted exactly by a horizontal plane, with no errors,
however steep the elevation model is. -/
theorem C209_short_line_false (svd : SvdFn) (hs : svd.Valid) (m : Mask) (d : Raster) (T I : Affine)
    (hI : T.inv = .ok I) (g : ℝ × ℝ) (gs : List (ℝ × ℝ)) (r c : ℤ)
    (h : ∀ q ∈ g :: gs, ((r : ℝ) < (I.app q).2 ∧ (I.app q).2 < r + 1) ∧ (c : ℝ) < (I.app q).1 ∧ (I.app q).1 < c + 1)
    (z : ℝ) (hz : d.px r c = .val z) (q₁ q₂ q₃ : ℝ × ℝ) (h₁ : q₁ ∈ g :: gs) (h₂ : q₂ ∈ g :: gs) (h₃ : q₃ ∈ g :: gs)
    (ht : Spec.Triangle q₁ q₂ q₃) :
    ∃ out, extractShape id 0 m ((g :: gs).map fun g => (g.1, g.2, none)) d T = .ok out ∧
      Spec.FitsExactly svd out 0 0 := by
  obtain ⟨o, ho, -, hzo⟩ := C80_one_cell_false d T I hI g gs r c h
  obtain ⟨o', ho', hxy⟩ := C80_coordinates d T I hI (g :: gs) (by simp)
  rw [ho] at ho'
  cases ho'
  rw [hz] at hzo
  have hfin : ∀ row ∈ o.map toRow, Spec.Finite row := by
    intro row hrow
    obtain ⟨w, hw, rfl⟩ := List.mem_map.1 hrow
    intro j
    simp only [toRow, hzo w hw, Pixel.filled]
    fin_cases j <;> simp
  have hmem : ∀ q ∈ g :: gs, ![some q.1, some q.2, some z] ∈ o.map toRow := by
    intro q hq
    rw [← hxy] at hq
    obtain ⟨w, hw, rfl⟩ := List.mem_map.1 hq
    refine List.mem_map.2 ⟨w, hw, ?_⟩
    simp only [toRow, hzo w hw, Pixel.filled]
  refine ⟨o.map toRow, ?_, ?_⟩
  · simp only [extractShape, if_true, ho, bind, Except.bind]
    congr 1
    exact (C77_idempotent _).2 hfin
  · refine fits_surface svd hs _ 0 0 z (fun row h j => hfin row h j) ?_ q₁ q₂ q₃ ht z z z (hmem _ h₁) (hmem _ h₂)
      (hmem _ h₃)
    intro row hrow x y w e
    obtain ⟨w', hw, rfl⟩ := List.mem_map.1 hrow
    simp only [toRow, hzo w' hw, Pixel.filled] at e
    have e2 := congrFun e 2
    simp at e2
    rw [← e2]
    ring

/-- A triangle in a cell of a model that dips about 66 degrees. -/
example : ∃ (svd : SvdFn), svd.Valid ∧ ∃ out,
    extractShape id 0 ⟨4, 4, fun _ _ => false⟩ ([((12.2 : ℝ), (17.8 : ℝ)), (13.6, 17.6), (13, 16.4)].map
      fun g => (g.1, g.2, none)) exampleDem ⟨2, 0, 10, 0, -2, 20⟩ = .ok out ∧ Spec.FitsExactly svd out 0 0 := by
  obtain ⟨svd, hs⟩ := exists_valid_svd
  refine ⟨svd, hs, C209_short_line_false svd hs _ exampleDem _ _ exampleDem_inv (12.2, 17.8) [(13.6, 17.6), (13, 16.4)]
    1 1 ?_ _ rfl (12.2, 17.8) (13.6, 17.6) (13, 16.4) (by simp) (by simp) (by simp) (by norm_num [Spec.Triangle])⟩
  intro q hq
  simp only [List.mem_cons, List.not_mem_nil, or_false] at hq
  rcases hq with rfl | rfl | rfl <;> norm_num [Affine.app]

end Attitude.Props
