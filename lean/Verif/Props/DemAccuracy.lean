import Verif.Props.DemFit
import Verif.Props.Outlier
import Verif.Props.Stability

/-!
# C218: fits of an elevation model with errors
-/

namespace Attitude.Props

open Attitude Dem Pca Matrix

/-! ## Specification -/

/-- The upward unit normal of the surface `z = α x + β y + γ`. -/
noncomputable def Spec.surfaceNormal (α β : ℝ) : Vec 3 :=
  fun j => ![-α, -β, 1] j / Real.sqrt (α ^ 2 + β ^ 2 + 1)

/-! ## Helper lemmas -/

lemma wide_spec {n : ℕ} {a : Fin n → Vec 3} {w : ℝ} (hw : 0 < w) (h : Spec.WideInPlan a w) :
    ¬ Spec.CollinearInPlan a ∧ 3 ≤ n := by
  have hcol : ¬ Spec.CollinearInPlan a := by
    rintro ⟨p, q, t, hpq, hl⟩
    have := h p q
    have hpos : 0 < p ^ 2 + q ^ 2 := by
      rcases hpq with h | h <;> positivity
    have hz : ∑ i, (p * (a i 0 - (∑ k, a k 0) / n) + q * (a i 1 - (∑ k, a k 1) / n)) ^ 2 = 0 := by
      apply Finset.sum_eq_zero
      intro i _
      have hn : (n : ℝ) ≠ 0 := by
        have : n ≠ 0 := by rintro rfl; exact i.elim0
        exact_mod_cast this
      have e : p * ∑ k, a k 0 + q * ∑ k, a k 1 = n * t := by
        rw [Finset.mul_sum, Finset.mul_sum, ← Finset.sum_add_distrib, Finset.sum_congr rfl fun k _ => hl k]
        simp
      have : p * (a i 0 - (∑ k, a k 0) / n) + q * (a i 1 - (∑ k, a k 1) / n) = 0 := by
        field_simp
        linear_combination (n : ℝ) * hl i - e
      rw [this]
      ring
    rw [hz] at this
    have := mul_pos (pow_pos hw 2) hpos
    linarith
  refine ⟨hcol, ?_⟩
  by_contra hlt
  apply hcol
  have : n = 0 ∨ n = 1 ∨ n = 2 := by omega
  rcases this with rfl | rfl | rfl
  · exact ⟨1, 0, 0, Or.inl one_ne_zero, fun i => i.elim0⟩
  · refine ⟨1, 0, a 0 0, Or.inl one_ne_zero, fun i => ?_⟩
    fin_cases i
    simp
  · by_cases h0 : a 0 1 = a 1 1 ∧ a 0 0 = a 1 0
    · refine ⟨1, 0, a 0 0, Or.inl one_ne_zero, fun i => ?_⟩
      fin_cases i <;> simp [h0.2]
    · refine ⟨a 0 1 - a 1 1, a 1 0 - a 0 0, (a 0 1 - a 1 1) * a 0 0 + (a 1 0 - a 0 0) * a 0 1, ?_, fun i => ?_⟩
      · by_contra hc
        push Not at hc
        exact h0 ⟨by linarith [hc.1], by linarith [hc.2]⟩
      · fin_cases i
        · simp
        · simp
          ring

lemma surfaceNormal_norm (α β : ℝ) : norm (Spec.surfaceNormal α β) = 1 := by
  have hk : 0 < α ^ 2 + β ^ 2 + 1 := by positivity
  rw [norm3, Real.sqrt_eq_one]
  simp only [Spec.surfaceNormal, Matrix.cons_val_zero, Matrix.cons_val_one, Matrix.cons_val, div_pow, Real.sq_sqrt hk.le]
  field_simp

/-- The points of a surface at the same positions. -/
def onSurface {n : ℕ} (a : Fin n → Vec 3) (α β γ : ℝ) : Fin n → Vec 3 :=
  fun i => ![a i 0, a i 1, α * a i 0 + β * a i 1 + γ]

lemma onSurface_plane {n : ℕ} (a : Fin n → Vec 3) (α β γ : ℝ) :
    ∀ i, Spec.OnPlane (Spec.surfaceNormal α β) (γ / Real.sqrt (α ^ 2 + β ^ 2 + 1)) (onSurface a α β γ i) := by
  intro i
  have hk : 0 < Real.sqrt (α ^ 2 + β ^ 2 + 1) := Real.sqrt_pos.2 (by positivity)
  simp only [Spec.OnPlane, Spec.surfaceNormal, onSurface, Matrix.cons_val_zero, Matrix.cons_val_one, Matrix.cons_val]
  field_simp
  ring

lemma onSurface_wide {n : ℕ} {a : Fin n → Vec 3} {w : ℝ} (h : Spec.WideInPlan a w) (α β γ : ℝ) :
    Spec.WideInPlan (onSurface a α β γ) w := by
  intro u v
  simpa [onSurface] using h u v

/-- The fit of points of a surface: its normal is that of the surface, and the second singular value is at least the
extent in map view. -/
lemma onSurface_fit {n : ℕ} {a : Fin n → Vec 3} {w : ℝ} (hw : 0 < w) (h : Spec.WideInPlan a w) (α β γ : ℝ)
    {svd : SvdFn} (hs : svd.Valid) {f : Fit n} (hf : init svd (onSurface a α β γ) none none = .ok (some f)) :
    f.normal = Spec.surfaceNormal α β ∧ w ≤ f.s 1 := by
  obtain ⟨U, hF⟩ := init_default hs hf
  have hn : (n : ℝ) ≠ 0 := by
    have : n ≠ 0 := by have := hF.size; omega
    exact_mod_cast this
  have hA : ∀ v : Vec 3, ∑ i, (Matrix.of (Coordinates.centered (onSurface a α β γ)) *ᵥ v) i ^ 2 =
      ∑ i, ((v 0 + α * v 2) * (a i 0 - (∑ k, a k 0) / n) + (v 1 + β * v 2) * (a i 1 - (∑ k, a k 1) / n)) ^ 2 := by
    intro v
    refine Finset.sum_congr rfl fun i _ => ?_
    congr 1
    have e : ∑ k, (α * a k 0 + β * a k 1 + γ) = α * ∑ k, a k 0 + β * ∑ k, a k 1 + n * γ := by
      rw [Finset.sum_add_distrib, Finset.sum_add_distrib, Finset.mul_sum, Finset.mul_sum]
      simp
    simp only [Matrix.mulVec, dotProduct, Matrix.of_apply, Coordinates.centered, meanRows, onSurface, Fin.sum_univ_three,
      Matrix.cons_val_zero, Matrix.cons_val_one, Matrix.cons_val, e]
    field_simp
    ring
  have hlow : ∀ v : Vec 3, w ^ 2 * ((v 0 + α * v 2) ^ 2 + (v 1 + β * v 2) ^ 2) ≤
      ∑ i, (Matrix.of (Coordinates.centered (onSurface a α β γ)) *ᵥ v) i ^ 2 := by
    intro v
    rw [hA]
    exact h _ _
  have hw2 : 0 < w ^ 2 := by positivity
  have s2 : f.s 2 = 0 := (coplanar_iff hs hf).1 ⟨_, _, surfaceNormal_norm α β, onSurface_plane a α β γ⟩
  have h2 := hlow (f.V 2)
  rw [hF.svd.sum_sq_row 2, s2] at h2
  have hz : (f.V 2 0 + α * f.V 2 2) ^ 2 + (f.V 2 1 + β * f.V 2 2) ^ 2 ≤ 0 := by
    by_contra hc
    push Not at hc
    have := mul_pos hw2 hc
    norm_num at h2
    linarith
  have p0 : f.V 2 0 = -α * f.V 2 2 := by
    have : (f.V 2 0 + α * f.V 2 2) ^ 2 = 0 := by
      nlinarith [sq_nonneg (f.V 2 0 + α * f.V 2 2), sq_nonneg (f.V 2 1 + β * f.V 2 2)]
    have := pow_eq_zero_iff two_ne_zero |>.1 this
    linarith
  have p1 : f.V 2 1 = -β * f.V 2 2 := by
    have : (f.V 2 1 + β * f.V 2 2) ^ 2 = 0 := by
      nlinarith [sq_nonneg (f.V 2 0 + α * f.V 2 2), sq_nonneg (f.V 2 1 + β * f.V 2 2)]
    have := pow_eq_zero_iff two_ne_zero |>.1 this
    linarith
  have hk : 0 < α ^ 2 + β ^ 2 + 1 := by positivity
  set κ := Real.sqrt (α ^ 2 + β ^ 2 + 1) with hκ
  have hκ0 : 0 < κ := Real.sqrt_pos.2 hk
  have hκ2 : κ ^ 2 = α ^ 2 + β ^ 2 + 1 := Real.sq_sqrt hk.le
  constructor
  · have n0 : f.normal 0 = -α * f.normal 2 ∧ f.normal 1 = -β * f.normal 2 := by
      rw [hF.normal]
      rcases upward_eq (f.V 2) with e | e
      · rw [e]
        exact ⟨p0, p1⟩
      · rw [e]
        constructor
        · show -f.V 2 0 = -α * -f.V 2 2
          linarith
        · show -f.V 2 1 = -β * -f.V 2 2
          linarith
    have hup : 0 ≤ f.normal 2 := by rw [hF.normal]; exact upward_nonneg _
    have hu := normal_unit hF
    rw [norm3, Real.sqrt_eq_one, n0.1, n0.2] at hu
    have n2 : f.normal 2 = 1 / κ := by
      rw [eq_div_iff hκ0.ne']
      have : (f.normal 2 * κ) ^ 2 = 1 := by rw [mul_pow, hκ2]; linarith
      have hpos : 0 ≤ f.normal 2 * κ := by positivity
      nlinarith
    funext j
    fin_cases j
    · simp only [Spec.surfaceNormal, ← hκ]
      rw [show f.normal ((fun i => i) ⟨0, by norm_num⟩) = f.normal 0 from rfl, n0.1, n2]
      simp
      ring
    · simp only [Spec.surfaceNormal, ← hκ]
      rw [show f.normal ((fun i => i) ⟨1, by norm_num⟩) = f.normal 1 from rfl, n0.2, n2]
      simp
      ring
    · simp only [Spec.surfaceNormal, ← hκ]
      rw [show f.normal ((fun i => i) ⟨2, by norm_num⟩) = f.normal 2 from rfl, n2]
      simp
  · have h1 := hlow (f.V 1)
    rw [hF.svd.sum_sq_row 1] at h1
    have u1 := row_sq hF.svd 1
    rw [Fin.sum_univ_three] at u1
    have o := hF.svd.row_dot 1 2
    rw [vdot3, p0, p1] at o
    have hv22 : f.V 2 2 ≠ 0 := by
      intro h0
      have u2 := row_sq hF.svd 2
      rw [Fin.sum_univ_three, p0, p1, h0] at u2
      norm_num at u2
    have hr : f.V 1 2 = α * f.V 1 0 + β * f.V 1 1 := by
      have : (f.V 1 2 - (α * f.V 1 0 + β * f.V 1 1)) * f.V 2 2 = 0 := by
        rw [if_neg (by decide)] at o
        linarith
      have := (mul_eq_zero.1 this).resolve_right hv22
      linarith
    have hone : 1 ≤ (f.V 1 0 + α * f.V 1 2) ^ 2 + (f.V 1 1 + β * f.V 1 2) ^ 2 := by
      have e : (f.V 1 0 + α * f.V 1 2) ^ 2 + (f.V 1 1 + β * f.V 1 2) ^ 2 =
          f.V 1 0 ^ 2 + f.V 1 1 ^ 2 + f.V 1 2 ^ 2 + f.V 1 2 ^ 2 * (1 + α ^ 2 + β ^ 2)
            + 2 * f.V 1 2 * (α * f.V 1 0 + β * f.V 1 1 - f.V 1 2) := by ring
      rw [e, u1, ← hr]
      nlinarith [mul_nonneg (sq_nonneg (f.V 1 2)) (by positivity : 0 ≤ 1 + α ^ 2 + β ^ 2)]
    have : w ^ 2 ≤ f.s 1 ^ 2 := by nlinarith
    exact le_of_sq_le_sq this (hF.svd.nonneg' 1)

/-- The fits of points within `ε` of a surface. -/
lemma near_surface {n : ℕ} {a : Fin n → Vec 3} {w : ℝ} (hw : 0 < w) (h : Spec.WideInPlan a w) {α β γ ε : ℝ}
    (hε : ∀ i, |a i 2 - (α * a i 0 + β * a i 1 + γ)| ≤ ε) {svd : SvdFn} (hs : svd.Valid) :
    (∃ o, Linear.linearOrientation a = .ok o ∧
      w ^ 2 * (((Spec.descent (Linear.strikeDip o)).1 + α) ^ 2 + ((Spec.descent (Linear.strikeDip o)).2 + β) ^ 2)
        ≤ n * ε ^ 2) ∧
    ∃ f, init svd a none none = .ok (some f) ∧
      w * Spec.sineBetween (Spec.surfaceNormal α β) f.normal ≤ 2 * (Real.sqrt n * ε) := by
  obtain ⟨hcol, hn⟩ := wide_spec hw h
  have hn0 : n ≠ 0 := by omega
  have hε0 : 0 ≤ ε := (abs_nonneg _).trans (hε ⟨0, by omega⟩)
  have hsum : ∑ i, (a i 2 - (α * a i 0 + β * a i 1 + γ)) ^ 2 ≤ n * ε ^ 2 := by
    calc ∑ i, (a i 2 - (α * a i 0 + β * a i 1 + γ)) ^ 2 ≤ ∑ _i : Fin n, ε ^ 2 := by
          refine Finset.sum_le_sum fun i _ => ?_
          exact sq_le_sq' (by linarith [abs_le.1 (hε i)]) (abs_le.1 (hε i)).2
      _ = n * ε ^ 2 := by simp
  constructor
  · obtain ⟨o, ho⟩ := linearOrientation_exists hn0 hcol
    have hwb := onSurface_wide h α β γ
    obtain ⟨o', ho'⟩ := linearOrientation_exists hn0 (wide_spec hw hwb).1
    obtain ⟨r, c, hr, hc, -⟩ := linearOrientation_ok ho'
    have hcc : c 0 = α ∧ c 1 = β := by
      obtain ⟨-, hmin, huniq⟩ := C31_least_squares _ r hr c hc
      have hz : Spec.verticalSquares (onSurface a α β γ) α β γ = 0 := by
        unfold Spec.verticalSquares
        apply Finset.sum_eq_zero
        intro i _
        simp [onSurface]
      have hge : 0 ≤ Spec.verticalSquares (onSurface a α β γ) (c 0) (c 1) (Spec.intercept (onSurface a α β γ) (c 0) (c 1)) :=
        Finset.sum_nonneg fun i _ => sq_nonneg _
      have hle := hmin α β γ
      obtain ⟨e0, e1, -⟩ := huniq α β γ (by linarith)
      exact ⟨e0.symm, e1.symm⟩
    have hd := descent_eq ho' hr hc
    have key := C211_small_errors (onSurface a α β γ) a (fun i => by simp [onSurface]) w hwb o' o ho' ho
    rw [hd, hcc.1, hcc.2] at key
    refine ⟨o, ho, ?_⟩
    simp only [sub_neg_eq_add] at key
    refine key.trans (le_trans (le_of_eq ?_) hsum)
    exact Finset.sum_congr rfl fun i _ => by simp [onSurface]
  · obtain ⟨f, hf⟩ := init_default_exists svd hn a
    obtain ⟨g, hg⟩ := init_default_exists svd hn (onSurface a α β γ)
    obtain ⟨hgn, hgs⟩ := onSurface_fit hw h α β γ hs hg
    refine ⟨f, hf, ?_⟩
    have key := C196_exact svd hs _ a g f hg hf ⟨_, _, surfaceNormal_norm α β, onSurface_plane a α β γ⟩
    rw [hgn] at key
    have hdisp : Spec.displacement (onSurface a α β γ) a ≤ Real.sqrt n * ε := by
      rw [Spec.displacement, ← Real.sqrt_sq hε0, ← Real.sqrt_mul (by positivity)]
      apply Real.sqrt_le_sqrt
      refine le_trans (le_of_eq ?_) hsum
      refine Finset.sum_congr rfl fun i _ => ?_
      simp [onSurface]
      ring
    have hsn : 0 ≤ Spec.sineBetween (Spec.surfaceNormal α β) f.normal := Real.sqrt_nonneg _
    have := mul_le_mul_of_nonneg_right hgs hsn
    linarith

/-! ## C218 -/

/-- An area of an elevation model whose elevations are within `ε` of a plane: the regression has the descent of the plane
up to `ε √n / w`, and the principal components its normal up to an angle whose sine is `2 ε √n / w`, where `w` is the
extent of the `n` valid cells in map view. -/
theorem C218_area (svd : SvdFn) (hs : svd.Valid) (sub : List (ℝ × ℝ) → List (ℝ × ℝ)) (area : ℝ) (ha : area ≠ 0)
    (m : Mask) (geom : List (ℝ × ℝ × Option ℝ)) (d : Raster) (T : Affine) (α β γ ε : ℝ)
    (hpl : ∀ r c z, Spec.TrueCell m r c → d.px r c = .val z →
      |z - (α * (T.app (c + 1 / 2, r + 1 / 2)).1 + β * (T.app (c + 1 / 2, r + 1 / 2)).2 + γ)| ≤ ε) :
    ∃ l a, extractShape sub area m geom d T = .ok l ∧ Spec.Rows l a ∧ ∀ w > 0, Spec.WideInPlan a w →
      (∃ o, Linear.linearOrientation a = .ok o ∧
        w ^ 2 * (((Spec.descent (Linear.strikeDip o)).1 + α) ^ 2 + ((Spec.descent (Linear.strikeDip o)).2 + β) ^ 2)
          ≤ l.length * ε ^ 2) ∧
      ∃ f, init svd a none none = .ok (some f) ∧
        w * Spec.sineBetween (Spec.surfaceNormal α β) f.normal ≤ 2 * (Real.sqrt l.length * ε) := by
  obtain ⟨l, hl, hrow⟩ := C79_extract_shape sub area ha m geom d T
  obtain ⟨a, hrows⟩ := rows_exist l (by
    intro row h j
    obtain ⟨r, c, z, -, -, rfl⟩ := (hrow row).1 h
    fin_cases j <;> simp)
  refine ⟨l, a, hl, hrows, fun w hw hwide => near_surface hw hwide (γ := γ) (fun i => ?_) hs⟩
  obtain ⟨r, c, z, ht, hz, e⟩ := (hrow _).1 (l.get_mem i)
  have e0 := hrows i 0
  have e1 := hrows i 1
  have e2 := hrows i 2
  rw [e] at e0 e1 e2
  simp at e0 e1 e2
  have := hpl r c z ht hz
  rw [← e0, ← e1, ← e2]
  simpa using this

/-- The mask is a block of `h` rows and `w` columns, with values in all of its cells. -/
structure Spec.IsBlock (m : Mask) (d : Raster) (r₀ h c₀ w : ℕ) : Prop where
  rows : r₀ + h ≤ m.rows
  cols : c₀ + w ≤ m.cols
  inside : ∀ r c, r < m.rows → c < m.cols → (m.get r c = true ↔ (r₀ ≤ r ∧ r < r₀ + h) ∧ c₀ ≤ c ∧ c < c₀ + w)
  valid : ∀ r c, (r₀ ≤ r ∧ r < r₀ + h) → (c₀ ≤ c ∧ c < c₀ + w) → ∃ z, d.px r c = .val z

lemma block_list {m : Mask} {d : Raster} {r₀ h c₀ w : ℕ} (hb : Spec.IsBlock m d r₀ h c₀ w) (T : Affine) :
    ∃ z : ℕ → ℕ → ℝ, Spec.area m d T = (List.range h).flatMap fun i => (List.range w).map fun j =>
      ((T.app (((c₀ + j : ℕ) : ℝ) + 1 / 2, ((r₀ + i : ℕ) : ℝ) + 1 / 2)).1,
        (T.app (((c₀ + j : ℕ) : ℝ) + 1 / 2, ((r₀ + i : ℕ) : ℝ) + 1 / 2)).2, some (z i j)) := by
  have hv : ∀ i j, ∃ z, i < h → j < w → d.px ((r₀ + i : ℕ) : ℤ) ((c₀ + j : ℕ) : ℤ) = .val z := by
    intro i j
    by_cases hij : i < h ∧ j < w
    · obtain ⟨z, hz⟩ := hb.valid (r₀ + i) (c₀ + j) ⟨by omega, by omega⟩ ⟨by omega, by omega⟩
      exact ⟨z, fun _ _ => hz⟩
    · exact ⟨0, fun h1 h2 => absurd ⟨h1, h2⟩ hij⟩
  choose z hz using hv
  refine ⟨z, ?_⟩
  have hout : ∀ r < m.rows, ∀ c < m.cols,
      ¬ ((r₀ ≤ r ∧ r < r₀ + h) ∧ c₀ ≤ c ∧ c < c₀ + w) → Spec.cell m d T r c = [] := by
    intro r h1 c h2 hn
    have : ¬ m.get r c = true := fun ht => hn ((hb.inside r c h1 h2).1 ht)
    simp [Spec.cell, this]
  unfold Spec.area
  rw [flatMap_window _ hb.rows]
  · apply List.flatMap_congr
    intro i hi
    have hi' := List.mem_range.1 hi
    have hr := hb.rows
    rw [flatMap_window _ hb.cols fun c h2 hn => hout _ (by omega) c h2 (by omega), List.map_eq_flatMap]
    apply List.flatMap_congr
    intro j hj
    have hj' := List.mem_range.1 hj
    have hc := hb.cols
    have ht := (hb.inside (r₀ + i) (c₀ + j) (by omega) (by omega)).2 ⟨⟨by omega, by omega⟩, by omega, by omega⟩
    simp only [Spec.cell, ht, if_true, hz i j hi' hj']
  · intro r h1 hn
    rw [List.flatMap_eq_nil_iff]
    intro c h2
    exact hout r h1 c (List.mem_range.1 h2) (by omega)

lemma sum_rows {l : List (Fin 3 → Option ℝ)} {a : Fin l.length → Vec 3} (h : Spec.Rows l a) (F : Vec 3 → ℝ) :
    ∑ i, F (a i) = (l.map fun row => F fun j => (row j).getD 0).sum := by
  have e : ∀ i, F (a i) = (fun row : Fin 3 → Option ℝ => F fun j => (row j).getD 0) (l.get i) := by
    intro i
    simp only
    congr 1
    funext j
    rw [h i j, Option.getD_some]
  rw [Finset.sum_congr rfl fun i _ => e i, ← List.sum_ofFn]
  congr 1
  have := List.map_ofFn (f := l.get) (g := fun row : Fin 3 → Option ℝ => F fun j => (row j).getD 0)
  rw [List.ofFn_get] at this
  exact this.symm

lemma sum_range_map (n : ℕ) (g : ℕ → ℝ) : ((List.range n).map g).sum = ∑ i ∈ Finset.range n, g i := by
  induction n with
  | zero => simp
  | succ n ih => simp [List.range_succ, Finset.sum_range_succ, ih]

lemma sum_range_flatMap {β : Type*} (n : ℕ) (g : ℕ → List β) (F : β → ℝ) :
    (((List.range n).flatMap g).map F).sum = ∑ i ∈ Finset.range n, ((g i).map F).sum := by
  induction n with
  | zero => simp
  | succ n ih => simp [List.range_succ, Finset.sum_range_succ, List.flatMap_append, ih]

lemma sum_index (w : ℕ) : ∑ j ∈ Finset.range w, (j : ℝ) = w * (w - 1) / 2 := by
  induction w with
  | zero => simp
  | succ n ih =>
    rw [Finset.sum_range_succ, ih]
    push_cast
    ring

lemma sum_index_sq (w : ℕ) : ∑ j ∈ Finset.range w, (j : ℝ) ^ 2 = w * (w - 1) * (2 * w - 1) / 6 := by
  induction w with
  | zero => simp
  | succ n ih =>
    rw [Finset.sum_range_succ, ih]
    push_cast
    ring

/-- The moments of the positions of a block. -/
lemma block_moments (h w : ℕ) (A B : ℝ) :
    ∑ i ∈ Finset.range h, ∑ j ∈ Finset.range w,
      (A * (j - ((w : ℝ) - 1) / 2) + B * (i - ((h : ℝ) - 1) / 2)) ^ 2 =
      A ^ 2 * (h * (w * ((w : ℝ) ^ 2 - 1) / 12)) + B ^ 2 * (w * (h * ((h : ℝ) ^ 2 - 1) / 12)) := by
  have e : ∀ i : ℕ, ∑ j ∈ Finset.range w, (A * (j - ((w : ℝ) - 1) / 2) + B * (i - ((h : ℝ) - 1) / 2)) ^ 2 =
      A ^ 2 * (w * ((w : ℝ) ^ 2 - 1) / 12) + w * B ^ 2 * (i - ((h : ℝ) - 1) / 2) ^ 2 := by
    intro i
    have : ∀ j : ℕ, (A * ((j : ℝ) - ((w : ℝ) - 1) / 2) + B * (i - ((h : ℝ) - 1) / 2)) ^ 2 =
        A ^ 2 * (j : ℝ) ^ 2 + (2 * A * (B * (i - ((h : ℝ) - 1) / 2)) - A ^ 2 * ((w : ℝ) - 1)) * j
          + (A * ((w : ℝ) - 1) / 2 - B * (i - ((h : ℝ) - 1) / 2)) ^ 2 := by
      intro j
      ring
    rw [Finset.sum_congr rfl fun j _ => this j, Finset.sum_add_distrib, Finset.sum_add_distrib, ← Finset.mul_sum,
      ← Finset.mul_sum, sum_index, sum_index_sq, Finset.sum_const, Finset.card_range, nsmul_eq_mul]
    ring
  rw [Finset.sum_congr rfl fun i _ => e i]
  have : ∀ i : ℕ, A ^ 2 * (w * ((w : ℝ) ^ 2 - 1) / 12) + w * B ^ 2 * ((i : ℝ) - ((h : ℝ) - 1) / 2) ^ 2 =
      w * B ^ 2 * (i : ℝ) ^ 2 + (-(w * B ^ 2 * ((h : ℝ) - 1))) * i
        + (A ^ 2 * (w * ((w : ℝ) ^ 2 - 1) / 12) + w * B ^ 2 * (((h : ℝ) - 1) / 2) ^ 2) := by
    intro i
    ring
  rw [Finset.sum_congr rfl fun i _ => this i, Finset.sum_add_distrib, Finset.sum_add_distrib, ← Finset.mul_sum,
    ← Finset.mul_sum, sum_index, sum_index_sq, Finset.sum_const, Finset.card_range, nsmul_eq_mul]
  ring

/-- The points of a block of cells. -/
noncomputable def blockRows (T : Affine) (r₀ h c₀ w : ℕ) (z : ℕ → ℕ → ℝ) : List (Fin 3 → Option ℝ) :=
  ((List.range h).flatMap fun i => (List.range w).map fun j =>
      ((T.app (((c₀ + j : ℕ) : ℝ) + 1 / 2, ((r₀ + i : ℕ) : ℝ) + 1 / 2)).1,
        (T.app (((c₀ + j : ℕ) : ℝ) + 1 / 2, ((r₀ + i : ℕ) : ℝ) + 1 / 2)).2, some (z i j))).map toRow

lemma blockRows_sum (T : Affine) (r₀ h c₀ w : ℕ) (z : ℕ → ℕ → ℝ) {a : Fin (blockRows T r₀ h c₀ w z).length → Vec 3}
    (ha : Spec.Rows (blockRows T r₀ h c₀ w z) a) (F : Vec 3 → ℝ) :
    ∑ i, F (a i) = ∑ i ∈ Finset.range h, ∑ j ∈ Finset.range w,
      F ![(T.app (((c₀ + j : ℕ) : ℝ) + 1 / 2, ((r₀ + i : ℕ) : ℝ) + 1 / 2)).1,
        (T.app (((c₀ + j : ℕ) : ℝ) + 1 / 2, ((r₀ + i : ℕ) : ℝ) + 1 / 2)).2, z i j] := by
  rw [sum_rows ha, blockRows, List.map_map, sum_range_flatMap]
  refine Finset.sum_congr rfl fun i _ => ?_
  rw [List.map_map, sum_range_map]
  refine Finset.sum_congr rfl fun j _ => ?_
  simp only [Function.comp, toRow]
  congr 1
  funext k
  fin_cases k <;> simp

lemma blockRows_length (T : Affine) (r₀ h c₀ w : ℕ) (z : ℕ → ℕ → ℝ) : (blockRows T r₀ h c₀ w z).length = h * w := by
  simp [blockRows, List.length_flatMap]

lemma block_wide (T : Affine) (r₀ h c₀ w : ℕ) (z : ℕ → ℕ → ℝ) {p : ℝ} (hb : T.b = 0) (hd : T.d = 0) (hTa : T.a ^ 2 = p ^ 2)
    (hTe : T.e ^ 2 = p ^ 2) (hh : 2 ≤ h) (hw : 2 ≤ w) {a : Fin (blockRows T r₀ h c₀ w z).length → Vec 3}
    (ha : Spec.Rows (blockRows T r₀ h c₀ w z) a) :
    Spec.WideInPlan a (Real.sqrt (p ^ 2 * (h * w * (((min h w : ℕ) : ℝ) ^ 2 - 1) / 12))) := by
  have hh' : (2 : ℝ) ≤ h := by exact_mod_cast hh
  have hw' : (2 : ℝ) ≤ w := by exact_mod_cast hw
  set k : ℝ := ((min h w : ℕ) : ℝ) with hk
  have hkh : k ≤ h := by rw [hk]; exact_mod_cast min_le_left _ _
  have hkw : k ≤ w := by rw [hk]; exact_mod_cast min_le_right _ _
  have hk2 : 2 ≤ k := by rw [hk]; exact_mod_cast le_min hh hw
  intro u v
  have n0 : ((blockRows T r₀ h c₀ w z).length : ℝ) = h * w := by rw [blockRows_length]; push_cast; rfl
  have m0 : (∑ i, a i 0) / ((blockRows T r₀ h c₀ w z).length : ℝ) = T.a * (c₀ + (w : ℝ) / 2) + T.c := by
    rw [n0, blockRows_sum T r₀ h c₀ w z ha fun x => x 0]
    have e : ∀ i j : ℕ, (![(T.app (((c₀ + j : ℕ) : ℝ) + 1 / 2, ((r₀ + i : ℕ) : ℝ) + 1 / 2)).1,
        (T.app (((c₀ + j : ℕ) : ℝ) + 1 / 2, ((r₀ + i : ℕ) : ℝ) + 1 / 2)).2, z i j] : Vec 3) 0
        = T.a * j + (T.a * (c₀ + 1 / 2) + T.c) := by
      intro i j
      simp [Affine.app, hb]
      ring
    rw [Finset.sum_congr rfl fun i _ => Finset.sum_congr rfl fun j _ => e i j]
    simp only [Finset.sum_add_distrib, ← Finset.mul_sum, sum_index, Finset.sum_const, Finset.card_range, nsmul_eq_mul]
    field_simp
    ring
  have m1 : (∑ i, a i 1) / ((blockRows T r₀ h c₀ w z).length : ℝ) = T.e * (r₀ + (h : ℝ) / 2) + T.f := by
    rw [n0, blockRows_sum T r₀ h c₀ w z ha fun x => x 1]
    have e : ∀ i j : ℕ, (![(T.app (((c₀ + j : ℕ) : ℝ) + 1 / 2, ((r₀ + i : ℕ) : ℝ) + 1 / 2)).1,
        (T.app (((c₀ + j : ℕ) : ℝ) + 1 / 2, ((r₀ + i : ℕ) : ℝ) + 1 / 2)).2, z i j] : Vec 3) 1
        = T.e * i + (T.e * (r₀ + 1 / 2) + T.f) := by
      intro i j
      simp [Affine.app, hd]
      ring
    rw [Finset.sum_congr rfl fun i _ => Finset.sum_congr rfl fun j _ => e i j]
    simp only [Finset.sum_const, Finset.card_range, nsmul_eq_mul, Finset.sum_add_distrib, ← Finset.mul_sum, sum_index]
    field_simp
    ring
  rw [m0, m1, blockRows_sum T r₀ h c₀ w z ha fun x => (u * (x 0 - (T.a * (c₀ + (w : ℝ) / 2) + T.c)) +
    v * (x 1 - (T.e * (r₀ + (h : ℝ) / 2) + T.f))) ^ 2]
  have e : ∀ i j : ℕ, (u * ((![(T.app (((c₀ + j : ℕ) : ℝ) + 1 / 2, ((r₀ + i : ℕ) : ℝ) + 1 / 2)).1,
        (T.app (((c₀ + j : ℕ) : ℝ) + 1 / 2, ((r₀ + i : ℕ) : ℝ) + 1 / 2)).2, z i j] : Vec 3) 0 -
          (T.a * (c₀ + (w : ℝ) / 2) + T.c)) +
      v * ((![(T.app (((c₀ + j : ℕ) : ℝ) + 1 / 2, ((r₀ + i : ℕ) : ℝ) + 1 / 2)).1,
        (T.app (((c₀ + j : ℕ) : ℝ) + 1 / 2, ((r₀ + i : ℕ) : ℝ) + 1 / 2)).2, z i j] : Vec 3) 1 -
          (T.e * (r₀ + (h : ℝ) / 2) + T.f))) ^ 2 =
      (u * T.a * (j - ((w : ℝ) - 1) / 2) + v * T.e * (i - ((h : ℝ) - 1) / 2)) ^ 2 := by
    intro i j
    simp [Affine.app, hb, hd]
    ring
  rw [Finset.sum_congr rfl fun i _ => Finset.sum_congr rfl fun j _ => e i j, block_moments, mul_pow, mul_pow, hTa, hTe]
  have q1 : k ^ 2 - 1 ≤ (w : ℝ) ^ 2 - 1 := by nlinarith
  have q2 : k ^ 2 - 1 ≤ (h : ℝ) ^ 2 - 1 := by nlinarith
  have hk1 : 0 ≤ k ^ 2 - 1 := by nlinarith
  rw [Real.sq_sqrt (by positivity)]
  have c1 : 0 ≤ u ^ 2 * p ^ 2 * (h * w) / 12 := by positivity
  have c2 : 0 ≤ v ^ 2 * p ^ 2 * (h * w) / 12 := by positivity
  have d1 := mul_le_mul_of_nonneg_left q1 c1
  have d2 := mul_le_mul_of_nonneg_left q2 c2
  nlinarith

/-- A block of `h` rows and `w` columns of square cells of size `p`, with elevations within `ε` of a plane: the regression has
the descent of the plane up to `ε √12 / (p √(k² - 1))`, where `k` is the smaller number of cells; the sine of the angle
between the plane and the principal component fit is at most twice that.  The number of cells in the other direction, and the
slope, do not matter. -/
theorem C218_block (svd : SvdFn) (hs : svd.Valid) (sub : List (ℝ × ℝ) → List (ℝ × ℝ)) (area : ℝ) (ha : area ≠ 0)
    (m : Mask) (geom : List (ℝ × ℝ × Option ℝ)) (d : Raster) (T : Affine) (p α β γ ε : ℝ) (r₀ h c₀ w : ℕ)
    (hb : T.b = 0) (hd : T.d = 0) (hp : 0 < p) (hTa : |T.a| = p) (hTe : |T.e| = p) (hh : 2 ≤ h) (hw : 2 ≤ w)
    (hblock : Spec.IsBlock m d r₀ h c₀ w)
    (hpl : ∀ r c z, Spec.TrueCell m r c → d.px r c = .val z →
      |z - (α * (T.app (c + 1 / 2, r + 1 / 2)).1 + β * (T.app (c + 1 / 2, r + 1 / 2)).2 + γ)| ≤ ε) :
    ∃ l a, extractShape sub area m geom d T = .ok l ∧ Spec.Rows l a ∧ l.length = h * w ∧
      (∃ o, Linear.linearOrientation a = .ok o ∧
        p ^ 2 * (((min h w : ℕ) : ℝ) ^ 2 - 1) *
          (((Spec.descent (Linear.strikeDip o)).1 + α) ^ 2 + ((Spec.descent (Linear.strikeDip o)).2 + β) ^ 2)
          ≤ 12 * ε ^ 2) ∧
      ∃ f, init svd a none none = .ok (some f) ∧
        p ^ 2 * (((min h w : ℕ) : ℝ) ^ 2 - 1) * Spec.sineBetween (Spec.surfaceNormal α β) f.normal ^ 2 ≤ 48 * ε ^ 2 := by
  obtain ⟨z, hz⟩ := block_list hblock T
  obtain ⟨l, a, hl, hrows, hall⟩ := C218_area svd hs sub area ha m geom d T α β γ ε hpl
  have hll : l = blockRows T r₀ h c₀ w z := by
    have : extractShape sub area m geom d T = .ok (cleanCoordinates ((Spec.area m d T).map toRow)) := by
      simp [extractShape, ha, bind, Except.bind, C79_extract_area]
    rw [this, hz] at hl
    cases hl
    rw [blockRows, cleanCoordinates, List.filter_eq_self]
    intro row hrow
    simp only [List.mem_map, List.mem_flatMap, List.mem_range] at hrow
    obtain ⟨x, ⟨i, -, j, -, rfl⟩, rfl⟩ := hrow
    have : ¬ ∃ k : Fin 3, ((toRow ((T.app (((c₀ + j : ℕ) : ℝ) + 1 / 2, ((r₀ + i : ℕ) : ℝ) + 1 / 2)).1,
        (T.app (((c₀ + j : ℕ) : ℝ) + 1 / 2, ((r₀ + i : ℕ) : ℝ) + 1 / 2)).2, some (z i j))) k).isNone = true := by
      rintro ⟨k, hk⟩
      fin_cases k <;> simp [toRow] at hk
    rw [decide_eq_false this]
    rfl
  subst hll
  have hwide := block_wide T r₀ h c₀ w z (p := p) hb hd (by rw [← hTa, sq_abs]) (by rw [← hTe, sq_abs]) hh hw hrows
  have hh' : (2 : ℝ) ≤ h := by exact_mod_cast hh
  have hw' : (2 : ℝ) ≤ w := by exact_mod_cast hw
  set k : ℝ := ((min h w : ℕ) : ℝ) with hk
  have hk2 : 2 ≤ k := by rw [hk]; exact_mod_cast le_min hh hw
  have hk1 : 0 < k ^ 2 - 1 := by nlinarith
  have hW : 0 < p ^ 2 * (h * w * (k ^ 2 - 1) / 12) := by positivity
  obtain ⟨⟨o, ho, h1⟩, f, hf, h2⟩ := hall _ (Real.sqrt_pos.2 hW) hwide
  have hn : (0 : ℝ) < h * w := by positivity
  rw [blockRows_length] at h1
  rw [Real.sq_sqrt hW.le] at h1
  push_cast at h1
  refine ⟨_, a, hl, hrows, blockRows_length T r₀ h c₀ w z, ⟨o, ho, ?_⟩, f, hf, ?_⟩
  · apply le_of_mul_le_mul_left _ hn
    linarith
  · have n0 : ((blockRows T r₀ h c₀ w z).length : ℝ) = h * w := by rw [blockRows_length]; push_cast; rfl
    generalize hS : Spec.sineBetween (Spec.surfaceNormal α β) f.normal = S at h2 ⊢
    have hS0 : 0 ≤ S := by rw [← hS]; exact Real.sqrt_nonneg _
    have h3 := pow_le_pow_left₀ (mul_nonneg (Real.sqrt_nonneg _) hS0) h2 2
    rw [mul_pow, Real.sq_sqrt hW.le, mul_pow, mul_pow, n0, Real.sq_sqrt hn.le] at h3
    apply le_of_mul_le_mul_left _ hn
    linarith

/-- A block of two rows and three columns of cells of ten units, of an elevation model that rises to the east, with errors of
a tenth on the diagonal. -/
example : ∃ (svd : SvdFn) (m : Mask) (d : Raster) (T : Affine) (l : List (Fin 3 → Option ℝ)) (a : Fin l.length → Vec 3)
    (o : Linear.LinearOrientation), svd.Valid ∧ extractShape id 1 m [] d T = .ok l ∧ Spec.Rows l a ∧ l.length = 2 * 3 ∧
    Linear.linearOrientation a = .ok o ∧
    300 * (((Spec.descent (Linear.strikeDip o)).1 + 1 / 2) ^ 2 + ((Spec.descent (Linear.strikeDip o)).2 + 0) ^ 2)
      ≤ 12 * (1 / 10) ^ 2 := by
  obtain ⟨svd, hs⟩ := exists_valid_svd
  let m : Mask := ⟨4, 5, fun r c => decide ((1 ≤ r ∧ r < 1 + 2) ∧ 1 ≤ c ∧ c < 1 + 3)⟩
  let d : Raster := ⟨4, 5, fun r c => .val (1 / 2 * ((c + 1 / 2) * 10) + if r = c then 1 / 10 else 0)⟩
  let T : Affine := ⟨10, 0, 0, 0, -10, 0⟩
  obtain ⟨l, a, hl, ha, hn, ⟨o, ho, h⟩, -⟩ := C218_block svd hs id 1 one_ne_zero m [] d T 10 (1 / 2) 0 0 (1 / 10) 1 2 1 3
    rfl rfl (by norm_num) (by simp [T]) (by simp [T]) (by norm_num) (by norm_num)
    ⟨by decide, by decide, fun r c _ _ => by simp only [m, decide_eq_true_eq], fun r c _ _ => ⟨_, rfl⟩⟩ (by
      intro r c z _ hz
      simp only [d, Pixel.val.injEq] at hz
      rw [← hz]
      simp only [T, Affine.app]
      push_cast
      split_ifs
      · norm_num
      · norm_num)
  refine ⟨svd, m, d, T, l, a, o, hs, hl, ha, hn, ho, ?_⟩
  norm_num at h ⊢
  linarith

end Attitude.Props
