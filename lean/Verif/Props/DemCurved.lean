import Verif.Props.DemAccuracy

/-!
# C265: lines digitised on the elevation model of a curved surface
-/

namespace Attitude.Props

open Attitude Dem Pca

/-! ## Specification -/

/-- The surface with the elevation `g` bends by at most `M` per unit of distance in each direction: it departs from a
tangent plane at each point by at most half of `M` times the squared distance. -/
def Spec.Bends (g : ℝ × ℝ → ℝ) (M : ℝ) : Prop :=
  ∃ G : ℝ × ℝ → ℝ × ℝ, ∀ p q, |g q - (g p + (G p).1 * (q.1 - p.1) + (G p).2 * (q.2 - p.2))|
    ≤ M / 2 * ((q.1 - p.1) ^ 2 + (q.2 - p.2) ^ 2)

/-- Every cell of the elevation model has the elevation of the surface at its centre, up to `ε`. -/
def Spec.Samples (d : Raster) (T : Affine) (g : ℝ × ℝ → ℝ) (ε : ℝ) : Prop :=
  ∀ i j : ℤ, 0 ≤ i → i < d.rows → 0 ≤ j → j < d.cols → ∃ z, d.px i j = .val z ∧
    |z - g (T.app (j + 1 / 2, i + 1 / 2))| ≤ ε

/-- The squared width plus the squared height of a cell. -/
def Spec.cellSquare (T : Affine) : ℝ := (T.a ^ 2 + T.d ^ 2) + (T.b ^ 2 + T.e ^ 2)

/-! ## Helper lemmas -/

/-- The weights of the two neighbours along an axis: their mean is the position, their spread at most that of two
neighbours half a cell away. -/
lemma axis_spread {n : ℕ} {x : ℝ} (h0 : 0 ≤ x) (h1 : x ≤ n - 1) (i i' : ℤ) (u : ℝ) (hi : i = ⌊clamp n x⌋)
    (hi' : i' = clampIdx n (i + 1)) (hu : u = clamp n x - i) (u0 : 0 ≤ u) :
    (1 - u) * ((i : ℝ) - x) + u * ((i' : ℝ) - x) = 0 ∧
      (1 - u) * ((i : ℝ) - x) ^ 2 + u * ((i' : ℝ) - x) ^ 2 ≤ 1 / 4 := by
  rw [clamp_of_mem h0 h1] at hi hu
  by_cases hz : u = 0
  · have : (i : ℝ) = x := by rw [hz] at hu; linarith
    rw [hz, this]
    norm_num
  · have hlt : (i : ℝ) < x := by
      have : 0 < u := lt_of_le_of_ne u0 (Ne.symm hz)
      linarith
    have hn : i + 1 ≤ (n : ℤ) - 1 := by
      have : (i : ℝ) < ((n : ℤ) - 1 : ℤ) := by push_cast; linarith
      have := Int.cast_lt.1 this
      omega
    have hi0 : 0 ≤ i := by rw [hi]; exact Int.floor_nonneg.2 h0
    have e : i' = i + 1 := by
      rw [hi']
      unfold clampIdx
      omega
    have ex : x = i + u := by linarith
    rw [e, ex]
    push_cast
    refine ⟨by ring, ?_⟩
    nlinarith [sq_nonneg (u - 1 / 2)]

/-- Interpolation of four values close to a surface that bends. -/
lemma four_values {x x' y y' px py u v A B K₁ K₂ ε g₀ z₁ z₂ z₃ z₄ : ℝ} (u0 : 0 ≤ u) (u1 : u < 1) (v0 : 0 ≤ v) (v1 : v < 1)
    (hx : (1 - u) * (x - px) + u * (x' - px) = 0) (hy : (1 - v) * (y - py) + v * (y' - py) = 0)
    (sx : (1 - u) * (x - px) ^ 2 + u * (x' - px) ^ 2 ≤ 1 / 4) (sy : (1 - v) * (y - py) ^ 2 + v * (y' - py) ^ 2 ≤ 1 / 4)
    (k1 : 0 ≤ K₁) (k2 : 0 ≤ K₂) {C : ℝ}
    (h₁ : |z₁ - (g₀ + A * (x - px) + B * (y - py))| ≤ ε + (K₁ * (x - px) ^ 2 + C * (x - px) * (y - py) + K₂ * (y - py) ^ 2))
    (h₂ : |z₂ - (g₀ + A * (x - px) + B * (y' - py))| ≤ ε + (K₁ * (x - px) ^ 2 + C * (x - px) * (y' - py) + K₂ * (y' - py) ^ 2))
    (h₃ : |z₃ - (g₀ + A * (x' - px) + B * (y - py))| ≤ ε + (K₁ * (x' - px) ^ 2 + C * (x' - px) * (y - py) + K₂ * (y - py) ^ 2))
    (h₄ : |z₄ - (g₀ + A * (x' - px) + B * (y' - py))|
      ≤ ε + (K₁ * (x' - px) ^ 2 + C * (x' - px) * (y' - py) + K₂ * (y' - py) ^ 2)) :
    |z₁ * (1 - u) * (1 - v) + z₂ * (1 - u) * v + z₃ * u * (1 - v) + z₄ * u * v - g₀| ≤ ε + (K₁ + K₂) / 4 := by
  have w1 : 0 ≤ (1 - u) * (1 - v) := mul_nonneg (by linarith) (by linarith)
  have w2 : 0 ≤ (1 - u) * v := mul_nonneg (by linarith) v0
  have w3 : 0 ≤ u * (1 - v) := mul_nonneg u0 (by linarith)
  have w4 : 0 ≤ u * v := mul_nonneg u0 v0
  have bx := mul_le_mul_of_nonneg_left sx k1
  have bY := mul_le_mul_of_nonneg_left sy k2
  rw [abs_le] at h₁ h₂ h₃ h₄ ⊢
  have a1 := mul_le_mul_of_nonneg_left h₁.1 w1
  have a2 := mul_le_mul_of_nonneg_left h₂.1 w2
  have a3 := mul_le_mul_of_nonneg_left h₃.1 w3
  have a4 := mul_le_mul_of_nonneg_left h₄.1 w4
  have b1 := mul_le_mul_of_nonneg_left h₁.2 w1
  have b2 := mul_le_mul_of_nonneg_left h₂.2 w2
  have b3 := mul_le_mul_of_nonneg_left h₃.2 w3
  have b4 := mul_le_mul_of_nonneg_left h₄.2 w4
  set X := x - px
  set X' := x' - px
  set Y := y - py
  set Y' := y' - py
  have q : (1 - u) * (1 - v) * (K₁ * X ^ 2 + C * X * Y + K₂ * Y ^ 2) + (1 - u) * v * (K₁ * X ^ 2 + C * X * Y' + K₂ * Y' ^ 2)
      + u * (1 - v) * (K₁ * X' ^ 2 + C * X' * Y + K₂ * Y ^ 2) + u * v * (K₁ * X' ^ 2 + C * X' * Y' + K₂ * Y' ^ 2)
      = K₁ * ((1 - u) * X ^ 2 + u * X' ^ 2) + K₂ * ((1 - v) * Y ^ 2 + v * Y' ^ 2) := by
    linear_combination (C * ((1 - v) * Y + v * Y')) * hx
  have l : (1 - u) * (1 - v) * (g₀ + A * X + B * Y) + (1 - u) * v * (g₀ + A * X + B * Y')
      + u * (1 - v) * (g₀ + A * X' + B * Y) + u * v * (g₀ + A * X' + B * Y') = g₀ := by
    linear_combination A * hx + B * hy
  constructor <;> linarith

lemma bends_nonneg {g : ℝ × ℝ → ℝ} {M : ℝ} (h : Spec.Bends g M) : 0 ≤ M := by
  obtain ⟨G, hG⟩ := h
  have := (abs_nonneg _).trans (hG (0, 0) (1, 0))
  norm_num at this
  linarith

/-! ## C265 -/

/-- The elevation interpolated at any place of an elevation model that samples a surface with errors up to `ε` is that of
the surface up to `ε` and an eighth of the bend times the squared width and height of a cell. -/
theorem C265_interpolated (d : Raster) (T : Affine) (g : ℝ × ℝ → ℝ) (M ε : ℝ) (hg : Spec.Bends g M)
    (hd : Spec.Samples d T g ε) (p : ℝ × ℝ) (hx : 1 / 2 ≤ p.1 ∧ p.1 ≤ d.cols - 1 / 2)
    (hy : 1 / 2 ≤ p.2 ∧ p.2 ≤ d.rows - 1 / 2) :
    ∃ z, bilinearAt d p = some z ∧ |z - g (T.app p)| ≤ ε + M / 8 * Spec.cellSquare T := by
  have hM := bends_nonneg hg
  obtain ⟨G, hG⟩ := hg
  have hr : 0 < d.rows := by
    have : (0 : ℝ) < d.rows := by linarith
    exact_mod_cast this
  have hc : 0 < d.cols := by
    have : (0 : ℝ) < d.cols := by linarith
    exact_mod_cast this
  obtain ⟨i, i', j, j', u, v, hi, hj, hi', hj', hu, hv, u0, u1, v0, v1, bi, bi', bj, bj', he⟩ :=
    mapCoordinates1_spec d hr hc (p.2 - 0.5) (p.1 - 0.5)
  obtain ⟨e1, s1⟩ := axis_spread (x := p.2 - 0.5) (by norm_num; linarith) (by norm_num; linarith) i i' u hi hi' hu u0
  obtain ⟨e2, s2⟩ := axis_spread (x := p.1 - 0.5) (by norm_num; linarith) (by norm_num; linarith) j j' v hj hj' hv v0
  obtain ⟨z₁, q₁, b₁⟩ := hd i j bi.1 bi.2 bj.1 bj.2
  obtain ⟨z₂, q₂, b₂⟩ := hd i j' bi.1 bi.2 bj'.1 bj'.2
  obtain ⟨z₃, q₃, b₃⟩ := hd i' j bi'.1 bi'.2 bj.1 bj.2
  obtain ⟨z₄, q₄, b₄⟩ := hd i' j' bi'.1 bi'.2 bj'.1 bj'.2
  refine ⟨z₁ * (1 - u) * (1 - v) + z₂ * (1 - u) * v + z₃ * u * (1 - v) + z₄ * u * v, by
    rw [bilinearAt, he, q₁, q₂, q₃, q₄]
    simp only [Pixel.filled, bind, Option.bind_some], ?_⟩
  set gx := (G (T.app p)).1
  set gy := (G (T.app p)).2
  have key : ∀ (r c : ℤ) (z : ℝ), |z - g (T.app (c + 1 / 2, r + 1 / 2))| ≤ ε →
      |z - (g (T.app p) + (gx * T.b + gy * T.e) * ((r : ℝ) - (p.2 - 0.5)) + (gx * T.a + gy * T.d) * ((c : ℝ) - (p.1 - 0.5)))|
        ≤ ε + (M / 2 * (T.b ^ 2 + T.e ^ 2) * ((r : ℝ) - (p.2 - 0.5)) ^ 2
          + M * (T.a * T.b + T.d * T.e) * ((r : ℝ) - (p.2 - 0.5)) * ((c : ℝ) - (p.1 - 0.5))
          + M / 2 * (T.a ^ 2 + T.d ^ 2) * ((c : ℝ) - (p.1 - 0.5)) ^ 2) := by
    intro r c z hz
    have h := hG (T.app p) (T.app (c + 1 / 2, r + 1 / 2))
    have t := abs_sub_le z (g (T.app (c + 1 / 2, r + 1 / 2)))
      (g (T.app p) + (gx * T.b + gy * T.e) * ((r : ℝ) - (p.2 - 0.5)) + (gx * T.a + gy * T.d) * ((c : ℝ) - (p.1 - 0.5)))
    have e : g (T.app p) + gx * ((T.app (c + 1 / 2, r + 1 / 2)).1 - (T.app p).1)
        + gy * ((T.app (c + 1 / 2, r + 1 / 2)).2 - (T.app p).2)
        = g (T.app p) + (gx * T.b + gy * T.e) * ((r : ℝ) - (p.2 - 0.5))
          + (gx * T.a + gy * T.d) * ((c : ℝ) - (p.1 - 0.5)) := by
      simp only [Affine.app]
      ring
    rw [e] at h
    have e' : M / 2 * (((T.app (c + 1 / 2, r + 1 / 2)).1 - (T.app p).1) ^ 2
        + ((T.app (c + 1 / 2, r + 1 / 2)).2 - (T.app p).2) ^ 2)
        = M / 2 * (T.b ^ 2 + T.e ^ 2) * ((r : ℝ) - (p.2 - 0.5)) ^ 2
          + M * (T.a * T.b + T.d * T.e) * ((r : ℝ) - (p.2 - 0.5)) * ((c : ℝ) - (p.1 - 0.5))
          + M / 2 * (T.a ^ 2 + T.d ^ 2) * ((c : ℝ) - (p.1 - 0.5)) ^ 2 := by
      simp only [Affine.app]
      ring
    rw [e'] at h
    linarith
  have := four_values u0 u1 v0 v1 e1 e2 s1 s2 (by positivity) (by positivity) (key i j z₁ b₁) (key i j' z₂ b₂)
    (key i' j z₃ b₃) (key i' j' z₄ b₄)
  refine this.trans (le_of_eq ?_)
  unfold Spec.cellSquare
  ring

/-- A paraboloid. -/
lemma bends_paraboloid {M : ℝ} (hM : 0 ≤ M) : Spec.Bends (fun p => M / 2 * (p.1 ^ 2 + p.2 ^ 2)) M := by
  refine ⟨fun p => (M * p.1, M * p.2), fun p q => ?_⟩
  rw [show M / 2 * (q.1 ^ 2 + q.2 ^ 2) - (M / 2 * (p.1 ^ 2 + p.2 ^ 2) + M * p.1 * (q.1 - p.1) + M * p.2 * (q.2 - p.2))
    = M / 2 * ((q.1 - p.1) ^ 2 + (q.2 - p.2) ^ 2) by ring, abs_of_nonneg (by positivity)]

example : ∃ z, bilinearAt ⟨5, 5, fun i j => .val (0.02 / 2 * ((10 * ((j : ℝ) + 1 / 2)) ^ 2 + (10 * ((i : ℝ) + 1 / 2)) ^ 2))⟩
    (1.3, 2.7) = some z ∧ |z - 0.02 / 2 * (13 ^ 2 + 27 ^ 2)| ≤ 0.5 := by
  obtain ⟨z, hz, hb⟩ := C265_interpolated
    ⟨5, 5, fun i j => .val (0.02 / 2 * ((10 * ((j : ℝ) + 1 / 2)) ^ 2 + (10 * ((i : ℝ) + 1 / 2)) ^ 2))⟩
    ⟨10, 0, 0, 0, 10, 0⟩ _ 0.02 0 (bends_paraboloid (by norm_num))
    (fun i j _ _ _ _ => ⟨_, rfl, by
      simp only [Affine.app]
      rw [show (0.02 / 2 * ((10 * ((j : ℝ) + 1 / 2)) ^ 2 + (10 * ((i : ℝ) + 1 / 2)) ^ 2)
        - 0.02 / 2 * ((((j : ℝ) + 1 / 2) * 10 + ((i : ℝ) + 1 / 2) * 0 + 0) ^ 2
          + (((j : ℝ) + 1 / 2) * 0 + ((i : ℝ) + 1 / 2) * 10 + 0) ^ 2)) = 0 by ring]
      simp⟩) (1.3, 2.7) (by norm_num) (by norm_num)
  refine ⟨z, hz, ?_⟩
  norm_num [Affine.app, Spec.cellSquare] at hb ⊢
  exact hb

/-- The bound is reached: on a paraboloid, at the corner of four cells. -/
theorem C265_sharp (M : ℝ) (hM : 0 ≤ M) (s : ℝ) :
    ∃ (d : Raster) (T : Affine) (g : ℝ × ℝ → ℝ) (p : ℝ × ℝ) (z : ℝ), Spec.cellSquare T = 2 * s ^ 2 ∧ Spec.Bends g M ∧
      Spec.Samples d T g 0 ∧ (1 / 2 ≤ p.1 ∧ p.1 ≤ d.cols - 1 / 2) ∧ (1 / 2 ≤ p.2 ∧ p.2 ≤ d.rows - 1 / 2) ∧
      bilinearAt d p = some z ∧ |z - g (T.app p)| = M / 8 * Spec.cellSquare T := by
  have h := C81_between_centres
    ⟨2, 2, fun i j => .val (M / 2 * ((s * ((j : ℝ) + 1 / 2)) ^ 2 + (s * ((i : ℝ) + 1 / 2)) ^ 2))⟩ 0 0 (by norm_num)
    (by norm_num) _ _ _ _ rfl rfl rfl rfl (1 / 2) (1 / 2) (by norm_num) (by norm_num) (by norm_num) (by norm_num)
  refine ⟨⟨2, 2, fun i j => .val (M / 2 * ((s * ((j : ℝ) + 1 / 2)) ^ 2 + (s * ((i : ℝ) + 1 / 2)) ^ 2))⟩,
    ⟨s, 0, 0, 0, s, 0⟩, _, _, _, ?_, bends_paraboloid hM, ?_, ?_, ?_, h, ?_⟩
  · simp only [Spec.cellSquare]; ring
  · intro i j _ _ _ _
    refine ⟨_, rfl, le_of_eq ?_⟩
    rw [abs_eq_zero]
    simp only [Affine.app]
    ring
  · norm_num
  · norm_num
  · have e : ∀ x : ℝ, x = M / 4 * s ^ 2 → |x| = M / 8 * Spec.cellSquare ⟨s, 0, 0, 0, s, 0⟩ := by
      rintro x rfl
      rw [abs_of_nonneg (by positivity)]
      simp only [Spec.cellSquare]
      ring
    apply e
    simp only [Affine.app]
    push_cast
    ring

example : ∃ (d : Raster) (T : Affine) (g : ℝ × ℝ → ℝ) (p : ℝ × ℝ) (z : ℝ), Spec.Bends g 0.02 ∧ Spec.Samples d T g 0 ∧
    bilinearAt d p = some z ∧ |z - g (T.app p)| = 0.5 := by
  obtain ⟨d, T, g, p, z, hT, hg, hd, -, -, hz, e⟩ := C265_sharp 0.02 (by norm_num) 10
  refine ⟨d, T, g, p, z, hg, hd, hz, ?_⟩
  rw [e, hT]
  norm_num

/-- A line on the elevation model of a surface which, along the line, is within `δ` of a plane: the elevations returned are
within `η = δ + ε + M / 8 (width² + height²)` of the plane, the regression has its descent up to `η √n / w`, and the
principal components its normal up to an angle whose sine is `2 η √n / w`, where `w` is the extent of the `n` points
in map view. -/
theorem C265_line_partial (svd : SvdFn) (hs : svd.Valid) (sub : List (ℝ × ℝ) → List (ℝ × ℝ)) (m : Mask)
    (geom : List (ℝ × ℝ)) (d : Raster) (T I : Affine) (hI : T.inv = .ok I) (g : ℝ × ℝ → ℝ) (M ε : ℝ)
    (hg : Spec.Bends g M) (hd : Spec.Samples d T g ε) (p : ℝ × ℝ) (l : List (ℝ × ℝ))
    (hsub : sub (geom.map I.app) = p :: l)
    (hin : ∀ q ∈ p :: l, (1 / 2 ≤ q.1 ∧ q.1 ≤ d.cols - 1 / 2) ∧ 1 / 2 ≤ q.2 ∧ q.2 ≤ d.rows - 1 / 2)
    (haway : ∀ q ∈ p :: l, Spec.AwayFromEdge (lineWindow p l).1.1 (lineWindow p l).1.2 d.rows q.2 ∧
      Spec.AwayFromEdge (lineWindow p l).2.1 (lineWindow p l).2.2 d.cols q.1)
    (q₁ q₂ q₃ : ℝ × ℝ) (h₁ : q₁ ∈ p :: l) (h₂ : q₂ ∈ p :: l) (h₃ : q₃ ∈ p :: l) (ht : Spec.Triangle q₁ q₂ q₃)
    (α β γ δ : ℝ) (hpl : ∀ q ∈ p :: l, |g (T.app q) - (α * (T.app q).1 + β * (T.app q).2 + γ)| ≤ δ) :
    ∃ out a, extractShape sub 0 m (geom.map fun g => (g.1, g.2, none)) d T = .ok out ∧
      out.length = (p :: l).length ∧ Spec.Rows out a ∧
      (∀ i, |a i 2 - (α * a i 0 + β * a i 1 + γ)| ≤ δ + ε + M / 8 * Spec.cellSquare T) ∧
      ∀ w > 0, Spec.WideInPlan a w →
      (∃ o, Linear.linearOrientation a = .ok o ∧
        w ^ 2 * (((Spec.descent (Linear.strikeDip o)).1 + α) ^ 2 + ((Spec.descent (Linear.strikeDip o)).2 + β) ^ 2)
          ≤ out.length * (δ + ε + M / 8 * Spec.cellSquare T) ^ 2) ∧
      ∃ f, init svd a none none = .ok (some f) ∧
        w * Spec.sineBetween (Spec.surfaceNormal α β) f.normal
          ≤ 2 * (Real.sqrt out.length * (δ + ε + M / 8 * Spec.cellSquare T)) := by
  have hr : ¬ ∃ k : ℤ, ∀ q ∈ p :: l, q.2 = k := by
    rintro ⟨k, hk⟩
    unfold Spec.Triangle at ht
    rw [hk _ h₁, hk _ h₂, hk _ h₃] at ht
    exact ht (by ring)
  have hc : ¬ ∃ k : ℤ, ∀ q ∈ p :: l, q.1 = k := by
    rintro ⟨k, hk⟩
    unfold Spec.Triangle at ht
    rw [hk _ h₁, hk _ h₂, hk _ h₃] at ht
    exact ht (by ring)
  obtain ⟨z, hz, hv⟩ := C80_values_partial sub d T I hI geom p l hsub
    (fun q hq => by have := hin q hq; refine ⟨⟨?_, ?_⟩, ?_, ?_⟩ <;> linarith [this.1.1, this.1.2, this.2.1, this.2.2])
    hr hc
  have hval : ∀ q ∈ p :: l, ∃ x, z q = some x ∧ |x - g (T.app q)| ≤ ε + M / 8 * Spec.cellSquare T := by
    intro q hq
    rw [hv q hq (haway q hq).1 (haway q hq).2]
    exact C265_interpolated d T g M ε hg hd q (hin q hq).1 (hin q hq).2
  set rows := (p :: l).map fun q => toRow ((T.app q).1, (T.app q).2, z q) with hrows
  have hfin : ∀ row ∈ rows, Spec.Finite row := by
    intro row h
    obtain ⟨q, hq, rfl⟩ := List.mem_map.1 h
    obtain ⟨x, hx, -⟩ := hval q hq
    intro j
    simp only [toRow, hx]
    fin_cases j <;> simp
  have hout : extractShape sub 0 m (geom.map fun g => (g.1, g.2, none)) d T = .ok rows := by
    simp only [extractShape, if_true, hz, bind, Except.bind, List.map_map]
    congr 1
    exact (C77_idempotent rows).2 hfin
  obtain ⟨a, ha⟩ := rows_exist rows fun row h j => by
    have := hfin row h j
    intro e
    rw [e] at this
    simp at this
  have hη : ∀ i, |a i 2 - (α * a i 0 + β * a i 1 + γ)| ≤ δ + ε + M / 8 * Spec.cellSquare T := by
    intro i
    obtain ⟨q, hq, e⟩ := List.mem_map.1 (rows.get_mem i)
    obtain ⟨x, hx, hb⟩ := hval q hq
    have e0 := ha i 0
    have e1 := ha i 1
    have e2 := ha i 2
    rw [← e] at e0 e1 e2
    simp only [toRow, hx] at e0 e1 e2
    simp at e0 e1 e2
    rw [← e0, ← e1, ← e2]
    have := hpl q hq
    have t := abs_sub_le x (g (T.app q)) (α * (T.app q).1 + β * (T.app q).2 + γ)
    linarith
  exact ⟨rows, a, hout, by simp [hrows], ha, hη, fun w hw hwide => near_surface hw hwide (γ := γ) hη hs⟩

/-- A hillside with a hollow. -/
noncomputable def hollow (p : ℝ × ℝ) : ℝ := 2 * p.1 + (-1) * p.2 + 5 + 0.01 * ((p.1 - 13) ^ 2 + (p.2 - 17) ^ 2)

lemma bends_hollow : Spec.Bends hollow 0.02 := by
  refine ⟨fun p => (2 + 0.02 * (p.1 - 13), -1 + 0.02 * (p.2 - 17)), fun p q => ?_⟩
  rw [show hollow q - (hollow p + (2 + 0.02 * (p.1 - 13)) * (q.1 - p.1) + (-1 + 0.02 * (p.2 - 17)) * (q.2 - p.2))
    = 0.02 / 2 * ((q.1 - p.1) ^ 2 + (q.2 - p.2) ^ 2) by unfold hollow; ring, abs_of_nonneg (by positivity)]

/-- Its elevation model, with elevations rounded up to a tenth of a metre too high. -/
noncomputable def hollowDem : Raster :=
  ⟨4, 4, fun i j => .val (hollow ((⟨2, 0, 10, 0, -2, 20⟩ : Affine).app (j + 1 / 2, i + 1 / 2)) + 0.1)⟩

/-- A line with three corners. -/
example : ∃ out a,
    extractShape id 0 ⟨4, 4, fun _ _ => false⟩ ([((11.2 : ℝ), (18.8 : ℝ)), (14.6, 18.6), (12, 15.2)].map
      fun g => (g.1, g.2, none)) hollowDem ⟨2, 0, 10, 0, -2, 20⟩ = .ok out ∧ out.length = 3 ∧ Spec.Rows out a ∧
      ∀ i, |a i 2 - (2 * a i 0 + (-1) * a i 1 + 5)| ≤ 0.19 := by
  obtain ⟨svd, hs⟩ := exists_valid_svd
  have hw : lineWindow ((3 / 5 : ℝ), (3 / 5 : ℝ)) [(23 / 10, 7 / 10), (1, 12 / 5)] = ((0, 3), (0, 3)) := by
    have f : ∀ (x : ℝ) (k : ℤ), (k : ℝ) ≤ x → x < k + 1 → ⌊x⌋ = k := fun x k a b => Int.floor_eq_iff.2 ⟨a, b⟩
    have c : ∀ (x : ℝ) (k : ℤ), (k : ℝ) - 1 < x → x ≤ k → ⌈x⌉ = k := fun x k a b => Int.ceil_eq_iff.2 ⟨a, b⟩
    simp only [lineWindow, minimum, maximum, List.map]
    rw [f _ 0 (by norm_num) (by norm_num), f _ 0 (by norm_num) (by norm_num), c _ 3 (by norm_num) (by norm_num),
      c _ 3 (by norm_num) (by norm_num)]
  obtain ⟨out, a, ho, hlen, ha, hη, -⟩ := C265_line_partial svd hs id ⟨4, 4, fun _ _ => false⟩
    [((11.2 : ℝ), (18.8 : ℝ)), (14.6, 18.6), (12, 15.2)] hollowDem _ _ exampleDem_inv hollow 0.02 0.1 bends_hollow
    (fun i j _ _ _ _ => ⟨_, rfl, by norm_num⟩)
    (3 / 5, 3 / 5) [(23 / 10, 7 / 10), (1, 12 / 5)] (by simp [Affine.app]; norm_num)
    (by
      intro q hq
      simp only [List.mem_cons, List.not_mem_nil, or_false] at hq
      rcases hq with rfl | rfl | rfl <;> norm_num [hollowDem])
    (by
      intro q hq
      rw [hw]
      simp only [List.mem_cons, List.not_mem_nil, or_false] at hq
      rcases hq with rfl | rfl | rfl <;> norm_num [Spec.AwayFromEdge, hollowDem])
    (3 / 5, 3 / 5) (23 / 10, 7 / 10) (1, 12 / 5) (by simp) (by simp) (by simp) (by norm_num [Spec.Triangle])
    2 (-1) 5 0.07 (by
      intro q hq
      rw [show hollow (Affine.app ⟨2, 0, 10, 0, -2, 20⟩ q)
        - (2 * (Affine.app ⟨2, 0, 10, 0, -2, 20⟩ q).1 + (-1) * (Affine.app ⟨2, 0, 10, 0, -2, 20⟩ q).2 + 5)
        = 0.01 * (((Affine.app ⟨2, 0, 10, 0, -2, 20⟩ q).1 - 13) ^ 2 + ((Affine.app ⟨2, 0, 10, 0, -2, 20⟩ q).2 - 17) ^ 2)
        by unfold hollow; ring, abs_of_nonneg (by positivity)]
      simp only [List.mem_cons, List.not_mem_nil, or_false] at hq
      rcases hq with rfl | rfl | rfl <;> norm_num [Affine.app])
  refine ⟨out, a, ho, hlen, ha, fun i => (hη i).trans ?_⟩
  norm_num [Spec.cellSquare]

end Attitude.Props
