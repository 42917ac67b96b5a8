import Verif.Props.ErrorAxes

/-!
# When the two angular errors of a fit are in the wrong order (C22), and when a higher level of
confidence makes them smaller (C23)
-/

namespace Attitude.Props

open Attitude ErrorAxes

/-- The length of the errors of a fit by the noise method in the unit of the singular values:
`2 z s₃/√(n-2)`, where `z` is the quantile. -/
noncomputable def Spec.noiseLength (z : ℝ) (n : ℕ) (s : Vec 3) : ℝ :=
  2 * z * s 2 / Real.sqrt ((n : ℝ) - 2)

lemma arctan2_lt_of_lt {y x x' : ℝ} (hy : 0 < y) (hx : 0 ≤ x) (h : x < x') :
    arctan2 y x' < arctan2 y x := by
  rcases hx.lt_or_eq with k | k
  · exact arctan2_lt_of_div_lt (hx.trans_lt h) k (div_lt_div_of_pos_left hy k h)
  · rw [← k, arctan2_pos_zero hy, arctan2_of_pos _ (hx.trans_lt h)]
    exact Real.arctan_lt_pi_div_two _

/-- `|u² - k u| < |v² - k v|` for `0 ≤ v ≤ u`. -/
lemma abs_fold_lt {u v k : ℝ} (hv : 0 ≤ v) (huv : v ≤ u) :
    |u ^ 2 - k * u| < |v ^ 2 - k * v| ↔ v < u ∧ u ^ 2 + v ^ 2 < k * (u + v) ∧ k < u + v := by
  rw [← sq_lt_sq]
  have e : (v ^ 2 - k * v) ^ 2 - (u ^ 2 - k * u) ^ 2
      = (u - v) * ((u + v - k) * (k * (u + v) - (u ^ 2 + v ^ 2))) := by ring
  constructor
  · intro h
    have hp : 0 < (u - v) * ((u + v - k) * (k * (u + v) - (u ^ 2 + v ^ 2))) := by
      rw [← e]; linarith
    have hlt : v < u := by
      rcases huv.lt_or_eq with q | q
      · exact q
      · rw [q] at hp; simp at hp
    have h2 : 0 < (u + v - k) * (k * (u + v) - (u ^ 2 + v ^ 2)) :=
      (mul_pos_iff_of_pos_left (by linarith)).1 hp
    rcases mul_pos_iff.1 h2 with ⟨a, b⟩ | ⟨a, b⟩
    · exact ⟨hlt, by linarith, by linarith⟩
    · exfalso
      have : (u + v) * (u + v) ≤ k * (u + v) := mul_le_mul_of_nonneg_right (by linarith) (by linarith)
      have : 0 ≤ u * v := mul_nonneg (hv.trans huv) hv
      nlinarith
  · rintro ⟨a, b, c⟩
    have hp : 0 < (u - v) * ((u + v - k) * (k * (u + v) - (u ^ 2 + v ^ 2))) :=
      mul_pos (by linarith) (mul_pos (by linarith) (by linarith))
    linarith

/-- Exactly when the first angular error of a fit exceeds the second: never with the sampling
method; with the noise method, if and only if the singular values in the plane differ and the
length of the errors is between the ratio of the sum of their squares to their sum, and their
sum. -/
theorem C22_order_exact (Q : Quantiles) (hQ : Spec.QuantilesOK Q) (svd : Pca.SvdFn)
    (hs : svd.Valid) {n : ℕ} (a : Fin n → Vec 3) (f : Pca.Fit n)
    (hf : Pca.init svd a none none = .ok (some f)) (sampling : Bool) (cl : ℝ) (h0 : 0 ≤ cl)
    (h1 : cl < 1) :
    ∃ x y, errorsAt Q f sampling cl = some (x, y) ∧
      (y < x ↔ sampling = false ∧ f.s 1 < f.s 0 ∧
        f.s 0 ^ 2 + f.s 1 ^ 2 < Spec.noiseLength (Q.f cl 2 (n - 2)) n f.s * (f.s 0 + f.s 1) ∧
        Spec.noiseLength (Q.f cl 2 (n - 2)) n f.s < f.s 0 + f.s 1) := by
  obtain ⟨U, hF⟩ := Pca.init_default hs hf
  obtain ⟨h, e, hh, hnn, _⟩ := C21_closed_form Q hQ svd hs a f hf sampling cl h0 h1
  refine ⟨(angularErrors h).1, (angularErrors h).2, by simp [errorsAt, e], ?_⟩
  cases sampling
  swap
  · obtain ⟨x, y, e', _, _, _, _, ho⟩ := C22_angular_errors_partial Q hQ svd hs a f hf true cl h0 h1
    have : errorsAt Q f true cl = some (angularErrors h) := by simp [errorsAt, e]
    rw [this] at e'
    obtain ⟨rfl, rfl⟩ : (angularErrors h).1 = x ∧ (angularErrors h).2 = y := by
      have := Option.some.inj e'
      rw [this]; exact ⟨rfl, rfl⟩
    simpa using ho (.inl rfl)
  have hz0 : 0 ≤ Q.f cl 2 (n - 2) :=
    hQ.f_nonneg _ _ _ h0 h1 (by norm_num) (by have := hF.size; omega)
  set z := Q.f cl 2 (n - 2)
  have hn' : (3 : ℝ) ≤ n := by exact_mod_cast hF.size
  have s2 := hF.svd.nonneg
  have s12 := hF.svd.le12
  have s01 := hF.svd.le01
  set k := Spec.noiseLength z n f.s with hk
  have k0 : 0 ≤ k := by
    rw [hk]; unfold Spec.noiseLength
    have := Real.sqrt_nonneg ((n : ℝ) - 2)
    positivity
  -- the in-plane axes
  have hev : ∀ j, Pca.eigenvalues f j = f.s j ^ 2 / ((n : ℝ) - 1) := fun j => by
    simp [Pca.eigenvalues]
  have nn : ∀ j, 0 ≤ f.s j := fun j => by fin_cases j <;> simp <;> linarith
  have hsc : ∀ j, Spec.errorScale false n (Pca.eigenvalues f) j
      = 2 * (f.s j * f.s 2 / (((n : ℝ) - 1) * Real.sqrt ((n : ℝ) - 2))) := fun j => by
    have q : Pca.eigenvalues f j * Pca.eigenvalues f 2 / ((n : ℝ) - 2)
        = (f.s j * f.s 2 / ((n : ℝ) - 1)) ^ 2 / ((n : ℝ) - 2) := by
      rw [hev, hev]; ring
    simp only [Spec.errorScale, Bool.false_eq_true, if_false]
    rw [q, Real.sqrt_div (sq_nonneg _), Real.sqrt_sq
      (div_nonneg (mul_nonneg (nn j) s2) (by linarith)), div_div]
  have hax : ∀ j, |Pca.eigenvalues f j - z * Spec.errorScale false n (Pca.eigenvalues f) j|
      = |f.s j ^ 2 - k * f.s j| / ((n : ℝ) - 1) := fun j => by
    rw [hsc, hev, hk]
    unfold Spec.noiseLength
    rw [← abs_of_pos (show (0 : ℝ) < (n : ℝ) - 1 by linarith), ← abs_div,
      abs_of_pos (show (0 : ℝ) < (n : ℝ) - 1 by linarith)]
    congr 1
    have : Real.sqrt ((n : ℝ) - 2) ≠ 0 := (Real.sqrt_pos.2 (by linarith)).ne'
    have : (n : ℝ) - 1 ≠ 0 := by linarith
    field_simp
  have e0 : h 0 = |f.s 0 ^ 2 - k * f.s 0| / ((n : ℝ) - 1) := by
    rw [hh, ← hax]; rfl
  have e1 : h 1 = |f.s 1 ^ 2 - k * f.s 1| / ((n : ℝ) - 1) := by
    rw [hh, ← hax]; rfl
  have key : h 0 < h 1 ↔ f.s 1 < f.s 0 ∧
      f.s 0 ^ 2 + f.s 1 ^ 2 < k * (f.s 0 + f.s 1) ∧ k < f.s 0 + f.s 1 := by
    rw [e0, e1, div_lt_div_iff_of_pos_right (by linarith),
      abs_fold_lt (nn 1) s01]
  simp only [true_and]
  rw [← key]
  constructor
  · intro hlt
    by_contra hge
    push Not at hge
    exact absurd (arctan2_mono (Real.sqrt_nonneg (h 2)) le_rfl (Real.sqrt_nonneg _)
      (Real.sqrt_le_sqrt hge)) (not_le.2 hlt)
  · intro hlt
    have h2 : 0 < h 2 := by
      have hpos : 0 < f.s 2 := by
        rcases s2.lt_or_eq with q | q
        · exact q
        · exfalso
          have hk0 : k = 0 := by rw [hk]; unfold Spec.noiseLength; rw [← q]; simp
          have := (key.1 hlt).2.1
          rw [hk0] at this
          nlinarith [sq_nonneg (f.s 0), sq_nonneg (f.s 1)]
      have e2 : h 2 = Pca.eigenvalues f 2
          + z * Spec.errorScale false n (Pca.eigenvalues f) 2 := by rw [hh]; rfl
      have p1 : 0 < Pca.eigenvalues f 2 := by
        rw [hev]; exact div_pos (by positivity) (by linarith)
      have p2 := errorScale_nonneg false n (Pca.eigenvalues f) (eigenvalues_nonneg hF) 2
      rw [e2]
      have := mul_nonneg hz0 p2
      linarith
    exact arctan2_lt_of_lt (Real.sqrt_pos.2 h2) (Real.sqrt_nonneg _)
      (Real.sqrt_lt_sqrt (hnn 0) hlt)

/-- Example: the points of `C22_noise_order_false` meet the condition: their singular values are
`√2 (z, z/2, 1)` and the length of the errors is `√2 z`. -/
example (z : ℝ) (hz : 2 ≤ z) :
    let s : Vec 3 := ![Real.sqrt 2 * z, Real.sqrt 2 * (z / 2), Real.sqrt 2]
    s 1 < s 0 ∧ s 0 ^ 2 + s 1 ^ 2 < Spec.noiseLength z 6 s * (s 0 + s 1) ∧
      Spec.noiseLength z 6 s < s 0 + s 1 := by
  have h2 : 0 < Real.sqrt 2 := by positivity
  have q2 := Real.sq_sqrt (show (0 : ℝ) ≤ 2 by norm_num)
  have h4 : Real.sqrt ((6 : ℕ) - 2 : ℝ) = 2 := by
    rw [show (((6 : ℕ) : ℝ) - 2) = 2 ^ 2 by norm_num]; exact Real.sqrt_sq (by norm_num)
  simp only [Spec.noiseLength, h4]
  simp
  refine ⟨by nlinarith, ?_, by nlinarith⟩
  have l : (Real.sqrt 2 * z) ^ 2 + (Real.sqrt 2 * (z / 2)) ^ 2 = 5 / 2 * z ^ 2 := by
    rw [mul_pow, mul_pow, q2]; ring
  have r : 2 * z * Real.sqrt 2 / 2 * (Real.sqrt 2 * z + Real.sqrt 2 * (z / 2)) = 3 * z ^ 2 := by
    rw [show 2 * z * Real.sqrt 2 / 2 * (Real.sqrt 2 * z + Real.sqrt 2 * (z / 2))
      = Real.sqrt 2 ^ 2 * (3 / 2 * z ^ 2) by ring, q2]
    ring
  rw [l, r]
  nlinarith

/-- The order is right, whatever the second singular value, while the length of the errors does
not exceed 0.82 of the first. -/
theorem C22_order_small_errors (Q : Quantiles) (hQ : Spec.QuantilesOK Q) (svd : Pca.SvdFn)
    (hs : svd.Valid) {n : ℕ} (a : Fin n → Vec 3) (f : Pca.Fit n)
    (hf : Pca.init svd a none none = .ok (some f)) (sampling : Bool) (cl : ℝ) (h0 : 0 ≤ cl)
    (h1 : cl < 1) (hk : Spec.noiseLength (Q.f cl 2 (n - 2)) n f.s ≤ 0.82 * f.s 0) :
    ∃ x y, errorsAt Q f sampling cl = some (x, y) ∧ x ≤ y := by
  obtain ⟨x, y, e, h⟩ := C22_order_exact Q hQ svd hs a f hf sampling cl h0 h1
  refine ⟨x, y, e, not_lt.1 fun hlt => ?_⟩
  obtain ⟨U, hF⟩ := Pca.init_default hs hf
  obtain ⟨_, h01, hb, _⟩ := h.1 hlt
  have s1 : 0 ≤ f.s 1 := hF.svd.nonneg.trans hF.svd.le12
  have s0 := s1.trans hF.svd.le01
  have := mul_le_mul_of_nonneg_right hk (add_nonneg s0 s1)
  nlinarith [sq_nonneg (f.s 1 - 0.41 * f.s 0)]

/-- Example: a fit with the singular values 3, 2, 1 at the level 0.5, whose quantile is 1. -/
example : ∃ (svd : Pca.SvdFn) (f : Pca.Fit 4) (x y : ℝ), svd.Valid ∧
    Pca.init svd Witness.tilted none none = .ok (some f) ∧
    0 < Spec.noiseLength (Spec.quantiles2.f 0.5 2 (4 - 2)) 4 f.s ∧
    errorsAt Spec.quantiles2 f false 0.5 = some (x, y) ∧ x ≤ y := by
  obtain ⟨svd, f, hs, hf, _, hfs⟩ := Witness.exists_tilted
  have hq : Spec.quantiles2.f 0.5 2 (4 - 2) = 1 := by
    simp [Spec.quantiles2, Spec.fisher2]
    norm_num
  have hr : Real.sqrt (((4 : ℕ) : ℝ) - 2) = Real.sqrt 2 := by norm_num
  have h2 : (1.4 : ℝ) ≤ Real.sqrt 2 := Real.le_sqrt_of_sq_le (by norm_num)
  have hk : Spec.noiseLength (Spec.quantiles2.f 0.5 2 (4 - 2)) 4 f.s = 2 / Real.sqrt 2 := by
    rw [hq, Spec.noiseLength, hr, hfs]; simp
  obtain ⟨x, y, e, h⟩ := C22_order_small_errors _ Spec.quantiles2_ok svd hs _ f hf
    false 0.5 (by norm_num) (by norm_num) (by
      rw [hk, hfs, div_le_iff₀ (by linarith)]
      simp
      nlinarith)
  exact ⟨svd, f, x, y, hs, hf, by rw [hk]; positivity, e, h⟩

/-! ## C23 -/

lemma arctan2_eq_sub {y x : ℝ} (hy : 0 < y) (hx : 0 ≤ x) :
    arctan2 y x = Real.pi / 2 - Real.arctan (x / y) := by
  rcases hx.lt_or_eq with k | k
  · rw [arctan2_of_pos _ k, ← Real.arctan_inv_of_pos (div_pos k hy), inv_div]
  · rw [← k, arctan2_pos_zero hy]; simp

lemma arctan2_le_iff {y x y' x' : ℝ} (hy : 0 < y) (hx : 0 ≤ x) (hy' : 0 < y') (hx' : 0 ≤ x') :
    arctan2 y x ≤ arctan2 y' x' ↔ y * x' ≤ y' * x := by
  rw [arctan2_eq_sub hy hx, arctan2_eq_sub hy' hx', sub_le_sub_iff_left,
    Real.arctan_strictMono.le_iff_le, div_le_div_iff₀ hy' hy, mul_comm x' y, mul_comm x y']

/-- `(1 + w) |t - w' r| ≤ (1 + w') |t - w r|` for `0 ≤ w < w'`. -/
lemma fold_le_iff {t r w w' : ℝ} (ht : 0 ≤ t) (hr : 0 < r) (hw : 0 ≤ w) (hww : w < w') :
    (1 + w) * |t - w' * r| ≤ (1 + w') * |t - w * r| ↔
      r * (w + w' + 2 * (w * w')) ≤ t * (2 + w + w') := by
  have e : ∀ {a b : ℝ}, 0 ≤ a → a * |b| = |a * b| := fun ha => by
    rw [abs_mul, abs_of_nonneg ha]
  rw [e (by linarith), e (by linarith), ← sq_le_sq]
  have d : ((1 + w') * (t - w * r)) ^ 2 - ((1 + w) * (t - w' * r)) ^ 2
      = ((t + r) * (w' - w)) * (t * (2 + w + w') - r * (w + w' + 2 * (w * w'))) := by ring
  have hp : 0 < (t + r) * (w' - w) := mul_pos (by linarith) (by linarith)
  constructor
  · intro h
    have : 0 ≤ ((t + r) * (w' - w)) * (t * (2 + w + w') - r * (w + w' + 2 * (w * w'))) := by
      rw [← d]; linarith
    have := (mul_nonneg_iff_of_pos_left hp).1 this
    linarith
  · intro h
    have := mul_nonneg hp.le (sub_nonneg.2 h)
    linarith

/-- The errors in the unit of the data, for the quantile `z`: `2 z/√(n-2)` for the noise method and
`z √(2/(n-1))` for the sampling method. -/
noncomputable def Spec.relativeLength (sampling : Bool) (n : ℕ) (z : ℝ) : ℝ :=
  if sampling then z * Real.sqrt (2 / ((n : ℝ) - 1)) else 2 * z / Real.sqrt ((n : ℝ) - 2)

/-- The angular error along an axis with the singular value `t` does not become smaller when the
relative length of the errors changes from `w` to `w'`; `r` is the smallest singular value.  For the
sampling method the singular values do not matter. -/
def Spec.NotSmaller (sampling : Bool) (t r w w' : ℝ) : Prop :=
  if sampling then r = 0 ∨ w * w' ≤ 1 else r * (w + w' + 2 * (w * w')) ≤ t * (2 + w + w')

lemma axis_at (sampling : Bool) {n : ℕ} (hn : 3 ≤ n) (f : Pca.Fit n) (hs : ∀ j, 0 ≤ f.s j) (z : ℝ)
    (j : Fin 3) :
    z * Spec.errorScale sampling n (Pca.eigenvalues f) j =
      Spec.relativeLength sampling n z * ((if sampling then f.s j else f.s 2) * f.s j)
        / ((n : ℝ) - 1) := by
  have hn' : (3 : ℝ) ≤ n := by exact_mod_cast hn
  have hev : ∀ j, Pca.eigenvalues f j = f.s j ^ 2 / ((n : ℝ) - 1) := fun j => by
    simp [Pca.eigenvalues]
  cases sampling
  · have q : Pca.eigenvalues f j * Pca.eigenvalues f 2 / ((n : ℝ) - 2)
        = (f.s j * f.s 2 / ((n : ℝ) - 1)) ^ 2 / ((n : ℝ) - 2) := by
      rw [hev, hev]; ring
    simp only [Spec.errorScale, Spec.relativeLength, Bool.false_eq_true, if_false]
    rw [q, Real.sqrt_div (sq_nonneg _), Real.sqrt_sq
      (div_nonneg (mul_nonneg (hs j) (hs 2)) (by linarith))]
    have : Real.sqrt ((n : ℝ) - 2) ≠ 0 := (Real.sqrt_pos.2 (by linarith)).ne'
    have : (n : ℝ) - 1 ≠ 0 := by linarith
    field_simp
  · simp only [Spec.errorScale, Spec.relativeLength, if_true]
    rw [hev]
    ring

/-- Exactly when a higher level of confidence does not make an angular error smaller, for both
methods and both axes. -/
theorem C23_exact (Q : Quantiles) (hQ : Spec.QuantilesOK Q) (svd : Pca.SvdFn)
    (hs : svd.Valid) {n : ℕ} (a : Fin n → Vec 3) (f : Pca.Fit n)
    (hf : Pca.init svd a none none = .ok (some f)) (sampling : Bool) (p q : ℝ) (h0 : 0 ≤ p)
    (hpq : p < q) (h1 : q < 1) :
    ∃ x y x' y', errorsAt Q f sampling p = some (x, y) ∧ errorsAt Q f sampling q = some (x', y') ∧
      (x ≤ x' ↔ Spec.NotSmaller sampling (f.s 0) (f.s 2)
        (Spec.relativeLength sampling n (Q.f p 2 (n - 2)))
        (Spec.relativeLength sampling n (Q.f q 2 (n - 2)))) ∧
      (y ≤ y' ↔ Spec.NotSmaller sampling (f.s 1) (f.s 2)
        (Spec.relativeLength sampling n (Q.f p 2 (n - 2)))
        (Spec.relativeLength sampling n (Q.f q 2 (n - 2)))) := by
  obtain ⟨U, hF⟩ := Pca.init_default hs hf
  obtain ⟨h, e, hh, hnn, _⟩ := C21_closed_form Q hQ svd hs a f hf sampling p h0 (hpq.trans h1)
  obtain ⟨h', e', hh', hnn', _⟩ := C21_closed_form Q hQ svd hs a f hf sampling q (h0.trans hpq.le) h1
  have hz : Q.f p 2 (n - 2) < Q.f q 2 (n - 2) :=
    hQ.f_mono _ _ _ _ h0 hpq h1 (by norm_num) (by have := hF.size; omega)
  have hz0 : 0 ≤ Q.f p 2 (n - 2) :=
    hQ.f_nonneg _ _ _ h0 (hpq.trans h1) (by norm_num) (by have := hF.size; omega)
  have hn' : (3 : ℝ) ≤ n := by exact_mod_cast hF.size
  have s2 := hF.svd.nonneg
  have s12 := hF.svd.le12
  have s01 := hF.svd.le01
  have nn : ∀ j, 0 ≤ f.s j := fun j => by fin_cases j <;> simp <;> linarith
  set z := Q.f p 2 (n - 2)
  set z' := Q.f q 2 (n - 2)
  set w := Spec.relativeLength sampling n z with hw
  set w' := Spec.relativeLength sampling n z' with hw'
  have hsq : 0 < Real.sqrt ((n : ℝ) - 2) := Real.sqrt_pos.2 (by linarith)
  have hsq' : 0 < Real.sqrt (2 / ((n : ℝ) - 1)) :=
    Real.sqrt_pos.2 (div_pos two_pos (by linarith))
  have w0 : 0 ≤ w := by
    rw [hw]; unfold Spec.relativeLength
    split_ifs <;> positivity
  have ww : w < w' := by
    rw [hw, hw']; unfold Spec.relativeLength
    split_ifs
    · exact mul_lt_mul_of_pos_right hz hsq'
    · exact div_lt_div_of_pos_right (by linarith) hsq
  have hev : ∀ j, Pca.eigenvalues f j = f.s j ^ 2 / ((n : ℝ) - 1) := fun j => by
    simp [Pca.eigenvalues]
  have hm : (0 : ℝ) < (n : ℝ) - 1 := by linarith
  -- the axes in the unit of the singular values
  have in_plane : ∀ ζ (j : Fin 3),
      |Pca.eigenvalues f j - ζ * Spec.errorScale sampling n (Pca.eigenvalues f) j|
      = f.s j * |f.s j - Spec.relativeLength sampling n ζ * (if sampling then f.s j else f.s 2)|
        / ((n : ℝ) - 1) := fun ζ j => by
    rw [axis_at sampling hF.size f nn, hev, ← sub_div, abs_div, abs_of_pos hm]
    congr 1
    rw [← abs_of_nonneg (nn j), ← abs_mul, abs_of_nonneg (nn j)]
    congr 1
    ring
  have normal : ∀ ζ,
      Pca.eigenvalues f 2 + ζ * Spec.errorScale sampling n (Pca.eigenvalues f) 2
      = f.s 2 ^ 2 * (1 + Spec.relativeLength sampling n ζ) / ((n : ℝ) - 1) := fun ζ => by
    rw [axis_at sampling hF.size f nn, hev]
    have : (if sampling then f.s 2 else f.s 2) = f.s 2 := by split_ifs <;> rfl
    rw [this]
    ring
  have H2 : h 2 = f.s 2 ^ 2 * (1 + w) / ((n : ℝ) - 1) := by rw [hh, ← normal]; rfl
  have H2' : h' 2 = f.s 2 ^ 2 * (1 + w') / ((n : ℝ) - 1) := by rw [hh', ← normal]; rfl
  have key : ∀ j : Fin 3, j ≠ 2 →
      (arctan2 (Real.sqrt (h 2)) (Real.sqrt (h j)) ≤ arctan2 (Real.sqrt (h' 2)) (Real.sqrt (h' j)) ↔
        Spec.NotSmaller sampling (f.s j) (f.s 2) w w') := by
    intro j hj
    have Hj : h j = f.s j * |f.s j - w * (if sampling then f.s j else f.s 2)| / ((n : ℝ) - 1) := by
      rw [hh, ← in_plane]
      fin_cases j
      · rfl
      · rfl
      · exact absurd rfl hj
    have Hj' : h' j
        = f.s j * |f.s j - w' * (if sampling then f.s j else f.s 2)| / ((n : ℝ) - 1) := by
      rw [hh', ← in_plane]
      fin_cases j
      · rfl
      · rfl
      · exact absurd rfl hj
    rcases s2.lt_or_eq with hpos | hzero
    · have p2 : 0 < h 2 := by rw [H2]; positivity
      have p2' : 0 < h' 2 := by
        rw [H2']
        have : 0 < 1 + w' := by linarith
        positivity
      have hj0 : 0 < f.s j := by
        fin_cases j
        · exact hpos.trans_le (s12.trans s01)
        · exact hpos.trans_le s12
        · exact hpos
      rw [arctan2_le_iff (Real.sqrt_pos.2 p2) (Real.sqrt_nonneg _) (Real.sqrt_pos.2 p2')
        (Real.sqrt_nonneg _), ← Real.sqrt_mul p2.le, ← Real.sqrt_mul p2'.le,
        Real.sqrt_le_sqrt_iff (mul_nonneg p2'.le (hnn j)), H2, H2', Hj, Hj']
      have c : 0 < f.s 2 ^ 2 * f.s j / (((n : ℝ) - 1) * ((n : ℝ) - 1)) := by positivity
      have l : ∀ (u v : ℝ), f.s 2 ^ 2 * (1 + u) / ((n : ℝ) - 1) * (f.s j * v / ((n : ℝ) - 1))
          = (f.s 2 ^ 2 * f.s j / (((n : ℝ) - 1) * ((n : ℝ) - 1))) * ((1 + u) * v) := fun u v => by
        field_simp
      rw [l, l, mul_le_mul_iff_right₀ c]
      cases sampling
      · simp only [Spec.NotSmaller, Bool.false_eq_true, if_false]
        exact fold_le_iff (nn j) hpos w0 ww
      · simp only [Spec.NotSmaller, if_true]
        rw [fold_le_iff (nn j) hj0 w0 ww]
        constructor
        · intro k
          right
          have := le_of_mul_le_mul_left (k.trans_eq rfl) hj0
          linarith
        · rintro (k | k)
          · exact absurd k hpos.ne'
          · exact mul_le_mul_of_nonneg_left (by linarith) hj0.le
    · have z2 : h 2 = 0 := by rw [H2, ← hzero]; simp
      have z2' : h' 2 = 0 := by rw [H2', ← hzero]; simp
      rw [z2, z2', Real.sqrt_zero, arctan2_zero_nonneg (Real.sqrt_nonneg _),
        arctan2_zero_nonneg (Real.sqrt_nonneg _)]
      simp only [le_refl, true_iff, Spec.NotSmaller, ← hzero]
      have w'0 : 0 ≤ w' := w0.trans ww.le
      split_ifs
      · exact .inl trivial
      · rw [zero_mul]
        exact mul_nonneg (nn j) (by linarith)
  exact ⟨_, _, _, _, by simp only [errorsAt, e]; rfl, by simp only [errorsAt, e']; rfl,
    key 0 (by decide), key 1 (by decide)⟩

/-- Example: with the sampling method and six points the errors get smaller as soon as the product
of the quantiles exceeds 5/2; with the noise method those along an axis with the singular value `t`
do as soon as the relative lengths 1 and 2 meet a smallest singular value above `5 t/7`. -/
example (z z' t r : ℝ) :
    (Spec.NotSmaller true t r (Spec.relativeLength true 6 z) (Spec.relativeLength true 6 z') ↔
      r = 0 ∨ z * z' ≤ 5 / 2) ∧
    (Spec.NotSmaller false t r 1 2 ↔ r * 7 ≤ t * 5) := by
  have q := Real.mul_self_sqrt (show (0 : ℝ) ≤ 2 / ((6 : ℕ) - 1) by norm_num)
  constructor
  · simp only [Spec.NotSmaller, Spec.relativeLength, if_true]
    have : z * Real.sqrt (2 / (((6 : ℕ) : ℝ) - 1)) * (z' * Real.sqrt (2 / (((6 : ℕ) : ℝ) - 1)))
        = z * z' * (2 / 5) := by
      rw [mul_mul_mul_comm, q]; norm_num
    rw [this]
    constructor <;> rintro (k | k) <;> first | exact .inl k | (right; linarith)
  · simp only [Spec.NotSmaller, Bool.false_eq_true, if_false]
    norm_num

end Attitude.Props
