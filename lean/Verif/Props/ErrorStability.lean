import Verif.Props.Accumulate
import Verif.Props.PcaExact
import Verif.Props.Stability

/-!
# C216, C217: errors of points on a line, and errors of points that are moved
-/

namespace Attitude.Props

open Attitude Matrix Pca ErrorAxes

/-! ## Specification -/

/-- The points are on the line through `q` in the direction of `u`. -/
def Spec.OnLine {n : ℕ} (a : Fin n → Vec 3) (q u : Vec 3) : Prop :=
  ∀ i, ∃ x : ℝ, ∀ j, a i j = q j + x * u j

/-! ## Helper lemmas -/

lemma onLine_centered {n : ℕ} (hn : n ≠ 0) {a : Fin n → Vec 3} {q u : Vec 3} (h : Spec.OnLine a q u) :
    ∃ y : Fin n → ℝ, ∀ i j, Coordinates.centered a i j = y i * u j := by
  choose x hx using h
  have hn' : (n : ℝ) ≠ 0 := by exact_mod_cast hn
  refine ⟨fun i => x i - (∑ k, x k) / n, fun i j => ?_⟩
  have e : ∑ k, a k j = n * q j + (∑ k, x k) * u j := by
    simp only [hx]
    rw [Finset.sum_add_distrib, ← Finset.sum_mul]
    simp
  simp only [Coordinates.centered, meanRows, e]
  rw [hx]
  field_simp
  ring

lemma onLine_second {n : ℕ} {a : Fin n → Vec 3} {f : Fit n} {U : Mat n 3} (hF : IsFit a f U) {q u : Vec 3}
    (h : Spec.OnLine a q u) : f.s 1 = 0 := by
  obtain ⟨y, hy⟩ := onLine_centered (by have := hF.size; omega) h
  have hA : ∀ w : Vec 3, ∀ i, (Matrix.of (Coordinates.centered a) *ᵥ w) i = y i * vdot u w := by
    intro w i
    simp only [Matrix.mulVec, dotProduct, Matrix.of_apply, hy, vdot, Finset.mul_sum]
    exact Finset.sum_congr rfl fun j _ => by ring
  set p := vdot u (f.V 0) with hp
  set r := vdot u (f.V 1) with hr
  have hw := hF.svd.sum_sq (r • f.V 0 - p • f.V 1)
  have hz : vdot u (r • f.V 0 - p • f.V 1) = 0 := by
    have : vdot u (r • f.V 0 - p • f.V 1) = r * vdot u (f.V 0) - p * vdot u (f.V 1) := by
      simp only [vdot, Fin.sum_univ_three, Pi.sub_apply, Pi.smul_apply, smul_eq_mul]
      ring
    rw [this, ← hp, ← hr]
    ring
  have hV : f.V *ᵥ (r • f.V 0 - p • f.V 1) = r • Pi.single 0 1 - p • Pi.single 1 1 := by
    rw [Matrix.mulVec_sub, Matrix.mulVec_smul, Matrix.mulVec_smul, hF.svd.V_row, hF.svd.V_row]
  simp only [hA, hz, hV, mul_zero, Fin.sum_univ_three] at hw
  simp at hw
  have h0 := hF.svd.nonneg' 0
  have h1 := hF.svd.nonneg' 1
  by_contra hne
  have hs1 : 0 < f.s 1 := lt_of_le_of_ne h1 (Ne.symm hne)
  have hs0 : 0 < f.s 0 := lt_of_lt_of_le hs1 hF.svd.le01
  have e1 := hF.svd.sum_sq_row 1
  simp only [hA, ← hr] at e1
  have hr0 : r = 0 := by
    have : (f.s 0 * r) ^ 2 = 0 := by nlinarith [sq_nonneg (f.s 0 * r), sq_nonneg (f.s 1 * p)]
    have := pow_eq_zero_iff (two_ne_zero) |>.1 this
    exact (mul_eq_zero.1 this).resolve_left hs0.ne'
  rw [hr0] at e1
  simp at e1
  exact hne (pow_eq_zero_iff two_ne_zero |>.1 e1.symm)

/-- A decomposition that meets the contract is found by some valid backend. -/
lemma exists_fit_of_svd {n : ℕ} (hn : 3 ≤ n) (a : Fin n → Vec 3) {U : Mat n 3} {s : Vec 3} {V : Mat 3 3}
    (h : IsSVD (Matrix.of (Coordinates.centered a)) U s V) :
    ∃ (svd : SvdFn) (f : Fit n), svd.Valid ∧ init svd a none none = .ok (some f) ∧ f.V = V ∧ f.s = s := by
  classical
  obtain ⟨g, hg⟩ := exists_valid_svd
  let svd : SvdFn := fun m A => if h : m = n then
      (if (h ▸ A : Mat n 3) = Matrix.of (Coordinates.centered a) then (h ▸ U, s, V) else g m A)
    else g m A
  have hs : svd.Valid := by
    intro m A hm
    by_cases h4 : m = n
    · subst h4
      by_cases hA : A = Matrix.of (Coordinates.centered a)
      · simp only [svd, dif_pos]
        rw [if_pos hA, hA]
        exact h
      · simp only [svd, dif_pos]
        rw [if_neg hA]
        exact hg m A hm
    · simp only [svd, dif_neg h4]
      exact hg m A hm
  obtain ⟨f, hf⟩ := init_default_exists svd hn a
  refine ⟨svd, f, hs, hf, ?_⟩
  have e2 : ∀ x : Vec 3, (fun j => x j * ![1, 1, 1] j) = x := by
    intro x; funext j; fin_cases j <;> simp
  have e : (Matrix.of fun i j => Coordinates.centered a i j / ![1, 1, 1] j)
      = Matrix.of (Coordinates.centered a) := by
    ext i j
    fin_cases j <;> simp
  simp only [init, runSvd, bind, Except.bind] at hf
  rw [if_neg (by omega), if_neg (by simp)] at hf
  simp only [Except.ok.injEq, Option.some.injEq, Option.getD_none] at hf
  rw [e, e2] at hf
  subst hf
  simp [derive, svd]

/-! ## C216 -/

/-- The second singular value tells whether the points are on a line. -/
theorem C216_second_partial (svd : SvdFn) (hs : svd.Valid) {n : ℕ} (a : Fin n → Vec 3) (f : Fit n)
    (hf : init svd a none none = .ok (some f)) : f.s 1 = 0 ↔ ∃ q u, Spec.OnLine a q u := by
  obtain ⟨U, hF⟩ := init_default hs hf
  constructor
  · intro h1
    have h2 : f.s 2 = 0 := le_antisymm (h1 ▸ hF.svd.le12) hF.svd.nonneg
    refine ⟨meanRows a, f.V 0, fun i => ⟨U i 0 * f.s 0, fun j => ?_⟩⟩
    have e := congrFun (congrFun hF.svd.recon i) j
    simp [Matrix.mul_apply, Matrix.diagonal_apply, Fin.sum_univ_three, h1, h2, Coordinates.centered] at e
    linarith
  · rintro ⟨q, u, h⟩
    exact onLine_second hF h

/-- Refutation: points on a line are given errors of zero, for all methods and levels, although they determine no
plane: each plane that contains the line is the result of some decomposition that meets the contract. -/
theorem C216_line_false (Q : Quantiles) (hQ : Spec.QuantilesOK Q) {n : ℕ} (hn : 3 ≤ n) (a : Fin n → Vec 3) (q u m : Vec 3)
    (hu : norm u = 1) (h : Spec.OnLine a q u) (hm : norm m = 1) (hmu : vdot m u = 0) :
    ∃ (svd : SvdFn) (f : Fit n), svd.Valid ∧ init svd a none none = .ok (some f) ∧ (f.normal = m ∨ f.normal = -m) ∧
      ∀ sampling cl, 0 ≤ cl → cl < 1 → errorsAt Q f sampling cl = some (0, 0) := by
  obtain ⟨g, hg⟩ := exists_valid_svd
  obtain ⟨f₀, hf₀⟩ := init_default_exists g hn a
  obtain ⟨U, hF⟩ := init_default hg hf₀
  have s1 := onLine_second hF h
  have s2 : f₀.s 2 = 0 := le_antisymm (s1 ▸ hF.svd.le12) hF.svd.nonneg
  obtain ⟨y, hy⟩ := onLine_centered (by omega) h
  have sq1 : ∀ {v : Vec 3}, norm v = 1 → v 0 * v 0 + v 1 * v 1 + v 2 * v 2 = 1 := by
    intro v hv
    rw [norm, Real.sqrt_eq_one, Fin.sum_univ_three] at hv
    linarith
  obtain ⟨e, he, hem, hes⟩ : ∃ e : Vec 3, norm e = 1 ∧ vdot m e = 0 ∧ ∀ j, f₀.s 0 * e j = f₀.s 0 * f₀.V 0 j := by
    by_cases h0 : f₀.s 0 = 0
    · exact ⟨u, hu, hmu, fun j => by rw [h0]; ring⟩
    · refine ⟨f₀.V 0, hF.svd.row_norm 0, ?_, fun _ => rfl⟩
      have hmA : ∀ i, (Matrix.of (Coordinates.centered a) *ᵥ m) i = 0 := by
        intro i
        simp only [Matrix.mulVec, dotProduct, Matrix.of_apply, hy, Fin.sum_univ_three]
        rw [vdot3] at hmu
        linear_combination y i * hmu
      have := hF.svd.sum_sq m
      simp only [hmA, s1, s2, Fin.sum_univ_three] at this
      have this : (f₀.s 0 * (f₀.V *ᵥ m) 0) ^ 2 = 0 := by simpa using this.symm
      rcases mul_eq_zero.1 (pow_eq_zero_iff two_ne_zero |>.1 this) with h' | h'
      · exact absurd h' h0
      · rw [vdot3]
        simp only [Matrix.mulVec, dotProduct, Fin.sum_univ_three] at h'
        linarith
  have e1 := sq1 he
  have m1 := sq1 hm
  rw [vdot3] at hem
  let V : Mat 3 3 := Matrix.of ![e, cross m e, m]
  have hV : V * V.transpose = 1 := by
    ext i j
    fin_cases i <;> fin_cases j <;>
      simp [V, Matrix.mul_apply, Fin.sum_univ_three, cross] <;> nlinarith
  have hsvd : IsSVD (Matrix.of (Coordinates.centered a)) U f₀.s V := by
    refine ⟨?_, hF.svd.orthU, hV, hF.svd.nonneg, hF.svd.le01, hF.svd.le12⟩
    ext i j
    have r := congrFun (congrFun hF.svd.recon i) j
    rw [r]
    have l : ∀ W : Mat 3 3, (U * Matrix.diagonal f₀.s * W) i j = U i 0 * (f₀.s 0 * W 0 j) := by
      intro W
      simp [Matrix.mul_apply, Matrix.diagonal_apply, Fin.sum_univ_three, s1, s2]
      ring
    rw [l, l, ← hes j]
    simp [V]
  obtain ⟨svd, f, hs, hf, hfV, -⟩ := exists_fit_of_svd hn a hsvd
  refine ⟨svd, f, hs, hf, ?_, fun sampling cl h0 h1 => ?_⟩
  · obtain ⟨U', hF'⟩ := init_default hs hf
    rw [hF'.normal, hfV]
    exact upward_eq m
  · rw [C174_zero_errors_iff_exact Q hQ svd hs a f hf sampling cl h0 h1]
    refine ⟨m, vdot m q, hm, fun i => ?_⟩
    obtain ⟨x, hx⟩ := h i
    simp only [Spec.OnPlane, hx]
    rw [vdot3] at hmu ⊢
    linear_combination x * hmu

/-- Ten points along a line to the east: their second singular value is zero. -/
example : ∃ (svd : SvdFn) (f : Fit 10), svd.Valid ∧ init svd (fun i => ![(i : ℝ), 0, 0]) none none = .ok (some f) ∧
    f.s 1 = 0 := by
  obtain ⟨svd, hs⟩ := exists_valid_svd
  obtain ⟨f, hf⟩ := init_default_exists svd (by norm_num : 3 ≤ 10) (fun i => ![(i : ℝ), 0, 0])
  refine ⟨svd, f, hs, hf, (C216_second_partial svd hs _ f hf).2 ⟨0, ![1, 0, 0], fun i => ⟨i, fun j => ?_⟩⟩⟩
  fin_cases j <;> simp

/-- The same points get errors of zero with a vertical plane as well as with a horizontal one. -/
example : ∃ (svd svd' : SvdFn) (f f' : Fit 10), svd.Valid ∧ svd'.Valid ∧
    init svd (fun i => ![(i : ℝ), 0, 0]) none none = .ok (some f) ∧
    init svd' (fun i => ![(i : ℝ), 0, 0]) none none = .ok (some f') ∧
    (f.normal = ![0, 1, 0] ∨ f.normal = -![0, 1, 0]) ∧ (f'.normal = ![0, 0, 1] ∨ f'.normal = -![0, 0, 1]) ∧
    errorsAt Spec.quantiles2 f false 0.95 = some (0, 0) ∧ errorsAt Spec.quantiles2 f' false 0.95 = some (0, 0) := by
  have hl : Spec.OnLine (fun i : Fin 10 => ![(i : ℝ), 0, 0]) 0 ![1, 0, 0] := by
    intro i
    refine ⟨i, fun j => ?_⟩
    fin_cases j <;> simp
  obtain ⟨svd, f, hs, hf, hn, he⟩ := C216_line_false _ Spec.quantiles2_ok (by norm_num) _ 0 ![1, 0, 0] ![0, 1, 0]
    (by simp [norm, Fin.sum_univ_three]) hl (by simp [norm, Fin.sum_univ_three]) (by simp [vdot3])
  obtain ⟨svd', f', hs', hf', hn', he'⟩ := C216_line_false _ Spec.quantiles2_ok (by norm_num) _ 0 ![1, 0, 0] ![0, 0, 1]
    (by simp [norm, Fin.sum_univ_three]) hl (by simp [norm, Fin.sum_univ_three]) (by simp [vdot3])
  exact ⟨svd, svd', f, f', hs, hs', hf, hf', hn, hn', he false 0.95 (by norm_num) (by norm_num),
    he' false 0.95 (by norm_num) (by norm_num)⟩

/-! ## C217 -/

lemma arctan_close (p q : ℝ) : |Real.arctan p - Real.arctan q| ≤ |p - q| := by
  have h := Convex.norm_image_sub_le_of_norm_deriv_le (f := Real.arctan) (C := 1) (s := Set.univ) (x := q) (y := p)
    (fun x _ => Real.differentiableAt_arctan x) (fun x _ => by
      rw [Real.deriv_arctan, Real.norm_eq_abs, abs_of_nonneg (by positivity), div_le_one (by positivity)]
      nlinarith [sq_nonneg x]) convex_univ (Set.mem_univ _) (Set.mem_univ _)
  simpa [Real.norm_eq_abs] using h

/-- The quotient in the errors, as a function of the quotients `ρ` and `β` of lengths. -/
lemma errorQuotient_close {k ρ ρ' β β' : ℝ} (hk : 0 ≤ k) (hρ' : 0 ≤ ρ') (h1 : k * ρ' ≤ 1 / 2) (h2 : k * β ≤ 1 / 2)
    (h3 : k * β' ≤ 1 / 2) (h4 : |β - β'| ≤ |ρ - ρ'|) :
    |ρ / Real.sqrt (1 - k * β) - ρ' / Real.sqrt (1 - k * β')| ≤ 5 / 2 * |ρ - ρ'| := by
  set h := Real.sqrt (1 - k * β) with hh
  set h' := Real.sqrt (1 - k * β') with hh'
  have a : 7 / 10 ≤ h := Real.le_sqrt_of_sq_le (by norm_num; linarith)
  have a' : 7 / 10 ≤ h' := Real.le_sqrt_of_sq_le (by norm_num; linarith)
  have b : h ^ 2 = 1 - k * β := Real.sq_sqrt (by linarith)
  have b' : h' ^ 2 = 1 - k * β' := Real.sq_sqrt (by linarith)
  have hp : 0 < h := by linarith
  have hp' : 0 < h' := by linarith
  have e : ρ / h - ρ' / h' = (ρ - ρ') / h + k * ρ' * (β - β') / (h * h' * (h + h')) := by
    have : (h' - h) * (h + h') = k * (β - β') := by linear_combination b' - b
    field_simp
    linear_combination ρ' * this
  rw [e]
  refine (abs_add_le _ _).trans ?_
  rw [abs_div, abs_of_pos hp, abs_div, abs_mul, abs_of_nonneg (by positivity : 0 ≤ k * ρ'),
    abs_of_pos (by positivity : 0 < h * h' * (h + h'))]
  have hd := abs_nonneg (ρ - ρ')
  have c1 : |ρ - ρ'| / h ≤ 10 / 7 * |ρ - ρ'| := by
    rw [div_le_iff₀ hp]
    nlinarith
  have c2 : k * ρ' * |β - β'| / (h * h' * (h + h')) ≤ 1 * |ρ - ρ'| := by
    rw [div_le_iff₀ (by positivity)]
    have d1 : (49 : ℝ) / 100 ≤ h * h' := by nlinarith
    have d2 : (1 : ℝ) / 2 ≤ h * h' * (h + h') := by nlinarith
    have d3 : k * ρ' * |β - β'| ≤ 1 / 2 * |ρ - ρ'| := mul_le_mul h1 h4 (abs_nonneg _) (by norm_num)
    nlinarith
  linarith

lemma errorAngle_eq {s b t k : ℝ} (hs : 0 < s) (ht : 0 ≤ t) (hk : 0 ≤ k) (h : k * b ≤ s / 2) :
    errorAngle s b t k = Real.arctan (Real.sqrt (1 + k) * ((t / s) / Real.sqrt (1 - k * (b / s)))) := by
  have h1 : 0 < 1 - k * (b / s) := by
    rw [← mul_div_assoc, sub_pos, div_lt_one hs]
    linarith
  have e1 : Real.sqrt (t * (t + k * t)) = t * Real.sqrt (1 + k) := by
    rw [show t * (t + k * t) = t ^ 2 * (1 + k) by ring, Real.sqrt_mul (sq_nonneg t), Real.sqrt_sq ht]
  have e2 : Real.sqrt (s * |s - k * b|) = s * Real.sqrt (1 - k * (b / s)) := by
    rw [abs_of_nonneg (by linarith), show s * (s - k * b) = s ^ 2 * (1 - k * (b / s)) by field_simp,
      Real.sqrt_mul (sq_nonneg s), Real.sqrt_sq hs.le]
  have h2 : 0 < Real.sqrt (1 - k * (b / s)) := Real.sqrt_pos.2 h1
  unfold errorAngle
  rw [e1, e2, arctan2_of_pos _ (by positivity)]
  congr 1
  field_simp

lemma errorAngle_close {s b t s' b' t' k δ : ℝ} (hk : 0 ≤ k) (ht : 0 ≤ t) (ht' : 0 ≤ t') (htb : t ≤ s) (htb' : t ≤ b)
    (h1 : |s - s'| ≤ δ) (h3 : |t - t'| ≤ δ) (hb : (b = t ∧ b' = t') ∨ (b = s ∧ b' = s'))
    (hd : δ < s) (hkb : k * (b + δ) ≤ (s - δ) / 2) :
    |errorAngle s b t k - errorAngle s' b' t' k| ≤ 5 * Real.sqrt (1 + k) * δ / (s - δ) := by
  have hδ : 0 ≤ δ := (abs_nonneg _).trans h1
  have hs : 0 < s := by linarith
  rw [abs_sub_le_iff] at h1 h3
  have hs' : 0 < s' := by linarith
  have hb' : b' ≤ b + δ := by rcases hb with ⟨h, h'⟩ | ⟨h, h'⟩ <;> rw [h, h'] <;> linarith
  have g1 : k * b ≤ s / 2 := by nlinarith
  have g2 : k * b' ≤ s' / 2 := by nlinarith
  rw [errorAngle_eq hs ht hk g1, errorAngle_eq hs' ht' hk g2]
  refine (arctan_close _ _).trans ?_
  rw [← mul_sub, abs_mul, abs_of_nonneg (Real.sqrt_nonneg _)]
  have g3 : k * t' ≤ s' / 2 := by
    have : k * t' ≤ k * (b + δ) := mul_le_mul_of_nonneg_left (by linarith) hk
    linarith
  have hq := errorQuotient_close (k := k) (ρ := t / s) (ρ' := t' / s') (β := b / s) (β' := b' / s') hk (by positivity)
    (by rw [← mul_div_assoc, div_le_iff₀ hs']; linarith) (by rw [← mul_div_assoc, div_le_iff₀ hs]; linarith)
    (by rw [← mul_div_assoc, div_le_iff₀ hs']; linarith)
    (by
      rcases hb with ⟨h, h'⟩ | ⟨h, h'⟩
      · rw [h, h']
      · rw [h, h', div_self hs.ne', div_self hs'.ne', sub_self, abs_zero]
        exact abs_nonneg _)
  have hr : |t / s - t' / s'| ≤ 2 * δ / (s - δ) := by
    have e : t / s - t' / s' = ((t - t') + (t / s) * (s' - s)) / s' := by field_simp; ring
    have hts : t / s ≤ 1 := (div_le_one hs).2 htb
    have hts0 : 0 ≤ t / s := by positivity
    rw [e, abs_div, abs_of_pos hs', div_le_div_iff₀ hs' (by linarith)]
    have : |(t - t') + (t / s) * (s' - s)| ≤ 2 * δ := by
      refine (abs_add_le _ _).trans ?_
      rw [abs_mul, abs_of_nonneg hts0]
      have i1 : |t - t'| ≤ δ := abs_sub_le_iff.2 h3
      have i2 : |s' - s| ≤ δ := abs_sub_le_iff.2 ⟨by linarith, by linarith⟩
      nlinarith [abs_nonneg (s' - s)]
    nlinarith [abs_nonneg ((t - t') + (t / s) * (s' - s))]
  calc Real.sqrt (1 + k) * |t / s / Real.sqrt (1 - k * (b / s)) - t' / s' / Real.sqrt (1 - k * (b' / s'))|
      ≤ Real.sqrt (1 + k) * (5 / 2 * (2 * δ / (s - δ))) := by
        refine mul_le_mul_of_nonneg_left (hq.trans ?_) (Real.sqrt_nonneg _)
        exact mul_le_mul_of_nonneg_left hr (by norm_num)
    _ = _ := by ring

/-- The relative width of the errors at a confidence level, noise and sampling errors. -/
noncomputable def Spec.relativeWidth (Q : Quantiles) (sampling : Bool) (n : ℕ) (cl : ℝ) : ℝ :=
  if sampling then Q.f cl 2 (n - 2) * Real.sqrt (2 / ((n : ℝ) - 1))
  else 2 * Q.f cl 2 (n - 2) / Real.sqrt ((n : ℝ) - 2)

/-- If the points are moved, the angular errors change by at most a multiple of the distance moved over the extent of the
data, as long as the errors are at most half of the extent. -/
theorem C217_errors_partial (Q : Quantiles) (hQ : Spec.QuantilesOK Q) (svd svd' : SvdFn) (hs : svd.Valid) (hs' : svd'.Valid)
    {n : ℕ} (a b : Fin n → Vec 3) (f g : Fit n) (hf : init svd a none none = .ok (some f))
    (hg : init svd' b none none = .ok (some g)) (sampling : Bool) (cl : ℝ) (h0 : 0 ≤ cl) (h1 : cl < 1)
    (hd : Spec.displacement a b < f.s 1)
    (hk : Spec.relativeWidth Q sampling n cl * ((if sampling then f.s 1 else f.s 2) + Spec.displacement a b)
      ≤ (f.s 1 - Spec.displacement a b) / 2) :
    ∃ x y x' y', errorsAt Q f sampling cl = some (x, y) ∧ errorsAt Q g sampling cl = some (x', y') ∧
      |x - x'| ≤ 5 * Real.sqrt (1 + Spec.relativeWidth Q sampling n cl) * Spec.displacement a b
        / (f.s 0 - Spec.displacement a b) ∧
      |y - y'| ≤ 5 * Real.sqrt (1 + Spec.relativeWidth Q sampling n cl) * Spec.displacement a b
        / (f.s 1 - Spec.displacement a b) := by
  obtain ⟨U, hF⟩ := init_default hs hf
  obtain ⟨U', hG⟩ := init_default hs' hg
  have hw : Spec.relativeWidth Q sampling n cl = relativeError sampling n (Q.f cl 2 (n - 2)) := by
    unfold Spec.relativeWidth relativeError
    rfl
  have hn : 3 ≤ n := hF.size
  have hz : 0 ≤ Q.f cl 2 (n - 2) := hQ.f_nonneg _ _ _ h0 h1 (by norm_num) (by omega)
  rw [hw] at hk ⊢
  set k := relativeError sampling n (Q.f cl 2 (n - 2)) with hkdef
  have hk0 : 0 ≤ k := relativeError_nonneg _ _ hz
  set δ := Spec.displacement a b with hδ
  have hcl : ∀ i, |f.s i - g.s i| ≤ δ := by
    intro i
    have e1 := singular_le hF hG i
    have e2 := singular_le hG hF i
    rw [displacement_comm] at e2
    rw [abs_sub_le_iff]
    constructor <;> linarith
  have hδ0 : 0 ≤ δ := (abs_nonneg _).trans (hcl 0)
  have h01 := hF.svd.le01
  have h12 := hF.svd.le12
  have hbase : ∀ j : Fin 3, (errorBase sampling f.s j = f.s 2 ∧ errorBase sampling g.s j = g.s 2) ∨
      (errorBase sampling f.s j = f.s j ∧ errorBase sampling g.s j = g.s j) := by
    intro j
    unfold errorBase
    cases sampling <;> simp
  have hle : ∀ j : Fin 3, f.s 2 ≤ errorBase sampling f.s j := by
    intro j
    unfold errorBase
    split_ifs
    · fin_cases j <;> simp <;> linarith
    · exact le_rfl
  refine ⟨_, _, _, _, errors_angle hQ hs hf sampling cl h0 h1, errors_angle hQ hs' hg sampling cl h0 h1, ?_, ?_⟩
  · refine errorAngle_close hk0 hF.svd.nonneg hG.svd.nonneg (h12.trans h01) (hle 0) (hcl 0) (hcl 2) (hbase 0)
      (by linarith) ?_
    unfold errorBase
    cases sampling
    · simp only [Bool.false_eq_true, if_false] at hk ⊢
      linarith
    · simp only [if_true] at hk ⊢
      have : k ≤ 1 / 2 := by
        by_contra hc
        push Not at hc
        nlinarith
      nlinarith
  · refine errorAngle_close hk0 hF.svd.nonneg hG.svd.nonneg h12 (hle 1) (hcl 1) (hcl 2) (hbase 1) hd ?_
    unfold errorBase
    exact hk

/-- Two points to the east and west, and four around the line between them, at the distance `η`. -/
def Witness.needle (η : ℝ) : Fin 6 → Vec 3 :=
  ![![10, 0, 0], ![-10, 0, 0], ![0, η, 0], ![0, -η, 0], ![0, 0, η], ![0, 0, -η]]

lemma needle_sum (η : ℝ) (w : Vec 3) :
    ∑ i, (Matrix.of (Coordinates.centered (Witness.needle η)) *ᵥ w) i ^ 2 =
      200 * w 0 ^ 2 + 2 * η ^ 2 * w 1 ^ 2 + 2 * η ^ 2 * w 2 ^ 2 := by
  simp [Matrix.mulVec, dotProduct, Coordinates.centered, meanRows, Witness.needle, Fin.sum_univ_succ]
  ring

lemma needle_fit {η : ℝ} (h0 : 0 < η) (h1 : η ≤ 10) {f : Fit 6} {U : Mat 6 3} (hF : IsFit (Witness.needle η) f U) :
    f.s 1 = f.s 2 ∧ 0 < f.s 2 := by
  have e0 := hF.svd.upper ![1, 0, 0]
  rw [needle_sum] at e0
  simp [Fin.sum_univ_three] at e0
  have r0 := hF.svd.sum_sq_row 0
  have r1 := hF.svd.sum_sq_row 1
  have r2 := hF.svd.sum_sq_row 2
  rw [needle_sum] at r0 r1 r2
  have n2 := row_sq hF.svd 2
  have n1 := row_sq hF.svd 1
  have n0 := row_sq hF.svd 0
  rw [Fin.sum_univ_three] at n0 n1 n2
  have col : f.V 0 0 ^ 2 + f.V 1 0 ^ 2 + f.V 2 0 ^ 2 = 1 := by
    have := congrFun (congrFun hF.svd.orthV' 0) 0
    simp [Matrix.mul_apply, Fin.sum_univ_three] at this
    linarith
  have hη : 2 * η ^ 2 ≤ 200 := by nlinarith
  have s2 : 2 * η ^ 2 ≤ f.s 2 ^ 2 := by
    nlinarith [mul_nonneg (sq_nonneg (f.V 2 0)) (sub_nonneg.2 hη)]
  have tot : f.s 0 ^ 2 + f.s 1 ^ 2 + f.s 2 ^ 2 = 200 + 4 * η ^ 2 := by
    linear_combination -r0 - r1 - r2 + (200 - 2 * η ^ 2) * col + 2 * η ^ 2 * (n0 + n1 + n2)
  have p2 := hF.svd.nonneg
  have h12 := hF.svd.le12
  have s2p : 0 < f.s 2 := by
    rcases p2.eq_or_lt with h | h
    · rw [← h] at s2
      nlinarith [pow_pos h0 2]
    · exact h
  refine ⟨le_antisymm ?_ h12, s2p⟩
  nlinarith

/-- Refutation: the smallest movement can change the errors by 45 degrees.  The points that are not moved are on a line and
have errors of zero. -/
theorem C217_jump_false (Q : Quantiles) (hQ : Spec.QuantilesOK Q) (svd : SvdFn) (hs : svd.Valid) (ε : ℝ) (hε : 0 < ε) :
    ∃ a b : Fin 6 → Vec 3, Spec.displacement a b ≤ ε ∧ ∃ f g : Fit 6, init svd a none none = .ok (some f) ∧
      init svd b none none = .ok (some g) ∧ ∀ sampling cl, 0 ≤ cl → cl < 1 →
        errorsAt Q f sampling cl = some (0, 0) ∧ ∃ x y, errorsAt Q g sampling cl = some (x, y) ∧ Real.pi / 4 ≤ y := by
  set η := min (ε / 2) 10 with hη
  have h0 : 0 < η := lt_min (by linarith) (by norm_num)
  have h1 : η ≤ 10 := min_le_right _ _
  have h2 : η ≤ ε / 2 := min_le_left _ _
  obtain ⟨f, hf⟩ := init_default_exists svd (by norm_num : 3 ≤ 6) (Witness.needle 0)
  obtain ⟨g, hg⟩ := init_default_exists svd (by norm_num : 3 ≤ 6) (Witness.needle η)
  refine ⟨Witness.needle 0, Witness.needle η, ?_, f, g, hf, hg, fun sampling cl hc0 hc1 => ⟨?_, ?_⟩⟩
  · rw [Spec.displacement, Real.sqrt_le_left hε.le]
    simp [Witness.needle, Fin.sum_univ_succ]
    nlinarith
  · rw [C174_zero_errors_iff_exact Q hQ svd hs _ f hf sampling cl hc0 hc1]
    refine ⟨![0, 0, 1], 0, by simp [norm, Fin.sum_univ_three], fun i => ?_⟩
    fin_cases i <;> simp [Spec.OnPlane, Witness.needle]
  · obtain ⟨U, hF⟩ := init_default hs hg
    obtain ⟨e12, hp⟩ := needle_fit h0 h1 hF
    refine ⟨_, _, errors_angle hQ hs hg sampling cl hc0 hc1, ?_⟩
    have hb : errorBase sampling g.s 1 = g.s 2 := by
      unfold errorBase
      cases sampling <;> simp [e12]
    have hk : 0 ≤ relativeError sampling 6 (Q.f cl 2 (6 - 2)) :=
      relativeError_nonneg _ _ (hQ.f_nonneg _ _ _ hc0 hc1 (by norm_num) (by norm_num))
    rw [hb, e12]
    set k := relativeError sampling 6 (Q.f cl 2 (6 - 2))
    set t := g.s 2
    have hy : 0 < Real.sqrt (t * (t + k * t)) := Real.sqrt_pos.2 (by positivity)
    have hxy : Real.sqrt (t * |t - k * t|) ≤ Real.sqrt (t * (t + k * t)) := by
      apply Real.sqrt_le_sqrt
      refine mul_le_mul_of_nonneg_left (abs_le.2 ⟨?_, ?_⟩) hp.le <;> nlinarith
    have hd : arctan2 (Real.sqrt (t * (t + k * t))) (Real.sqrt (t * (t + k * t))) = Real.pi / 4 := by
      rw [arctan2_of_pos _ hy, div_self hy.ne', Real.arctan_one]
    rw [← hd]
    exact arctan2_mono hy.le le_rfl (Real.sqrt_nonneg _) hxy

/-- Four measurements of a flat bed, one of them moved by a tenth. -/
example : ∃ (svd : SvdFn) (a b : Fin 4 → Vec 3) (f g : Fit 4), svd.Valid ∧ init svd a none none = .ok (some f) ∧
    init svd b none none = .ok (some g) ∧ Spec.displacement a b = 1 / 10 ∧ f.s 1 = 20 ∧
    ∃ x y x' y', errorsAt Spec.quantiles2 f false 0.95 = some (x, y) ∧
      errorsAt Spec.quantiles2 g false 0.95 = some (x', y') ∧ |y - y'| ≤ 1 / 5 := by
  obtain ⟨svd, f, hs, hf, -, hfs⟩ := Witness.exists_fit 1 (by simp) ![30, 20, 0] (by simp) (by simp) (by simp; norm_num)
  set a := Witness.points 1 ![30, 20, 0] with ha
  obtain ⟨g, hg⟩ := init_default_exists svd (by norm_num : 3 ≤ 4) (fun i j => a i j + if i = 0 ∧ j = 2 then 1 / 10 else 0)
  have hd : Spec.displacement a (fun i j => a i j + if i = 0 ∧ j = 2 then 1 / 10 else 0) = 1 / 10 := by
    rw [Spec.displacement]
    simp
  have h := C217_errors_partial Spec.quantiles2 Spec.quantiles2_ok svd svd hs hs a _ f g hf hg false 0.95 (by norm_num)
    (by norm_num)
  have hq : Spec.quantiles2.f 0.95 2 (4 - 2) = 19 := by
    simp only [Spec.quantiles2, Spec.fisher2]
    rw [show (-(2 / ((4 - 2 : ℕ) : ℝ))) = -1 by norm_num, Real.rpow_neg_one]
    norm_num
  have hk0 : 0 ≤ Spec.relativeWidth Spec.quantiles2 false 4 0.95 := by
    rw [Spec.relativeWidth, hq]
    simp
    positivity
  have hk : Spec.relativeWidth Spec.quantiles2 false 4 0.95 ≤ 35 := by
    rw [Spec.relativeWidth, hq]
    have : (13 : ℝ) / 10 ≤ Real.sqrt 2 := Real.le_sqrt_of_sq_le (by norm_num)
    have e : ((4 : ℕ) : ℝ) - 2 = 2 := by norm_num
    rw [e]
    simp only [Bool.false_eq_true, if_false]
    rw [div_le_iff₀ (by linarith)]
    nlinarith
  rw [hd, hfs] at h
  obtain ⟨x, y, x', y', e1, e2, -, e4⟩ := h (by simp; norm_num) (by simp; linarith)
  refine ⟨svd, a, _, f, g, hs, hf, hg, hd, by rw [hfs]; simp, x, y, x', y', e1, e2, e4.trans ?_⟩
  have h6 : Real.sqrt (1 + Spec.relativeWidth Spec.quantiles2 false 4 0.95) ≤ 6 := by
    rw [Real.sqrt_le_left (by norm_num)]
    linarith
  simp only [Matrix.cons_val_one, Matrix.cons_val_zero]
  rw [div_le_iff₀ (by norm_num)]
  linarith

end Attitude.Props
