import Verif.Model.ErrorMapping
import Verif.Lemmas.SvdExists
import Verif.Lemmas.Witness

/-!
# C253: the mapping of error axes, and the drawing of asymptotes of C147
-/

namespace Attitude.Props

open Attitude ErrorAxes ErrorMapping

/-- With `noise_axes` as the method the mapping has the axes and the hyperbolic axes of the fit, with the further
entries as given.  What is missing: the default (`C253_default_false`). -/
theorem C253_noise_partial (Q : Quantiles) {V : Type} {n : ℕ} (f : Pca.Fit n) (extra : List (String × V))
    (he : ∀ e ∈ extra, e.1 ≠ "axes" ∧ e.1 ≠ "covariance") :
    ∃ M, pcaToMapping Q f (some fun fit => noiseAxes Q fit {}) extra = .ok M ∧
      M.axes = f.V ∧ M.covariance = (ofFit Q f).hyp ∧ M.extra = extra := by
  have hany : extra.any (fun e => e.1 == "axes" || e.1 == "covariance") = false := by
    rw [List.any_eq_false]
    intro e hm
    have := he e hm
    simp [this.1, this.2]
  have hok : ∃ h, noiseAxes Q (ofFit Q f) {} = .ok h ∧ h = (ofFit Q f).hyp := by
    simp only [noiseAxes, ofFit, statisticalAxes, Option.isSome_none, Bool.false_eq_true, if_false, Option.getD_some,
      Option.getD_none, ne_eq, not_true_eq_false, if_true]
    rw [if_neg (by decide)]
    cases fisherStatistic Q n 0.95 2 with
    | none => exact ⟨none, rfl, rfl⟩
    | some z => exact ⟨_, rfl, rfl⟩
  obtain ⟨h, h1, h2⟩ := hok
  refine ⟨⟨f.V, h, extra⟩, ?_, rfl, h2, rfl⟩
  simp only [pcaToMapping, Option.getD_some, h1, bind, Except.bind, hany, Bool.false_eq_true, if_false]

example (Q : Quantiles) (f : Pca.Fit 4) :
    ∃ M, pcaToMapping Q f (some fun fit => noiseAxes Q fit {}) [("name", "bed")] = .ok M ∧
      M.axes = f.V ∧ M.covariance = (ofFit Q f).hyp ∧ M.extra = [("name", "bed")] :=
  C253_noise_partial Q f _ (by simp)

/-- Refutation: by default the mapping does not have the hyperbolic axes of the fit: for every fit of at least three
points that are not on a plane the third one is smaller than that of the fit. -/
theorem C253_default_false (Q : Quantiles) {V : Type} {n : ℕ} (hn : 3 ≤ n) (f : Pca.Fit n) (hs : 0 < f.s 2)
    (hF : 0 < Q.f 0.95 2 (n - 2)) (extra : List (String × V))
    (he : ∀ e ∈ extra, e.1 ≠ "axes" ∧ e.1 ≠ "covariance") :
    ∃ M g h, pcaToMapping Q f none extra = .ok M ∧ M.covariance = some g ∧ (ofFit Q f).hyp = some h ∧ g 2 < h 2 := by
  have hany : extra.any (fun e => e.1 == "axes" || e.1 == "covariance") = false := by
    rw [List.any_eq_false]
    intro e hm
    have := he e hm
    simp [this.1, this.2]
  have hz : fisherStatistic Q n 0.95 2 = some (Q.f 0.95 2 (n - 2)) := by
    unfold fisherStatistic
    rw [if_pos ⟨by norm_num, by omega, by norm_num, by norm_num⟩]
  set z := Q.f 0.95 2 (n - 2) with hzd
  set ev := Pca.eigenvalues f with hev
  have hnR : (3 : ℝ) ≤ n := by exact_mod_cast hn
  have he2 : 0 < ev 2 := by
    simp only [hev, Pca.eigenvalues]
    have : (0 : ℝ) < n - 1 := by linarith
    positivity
  have hsamp : samplingAxes Q (ofFit Q f) {} = .ok (some (applyErrorScaling ev
      (fun j => z * Real.sqrt (samplingCovariance n ev j)) n true)) := by
    simp only [samplingAxes, ofFit, statisticalAxes, Option.isSome_none, Bool.false_eq_true, if_false, Option.getD_some,
      Option.getD_none, ne_eq, not_true_eq_false, if_true, hz, hev]
  have hnoise : (ofFit Q f).hyp = some (applyErrorScaling ev
      (fun j => z * Real.sqrt (noiseCovariance n ev 2 j)) n true) := by
    simp only [ofFit, noiseAxes, statisticalAxes, Option.isSome_none, Bool.false_eq_true, if_false, Option.getD_some,
      Option.getD_none, ne_eq, not_true_eq_false, if_true, hz, hev]
    rw [if_neg (by decide)]
  refine ⟨⟨f.V, some (applyErrorScaling ev (fun j => z * Real.sqrt (samplingCovariance n ev j)) n true), extra⟩, _, _,
    ?_, rfl, hnoise, ?_⟩
  · simp only [pcaToMapping, Option.getD_none, hsamp, bind, Except.bind, hany, Bool.false_eq_true, if_false]
  · simp only [applyErrorScaling, if_true, Matrix.cons_val]
    have hlt : Real.sqrt (samplingCovariance n ev 2) < Real.sqrt (noiseCovariance n ev 2 2) := by
      apply Real.sqrt_lt_sqrt
      · simp only [samplingCovariance]
        have : (0 : ℝ) < n - 1 := by linarith
        positivity
      · simp only [samplingCovariance, noiseCovariance, Nat.cast_ofNat]
        have h1 : (0 : ℝ) < n - 1 := by linarith
        have h2 : (0 : ℝ) < n - 2 := by linarith
        rw [show 4 * ev 2 * (ev 2 / ((n : ℝ) - 2)) = 4 / (n - 2) * ev 2 ^ 2 by ring]
        apply mul_lt_mul_of_pos_right _ (by positivity)
        rw [div_lt_div_iff₀ h1 h2]
        linarith
    have h0 : 0 ≤ z * Real.sqrt (samplingCovariance n ev 2) := mul_nonneg hF.le (Real.sqrt_nonneg _)
    have h1 := mul_lt_mul_of_pos_left hlt hF
    rw [abs_of_nonpos (by linarith), abs_of_nonpos (by linarith)]
    linarith

/-- A fit of four points, with quantiles that are not zero. -/
example : ∃ (svd : Pca.SvdFn) (f : Pca.Fit 4), svd.Valid ∧
    Pca.init svd Witness.tilted none none = .ok (some f) ∧
    ∃ M g h, pcaToMapping ⟨fun _ _ _ => 19, fun _ _ => 6, fun _ => 0⟩ f none [("name", "bed")] = .ok M ∧
      M.covariance = some g ∧ (ofFit ⟨fun _ _ _ => 19, fun _ _ => 6, fun _ => 0⟩ f).hyp = some h ∧ g 2 < h 2 := by
  obtain ⟨svd, f, hv, hf, -, hs⟩ := Witness.exists_tilted
  exact ⟨svd, f, hv, hf, C253_default_false _ (by norm_num) f (by rw [hs]; simp) (by norm_num) _ (by simp)⟩

/-- Entries called `axes` or `covariance` cannot be added. -/
theorem C253_reserved (Q : Quantiles) {V : Type} {n : ℕ} (f : Pca.Fit n) (extra : List (String × V))
    (he : ∃ e ∈ extra, e.1 = "axes" ∨ e.1 = "covariance") : pcaToMapping Q f none extra = .error .typeError := by
  have hany : extra.any (fun e => e.1 == "axes" || e.1 == "covariance") = true := by
    rw [List.any_eq_true]
    obtain ⟨e, hm, h⟩ := he
    exact ⟨e, hm, by simpa using h⟩
  have hok : ∃ h, samplingAxes Q (ofFit Q f) {} = .ok h := by
    simp only [samplingAxes, ofFit, statisticalAxes, Option.isSome_none, Bool.false_eq_true, if_false, Option.getD_some,
      Option.getD_none, ne_eq, not_true_eq_false, if_true]
    cases fisherStatistic Q n 0.95 2 with
    | none => exact ⟨none, rfl⟩
    | some z => exact ⟨_, rfl⟩
  obtain ⟨h, hh⟩ := hok
  simp only [pcaToMapping, Option.getD_none, hh, bind, Except.bind, hany, if_true]

example (Q : Quantiles) (f : Pca.Fit 4) : pcaToMapping Q f none [("name", 1), ("axes", 2)] = .error .typeError :=
  C253_reserved Q f _ ⟨("axes", 2), by simp, Or.inl rfl⟩

/-- Refutation: `error_asymptotes` fails for every fit. -/
theorem C147_asymptotes_false (axes cov : Mat 3 3) : errorAsymptotes axes cov = .error .typeError := by
  simp [errorAsymptotes, planeErrorsMethod, bind, Except.bind]

end Attitude.Props
