import Verif.Lemmas.Pca
import Verif.Lemmas.SvdExists

/-!
# Data with a prescribed fit

Used in examples that show that the hypotheses of theorems are met.
-/

namespace Attitude.Witness

open Attitude Pca Matrix

/-- Four positions in three coordinates with mean zero, orthogonal to each other. -/
noncomputable def frame : Mat 4 3 :=
  !![1/2, 1/2, 1/2; 1/2, -1/2, -1/2; -1/2, 1/2, -1/2; -1/2, -1/2, 1/2]

lemma frame_orth : frame.transpose * frame = 1 := by
  ext i j
  fin_cases i <;> fin_cases j <;>
    simp [frame, Matrix.mul_apply, Fin.sum_univ_four] <;> norm_num

/-- Four points with the axes `V` and the singular values `s`. -/
noncomputable def points (V : Mat 3 3) (s : Vec 3) : Fin 4 → Vec 3 :=
  frame * Matrix.diagonal s * V

lemma points_centered (V : Mat 3 3) (s : Vec 3) :
    Coordinates.centered (points V s) = points V s := by
  have h : ∀ j, ∑ i, points V s i j = 0 := by
    intro j
    have e : ∀ i, points V s i j = ∑ k, frame i k * s k * V k j := by
      intro i
      simp only [points, Matrix.mul_apply (M := frame * Matrix.diagonal s), Matrix.mul_diagonal]
    simp only [e, Fin.sum_univ_four, Fin.sum_univ_three]
    simp [frame]
    ring
  funext i j
  simp [Coordinates.centered, meanRows, h]

/-- For all orthonormal axes and sorted singular values there is data and a valid backend that
finds them. -/
theorem exists_fit (V : Mat 3 3) (hV : V * V.transpose = 1) (s : Vec 3) (h2 : 0 ≤ s 2)
    (h12 : s 2 ≤ s 1) (h01 : s 1 ≤ s 0) :
    ∃ (svd : SvdFn) (f : Fit 4), svd.Valid ∧ init svd (points V s) none none = .ok (some f) ∧
      f.V = V ∧ f.s = s := by
  classical
  obtain ⟨g, hg⟩ := exists_valid_svd
  let svd : SvdFn := fun m A => if h : m = 4 then
      (if (h ▸ A : Mat 4 3) = frame * Matrix.diagonal s * V then (h ▸ frame, s, V) else g m A)
    else g m A
  have hs : svd.Valid := by
    intro m A hm
    by_cases h4 : m = 4
    · subst h4
      by_cases hA : A = frame * Matrix.diagonal s * V
      · simp only [svd, dif_pos]
        rw [if_pos hA]
        exact ⟨hA, frame_orth, hV, h2, h01, h12⟩
      · simp only [svd, dif_pos]
        rw [if_neg hA]
        exact hg 4 A hm
    · simp only [svd, dif_neg h4]
      exact hg m A hm
  obtain ⟨f, hf⟩ := init_default_exists svd (by norm_num : 3 ≤ 4) (points V s)
  refine ⟨svd, f, hs, hf, ?_⟩
  have e2 : ∀ x : Vec 3, (fun j => x j * ![1, 1, 1] j) = x := by
    intro x; funext j; fin_cases j <;> simp
  have e : (Matrix.of fun i j => points V s i j / ![1, 1, 1] j)
      = frame * Matrix.diagonal s * V := by
    ext i j
    fin_cases j <;> simp [points]
  simp only [init, runSvd, bind, Except.bind, points_centered] at hf
  rw [if_neg (by norm_num), if_neg (by simp)] at hf
  simp only [Except.ok.injEq, Option.some.injEq, Option.getD_none] at hf
  rw [e, e2] at hf
  subst hf
  simp [derive, svd]

/-- Axes of a plane that dips towards the east. -/
noncomputable def tilt : Mat 3 3 := !![3/5, 0, -4/5; 0, 1, 0; 4/5, 0, 3/5]

lemma tilt_orth : tilt * tilt.transpose = 1 := by
  ext i j
  fin_cases i <;> fin_cases j <;>
    simp [tilt, Matrix.mul_apply, Fin.sum_univ_three] <;> norm_num

/-- Four points around a plane that dips towards the east, with axes `tilt` and the singular
values 3, 2, 1. -/
noncomputable def tilted : Fin 4 → Vec 3 := points tilt ![3, 2, 1]

theorem exists_tilted : ∃ (svd : SvdFn) (f : Fit 4), svd.Valid ∧
    init svd tilted none none = .ok (some f) ∧ f.V = tilt ∧ f.s = ![3, 2, 1] :=
  exists_fit tilt tilt_orth _ (by simp) (by simp) (by norm_num)

/-- The same points without noise. -/
noncomputable def tiltedPlane : Fin 4 → Vec 3 := points tilt ![3, 2, 0]

theorem exists_tiltedPlane : ∃ (svd : SvdFn) (f : Fit 4), svd.Valid ∧
    init svd tiltedPlane none none = .ok (some f) ∧ f.V = tilt ∧ f.s = ![3, 2, 0] :=
  exists_fit tilt tilt_orth _ (by simp) (by simp) (by norm_num)

end Attitude.Witness
