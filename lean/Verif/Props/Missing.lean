import Verif.Model.Missing
import Verif.Props.Dem
import Verif.Props.PcaAngles
import Verif.Lemmas.Witness

/-!
# C245: fits of points with missing coordinates
-/

namespace Attitude.Props

open Attitude Pca

/-! ## Specification -/

/-- The attributes of a fit of numbers, as those of a fit of entries that may be missing. -/
def Spec.asFit {n : ℕ} (f : Fit n) : Missing.Fit n where
  array := fun i j => some (f.array i j)
  mean := fun j => f.mean.map fun m => m j
  arr := fun i j => some (f.arr i j)
  s := f.s
  V := f.V
  normal := f.normal

/-- The rows of a list. -/
def Spec.rowsOf {k : ℕ} (l : List (Fin k → Option ℝ)) : Fin l.length → Fin k → Option ℝ :=
  fun i => l.get i

/-! ## Helper lemmas -/

lemma missing_mean {n : ℕ} (b : Fin n → Vec 3) (j : Fin 3) (hn : n ≠ 0) :
    Missing.mean (fun i j => some (b i j)) j = some (meanRows b j) := by
  simp [Missing.mean, hn, meanRows]

lemma missing_centered {n : ℕ} (b : Fin n → Vec 3) :
    Missing.centered (fun i j => some (b i j)) = fun i j => some (Coordinates.centered b i j) := by
  funext i j
  have hn : n ≠ 0 := by rintro rfl; exact i.elim0
  simp [Missing.centered, missing_mean b j hn, Missing.nsub, Coordinates.centered]

lemma missing_none {n : ℕ} {a : Fin n → Fin 3 → Option ℝ} (h : ∃ i j, a i j = none) :
    ∃ i j, Missing.centered a i j = none := by
  obtain ⟨i, j, hij⟩ := h
  exact ⟨i, j, by simp [Missing.centered, hij, Missing.nsub]⟩

/-! ## C245 -/

/-- One missing coordinate: `LinAlgError`, from three points on.  (Every point loses that
coordinate when the mean is subtracted.) -/
theorem C245_raises (svd : SvdFn) {n : ℕ} (hn : 3 ≤ n) (a : Fin n → Fin 3 → Option ℝ)
    (h : ∃ i j, a i j = none) : Missing.init svd a none = .error .linAlgError := by
  simp only [Missing.init, Missing.runSvd, if_neg (not_lt.2 hn), if_pos (missing_none h), bind,
    Except.bind]

example (svd : SvdFn) : Missing.init svd (n := 4) ![![some 0, some 1, some 2],
    ![some 3, some 1, none], ![some 5, some 5, some 2], ![some 1, some 1, some 0]] none
    = .error .linAlgError :=
  C245_raises svd (by norm_num) _ ⟨1, 2, rfl⟩

/-- Complete points are fitted as in `Pca.init`, with the same errors. -/
theorem C245_complete (svd : SvdFn) {n : ℕ} (b : Fin n → Vec 3) (axes : Option (Mat 3 3)) :
    Missing.init svd (fun i j => some (b i j)) axes
      = (Pca.init svd b none axes).map fun o => o.map Spec.asFit := by
  have hm : Missing.mean (fun i j => some (b i j))
      = fun j => (if n = 0 then none else some (meanRows b)).map fun m => m j := by
    funext j
    by_cases hn : n = 0
    · simp [hn, Missing.mean]
    · rw [missing_mean b j hn, if_neg hn]; rfl
  have hw : (Matrix.of fun i j => Coordinates.centered b i j / ![1, 1, 1] j)
      = Matrix.of (Coordinates.centered b) := by
    ext i j; fin_cases j <;> simp
  have hw' : ∀ x : Vec 3, (fun j => x j * ![1, 1, 1] j) = x := by
    intro x; funext j; fin_cases j <;> simp
  cases axes with
  | none =>
    by_cases hn : n < 3
    · simp [Missing.init, Missing.runSvd, Pca.init, Pca.runSvd, hn, bind, Except.bind, Except.map]
    · simp only [Missing.init, missing_centered, Missing.runSvd, Pca.init, Pca.runSvd, if_neg hn,
        bind, Except.bind, Option.getD_none, hw, hw', Except.map]
      simp [Spec.asFit, derive, hm]
  | some ax =>
    simp only [Missing.init, Pca.init, missing_centered]
    cases hl : loadSavedFit ax with
    | none => simp [Except.map]
    | some p => simp [Except.map, Spec.asFit, derive, hm]

example (svd : SvdFn) : Missing.init svd (n := 2) ![![some 0, some 1, some 2],
    ![some 3, some 1, some 0]] none = .error .valueError := by
  have h := C245_complete svd ![![0, 1, 2], ![3, 1, 0]] none
  simp only [Pca.init, Pca.runSvd, bind, Except.bind] at h
  rw [if_pos (by norm_num)] at h
  rw [← show (fun i j => some ((![![0, 1, 2], ![3, 1, 0]] : Fin 2 → Vec 3) i j))
    = ![![some 0, some 1, some 2], ![some 3, some 1, some 0]] from by
      funext i j; fin_cases i <;> fin_cases j <;> rfl]
  exact h

/-- After `clean_coordinates` the fit is that of the complete points, in their order, whatever was
missing; it raises exactly if there are fewer than three of them, and then `ValueError`. -/
theorem C245_cleaned (svd : SvdFn) (l : List (Fin 3 → Option ℝ)) :
    ∃ b : Fin (Dem.cleanCoordinates l).length → Vec 3,
      (∀ i j, (Dem.cleanCoordinates l).get i j = some (b i j)) ∧
      (3 ≤ (Dem.cleanCoordinates l).length → ∃ f, Pca.init svd b none none = .ok (some f) ∧
        Missing.init svd (Spec.rowsOf (Dem.cleanCoordinates l)) none
          = .ok (some (Spec.asFit f))) ∧
      ((Dem.cleanCoordinates l).length < 3 →
        Missing.init svd (Spec.rowsOf (Dem.cleanCoordinates l)) none = .error .valueError) := by
  have hfin : ∀ i : Fin (Dem.cleanCoordinates l).length, ∀ j,
      (Dem.cleanCoordinates l).get i j ≠ none := by
    intro i j hij
    have := ((C77_exactly l).2.1 _).1 (List.get_mem (Dem.cleanCoordinates l) i)
    have := this.2 j
    rw [hij] at this
    simp at this
  have hb : Spec.rowsOf (Dem.cleanCoordinates l)
      = fun i j => some (((Dem.cleanCoordinates l).get i j).getD 0) := by
    funext i j
    cases hv : (Dem.cleanCoordinates l).get i j with
    | none => exact absurd hv (hfin i j)
    | some v => simp only [Spec.rowsOf, hv, Option.getD_some]
  refine ⟨fun i j => ((Dem.cleanCoordinates l).get i j).getD 0, fun i j => congrFun (congrFun hb i) j,
    fun h3 => ?_, fun h3 => ?_⟩
  · obtain ⟨f, hf⟩ := init_default_exists svd h3 fun i j => ((Dem.cleanCoordinates l).get i j).getD 0
    refine ⟨f, hf, ?_⟩
    rw [hb, C245_complete, hf]
    rfl
  · simp [Missing.init, Missing.runSvd, h3, bind, Except.bind]

/-- Four points of which one is not complete. -/
example (svd : SvdFn) : ∃ f, Missing.init svd (Spec.rowsOf (Dem.cleanCoordinates
    [![some 0, some 1, some 2], ![some 3, some 1, none], ![some 5, some 5, some 2],
      ![some 1, some 1, some 0]])) none = .ok (some f) := by
  obtain ⟨b, _, h, _⟩ := C245_cleaned svd [![some 0, some 1, some 2], ![some 3, some 1, none],
    ![some 5, some 5, some 2], ![some 1, some 1, some 0]]
  have hl : (Dem.cleanCoordinates [![some 0, some 1, some 2], ![some 3, some 1, none],
      ![some 5, some 5, some 2], ![some 1, some 1, some (0 : ℝ)]]).length = 3 := by
    simp [Dem.cleanCoordinates, Fin.exists_fin_succ]
  obtain ⟨f, _, hf⟩ := h hl.ge
  exact ⟨_, hf⟩

/-- Refuted for saved axes: the object is created for all points.  If the coordinate of one point
is missing then that of the mean and of all centered points is not a number, but strike and dip
are. -/
theorem C245_saved_false (svd : SvdFn) {n : ℕ} (a : Fin n → Fin 3 → Option ℝ) (ax : Mat 3 3)
    (hax : ∀ j, ∃ i, ax i j ≠ 0) (h2 : ax 2 ≠ 0) (i : Fin n) (j : Fin 3) (hij : a i j = none) :
    ∃ f : Missing.Fit n, Missing.init svd a (some ax) = .ok (some f) ∧
      f.mean j = none ∧ (∀ k, f.arr k j = none) ∧ (strikeDipOf f.normal).isSome := by
  have hc : ∀ j, columnNorms ax j ≠ 0 := by
    intro j h0
    obtain ⟨i, hi⟩ := hax j
    have := (norm_eq_zero_iff _).1 h0
    exact hi (congrFun this i)
  have hl : loadSavedFit ax = some (columnNorms ax, Matrix.of fun i j => ax i j / columnNorms ax j) := by
    simp only [loadSavedFit]
    rw [if_neg (by push Not; exact ⟨hc 0, hc 1, hc 2⟩)]
  have hm : Missing.mean a j = none := by
    rw [Missing.mean, if_pos (Or.inr ⟨i, hij⟩)]
  refine ⟨_, by simp only [Missing.init, hl]; rfl, hm, fun k => ?_, ?_⟩
  · simp only [Missing.centered, hm, Missing.nsub]
    cases a k j <;> rfl
  · have hne : upward ((Matrix.of fun i j => ax i j / columnNorms ax j) 2) ≠ 0 := by
      have h3 : (Matrix.of fun i j => ax i j / columnNorms ax j) 2 ≠ 0 := by
        intro h0
        apply h2
        funext k
        have := congrFun h0 k
        simpa [hc k] using this
      unfold upward
      split
      · exact fun h => h3 (neg_eq_zero.1 h)
      · exact h3
    obtain ⟨s, d, h, _⟩ := strikeDipOf_spec hne
    simp [h]

/-- A map of a saved fit to points of which none has an elevation. -/
example (svd : SvdFn) : ∃ f : Missing.Fit 3, Missing.init svd (fun _ => ![some 1, some 2, none])
    (some Witness.tilt) = .ok (some f) ∧ f.mean 2 = none := by
  obtain ⟨f, hf, hm, _⟩ := C245_saved_false svd (n := 3) (fun _ => ![some 1, some 2, none])
    Witness.tilt (by
      intro j; fin_cases j
      · exact ⟨0, by simp [Witness.tilt]⟩
      · exact ⟨1, by simp [Witness.tilt]⟩
      · exact ⟨2, by simp [Witness.tilt]⟩)
    (fun h => by simpa [Witness.tilt] using congrFun h 2) 0 2 rfl
  exact ⟨f, hf, hm⟩

end Attitude.Props
