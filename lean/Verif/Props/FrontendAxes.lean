import Verif.Props.FrontendCompare
import Verif.Props.PcaInvariance

/-!
# Properties of the frontend's scaled axes and of its options objects
-/

namespace Attitude.Props

open Attitude Frontend

/-! ## C109 -/

lemma columnNorm_eq (axes : Mat 3 3) (j : Fin 3) :
    Frontend.norm ((List.finRange 3).map fun i => some (axes i j)) = Pca.columnNorms axes j := by
  unfold Frontend.norm Pca.columnNorms Attitude.norm
  congr 1
  simp [d3sum, List.finRange_succ, Fin.sum_univ_three]
  ring

/-- `deconvolveAxes` does what the Python code does with saved axes. -/
lemma deconvolve_eq (axes : Mat 3 3) : deconvolveAxes axes = Pca.loadSavedFit axes := by
  unfold deconvolveAxes Pca.loadSavedFit
  simp only [columnNorm_eq]

/-- The frontend recovers singular values and axes from the `principal_axes` of a
fit whose singular values are not zero. -/
theorem C109_reads_principal_axes (svd : Pca.SvdFn) (hs : svd.Valid) {n : ℕ} (a : Fin n → Vec 3)
    (f : Pca.Fit n) (hf : Pca.init svd a none none = .ok (some f)) (hpos : f.s 2 ≠ 0) :
    deconvolveAxes (Pca.principalAxes f) = some (f.s, f.V) := by
  obtain ⟨U, h⟩ := Pca.init_default hs hf
  have h2 : 0 < f.s 2 := lt_of_le_of_ne h.svd.nonneg (Ne.symm hpos)
  have h1 : 0 < f.s 1 := lt_of_lt_of_le h2 h.svd.le12
  have h0 : 0 < f.s 0 := lt_of_lt_of_le h1 h.svd.le01
  have hsj : ∀ j, f.s j ≠ 0 := by
    intro j; fin_cases j
    · exact h0.ne'
    · exact h1.ne'
    · exact h2.ne'
  rw [deconvolve_eq]
  unfold Pca.loadSavedFit
  have hc : Pca.columnNorms (Pca.principalAxes f) = f.s := funext (columnNorms_principal h)
  simp only [hc, h0.ne', h1.ne', h2.ne', or_self, if_false, Option.some.injEq, Prod.mk.injEq,
    true_and]
  ext i j
  simp only [Pca.principalAxes, Matrix.of_apply]
  field_simp [hsj j]

example : ∃ (svd : Pca.SvdFn) (f : Pca.Fit 4), svd.Valid ∧
    Pca.init svd Witness.tilted none none = .ok (some f) ∧
    deconvolveAxes (Pca.principalAxes f) = some (![3, 2, 1], Witness.tilt) := by
  obtain ⟨svd, f, hs, hf, hV, e⟩ := Witness.exists_tilted
  refine ⟨svd, f, hs, hf, ?_⟩
  rw [C109_reads_principal_axes svd hs _ f hf (by rw [e]; simp), hV, e]

/-- Columns of a matrix with orthonormal rows. -/
lemma columnNorms_orthonormal {axes : Mat 3 3} (ho : Spec.OrthonormalRows axes) (j : Fin 3) :
    Pca.columnNorms axes j = 1 := by
  have hmm : axes * axes.transpose = 1 := by
    ext i k
    have := ho i k
    rw [Matrix.mul_apply, Matrix.one_apply]
    simpa [vdot] using this
  have hmm2 : axes.transpose * axes = 1 := mul_eq_one_comm.1 hmm
  have hmm' := congrFun (congrFun hmm2 j) j
  rw [Matrix.mul_apply, Matrix.one_apply_eq] at hmm'
  simp only [Matrix.transpose_apply] at hmm'
  unfold Pca.columnNorms Attitude.norm
  rw [show ∑ i, axes i j ^ 2 = 1 by rw [← hmm']; exact Finset.sum_congr rfl fun _ _ => sq _]
  exact Real.sqrt_one

/-- For orthonormal axes `convolveAxes` returns the axes with the given lengths and
does not change its argument. -/
theorem C109_convolve (axes : Mat 3 3) (ho : Spec.OrthonormalRows axes) (sv : Vec 3)
    (hsv : ∀ i, 0 ≤ sv i) :
    ∃ r, convolveAxes axes sv = some (r, axes) ∧
      ∀ i, r i = sv i • axes i ∧ Attitude.norm (r i) = sv i := by
  have hd : deconvolveAxes axes = some (fun _ => 1, axes) := by
    rw [deconvolve_eq]
    unfold Pca.loadSavedFit
    have : Pca.columnNorms axes = fun _ => 1 := funext (columnNorms_orthonormal ho)
    simp [this]
    rfl
  refine ⟨Matrix.of fun i j => axes i j * sv i, by simp [convolveAxes, hd], fun i => ?_⟩
  have e : (Matrix.of fun i j => axes i j * sv i : Mat 3 3) i = sv i • axes i := by
    funext j; simp [mul_comm]
  refine ⟨e, ?_⟩
  rw [e, norm_smul_nonneg (hsv i)]
  have : Attitude.norm (axes i) = 1 := by
    have := ho i i
    rw [vdot3] at this
    rw [norm_three]
    simp at this
    rw [show axes i 0 ^ 2 + axes i 1 ^ 2 + axes i 2 ^ 2 = 1 by linarith, Real.sqrt_one]
  rw [this, mul_one]

example : ∃ r, convolveAxes dippingAxes ![3, 2, 1] = some (r, dippingAxes) := by
  obtain ⟨r, h, _⟩ := C109_convolve dippingAxes dipping_orthonormal ![3, 2, 1]
    (fun i => by fin_cases i <;> simp)
  exact ⟨r, h⟩

/-- `deconvolveAxes` undoes `convolveAxes` when the three lengths are equal ... -/
theorem C109_inverse_partial (axes : Mat 3 3) (ho : Spec.OrthonormalRows axes) (c : ℝ) (hc : 0 < c) :
    ∃ r, convolveAxes axes (fun _ => c) = some (r, axes) ∧
      deconvolveAxes r = some (fun _ => c, axes) := by
  obtain ⟨r, h, hr⟩ := C109_convolve axes ho (fun _ => c) (fun _ => hc.le)
  refine ⟨r, h, ?_⟩
  have hrr : ∀ i j, r i j = c * axes i j := fun i j => by rw [(hr i).1]; rfl
  rw [deconvolve_eq]
  unfold Pca.loadSavedFit
  have : Pca.columnNorms r = fun _ => c := by
    funext j
    have h1 := columnNorms_orthonormal ho j
    unfold Pca.columnNorms Attitude.norm at h1 ⊢
    simp only [hrr, mul_pow, ← Finset.mul_sum]
    rw [Real.sqrt_mul (sq_nonneg _), h1, Real.sqrt_sq hc.le, mul_one]
  simp only [this, hc.ne', or_self, if_false, Option.some.injEq, Prod.mk.injEq, true_and]
  ext i j
  simp only [Matrix.of_apply, hrr]
  field_simp

example : ∃ r, convolveAxes dippingAxes (fun _ => 2) = some (r, dippingAxes) ∧
    deconvolveAxes r = some (fun _ => 2, dippingAxes) :=
  C109_inverse_partial dippingAxes dipping_orthonormal 2 (by norm_num)

/-- ... but not in general, although a comment says so: it divides by the lengths of
the columns, not of the rows. -/
theorem C109_inverse_false :
    ∃ r, convolveAxes dippingAxes ![3, 2, 1] = some (r, dippingAxes) ∧
      ∀ s, deconvolveAxes r ≠ some (![3, 2, 1], s) := by
  obtain ⟨r, h, hr⟩ := C109_convolve dippingAxes dipping_orthonormal ![3, 2, 1] (by
    intro i; fin_cases i <;> simp)
  refine ⟨r, h, fun s hs => ?_⟩
  rw [deconvolve_eq] at hs
  unfold Pca.loadSavedFit at hs
  simp only at hs
  split_ifs at hs with hz
  simp only [Option.some.injEq, Prod.mk.injEq] at hs
  have h1 := congrFun hs.1 1
  have e : ∀ i, r i 1 = (![3, 2, 1] : Vec 3) i * dippingAxes i 1 := fun i => by rw [(hr i).1]; rfl
  unfold Pca.columnNorms Attitude.norm at h1
  simp only [Fin.sum_univ_three, e] at h1
  simp [dippingAxes] at h1
  have h2 := congrArg (fun x : ℝ => x ^ 2) h1
  beta_reduce at h2
  rw [Real.sq_sqrt (by norm_num)] at h2
  norm_num at h2

/-- Scaled axes passed to `convolveAxes` are changed. -/
theorem C109_argument_changed_false :
    ∃ r, convolveAxes (2 : Mat 3 3) ![1, 1, 1] = some (r, 1) := by
  have hd : deconvolveAxes (2 : Mat 3 3) = some (fun _ => 2, 1) := by
    rw [deconvolve_eq]
    unfold Pca.loadSavedFit
    have h2 : ∀ i j, (2 : Mat 3 3) i j = if i = j then 2 else 0 := fun i j => by
      rw [show (2 : Mat 3 3) = (2 : ℝ) • (1 : Mat 3 3) by
        rw [two_smul]; norm_num [one_add_one_eq_two]]
      simp [Matrix.one_apply]
    have : Pca.columnNorms (2 : Mat 3 3) = fun _ => 2 := by
      funext j
      unfold Pca.columnNorms Attitude.norm
      simp only [h2, Fin.sum_univ_three]
      have : ((2 : ℝ) ^ 2).sqrt = 2 := Real.sqrt_sq (by norm_num)
      fin_cases j <;> simp [this]
    simp only [this]
    norm_num
    ext i j
    simp only [Matrix.of_apply, h2, Matrix.one_apply]
    split_ifs <;> norm_num
  refine ⟨Matrix.of fun i j => (1 : Mat 3 3) i j * (![1, 1, 1] : Vec 3) i, ?_⟩
  simp [convolveAxes, hd]

/-! ## C110 -/

/-- The options object after a sequence of calls. -/
noncomputable def after (o : Opts) (calls : List Call) : Opts := calls.foldl Call.after o

/-- What `combinedErrors` depends on. -/
def SameLayout (o o' : Opts) : Prop :=
  o.n.getD 100 = o'.n.getD 100 ∧ o.upperHemisphere.getD true = o'.upperHemisphere.getD true ∧
    o.traditionalLayout.getD true = o'.traditionalLayout.getD true

lemma sameLayout_after {o : Opts} {c : Call} (hc : c ≠ .position) :
    SameLayout (c.after o) o := by
  cases c with
  | plane => exact ⟨rfl, rfl, rfl⟩
  | normal => exact ⟨rfl, rfl, rfl⟩
  | combined => exact ⟨rfl, rfl, rfl⟩
  | position => exact absurd rfl hc

lemma sameLayout_defaults {o o' : Opts} (h : SameLayout o o') (hd : o.degrees = o'.degrees)
    (hs : o.sheet = o'.sheet) (hl : o.level = o'.level) : o.defaults = o'.defaults := by
  obtain ⟨h1, h2, h3⟩ := h
  cases o; cases o'
  simp only at hd hs hl
  subst hd hs hl
  simp_all [Opts.defaults]

lemma planeErrors_congr {o o' : Opts} (h : SameLayout o o') (hd : o.degrees = o'.degrees)
    (hs : o.sheet = o'.sheet) (cov : Vec 3) (axes : Option (Mat 3 3)) :
    (Frontend.planeErrors cov axes o).1 = (Frontend.planeErrors cov axes o').1 := by
  have e : ∀ (a : Mat 3 3), (Frontend.planeErrors cov (some a) o).1
      = (Frontend.planeErrors cov (some a) o').1 := by
    intro a
    rw [Frontend.planeErrors_eq, Frontend.planeErrors_eq, h.1]
    have e1 : side o (sheetOf o) a = side o' (sheetOf o') a := by
      unfold side sheetOf; rw [h.2.1, hs]
    have e2 : ∀ v, Frontend.cart2sph o.defaults v = Frontend.cart2sph o'.defaults v := by
      intro v
      unfold Frontend.cart2sph Opts.defaults
      simp only [h.2.1, h.2.2, hd]
    simp only [e1, e2]
  cases axes with
  | none => rw [Frontend.planeErrors_none, Frontend.planeErrors_none]; exact e 1
  | some a => exact e a

/-- The curves of `combinedErrors` do not depend on earlier uses of the same options
object by it, `planeErrors` or `normalErrors`. -/
theorem C110_history_partial (cov : Vec 3) (axes : Option (Mat 3 3)) (o : Opts) (calls : List Call)
    (hc : Call.position ∉ calls) :
    (combinedErrors cov axes (after o calls)).1 = (combinedErrors cov axes o).1 := by
  have inv : SameLayout (after o calls) o := by
    induction calls generalizing o with
    | nil => exact ⟨rfl, rfl, rfl⟩
    | cons c cs ih =>
      have h1 := ih (c.after o) (fun h => hc (List.mem_cons_of_mem _ h))
      have h2 := sameLayout_after (o := o) (c := c) (fun h => hc (h ▸ List.mem_cons_self))
      exact ⟨h1.1.trans h2.1, h1.2.1.trans h2.2.1, h1.2.2.trans h2.2.2⟩
  have key : ∀ (p q : Opts) (s : String), SameLayout p q →
      (Frontend.planeErrors cov axes { p with sheet := some s, degrees := some true }).1
        = (Frontend.planeErrors cov axes { q with sheet := some s, degrees := some true }).1 :=
    fun p q s h => planeErrors_congr (o := { p with sheet := some s, degrees := some true })
      (o' := { q with sheet := some s, degrees := some true }) h rfl rfl cov axes
  have d : ∀ p q : Opts, SameLayout p q → ∀ s, SameLayout
      { p with sheet := some s, degrees := some true }.defaults
      { q with sheet := some s, degrees := some true }.defaults :=
    fun p q h s => h
  unfold combinedErrors
  simp only [Combined.mk.injEq, planeErrors_opts]
  exact ⟨key _ _ _ inv, key _ _ _ inv, key _ _ _ inv⟩

example : (combinedErrors ![9, 4, 1] (some dippingAxes) (after {} [.combined ![1, 1, 1] none])).1
    = (combinedErrors ![9, 4, 1] (some dippingAxes) {}).1 :=
  C110_history_partial _ _ _ _ (by simp)

/-- They do after a use by `cart2sph`, whose default layout is another one. -/
theorem C110_layout_false :
    (after {} [.position]).traditionalLayout = some false ∧
    (combinedErrors ![1, 1, 1] none (after {} [.position])).2.traditionalLayout = some false ∧
    (combinedErrors ![1, 1, 1] none {}).2.traditionalLayout = some true ∧
    (combinedErrors ![1, 1, 1] (some verticalAxes) (after { n := some 1 } [.position])).1.nominal
      ≠ (combinedErrors ![1, 1, 1] (some verticalAxes) { n := some 1 }).1.nominal := by
  refine ⟨rfl, rfl, rfl, ?_⟩
  intro h
  have h1 := congrArg (fun l : List (Option (ℝ × ℝ)) => ((l.head?.getD none).getD 0).2) h
  beta_reduce at h1
  have hlt : ¬ (1 : ℝ) < 0 := by norm_num
  unfold combinedErrors at h1
  simp only [Frontend.planeErrors_eq] at h1
  simp [after, Call.after, ellipse, sinAngles, side, planeScale, sheetOf, Frontend.cart2sph,
    Opts.defaults, sqrtNum, Stereonet.toWorld, Fin.sum_univ_three, norm_three, verticalAxes, hlt] at h1

/-- Curves of `planeErrors` do after a use by `combinedErrors`: the default curve
becomes the lower error, in degrees. -/
theorem C110_plane_false (cov : Vec 3) (axes : Option (Mat 3 3)) :
    (after {} [.combined cov axes]).sheet = some "lower" ∧
    (after {} [.combined cov axes]).degrees = some true ∧
    (Frontend.planeErrors ![1, 1, 1] none { n := some 1 }).1
      ≠ (Frontend.planeErrors ![1, 1, 1] none (after { n := some 1 } [.combined cov axes])).1 := by
  refine ⟨rfl, rfl, ?_⟩
  intro h
  have h1 := congrArg (fun l : List (Option (ℝ × ℝ)) => ((l.head?.getD none).getD 0).1) h
  beta_reduce at h1
  have hlt : ¬ (1 : ℝ) < 0 := by norm_num
  simp only [Frontend.planeErrors_none, Frontend.planeErrors_eq] at h1
  simp [after, Call.after, ellipse, sinAngles, side, planeScale, sheetOf, Frontend.cart2sph,
    Opts.defaults, sqrtNum, Stereonet.toWorld, Fin.sum_univ_three, norm_three, combinedErrors,
    Frontend.planeErrors_opts, hlt] at h1
  have e2 : arctan2 (-1) 0 = -(Real.pi / 2) := by
    have := arctan2_of_polar (r := 1) (θ := -(Real.pi / 2)) (by norm_num)
      (by linarith [Real.pi_pos]) (by linarith [Real.pi_pos])
    simpa using this
  have e1 : arctan2 (-1) 1 = -(Real.pi / 4) := by
    rw [arctan2_of_pos _ (by norm_num), show (-1 : ℝ) / 1 = -1 by norm_num, Real.arctan_neg,
      Real.arctan_one]
  rw [e1, e2] at h1
  have hp := Real.pi_pos
  field_simp at h1
  linarith [Real.pi_le_four]

end Attitude.Props
