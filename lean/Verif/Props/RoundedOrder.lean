import Verif.Props.RoundedFit
import Verif.Props.PcaMotion

/-!
# C212: the order of the points in floating-point arithmetic
-/

namespace Attitude.Props

open Attitude Rounding RoundedFit Pca Matrix

/-! ## Helper lemmas -/

lemma eachTaken_perm {n : ℕ} (σ : Equiv.Perm (Fin n)) : Spec.EachTaken 1 σ := by
  intro i
  rw [Finset.card_eq_one]
  refine ⟨σ.symm i, ?_⟩
  ext j
  simp [Equiv.eq_symm_apply]

/-- Fits of the same points in another order have the same normal up to sign. -/
lemma normal_perm {svd : SvdFn} (hs : svd.Valid) {n : ℕ} (σ : Equiv.Perm (Fin n)) {a : Fin n → Vec 3} {f g : Fit n}
    (hf : init svd a none none = .ok (some f)) (hg : init svd (fun k => a (σ k)) none none = .ok (some g))
    (hgap : f.s 2 < f.s 1) : g.s = f.s ∧ (g.normal = f.normal ∨ g.normal = -f.normal) := by
  obtain ⟨U, h⟩ := init_default hs hf
  obtain ⟨U', h'⟩ := init_default hs hg
  have hφ := eachTaken_perm σ
  obtain ⟨hsv, hax⟩ := related_fits (R := 1) h h' (by simp) one_pos (by
    intro w
    rw [one_pow, one_mul, Matrix.one_mulVec, centered_taken hφ]
    have := sum_eachTaken hφ fun i => (Matrix.of (Coordinates.centered a) *ᵥ w) i ^ 2
    rw [Nat.cast_one, one_mul] at this
    exact this)
  refine ⟨funext fun j => by rw [hsv j, one_mul], ?_⟩
  have := hax hgap
  rw [Matrix.one_mulVec] at this
  rw [h.normal, h'.normal]
  rcases upward_eq (f.V 2) with e | e <;> rcases upward_eq (g.V 2) with e' | e' <;> rw [e, e'] <;>
    rcases this with k | k <;> rw [k] <;> simp

/-! ## C212 -/

/-- The centered coordinates of points that are given, or added, in another order differ by at most a few roundings of
the largest coordinate. -/
theorem C212_centered_partial (rnd : ℝ → ℝ) (F : Contract rnd) {n : ℕ} (t t' : Fin 3 → SumTree n)
    (ht : Spec.EachOnce t) (ht' : Spec.EachOnce t') (σ : Equiv.Perm (Fin n)) (a : Fin n → Vec 3) (j : Fin 3) (R : ℝ)
    (hR : ∀ k, |a k j| ≤ R) (h : ℕ) (hd : (t j).depth ≤ h) (hd' : (t' j).depth ≤ h) (hh : h + 2 ≤ 2 ^ 52) (i : Fin n) :
    |flCentered rnd t' (fun k => a (σ k)) i j - flCentered rnd t a (σ i) j| ≤ 8 * (h + 2) * unit * R := by
  obtain ⟨z1, z2⟩ := C01_centered_zero_mean_same_shape a
  obtain ⟨y1, y2⟩ := C01_centered_zero_mean_same_shape fun k => a (σ k)
  have h1 := C201_centered_partial rnd F t ht a _ z1 z2 j R hR h hd hh (σ i)
  have h2 := C201_centered_partial rnd F t' ht' _ _ y1 y2 j R (fun k => hR (σ k)) h hd' hh i
  rw [centered_taken (eachTaken_perm σ)] at h2
  have := abs_sub_le (flCentered rnd t' (fun k => a (σ k)) i j) (Coordinates.centered a (σ i) j)
    (flCentered rnd t a (σ i) j)
  rw [abs_sub_comm (Coordinates.centered a (σ i) j)] at this
  linarith

/-- Integer coordinates whose mean is an integer: no difference at all. -/
theorem C212_integers (rnd : ℝ → ℝ) (F : Contract rnd) {n : ℕ} (t t' : Fin 3 → SumTree n)
    (ht : Spec.EachOnce t) (ht' : Spec.EachOnce t') (σ : Equiv.Perm (Fin n)) (a : Fin n → Vec 3) (j : Fin 3)
    (x : Fin n → ℤ) (m : ℤ) (hx : ∀ k, a k j = x k) (hm : ∑ k, x k = n * m) (hsmall : ∑ k, |x k| ≤ 2 ^ 52) (i : Fin n) :
    flCentered rnd t' (fun k => a (σ k)) i j = flCentered rnd t a (σ i) j := by
  obtain ⟨z1, z2⟩ := C01_centered_zero_mean_same_shape a
  obtain ⟨y1, y2⟩ := C01_centered_zero_mean_same_shape fun k => a (σ k)
  rw [C201_integers rnd F t ht a _ z1 z2 j x m hx hm hsmall (σ i),
    C201_integers rnd F t' ht' _ _ y1 y2 j (fun k => x (σ k)) m (fun k => hx (σ k))
      (by rw [← hm]; exact Equiv.sum_comp σ x) (by rw [Equiv.sum_comp σ fun k => |x k|]; exact hsmall) i,
    centered_taken (eachTaken_perm σ)]

/-- Points from the first to the last. -/
def inTurn : Fin 3 → SumTree 3 := fun _ => .node (.node (.leaf 0) (.leaf 1)) (.leaf 2)

lemma inTurn_eachOnce : Spec.EachOnce inTurn := fun _ => by simp only [inTurn, SumTree.leaves]; decide

example : Spec.EachOnce inTurn ∧ (∀ j, (inTurn j).depth ≤ 2) ∧
    (∀ k, |(![![466123, 5412345, 1200], ![466130, 5412340, 1203], ![466127, 5412350, 1197]] : Fin 3 → Vec 3) k 2| ≤ 1300) ∧
    ∑ k, (![1200, 1203, 1197] : Fin 3 → ℤ) k = (3 : ℕ) * 1200 := by
  refine ⟨inTurn_eachOnce, fun _ => by simp [inTurn, SumTree.depth], fun k => ?_, by decide⟩
  fin_cases k <;> simp <;> norm_num

/-- Refutation: three points, added from the first to the last.  Giving the first point last changes its centered
coordinates. -/
theorem C212_order_false : ∃ (a : Fin 3 → Vec 3) (σ : Equiv.Perm (Fin 3)) (i : Fin 3) (j : Fin 3),
    (∀ k l, round53 (a k l) = a k l) ∧
    flCentered round53 inTurn (fun k => a (σ k)) i j ≠ flCentered round53 inTurn a (σ i) j := by
  have rep0 : round53 0 = 0 := by simp [round53]
  have rep1 : round53 (2 ^ 53) = 2 ^ 53 := by
    rw [roundPos_binade (e := 53) (by norm_num) (by norm_num) (2 ^ 52) (by norm_num) (by norm_num)]
    norm_num
  have rep2 : round53 (3 / 4) = 3 / 4 := by
    rw [roundPos_binade (e := -1) (by norm_num) (by norm_num) (3 * 2 ^ 51) (by norm_num) (by norm_num)]
    norm_num
  have rep3 : round53 (1 / 2) = 1 / 2 := by
    rw [roundPos_binade (e := -1) (by norm_num) (by norm_num) (2 ^ 52) (by norm_num) (by norm_num)]
    norm_num
  have rep4 : round53 1 = 1 := by
    rw [roundPos_binade (e := 0) (by norm_num) (by norm_num) (2 ^ 52) (by norm_num) (by norm_num)]
    norm_num
  have s1 : round53 (2 ^ 53 + 3 / 4) = 2 ^ 53 := by
    rw [roundPos_binade (e := 53) (by norm_num) (by norm_num) (2 ^ 52) (by norm_num) (by norm_num)]
    norm_num
  have s1' : round53 (2 ^ 53 + 1 / 2) = 2 ^ 53 := by
    rw [roundPos_binade (e := 53) (by norm_num) (by norm_num) (2 ^ 52) (by norm_num) (by norm_num)]
    norm_num
  have s2 : round53 (3 / 4 + 1 / 2) = 5 / 4 := by
    rw [roundPos_binade (e := 0) (by norm_num) (by norm_num) (5 * 2 ^ 50) (by norm_num) (by norm_num)]
    norm_num
  have s3 : round53 (5 / 4 + 2 ^ 53) = 2 ^ 53 + 2 := by
    rw [roundPos_binade (e := 53) (by norm_num) (by norm_num) (2 ^ 52 + 1) (by norm_num) (by norm_num)]
    norm_num
  have m1 : round53 (2 ^ 53 / (3 : ℕ)) = 6004799503160661 / 2 := by
    rw [roundPos_binade (e := 51) (by norm_num) (by norm_num) 6004799503160661 (by norm_num) (by norm_num)]
    norm_num
  have m2 : round53 ((2 ^ 53 + 2) / (3 : ℕ)) = 6004799503160663 / 2 := by
    rw [roundPos_binade (e := 51) (by norm_num) (by norm_num) 6004799503160663 (by norm_num) (by norm_num)]
    norm_num
  have d1 : round53 (1 / 2 - 6004799503160661 / 2) = -3002399751580330 := by
    rw [show (1 / 2 - 6004799503160661 / 2 : ℝ) = -3002399751580330 by norm_num, round53_neg,
      roundPos_binade (e := 51) (by norm_num) (by norm_num) 6004799503160660 (by norm_num) (by norm_num)]
    norm_num
  have d2 : round53 (1 / 2 - 6004799503160663 / 2) = -3002399751580331 := by
    rw [show (1 / 2 - 6004799503160663 / 2 : ℝ) = -3002399751580331 by norm_num, round53_neg,
      roundPos_binade (e := 51) (by norm_num) (by norm_num) 6004799503160662 (by norm_num) (by norm_num)]
    norm_num
  refine ⟨![![0, 0, 2 ^ 53], ![1, 0, 3 / 4], ![0, 1, 1 / 2]], finRotate 3, 1, 2, ?_, ?_⟩
  · intro k l
    fin_cases k <;> fin_cases l <;> first | exact rep0 | exact rep1 | exact rep2 | exact rep3 | exact rep4
  · have r0 : finRotate 3 0 = 1 := by decide
    have r1 : finRotate 3 1 = 2 := by decide
    have r2 : finRotate 3 2 = 0 := by decide
    simp only [flCentered, flMean, inTurn, SumTree.eval, r0, r1, r2, Matrix.cons_val_zero, Matrix.cons_val_one,
      Matrix.cons_val]
    rw [s2, s3, m2, d2, s1, s1', m1, d1]
    norm_num

/-- Strike and dip, from points given and added in two orders, describe planes that are both close to the one of exact
arithmetic. -/
theorem C212_strike_dip (rnd : ℝ → ℝ) (F : Contract rnd) (lib : Libm) (ε : ℝ) (L : Spec.Accurate lib ε)
    (svd' : FlSvd) (η : ℝ) (hη : 0 ≤ η) (hη1 : η < 1)
    {n : ℕ} (hstable : Spec.BackwardStable rnd svd' n η) (h3 : 3 ≤ n) (t t' : Fin 3 → SumTree n)
    (ht : Spec.EachOnce t) (ht' : Spec.EachOnce t') (σ : Equiv.Perm (Fin n)) (a : Fin n → Vec 3)
    (R : ℝ) (hR : ∀ k j, |a k j| ≤ R) (h : ℕ) (hd : ∀ j, (t j).depth ≤ h) (hd' : ∀ j, (t' j).depth ≤ h)
    (hh : h + 2 ≤ 2 ^ 51)
    (svd : SvdFn) (hs : svd.Valid) (f : Fit n) (hf : init svd a none none = .ok (some f))
    (τ : ℝ) (hτ0 : 0 ≤ τ) (hgap : f.s 2 < f.s 1)
    (hτ : 4 * Spec.roundingError n h R η * (f.s 2 + Spec.roundingError n h R η)
      ≤ (f.s 1 ^ 2 - f.s 2 ^ 2) * τ ^ 2) :
    ∃ s d s' d', flPlane rnd lib svd' t a = .ok (s, some d) ∧
      flPlane rnd lib svd' t' (fun k => a (σ k)) = .ok (s', some d') ∧
      ∃ m m' : Vec 3, norm m = 1 ∧ norm m' = 1 ∧ 0 ≤ m 2 ∧ 0 ≤ m' 2 ∧ Spec.RightHandRule m s d ∧
        Spec.RightHandRule m' s' d' ∧
        Spec.sineBetween m f.normal ≤ τ + 2 * η + 2 * radians ε + 1 / 10 ^ 7 ∧
        Spec.sineBetween m' f.normal ≤ τ + 2 * η + 2 * radians ε + 1 / 10 ^ 7 := by
  obtain ⟨s, d, e, m, k1, k2, k3, k4⟩ := C202_strike_dip rnd F lib ε L svd' η hη hη1 hstable h3 t ht a R hR h hd hh svd
    hs f hf τ hτ0 hgap hτ
  obtain ⟨g, hg⟩ := init_default_exists svd h3 fun k => a (σ k)
  obtain ⟨hsv, hnor⟩ := normal_perm hs σ hf hg hgap
  obtain ⟨s', d', e', m', l1, l2, l3, l4⟩ := C202_strike_dip rnd F lib ε L svd' η hη hη1 hstable h3 t' ht'
    (fun k => a (σ k)) R (fun k j => hR (σ k) j) h hd' hh svd hs g hg τ hτ0 (by rw [hsv]; exact hgap)
    (by rw [hsv]; exact hτ)
  refine ⟨s, d, s', d', e, e', m, m', k1, l1, k2, l2, k3, l3, k4, ?_⟩
  rcases hnor with q | q
  · rwa [q] at l4
  · rwa [q, sine_neg_right] at l4

/-- Four points, in the order given and backwards. -/
example : ∃ (svd' : FlSvd) (svd : SvdFn) (f : Fit 4) (t : Fin 3 → SumTree 4) (s d s' d' : ℝ),
    init svd Witness.tilted none none = .ok (some f) ∧
    flPlane round53 (Spec.correctlyRounded round53) svd' t Witness.tilted = .ok (s, some d) ∧
    flPlane round53 (Spec.correctlyRounded round53) svd' t (fun k => Witness.tilted (Fin.revPerm k)) =
      .ok (s', some d') := by
  obtain ⟨svd', svd, f, t, h1, h2, h3, h4, h5, h6, h7, h8, h9, h10⟩ := rounded_example
  obtain ⟨s, d, s', d', e, e', -⟩ := C212_strike_dip round53 round53_contract _ _ h5 svd' unit unit_pos.le h2 h1
    (by norm_num) t t h3 h3 Fin.revPerm Witness.tilted 3 h8 3 h4 h4 (by norm_num) svd h6 f h7 (1 / 1000) (by norm_num) h9
    h10
  exact ⟨svd', svd, f, t, s, d, s', d', h7, e, e'⟩

end Attitude.Props
