import Verif.Props.FrontendGirdle
import Verif.Props.TurnedCurves

/-!
# C241: curves of the frontend and the signs of the axes

A decomposition may return every axis with either sign.  The frontend draws its curves from the axes it is given.
-/

namespace Attitude.Props

open Attitude Frontend

/-- The same axes with other signs. -/
def Spec.signed (σ : Vec 3) (axes : Mat 3 3) : Mat 3 3 := Matrix.of fun i j => σ i * axes i j

/-- Every entry is a sign. -/
def Spec.Signs (σ : Vec 3) : Prop := ∀ i, σ i = 1 ∨ σ i = -1

/-! ## Samples of the ellipse -/

/-- The samples as pairs of numbers, `NaN` read as zero. -/
noncomputable def samples (n : ℕ) (a b : Num) : List (ℝ × ℝ) :=
  (ellipse n a b).map fun p => (p.1.getD 0, p.2.getD 0)

lemma samples_eq {v : ℕ} (hv : 1 ≤ v) (a b : Num) : samples (2 * v) a b =
    (0, -a.getD 0) :: ((List.range (v - 1)).map fun i : ℕ =>
      (b.getD 0 * Real.cos (Real.arcsin (-1 + ((i : ℝ) + 1) * (2 / v))), a.getD 0 * (-1 + ((i : ℝ) + 1) * (2 / v)))) ++
    (0, a.getD 0) :: ((List.range (v - 1)).map fun i : ℕ =>
      (-(b.getD 0 * Real.cos (Real.arcsin (-1 + ((i : ℝ) + 1) * (2 / v)))),
        a.getD 0 * (-1 + ((i : ℝ) + 1) * (2 / v)))).reverse := by
  have hr : List.range ((2 * v + 1) / 2) = 0 :: (List.range (v - 1)).map (· + 1) := by
    rw [show (2 * v + 1) / 2 = (v - 1) + 1 by omega, List.range_succ_eq_map]
  have hneg : ∀ x : Num, (x.map fun x => -x).getD 0 = -(x.getD 0) := by intro x; cases x <;> simp
  have h2 : ((2 * v : ℕ) : ℝ) / 2 = v := by push_cast; ring
  unfold samples ellipse sinAngles
  rw [hr]
  simp only [List.map_cons, List.map_append, List.map_map, List.drop_succ_cons, List.drop_zero, List.map_reverse,
    List.map_nil, Function.comp_def, Num.mul_getD_some, hneg, h2, Nat.cast_zero, zero_mul, add_zero,
    Real.arcsin_neg_one, Real.cos_neg, Real.cos_pi_div_two, mul_zero, Option.getD_some, Nat.cast_add, Nat.cast_one]
  simp

/-- Reflecting the samples in the second axis gives the same samples. -/
lemma samples_mirror_x {v : ℕ} (hv : 1 ≤ v) (a b : Num) :
    ((samples (2 * v) a b).map fun p => (-p.1, p.2)).Perm (samples (2 * v) a b) := by
  rw [samples_eq hv]
  simp only [List.map_append, List.map_cons, List.map_map, List.map_reverse, Function.comp_def, neg_zero, neg_neg]
  rw [List.cons_append, List.cons_append]
  refine List.Perm.cons _ ?_
  refine (List.perm_append_comm).trans ?_
  rw [List.cons_append]
  refine (List.Perm.cons _ ?_).trans (List.perm_middle.symm)
  exact List.Perm.append (List.reverse_perm _) ((List.reverse_perm _).symm)

/-- Reflecting them in the first axis too. -/
lemma samples_mirror_y {v : ℕ} (hv : 1 ≤ v) (a b : Num) :
    ((samples (2 * v) a b).map fun p => (p.1, -p.2)).Perm (samples (2 * v) a b) := by
  have hv0 : (v : ℝ) ≠ 0 := by positivity
  have hrev : ∀ f : ℕ → ℝ × ℝ, (List.range (v - 1)).map f =
      ((List.range (v - 1)).map fun i => f (v - 2 - i)).reverse := by
    intro f
    rw [← List.map_reverse, List.range_eq_range', ← List.range_eq_range']
    apply List.ext_getElem
    · simp
    · intro k h1 h2
      simp only [List.length_map, List.length_range] at h1
      simp only [List.getElem_map, List.getElem_range, List.getElem_reverse, List.length_range]
      congr 1
      omega
  have hs : ∀ i ∈ List.range (v - 1), -(-1 + ((i : ℝ) + 1) * (2 / v)) = -1 + (((v - 2 - i : ℕ) : ℝ) + 1) * (2 / v) := by
    intro i hi
    rw [List.mem_range] at hi
    rw [Nat.cast_sub (by omega), Nat.cast_sub (by omega)]
    push_cast
    field_simp
    ring
  have hc : ∀ i ∈ List.range (v - 1), Real.cos (Real.arcsin (-1 + ((i : ℝ) + 1) * (2 / v))) =
      Real.cos (Real.arcsin (-1 + (((v - 2 - i : ℕ) : ℝ) + 1) * (2 / v))) := by
    intro i hi
    rw [← hs i hi, Real.arcsin_neg, Real.cos_neg]
  have e1 : ((List.range (v - 1)).map fun i : ℕ =>
      (b.getD 0 * Real.cos (Real.arcsin (-1 + ((i : ℝ) + 1) * (2 / v))), -(a.getD 0 * (-1 + ((i : ℝ) + 1) * (2 / v))))) =
      ((List.range (v - 1)).map fun i : ℕ =>
      (b.getD 0 * Real.cos (Real.arcsin (-1 + ((i : ℝ) + 1) * (2 / v))), a.getD 0 * (-1 + ((i : ℝ) + 1) * (2 / v)))).reverse := by
    rw [hrev (fun i : ℕ => (b.getD 0 * Real.cos (Real.arcsin (-1 + ((i : ℝ) + 1) * (2 / v))),
      a.getD 0 * (-1 + ((i : ℝ) + 1) * (2 / v)))), List.reverse_reverse]
    refine List.map_congr_left fun i hi => ?_
    rw [← hs i hi, hc i hi, ← hs i hi]
    ring_nf
  have e2 : ((List.range (v - 1)).map fun i : ℕ =>
      (-(b.getD 0 * Real.cos (Real.arcsin (-1 + ((i : ℝ) + 1) * (2 / v)))), -(a.getD 0 * (-1 + ((i : ℝ) + 1) * (2 / v))))) =
      ((List.range (v - 1)).map fun i : ℕ =>
      (-(b.getD 0 * Real.cos (Real.arcsin (-1 + ((i : ℝ) + 1) * (2 / v)))), a.getD 0 * (-1 + ((i : ℝ) + 1) * (2 / v)))).reverse := by
    have := congrArg (List.map fun p : ℝ × ℝ => (-p.1, p.2)) e1
    simpa only [List.map_map, List.map_reverse, Function.comp_def] using this
  rw [samples_eq hv]
  simp only [List.map_append, List.map_cons, List.map_map, List.map_reverse, Function.comp_def, neg_neg, e1, e2,
    List.reverse_reverse]
  rw [List.cons_append, List.cons_append]
  refine (List.Perm.cons _ List.perm_middle).trans ((List.Perm.swap _ _ _).trans
    (List.Perm.cons _ (List.Perm.trans (List.Perm.cons _ ?_) (List.perm_middle.symm))))
  exact List.Perm.append (List.reverse_perm _) ((List.reverse_perm _).symm)

lemma samples_mirror {v : ℕ} (hv : 1 ≤ v) (a b : Num) {s t : ℝ} (hs : s = 1 ∨ s = -1) (ht : t = 1 ∨ t = -1) :
    ((samples (2 * v) a b).map fun p => (s * p.1, t * p.2)).Perm (samples (2 * v) a b) := by
  have key : ∀ t : ℝ, t = 1 ∨ t = -1 →
      ((samples (2 * v) a b).map fun p => (p.1, t * p.2)).Perm (samples (2 * v) a b) := by
    rintro t (rfl | rfl)
    · simp
    · simpa using samples_mirror_y hv a b
  rcases hs with rfl | rfl
  · simpa using key t ht
  · have := (key t ht).map fun p : ℝ × ℝ => (-p.1, p.2)
    rw [List.map_map] at this
    simpa [Function.comp_def] using this.trans (samples_mirror_x hv a b)

lemma toWorld_signed (σ e : Vec 3) (axes : Mat 3 3) :
    Stereonet.toWorld e (Spec.signed σ axes) = Stereonet.toWorld (fun i => σ i * e i) axes := by
  funext j
  simp only [Stereonet.toWorld, Spec.signed, Matrix.of_apply]
  exact Finset.sum_congr rfl fun i _ => by ring

lemma planeErrors_samples (cov : Vec 3) (axes : Mat 3 3) (o : Opts) :
    (planeErrors cov (some axes) o).1 =
      (samples (o.n.getD 100) (sqrtNum (cov 0)) (sqrtNum (cov 1))).map fun p =>
        cart2sph o.defaults (Stereonet.toWorld ![p.2, p.1, Real.sqrt (cov 2) * side o (sheetOf o) axes] axes) := by
  rw [Frontend.planeErrors_eq, samples, List.map_map]
  rfl

/-- Curves for axes with other signs, from the side on which the two sheets are. -/
lemma signed_curve {cov σ : Vec 3} (hσ : Spec.Signs σ) {axes : Mat 3 3} {o o' : Opts} {v : ℕ} (hv : 1 ≤ v)
    (hn : o.n.getD 100 = 2 * v) (hn' : o'.n.getD 100 = 2 * v) (hd : ∀ x, cart2sph o.defaults x = cart2sph o'.defaults x)
    (hside : σ 2 * side o (sheetOf o) (Spec.signed σ axes) = side o' (sheetOf o') axes) :
    (planeErrors cov (some (Spec.signed σ axes)) o).1.Perm (planeErrors cov (some axes) o').1 := by
  rw [planeErrors_samples, planeErrors_samples, hn, hn']
  have e : ((samples (2 * v) (sqrtNum (cov 0)) (sqrtNum (cov 1))).map fun p => cart2sph o.defaults
      (Stereonet.toWorld ![p.2, p.1, Real.sqrt (cov 2) * side o (sheetOf o) (Spec.signed σ axes)]
        (Spec.signed σ axes))) =
      (((samples (2 * v) (sqrtNum (cov 0)) (sqrtNum (cov 1))).map fun p => (σ 1 * p.1, σ 0 * p.2)).map fun p =>
        cart2sph o'.defaults (Stereonet.toWorld ![p.2, p.1, Real.sqrt (cov 2) * side o' (sheetOf o') axes] axes)) := by
    rw [List.map_map]
    refine List.map_congr_left fun p _ => ?_
    simp only [Function.comp]
    rw [hd, toWorld_signed]
    congr 2
    funext i
    fin_cases i
    · rfl
    · rfl
    · show σ 2 * (Real.sqrt (cov 2) * _) = Real.sqrt (cov 2) * _
      rw [← hside]
      ring
  rw [e]
  exact (samples_mirror hv _ _ (hσ 1) (hσ 0)).map _

/-- The curve of a plane that is not vertical has the same positions whatever the signs of the axes, for all
sheets, levels and options, if the number of samples is even (as the default is). -/
theorem C241_signs_partial (cov : Vec 3) (axes : Mat 3 3) (σ : Vec 3) (hσ : Spec.Signs σ) (o : Opts)
    (heven : Even (o.n.getD 100)) (h0 : o.n ≠ some 0) (hv : axes 2 2 ≠ 0 ∨ o.sheet = none ∨ o.sheet = some "nominal") :
    (planeErrors cov (some (Spec.signed σ axes)) o).1.Perm (planeErrors cov (some axes) o).1 := by
  obtain ⟨v, hvn⟩ := heven
  have hv1 : 1 ≤ v := by
    rcases Nat.eq_zero_or_pos v with h | h
    · subst h
      cases hn : o.n with
      | none => rw [hn] at hvn; simp at hvn
      | some k => rw [hn] at hvn; simp at hvn; exact absurd (by rw [hn, hvn]) h0
    · exact h
  refine signed_curve hσ hv1 (by omega) (by omega) (fun _ => rfl) ?_
  rcases hv with hv | hv
  · have e : Spec.signed σ axes 2 2 = σ 2 * axes 2 2 := rfl
    unfold side
    rw [e]
    rcases hσ 2 with k | k <;> rw [k]
    · simp
    · rcases lt_or_gt_of_ne hv with h | h
      · simp [h, not_lt.2 h.le]
        split_ifs <;> ring
      · simp [h, not_lt.2 h.le]
        split_ifs <;> ring
  · unfold side
    rw [sheet_nominal hv]
    simp [planeScale]

/-- For a vertical plane, if the sign of the third axis is changed, the sheets upper and lower exchange names. -/
theorem C241_vertical_false (cov : Vec 3) (axes : Mat 3 3) (hax : axes 2 2 = 0) (σ : Vec 3) (hσ : Spec.Signs σ)
    (h2 : σ 2 = -1) (o : Opts) (heven : Even (o.n.getD 100)) (h0 : o.n ≠ some 0) :
    (planeErrors cov (some (Spec.signed σ axes)) { o with sheet := some "upper" }).1.Perm
      (planeErrors cov (some axes) { o with sheet := some "lower" }).1 ∧
    (planeErrors cov (some (Spec.signed σ axes)) { o with sheet := some "lower" }).1.Perm
      (planeErrors cov (some axes) { o with sheet := some "upper" }).1 := by
  obtain ⟨v, hvn⟩ := heven
  have hv1 : 1 ≤ v := by
    rcases Nat.eq_zero_or_pos v with h | h
    · subst h
      cases hn : o.n with
      | none => rw [hn] at hvn; simp at hvn
      | some k => rw [hn] at hvn; simp at hvn; exact absurd (by rw [hn, hvn]) h0
    · exact h
  have e : Spec.signed σ axes 2 2 = 0 := by
    show σ 2 * axes 2 2 = 0
    rw [hax, mul_zero]
  constructor <;>
  · refine signed_curve hσ hv1 (show o.n.getD 100 = 2 * v by omega) (show o.n.getD 100 = 2 * v by omega)
      (fun _ => rfl) ?_
    unfold side
    rw [e, hax, h2]
    simp [sheetOf, planeScale]

/-- With an odd number of samples the curve does depend on the signs: three samples, the sign of the first axis. -/
theorem C241_odd_false : ∃ q ∈ (planeErrors ![1, 1, 0] (some 1) { n := some 3 }).1,
    q ∉ (planeErrors ![1, 1, 0] (some (Spec.signed ![-1, 1, 1] 1)) { n := some 3 }).1 := by
  set od : Opts := Opts.defaults { n := some 3 } with hod
  set c := Real.cos (Real.arcsin (1 / 3)) with hc
  have hc0 : 0 < c := by
    rw [hc, Real.cos_arcsin]
    exact Real.sqrt_pos.2 (by norm_num)
  have hpi := Real.pi_pos
  have L : ∀ s : ℝ, (planeErrors ![1, 1, 0] (some (Spec.signed ![s, 1, 1] 1)) { n := some 3 }).1 =
      [cart2sph od ![s * -1, 0, 0], cart2sph od ![s * (1 / 3), c, 0], cart2sph od ![s, 0, 0],
        cart2sph od ![s * (1 / 3), -c, 0]] := by
    intro s
    have hw : ∀ e : Vec 3, Stereonet.toWorld e (Spec.signed ![s, 1, 1] 1) = ![s * e 0, e 1, e 2] := by
      intro e
      funext j
      fin_cases j <;> simp [Stereonet.toWorld, Fin.sum_univ_three, Spec.signed, mul_comm]
    rw [Frontend.planeErrors_eq]
    simp only [hw]
    have e0 : sqrtNum ((![1, 1, 0] : Vec 3) 0) = some 1 := by rw [sqrtNum_of_nonneg] <;> simp
    have e1 : sqrtNum ((![1, 1, 0] : Vec 3) 1) = some 1 := by rw [sqrtNum_of_nonneg] <;> simp
    have e3 : (1 : ℝ) / 3 = -1 + 1 * (2 / (3 / 2)) := by norm_num
    rw [e0, e1]
    simp [ellipse, sinAngles, List.range_succ, hod, hc, e3]
  have L1 : (planeErrors ![1, 1, 0] (some 1) { n := some 3 }).1 =
      [cart2sph od ![1 * -1, 0, 0], cart2sph od ![1 * (1 / 3), c, 0], cart2sph od ![1, 0, 0],
        cart2sph od ![1 * (1 / 3), -c, 0]] := by
    have : Spec.signed ![1, 1, 1] 1 = (1 : Mat 3 3) := by
      ext i j
      fin_cases i <;> fin_cases j <;> simp [Spec.signed]
    rw [← L 1, this]
  have P : ∀ x y : ℝ, x ≠ 0 → cart2sph od ![x, y, 0] =
      some (arctan2 x 0, Real.arcsin (y / Attitude.norm ![x, y, 0])) := by
    intro x y hx
    have hn : Attitude.norm ![x, y, 0] ≠ 0 := fun h => by
      have := (norm_eq_zero_iff _).1 h
      exact hx (by simpa using congrFun this 0)
    simp [cart2sph, hod, Opts.defaults, hn]
  have hpos : ∀ x : ℝ, 0 < x → arctan2 x 0 = Real.pi / 2 := fun x hx => arctan2_pos_zero hx
  have hneg : ∀ x : ℝ, x < 0 → arctan2 x 0 = -(Real.pi / 2) := fun x hx => by
    have := arctan2_of_polar (r := -x) (θ := -(Real.pi / 2)) (by linarith) (by linarith) (by linarith)
    simpa using this
  refine ⟨cart2sph od ![1 * (1 / 3), c, 0], by rw [L1]; simp, ?_⟩
  rw [L (-1)]
  simp only [List.mem_cons, List.not_mem_nil, or_false, not_or]
  rw [P _ _ (by norm_num), P _ _ (by norm_num), P _ _ (by norm_num), P _ _ (by norm_num), P _ _ (by norm_num)]
  rw [hpos _ (by norm_num), hpos _ (by norm_num), hneg _ (by norm_num), hneg _ (by norm_num)]
  have hne : ¬ Real.pi / 2 = -(Real.pi / 2) := by intro h; linarith
  simp only [Option.some.injEq, Prod.mk.injEq, hne, false_and, not_false_eq_true, and_true, true_and, zero_div,
    Real.arcsin_zero, Real.arcsin_eq_zero_iff, div_eq_zero_iff, hc0.ne', false_or]
  intro h
  have := congrFun ((norm_eq_zero_iff _).1 h) 1
  exact hc0.ne' (by simpa using this)

/-- The poles: with the sign of the third axis the sheets exchange names; the other signs do not matter. -/
theorem C241_poles (cov : Vec 3) (h0 : 0 < cov 0) (h1 : 0 < cov 1) (h2 : 0 ≤ cov 2) (axes : Mat 3 3) (σ : Vec 3)
    (hσ : Spec.Signs σ) (o : Opts) (heven : Even (o.n.getD 100)) (hn0 : o.n ≠ some 0) (sheet sheet' : String)
    (hs : σ 2 = 1 ∧ sheet' = sheet ∧ (sheet = "upper" ∨ sheet = "lower") ∨
      σ 2 = -1 ∧ (sheet = "upper" ∧ sheet' = "lower" ∨ sheet = "lower" ∧ sheet' = "upper")) :
    ∃ c c', normalErrors cov (some (Spec.signed σ axes)) { o with sheet := some sheet } = some c ∧
      normalErrors cov (some axes) { o with sheet := some sheet' } = some c' ∧ c.1.Perm c'.1 := by
  obtain ⟨v, hvn⟩ := heven
  have hv1 : 1 ≤ v := by
    rcases Nat.eq_zero_or_pos v with h | h
    · subst h
      cases hn : o.n with
      | none => rw [hn] at hvn; simp at hvn
      | some k => rw [hn] at hvn; simp at hvn; exact absurd (by rw [hn, hvn]) hn0
    · exact h
  obtain ⟨x, x', hx, hx', hxx⟩ : ∃ x x' : ℝ, normalScale sheet = some x ∧ normalScale sheet' = some x' ∧ x' = σ 2 * x := by
    rcases hs with ⟨k, rfl, rfl | rfl⟩ | ⟨k, ⟨rfl, rfl⟩ | ⟨rfl, rfl⟩⟩
    · exact ⟨1, 1, by simp [normalScale], by simp [normalScale], by rw [k]; ring⟩
    · exact ⟨-1, -1, by simp [normalScale], by simp [normalScale], by rw [k]; ring⟩
    · exact ⟨1, -1, by simp [normalScale], by simp [normalScale], by rw [k]; ring⟩
    · exact ⟨-1, 1, by simp [normalScale], by simp [normalScale], by rw [k]; ring⟩
  have e1 := normalErrors_eq (o := { o with sheet := some sheet }) (Spec.signed σ axes) h0 h1 h2 hx
  have e2 := normalErrors_eq (o := { o with sheet := some sheet' }) axes h0 h1 h2 hx'
  refine ⟨_, _, e1, e2, ?_⟩
  have hn : ({ o with sheet := some sheet } : Opts).n.getD 100 = 2 * v := by show o.n.getD 100 = _; omega
  simp only [hn]
  have hsq : ∀ i, σ i * σ i = 1 := fun i => by rcases hσ i with k | k <;> rw [k] <;> norm_num
  set k := o.level.getD 1 with hk
  have ec : ∀ w, cart2sph (Opts.normalDefaults { o with sheet := some sheet }) w =
      cart2sph (Opts.normalDefaults { o with sheet := some sheet' }) w := fun w => rfl
  have key : ∀ (s t x' : ℝ), (s = 1 ∨ s = -1) → (t = 1 ∨ t = -1) →
      ((samples (2 * v) (sqrtNum (cov 0)) (sqrtNum (cov 1))).map fun p =>
        cart2sph (Opts.normalDefaults { o with sheet := some sheet' }) (Stereonet.toWorld
          (poleVec cov (x' * hemi o * k) x' (s * p.1) (t * p.2)) axes)).Perm
      ((samples (2 * v) (sqrtNum (cov 0)) (sqrtNum (cov 1))).map fun p =>
        cart2sph (Opts.normalDefaults { o with sheet := some sheet' }) (Stereonet.toWorld
          (poleVec cov (x' * hemi o * k) x' p.1 p.2) axes)) := by
    intro s t x' hs ht
    have := (samples_mirror hv1 (sqrtNum (cov 0)) (sqrtNum (cov 1)) hs ht).map fun p =>
      cart2sph (Opts.normalDefaults { o with sheet := some sheet' }) (Stereonet.toWorld
          (poleVec cov (x' * hemi o * k) x' p.1 p.2) axes)
    rwa [List.map_map] at this
  have hs2 : ∀ i, σ i * σ 2 = 1 ∨ σ i * σ 2 = -1 := fun i => by
    rcases hσ i with a | a <;> rcases hσ 2 with b | b <;> rw [a, b] <;> norm_num
  have := key (σ 0 * σ 2) (σ 1 * σ 2) x' (hs2 0) (hs2 1)
  unfold samples at this
  simp only [List.map_map, Function.comp_def] at this
  refine List.Perm.trans (List.Perm.of_eq ?_) this
  refine List.map_congr_left fun p _ => ?_
  rw [ec, toWorld_signed]
  congr 2
  have hroot : ((σ 0 * σ 2 * p.1.getD 0) ^ 2 + (σ 1 * σ 2 * p.2.getD 0) ^ 2) = p.1.getD 0 ^ 2 + p.2.getD 0 ^ 2 := by
    have q : ∀ i, (σ i * σ 2) ^ 2 = 1 := fun i => by rcases hs2 i with a | a <;> rw [a] <;> norm_num
    rw [mul_pow _ (p.1.getD 0), mul_pow _ (p.2.getD 0), q, q]
    ring
  funext i
  have hh : hemi ({ o with sheet := some sheet } : Opts) = hemi o := rfl
  simp only [poleVec, hroot, hxx, hh]
  have q2 := hsq 2
  fin_cases i
  · simp only [Fin.zero_eta, Matrix.cons_val_zero]
    linear_combination (-(σ 0 * (-(p.1.getD 0) * (x * hemi o * k) * Real.sqrt (cov 2) / Real.sqrt (cov 0)))) * q2
  · simp only [Fin.mk_one, Matrix.cons_val_one, Matrix.cons_val_zero]
    linear_combination (-(σ 1 * (-(p.2.getD 0) * (x * hemi o * k) * Real.sqrt (cov 2) / Real.sqrt (cov 1)))) * q2
  · simp
    ring

example : ∃ c c', normalErrors ![3, 2, 1] (some (Spec.signed ![1, -1, -1] 1)) { sheet := some "upper" } = some c ∧
    normalErrors ![3, 2, 1] (some 1) { sheet := some "lower" } = some c' ∧ c.1.Perm c'.1 :=
  C241_poles ![3, 2, 1] (by simp) (by simp) (by simp) 1 ![1, -1, -1] (by intro i; fin_cases i <;> simp) {} ⟨50, rfl⟩
    (by simp) "upper" "lower" (Or.inr ⟨by simp, Or.inl ⟨rfl, rfl⟩⟩)

/-- Two fits of the same points with three different singular values, made by any two decompositions: the
frontend draws the same nominal, upper and lower curves for them. -/
theorem C241_same_points (svd svd' : Pca.SvdFn) (hs : svd.Valid) (hs' : svd'.Valid) {k : ℕ} (a : Fin k → Vec 3)
    (f g : Pca.Fit k) (hf : Pca.init svd a none none = .ok (some f)) (hg : Pca.init svd' a none none = .ok (some g))
    (h12 : f.s 2 < f.s 1) (h01 : f.s 1 < f.s 0) (hv : f.V 2 2 ≠ 0) (cov : Vec 3) (o : Opts)
    (heven : Even (o.n.getD 100)) (h0 : o.n ≠ some 0) :
    (combinedErrors cov (some g.V) o).1.nominal.Perm (combinedErrors cov (some f.V) o).1.nominal ∧
    (combinedErrors cov (some g.V) o).1.upper.Perm (combinedErrors cov (some f.V) o).1.upper ∧
    (combinedErrors cov (some g.V) o).1.lower.Perm (combinedErrors cov (some f.V) o).1.lower := by
  have hid : ∀ v : Vec 3, Spec.turn 0 v = v := by
    intro v
    funext j
    fin_cases j <;> simp [Spec.turn]
  have hm : Spec.moved 1 0 0 a = a := by
    funext i j
    simp [Spec.moved, hid]
  obtain ⟨-, hrows⟩ := moved_rows (t := 0) (α := 0) hs hs' one_pos hf (by rw [hm]; exact hg) h12 h01
  obtain ⟨σ, hσ, hax⟩ := signs_of hrows
  have e : g.V = Spec.signed σ f.V := by
    ext i j
    have := congrFun (hax i) j
    rw [hid] at this
    exact this
  have hne : o.n.getD 100 ≠ 0 := by
    cases hn : o.n with
    | none => simp
    | some m => intro h; simp at h; exact h0 (by rw [hn, h])
  rw [e]
  refine ⟨C241_signs_partial cov f.V σ hσ _ heven h0 (Or.inl hv), ?_, ?_⟩
  · exact C241_signs_partial cov f.V σ hσ _ heven (by simpa [planeErrors_opts, Opts.defaults] using hne) (Or.inl hv)
  · exact C241_signs_partial cov f.V σ hσ _ heven (by simpa [planeErrors_opts, Opts.defaults] using hne) (Or.inl hv)

example : ∃ (svd : Pca.SvdFn) (f : Pca.Fit 4), svd.Valid ∧ Pca.init svd Witness.tilted none none = .ok (some f) ∧
    f.s 2 < f.s 1 ∧ f.s 1 < f.s 0 ∧ f.V 2 2 ≠ 0 := by
  obtain ⟨svd, f, hs, hf, eV, es⟩ := Witness.exists_tilted
  exact ⟨svd, f, hs, hf, by rw [es]; simp, by rw [es]; norm_num, by rw [eV]; simp [Witness.tilt]⟩

/-- Turning the axes about the vertical turns every position of the curve. -/
theorem C241_turn (cov : Vec 3) (h0 : 0 < cov 0) (h1 : 0 < cov 1) (axes : Mat 3 3)
    (ho : Spec.OrthonormalRows axes) (α : ℝ) (o : Opts) (hu : o.upperHemisphere ≠ some false) :
    List.Forall₂ (fun q q' => ∃ p p', q = some p ∧ q' = some p' ∧
        Spec.shown (o.degrees.getD false) (o.traditionalLayout.getD true) p =
          Spec.turn α (Spec.shown (o.degrees.getD false) (o.traditionalLayout.getD true) p'))
      (planeErrors cov (some (Matrix.of fun i => Spec.turn α (axes i))) o).1 (planeErrors cov (some axes) o).1 := by
  rw [planeErrors_samples, planeErrors_samples, List.forall₂_map_left_iff, List.forall₂_map_right_iff,
    List.forall₂_same]
  intro p hp
  obtain ⟨q, hq, rfl⟩ := List.mem_map.1 hp
  obtain ⟨c, s, hcs, hx, hy, -, -⟩ := mem_ellipse hq
  rw [sqrtNum_getD] at hx hy
  have hs0 : 0 < Real.sqrt (cov 0) := Real.sqrt_pos.2 h0
  have hs1 : 0 < Real.sqrt (cov 1) := Real.sqrt_pos.2 h1
  have hside : side o (sheetOf o) (Matrix.of fun i => Spec.turn α (axes i)) = side o (sheetOf o) axes := by
    have : (Matrix.of fun i => Spec.turn α (axes i)) 2 2 = axes 2 2 := by simp [Spec.turn]
    unfold side
    rw [this]
  rw [hside]
  generalize hz : Real.sqrt (cov 2) * side o (sheetOf o) axes = z
  simp only [hx, hy]
  set e : Vec 3 := ![Real.sqrt (cov 0) * s, Real.sqrt (cov 1) * c, z] with he
  have hne : e ≠ 0 := by
    intro h
    have a0 := congrFun h 0
    have a1 := congrFun h 1
    simp only [he, Matrix.cons_val_zero, Matrix.cons_val_one, Pi.zero_apply,
      mul_eq_zero, hs0.ne', hs1.ne', false_or] at a0 a1
    rw [a0, a1] at hcs; norm_num at hcs
  have hw : Stereonet.toWorld e axes ≠ 0 := toWorld_ne ho hne
  have ht : Stereonet.toWorld e (Matrix.of fun i => Spec.turn α (axes i)) = Spec.turn α (Stereonet.toWorld e axes) := by
    rw [turned_world (σ := fun _ => 1) (α := α) (axes := axes) (fun i => by rw [one_smul]; rfl)]
    simp
  have hw' : Spec.turn α (Stereonet.toWorld e axes) ≠ 0 := by
    apply (norm_pos_iff' _).1
    rw [norm_turn]
    exact (norm_pos_iff' _).2 hw
  have hup : (o.defaults).upperHemisphere.getD true = true := by
    show (some (o.upperHemisphere.getD true)).getD true = true
    exact upper_getD hu
  obtain ⟨p₁, e₁, d₁⟩ := jsPosition hup hw'
  obtain ⟨p₂, e₂, d₂⟩ := jsPosition hup hw
  refine ⟨p₁, p₂, by rw [ht]; exact e₁, e₂, ?_⟩
  have d₁' : Spec.shown (o.degrees.getD false) (o.traditionalLayout.getD true) p₁ = _ := d₁
  have d₂' : Spec.shown (o.degrees.getD false) (o.traditionalLayout.getD true) p₂ = _ := d₂
  rw [d₁', d₂', norm_turn, turn_smul]

example : List.Forall₂ (fun q q' => ∃ p p', q = some p ∧ q' = some p' ∧
    Spec.shown true true p = Spec.turn 30 (Spec.shown true true p'))
    (planeErrors ![3, 2, 1] (some (Matrix.of fun i => Spec.turn 30 ((1 : Mat 3 3) i))) { degrees := some true }).1
    (planeErrors ![3, 2, 1] (some 1) { degrees := some true }).1 :=
  C241_turn _ (by simp) (by simp) 1 identity_orthonormal 30
    { degrees := some true } (by simp)

/-- Axes of a plane that dips, and those with two signs changed. -/
example : (planeErrors ![3, 2, 1] (some (Spec.signed ![-1, 1, -1] 1)) { sheet := some "upper" }).1.Perm
    (planeErrors ![3, 2, 1] (some 1) { sheet := some "upper" }).1 :=
  C241_signs_partial _ _ _ (by intro i; fin_cases i <;> simp) _ ⟨50, rfl⟩ (by simp) (Or.inl (by simp))

example : (planeErrors ![3, 2, 1] (some (Spec.signed ![1, 1, -1] !![0, 0, 1; 0, 1, 0; 1, 0, 0]))
      { sheet := some "upper" }).1.Perm
    (planeErrors ![3, 2, 1] (some !![0, 0, 1; 0, 1, 0; 1, 0, 0]) { sheet := some "lower" }).1 :=
  (C241_vertical_false ![3, 2, 1] !![0, 0, 1; 0, 1, 0; 1, 0, 0] (by simp) ![1, 1, -1]
    (by intro i; fin_cases i <;> simp) (by simp) {} ⟨50, rfl⟩ (by simp)).1

end Attitude.Props
