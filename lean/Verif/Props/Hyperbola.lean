import Verif.Lemmas.Hyperbola

/-!
# C71–C75: error hyperbolas
-/

namespace Attitude.Props

open Attitude Matrix Hyperbola

namespace Spec

/-- `y` is the upper branch of the hyperbola `y²/b² - x²/a² = 1`. -/
def OnBranch (a b x y : ℝ) : Prop := 0 < y ∧ y ^ 2 / b ^ 2 - x ^ 2 / a ^ 2 = 1

/-- Directions seen after the transformation `T`, weighed by the error axes `h`:
the squared length of `T v` where axis `k` counts `1/h_k`. -/
noncomputable def weight (h : Vec 3) (T : Mat 3 3) (v : Vec 3) : ℝ :=
  ∑ k, (∑ j, T k j * v j) ^ 2 / h k

/-- An orthonormal pair in the plane. -/
def Frame (e f : Vec 2) : Prop :=
  e 0 ^ 2 + e 1 ^ 2 = 1 ∧ f 0 ^ 2 + f 1 ^ 2 = 1 ∧ e 0 * f 0 + e 1 * f 1 = 0

end Spec

/-! ## C71 -/

lemma width_branch {a b : ℝ} (ha : 0 < a) (hb : 0 < b) (x : ℝ) :
    Spec.OnBranch a b x (width a b x) := by
  rw [width_eq]
  refine ⟨by positivity, ?_⟩
  rw [mul_pow, Real.sq_sqrt (by positivity)]
  field_simp
  ring

/-- `hyperbola_values` gives the upper branch with semiaxes the square roots of
the two axes; it equals the quadratic formulation; it is even, smallest exactly at
0, above its asymptotes and arbitrarily close to them far away. -/
theorem C71_hyperbola_values (h : Vec 2) (h0 : 0 < h 0) (h1 : 0 < h 1) :
    ∃ y : ℝ → ℝ, (∀ x, hyperbolaValues h x = some (y x)) ∧
      (∀ x, Spec.OnBranch (Real.sqrt (h 0)) (Real.sqrt (h 1)) x (y x)) ∧
      (∀ x, y x = Real.sqrt (h 1) * Real.sqrt (x ^ 2 / h 0 + 1)) ∧
      (∀ x, y (-x) = y x) ∧
      (∀ x, Real.sqrt (h 1) ≤ y x) ∧ (∀ x, y x = Real.sqrt (h 1) ↔ x = 0) ∧
      (∀ x, Real.sqrt (h 1) / Real.sqrt (h 0) * |x| < y x) ∧
      (∀ ε > 0, ∃ X : ℝ, ∀ x, X ≤ |x| →
        y x - Real.sqrt (h 1) / Real.sqrt (h 0) * |x| < ε) := by
  set a := Real.sqrt (h 0) with ha'
  set b := Real.sqrt (h 1) with hb'
  have ha : 0 < a := Real.sqrt_pos.2 h0
  have hb : 0 < b := Real.sqrt_pos.2 h1
  have ha2 : a ^ 2 = h 0 := Real.sq_sqrt h0.le
  have key : ∀ x, b / a * |x| < width a b x := by
    intro x
    obtain ⟨hp, he⟩ := width_branch ha hb x
    have hsq : (b / a * |x|) ^ 2 < width a b x ^ 2 := by
      have : width a b x ^ 2 = b ^ 2 + b ^ 2 * x ^ 2 / a ^ 2 := by
        field_simp at he ⊢
        linarith
      rw [this, mul_pow, sq_abs, div_pow]
      have : b ^ 2 / a ^ 2 * x ^ 2 = b ^ 2 * x ^ 2 / a ^ 2 := by ring
      rw [this]
      have : 0 < b ^ 2 := by positivity
      linarith
    exact lt_of_pow_lt_pow_left₀ 2 hp.le hsq
  refine ⟨width a b, ?_, width_branch ha hb, ?_, ?_, ?_, ?_, key, ?_⟩
  · intro x
    simp only [hyperbolaValues, fdiv, ha.ne', if_false, Option.map_some, width, ← ha', ← hb']
  · intro x
    rw [width_eq, div_pow, ha2, add_comm]
  · intro x
    rw [width_eq, width_eq, neg_div, neg_sq]
  · intro x
    rw [width_eq]
    have : 1 ≤ Real.sqrt (1 + (x / a) ^ 2) := by
      rw [Real.one_le_sqrt]
      have := sq_nonneg (x / a)
      linarith
    nlinarith
  · intro x
    rw [width_eq]
    constructor
    · intro h
      have h' : Real.sqrt (1 + (x / a) ^ 2) = 1 := by
        have : b * Real.sqrt (1 + (x / a) ^ 2) = b * 1 := by rw [h, mul_one]
        exact mul_left_cancel₀ hb.ne' this
      rw [Real.sqrt_eq_one] at h'
      have : (x / a) ^ 2 = 0 := by linarith
      have : x / a = 0 := by simpa using this
      rcases div_eq_zero_iff.1 this with k | k
      · exact k
      · exact absurd k ha.ne'
    · rintro rfl
      simp
  · intro ε hε
    refine ⟨(a * b / ε) + 1, fun x hx => ?_⟩
    have hxp : 0 < |x| := by
      have : 0 < a * b / ε := by positivity
      linarith
    obtain ⟨hp, he⟩ := width_branch ha hb x
    have hk := key x
    have hw : width a b x ^ 2 - (b / a * |x|) ^ 2 = b ^ 2 := by
      rw [mul_pow, sq_abs]
      field_simp at he ⊢
      linarith
    have hf : (width a b x - b / a * |x|) * (width a b x + b / a * |x|) = b ^ 2 := by
      rw [← hw]; ring
    have hs : b / a * (a * b / ε) < width a b x + b / a * |x| := by
      have h1 : b / a * (a * b / ε) < b / a * |x| := by
        apply mul_lt_mul_of_pos_left _ (by positivity)
        linarith
      linarith
    have hs' : b ^ 2 / ε < width a b x + b / a * |x| := by
      have : b / a * (a * b / ε) = b ^ 2 / ε := by field_simp
      linarith
    by_contra hc
    rw [not_lt] at hc
    have hpos : 0 < b ^ 2 / ε := by positivity
    have : ε * (b ^ 2 / ε) < (width a b x - b / a * |x|) * (width a b x + b / a * |x|) := by
      have hS : 0 < width a b x + b / a * |x| := by linarith
      calc ε * (b ^ 2 / ε) < ε * (width a b x + b / a * |x|) := by
            exact mul_lt_mul_of_pos_left hs' hε
        _ ≤ _ := mul_le_mul_of_nonneg_right hc hS.le
    rw [hf] at this
    have : ε * (b ^ 2 / ε) = b ^ 2 := by field_simp
    linarith

example : ∃ y, hyperbolaValues ![4, 9] 2 = some y ∧ 3 < y := by
  obtain ⟨y, h1, -, -, -, h5, h6, -⟩ := C71_hyperbola_values ![4, 9] (by norm_num) (by norm_num)
  refine ⟨y 2, h1 2, lt_of_le_of_ne ?_ ?_⟩
  · have := h5 2
    rwa [show (![4, 9] : Vec 2) 1 = 3 ^ 2 by norm_num, Real.sqrt_sq (by norm_num)] at this
  · intro h
    have := (h6 2).1 (by
      rw [show (![4, 9] : Vec 2) 1 = 3 ^ 2 by norm_num, Real.sqrt_sq (by norm_num)]; exact h.symm)
    norm_num at this

/-- Axis of zero length: not finite. -/
theorem C71_hyperbola_values_degenerate (h : Vec 2) (h0 : h 0 = 0) (x : ℝ) :
    hyperbolaValues h x = none := by
  simp [hyperbolaValues, fdiv, h0]

example : hyperbolaValues ![0, 2] 5 = none := C71_hyperbola_values_degenerate _ rfl 5

/-- `hyperbolic_errors`: for positive axes, an invertible transformation and
independent viewing axes, the bottom and top curves are the two branches of the
hyperbola with semiaxes `1/√weight` along the viewing axes, in an orthonormal
frame around the given mean, one point per x value (the top backwards). -/
theorem C71_hyperbolic_errors (h : Vec 3) (hh : ∀ i, 0 < h i) (T : Mat 3 3) (hT : T.det ≠ 0)
    (ax : Vec 3 × Vec 3) (hax : cross ax.1 ax.2 ≠ 0) (xs : List ℝ) (means : Vec 2) (rev : Bool) :
    ∃ b e f, ∃ y : ℝ → ℝ, hyperbolicErrors h xs T (some ax) means rev = .ok (some b) ∧
      Spec.Frame e f ∧ 0 < Spec.weight h T ax.1 ∧ 0 < Spec.weight h T ax.2 ∧
      (∀ x, Spec.OnBranch (1 / Real.sqrt (Spec.weight h T ax.1))
        (1 / Real.sqrt (Spec.weight h T ax.2)) x (y x)) ∧
      b.nominal = xs.map (fun x => means + x • e) ∧
      b.bottom = xs.map (fun x => means + x • e - y x • f) ∧
      b.top.reverse = xs.map (fun x => means + x • e + y x • f) := by
  have p0 := form_pos hh hT (cross_ne hax).1
  have p1 := form_pos hh hT (cross_ne hax).2
  obtain ⟨c, s, hcs, -, -, hR⟩ := correction_cases ax.1
  have ha : 0 < 1 / Real.sqrt (form h T ax.1) := by positivity
  have hb : 0 < 1 / Real.sqrt (form h T ax.2) := by positivity
  rw [hyperbolicErrors_eq hh hT hax]
  set R' := if rev then (apparentDipCorrection ax.1).transpose else apparentDipCorrection ax.1
    with hR'
  have hF : Spec.Frame (R' 0) (R' 1) := by
    rw [hR', hR]
    cases rev <;> refine ⟨?_, ?_, ?_⟩ <;> simp <;> linarith
  have hrow : ∀ x y : ℝ, ![x, y] ᵥ* R' = x • R' 0 + y • R' 1 := by
    intro x y
    funext i
    simp [Matrix.vecMul, dotProduct, Fin.sum_univ_two]
  refine ⟨_, R' 0, R' 1, width (1 / Real.sqrt (form h T ax.1)) (1 / Real.sqrt (form h T ax.2)), rfl,
    hF, p0, p1, width_branch ha hb, ?_, ?_, ?_⟩
  · simp only [bands, ← hR', hrow, zero_smul, add_zero, add_comm]
  · simp only [bands, ← hR', hrow, neg_smul, ← sub_eq_add_neg]
    apply List.map_congr_left
    intro x _
    abel
  · simp only [bands, List.reverse_reverse, ← hR', hrow]
    apply List.map_congr_left
    intro x _
    abel

example : ∃ b, hyperbolicErrors ![3, 2, 1] [-1, 0, 2] !![3/5, 0, -4/5; 0, 1, 0; 4/5, 0, 3/5]
    (some (![1, 0, 0], ![0, 0, 1])) ![1, 2] false = .ok (some b) := by
  obtain ⟨b, _, _, _, h, _⟩ := C71_hyperbolic_errors ![3, 2, 1] (fun i => by fin_cases i <;> simp)
    !![3/5, 0, -4/5; 0, 1, 0; 4/5, 0, 3/5] (by rw [Matrix.det_fin_three]; simp; norm_num)
    (![1, 0, 0], ![0, 0, 1]) (fun h => by simpa [cross] using congrFun h 1) [-1, 0, 2] ![1, 2] false
  exact ⟨b, h⟩

/-- Degenerate input: a zero axis raises `LinAlgError`; parallel viewing axes give
`nan`. -/
theorem C71_hyperbolic_errors_degenerate (h : Vec 3) (T : Mat 3 3) (ax : Vec 3 × Vec 3)
    (xs : List ℝ) (means : Vec 2) (rev : Bool) :
    ((∃ i, h i = 0) → hyperbolicErrors h xs T (some ax) means rev = .error .linAlgError) ∧
    ((∀ i, h i ≠ 0) → cross ax.1 ax.2 = 0 →
      hyperbolicErrors h xs T (some ax) means rev = .ok none) := by
  constructor
  · rintro ⟨i, hi⟩
    simp [hyperbolicErrors, augmentTensor_dual_zero hi, bind, Except.bind]
  · intro hh hc
    have hz : ∀ p : Vec 4, (∀ i : Fin 3, p i.castSucc = 0) → Conics.hessianNormal p = none := by
      intro p hp
      have : (fun i : Fin 3 => p i.castSucc) = 0 := funext hp
      simp only [Conics.hessianNormal, this, vdivOpt]
      rw [if_pos ((norm_eq_zero_iff _).2 rfl)]
    have hz' := hz (Conics.plane (0 : Vec 3)) (fun i => Fin.snoc_castSucc _ _ _)
    simp [hyperbolicErrors, augmentTensor_dual hh, bind, Except.bind, hc, Conics.slice3,
      Conics.planeNormal, hz']

example : ∃ b, hyperbolicErrors ![9, 4, 1] [0, 1] 1 (some (![1, 1, 1], ![0, 0, 1])) = .ok (some b) ∧
    b.top.length = 2 := by
  obtain ⟨b, _, _, _, hb, -, -, -, -, -, -, ht⟩ := C71_hyperbolic_errors ![9, 4, 1]
    (by intro i; fin_cases i <;> norm_num) 1 (by simp) (![1, 1, 1], ![0, 0, 1])
    (by intro h; have := congrFun h 0; simp [cross] at this) [0, 1] 0 false
  exact ⟨b, hb, by simpa using congrArg List.length ht⟩

/-! ## C72 -/

/-- Seen along the horizontal azimuth `t` of the fit frame the error curve is the
hyperbola with semiaxes `1/√(cos²t/h₀ + sin²t/h₁)` and `√h₂`; the first is between
`√h₀` and `√h₁`. -/
theorem C72_horizontal_view (h : Vec 3) (hh : ∀ i, 0 < h i) (t : ℝ) (xs : List ℝ) :
    ∃ b a, ∃ y : ℝ → ℝ, hyperbolicErrors h xs 1
        (some (![Real.cos t, Real.sin t, 0], ![0, 0, 1])) = .ok (some b) ∧
      0 < a ∧ 1 / a ^ 2 = Real.cos t ^ 2 / h 0 + Real.sin t ^ 2 / h 1 ∧
      min (Real.sqrt (h 0)) (Real.sqrt (h 1)) ≤ a ∧
      a ≤ max (Real.sqrt (h 0)) (Real.sqrt (h 1)) ∧
      (∀ x, Spec.OnBranch a (Real.sqrt (h 2)) x (y x)) ∧
      b.nominal = xs.map (fun x => ![x, 0]) ∧
      b.bottom = xs.map (fun x => ![x, -y x]) ∧
      b.top.reverse = xs.map (fun x => ![x, y x]) := by
  have hcs := Real.sin_sq_add_cos_sq t
  have hax : cross ![Real.cos t, Real.sin t, 0] ![0, 0, 1] ≠ 0 := by
    intro hc
    have h0 := congrFun hc 0
    have h1 := congrFun hc 1
    simp [cross] at h0 h1
    rw [h0, h1] at hcs
    norm_num at hcs
  have hcorr : apparentDipCorrection ![Real.cos t, Real.sin t, 0] = 1 := by
    have hf : flatten (d := 2) ![Real.cos t, Real.sin t, 0] = ![Real.cos t, Real.sin t, 0] := by
      funext i
      fin_cases i <;> simp [flatten]
    have hn : norm ![Real.cos t, Real.sin t, 0] = 1 := by
      rw [norm3]; simp
    have hd : vdot ![Real.cos t, Real.sin t, 0] ![Real.cos t, Real.sin t, 0] = 1 := by
      rw [vdot3]; simp; nlinarith
    have : Conics.angleCos (flatten (d := 2) ![Real.cos t, Real.sin t, 0])
        (flatten (d := 2) ![Real.cos t, Real.sin t, 0]) = some 1 := by
      rw [hf, Conics.angleCos, hn, hd]; simp [fdiv]
    rw [hf] at this
    simp only [apparentDipCorrection, hf, this]
    norm_num
  have q1 : form h 1 ![Real.cos t, Real.sin t, 0] = Real.cos t ^ 2 / h 0 + Real.sin t ^ 2 / h 1 := by
    simp [form, Fin.sum_univ_three]
  have q2 : form h 1 ![0, 0, 1] = 1 / h 2 := by
    simp [form, Fin.sum_univ_three]
  have hT : (1 : Mat 3 3).det ≠ 0 := by simp
  have p0 : 0 < form h 1 ![Real.cos t, Real.sin t, 0] := form_pos hh hT (cross_ne hax).1
  rw [hyperbolicErrors_eq hh hT hax]
  simp only [hcorr]
  have hb : 1 / Real.sqrt (form h 1 ![0, 0, 1]) = Real.sqrt (h 2) := by
    rw [q2, Real.sqrt_div zero_le_one, Real.sqrt_one, one_div_one_div]
  rw [hb]
  set a := 1 / Real.sqrt (form h 1 ![Real.cos t, Real.sin t, 0]) with ha
  have hap : 0 < a := by positivity
  have ha2 : 1 / a ^ 2 = Real.cos t ^ 2 / h 0 + Real.sin t ^ 2 / h 1 := by
    rw [ha, div_pow, Real.sq_sqrt p0.le, q1]; simp
  have h0 := hh 0
  have h1 := hh 1
  have hbound : ∀ m : ℝ, 0 < m → (h 0 ≤ m → h 1 ≤ m → a ^ 2 ≤ m) ∧
      (m ≤ h 0 → m ≤ h 1 → m ≤ a ^ 2) := by
    intro m hm
    have ha3 : a ^ 2 = 1 / (Real.cos t ^ 2 / h 0 + Real.sin t ^ 2 / h 1) := by
      rw [← ha2]; simp
    have hq : 0 < Real.cos t ^ 2 / h 0 + Real.sin t ^ 2 / h 1 := by rw [← q1]; exact p0
    constructor
    · intro l0 l1
      rw [ha3, div_le_iff₀ hq]
      have e0 : Real.cos t ^ 2 / m ≤ Real.cos t ^ 2 / h 0 :=
        div_le_div_of_nonneg_left (sq_nonneg _) h0 l0
      have e1 : Real.sin t ^ 2 / m ≤ Real.sin t ^ 2 / h 1 :=
        div_le_div_of_nonneg_left (sq_nonneg _) h1 l1
      have : m * (Real.cos t ^ 2 / m + Real.sin t ^ 2 / m) = 1 := by
        field_simp; linarith
      nlinarith
    · intro l0 l1
      rw [ha3, le_div_iff₀ hq]
      have e0 : Real.cos t ^ 2 / h 0 ≤ Real.cos t ^ 2 / m :=
        div_le_div_of_nonneg_left (sq_nonneg _) hm l0
      have e1 : Real.sin t ^ 2 / h 1 ≤ Real.sin t ^ 2 / m :=
        div_le_div_of_nonneg_left (sq_nonneg _) hm l1
      have : m * (Real.cos t ^ 2 / m + Real.sin t ^ 2 / m) = 1 := by
        field_simp; linarith
      nlinarith
  refine ⟨_, a, width a (Real.sqrt (h 2)), rfl, hap, ha2, ?_, ?_,
    width_branch hap (Real.sqrt_pos.2 (hh 2)), ?_, ?_, ?_⟩
  · rw [← Real.sqrt_sq hap.le]
    rcases le_total (h 0) (h 1) with l | l
    · exact (min_le_left _ _).trans (Real.sqrt_le_sqrt ((hbound _ h0).2 le_rfl l))
    · exact (min_le_right _ _).trans (Real.sqrt_le_sqrt ((hbound _ h1).2 l le_rfl))
  · rw [← Real.sqrt_sq hap.le]
    rcases le_total (h 0) (h 1) with l | l
    · exact (Real.sqrt_le_sqrt ((hbound _ h1).1 l le_rfl)).trans (le_max_right _ _)
    · exact (Real.sqrt_le_sqrt ((hbound _ h0).1 le_rfl l)).trans (le_max_left _ _)
  · simp [bands]
  · simp [bands]
  · simp [bands]

example : ∃ b, hyperbolicErrors ![9, 4, 1] [5] 1 (some (![Real.cos 1, Real.sin 1, 0], ![0, 0, 1]))
    = .ok (some b) := by
  obtain ⟨b, _, _, h, _⟩ := C72_horizontal_view ![9, 4, 1] (by intro i; fin_cases i <;> norm_num) 1 [5]
  exact ⟨b, h⟩

/-! ## C73 -/

/-- At every x value the nominal point is the midpoint of the bottom point and
the top point for that x value (the top curve is returned backwards), and the two
are different. -/
theorem C73_midpoint (h : Vec 3) (hh : ∀ i, 0 < h i) (T : Mat 3 3) (hT : T.det ≠ 0)
    (ax : Vec 3 × Vec 3) (hax : cross ax.1 ax.2 ≠ 0) (xs : List ℝ) (means : Vec 2) (rev : Bool) :
    ∃ b, hyperbolicErrors h xs T (some ax) means rev = .ok (some b) ∧
      b.nominal.length = xs.length ∧ b.bottom.length = xs.length ∧ b.top.length = xs.length ∧
      ∀ i, i < xs.length → ∃ n l u, b.nominal[i]? = some n ∧ b.bottom[i]? = some l ∧
        b.top[xs.length - 1 - i]? = some u ∧ n = (1 / 2 : ℝ) • (l + u) ∧ l ≠ u := by
  obtain ⟨b, e, f, y, hb, hF, -, -, hy, hn, hl, hu⟩ :=
    C71_hyperbolic_errors h hh T hT ax hax xs means rev
  have hu' : b.top = (xs.map fun x => means + x • e + y x • f).reverse := by
    rw [← hu, List.reverse_reverse]
  refine ⟨b, hb, by simp [hn], by simp [hl], by simp [hu'], fun i hi => ?_⟩
  refine ⟨means + xs[i] • e, means + xs[i] • e - y xs[i] • f, means + xs[i] • e + y xs[i] • f,
    ?_, ?_, ?_, ?_, ?_⟩
  · simp [hn, hi]
  · simp [hl, hi]
  · rw [hu', List.getElem?_reverse (by simp; omega)]
    have : xs.length - 1 - (xs.length - 1 - i) = i := by omega
    simp [this, hi]
  · funext j
    simp only [Pi.smul_apply, Pi.add_apply, Pi.sub_apply, smul_eq_mul]
    ring
  · intro hc
    have h2 := (hy xs[i]).1
    have hj : ∀ j, y xs[i] * f j = 0 := by
      intro j
      have := congrFun hc j
      simp only [Pi.smul_apply, Pi.add_apply, Pi.sub_apply, smul_eq_mul] at this
      linarith
    have f0 : f 0 = 0 := by
      rcases mul_eq_zero.1 (hj 0) with k | k
      · exact absurd k h2.ne'
      · exact k
    have f1 : f 1 = 0 := by
      rcases mul_eq_zero.1 (hj 1) with k | k
      · exact absurd k h2.ne'
      · exact k
    have := hF.2.1
    rw [f0, f1] at this
    norm_num at this

example : ∃ b, hyperbolicErrors ![3, 2, 1] [-1, 0, 2] !![3/5, 0, -4/5; 0, 1, 0; 4/5, 0, 3/5]
    (some (![1, 0, 0], ![0, 0, 1])) ![1, 2] true = .ok (some b) ∧ b.top.length = 3 := by
  obtain ⟨b, h, _, _, h', _⟩ := C73_midpoint ![3, 2, 1] (fun i => by fin_cases i <;> simp)
    !![3/5, 0, -4/5; 0, 1, 0; 4/5, 0, 3/5] (by rw [Matrix.det_fin_three]; simp; norm_num)
    (![1, 0, 0], ![0, 0, 1]) (fun h => by simpa [cross] using congrFun h 1) [-1, 0, 2] ![1, 2] true
  exact ⟨b, h, h'⟩

/-- The polygon that is filled has both curves and joins the ends of the two at
the same x value: after the last bottom point comes the top point above it. -/
theorem C73_polygon (a b : ℝ) (R : Mat 2 2) (means : Vec 2) (rev : Bool) (xs : List ℝ) :
    (polygon (bands a b xs R means rev)).length = 2 * xs.length ∧
    ∀ i, i < xs.length → ∃ l u, (polygon (bands a b xs R means rev))[i]? = some l ∧
      (polygon (bands a b xs R means rev))[2 * xs.length - 1 - i]? = some u ∧
      ∃ n, (bands a b xs R means rev).nominal[i]? = some n ∧ n = (1 / 2 : ℝ) • (l + u) := by
  constructor
  · simp [polygon, bands]; omega
  intro i hi
  set R' := if rev then R.transpose else R with hR'
  refine ⟨![xs[i], -width a b xs[i]] ᵥ* R' + means, ![xs[i], width a b xs[i]] ᵥ* R' + means,
    ?_, ?_, ![xs[i], 0] ᵥ* R' + means, ?_, ?_⟩
  · rw [polygon, List.getElem?_append_left (by simp [bands]; exact hi)]
    simp [bands, hi, hR']
  · rw [polygon, List.getElem?_append_right (by simp [bands]; omega)]
    simp only [bands, List.length_map]
    rw [List.getElem?_reverse (by simp; omega)]
    have : xs.length - 1 - (2 * xs.length - 1 - i - xs.length) = i := by omega
    simp [this, hi, hR']
  · simp [bands, hi, hR']
  · funext j
    simp only [Pi.smul_apply, Pi.add_apply, smul_eq_mul, Matrix.vecMul, dotProduct,
      Fin.sum_univ_two, Matrix.cons_val_zero, Matrix.cons_val_one]
    ring

/-! ## C74 -/

/-- The correction is a rotation matrix for every first axis. -/
theorem C74_rotation_partial {d : ℕ} (a : Vec (d + 1)) :
    apparentDipCorrection a * (apparentDipCorrection a).transpose = 1 ∧
    (apparentDipCorrection a).det = 1 := by
  obtain ⟨c, s, h, -, -, hR⟩ := correction_cases a
  rw [hR]
  refine ⟨rows_orthonormal h, ?_⟩
  rw [Matrix.det_fin_two_of]
  nlinarith

/-- For an axis that rises, by an angle whose squared sine exceeds `1e-12`, and
that is not vertical, the corrected horizontal direction has the slope of the
axis: its direction is (horizontal length, rise) of the axis. -/
theorem C74_up_dip_partial (a : Vec 3) (hz : 0 < a 2) (hh : ¬ (a 0 = 0 ∧ a 1 = 0))
    (hs : 1e-12 * norm a ^ 2 < a 2 ^ 2) :
    norm a • (![1, 0] ᵥ* apparentDipCorrection a) = ![Real.sqrt (a 0 ^ 2 + a 1 ^ 2), a 2] := by
  set r := Real.sqrt (a 0 ^ 2 + a 1 ^ 2) with hr
  have hpos : 0 < a 0 ^ 2 + a 1 ^ 2 := by
    by_contra hc
    have h0 : a 0 ^ 2 = 0 := by nlinarith [sq_nonneg (a 0), sq_nonneg (a 1)]
    have h1 : a 1 ^ 2 = 0 := by nlinarith [sq_nonneg (a 0), sq_nonneg (a 1)]
    exact hh ⟨by simpa using h0, by simpa using h1⟩
  have hrp : 0 < r := Real.sqrt_pos.2 hpos
  have hr2 : r ^ 2 = a 0 ^ 2 + a 1 ^ 2 := Real.sq_sqrt hpos.le
  have hn2 : norm a ^ 2 = r ^ 2 + a 2 ^ 2 := by rw [norm_sq', Fin.sum_univ_three, hr2]
  have hnp : 0 < norm a := by
    rw [norm_pos_iff']
    rintro rfl
    simp at hz
  have hf0 : flatten (d := 2) a = ![a 0, a 1, 0] := by
    funext i
    fin_cases i
    · rfl
    · rfl
    · simp [flatten]
  have hnf : norm (flatten (d := 2) a) = r := by
    rw [hf0, norm3, hr]; simp
  have hdot : vdot a (flatten (d := 2) a) = r ^ 2 := by
    rw [hf0, vdot3, hr2]; simp; ring
  have hc : Conics.angleCos a (flatten (d := 2) a) = some (r / norm a) := by
    unfold Conics.angleCos
    rw [hnf, hdot, fdiv, if_neg (by positivity)]
    congr 1
    field_simp
  have h1c : 1 - (r / norm a) ^ 2 = (a 2 / norm a) ^ 2 := by
    field_simp
    linarith
  have hgt : 1 - (r / norm a) ^ 2 > 1e-12 := by
    rw [h1c, div_pow, gt_iff_lt, lt_div_iff₀ (by positivity)]
    exact hs
  have hnn : ¬ r / norm a < 0 := not_lt.2 (by positivity)
  simp only [apparentDipCorrection, hc]
  rw [if_pos hgt, if_neg hnn, h1c, Real.sqrt_sq (by positivity)]
  funext i
  fin_cases i
  · simp; field_simp
  · simp; field_simp

example : norm ![3, 0, 4] • (![1, 0] ᵥ* apparentDipCorrection (d := 2) ![3, 0, 4])
    = ![Real.sqrt ((![3, 0, 4] : Vec 3) 0 ^ 2 + (![3, 0, 4] : Vec 3) 1 ^ 2), (![3, 0, 4] : Vec 3) 2] :=
  C74_up_dip_partial ![3, 0, 4] (by simp) (by simp) (by
    rw [norm_sq', Fin.sum_univ_three]
    show 1e-12 * ((3 : ℝ) ^ 2 + 0 ^ 2 + 4 ^ 2) < 4 ^ 2
    norm_num)

/-- Up-dip and down-dip are not distinguished: the rotation for an axis and for
the axis with opposite plunge are the same. -/
theorem C74_down_dip_false (x y z : ℝ) :
    apparentDipCorrection (d := 2) ![x, y, -z] = apparentDipCorrection (d := 2) ![x, y, z] := by
  have hf : ∀ w : ℝ, flatten (d := 2) ![x, y, w] = ![x, y, 0] := by
    intro w
    funext i
    fin_cases i <;> simp [flatten]
  have hc : Conics.angleCos ![x, y, -z] (flatten (d := 2) ![x, y, -z])
      = Conics.angleCos ![x, y, z] (flatten (d := 2) ![x, y, z]) := by
    rw [hf, hf]
    simp only [Conics.angleCos, vdot3, norm3]
    simp
  simp only [apparentDipCorrection, hc]

/-- A vertical axis is not rotated at all. -/
theorem C74_vertical_false (z : ℝ) : apparentDipCorrection (d := 2) ![0, 0, z] = 1 := by
  have hf : flatten (d := 2) ![0, 0, z] = 0 := by
    funext i
    fin_cases i <;> simp [flatten]
  have : Conics.angleCos ![0, 0, z] (flatten (d := 2) ![0, 0, z]) = none := by
    rw [hf]
    simp [Conics.angleCos, fdiv, (norm_eq_zero_iff (0 : Vec 3)).2 rfl]
  simp [apparentDipCorrection, this]

/-! ## C75 -/

/-- Two-component axes without `axes` always raise. -/
theorem C75_two_axes_false (h : Vec 2) (xs : List ℝ) (means : Vec 2) (rev : Bool) :
    hyperbolicErrors2 h xs none means rev
      = .error (if h 0 = 0 ∨ h 1 = 0 then .linAlgError else .typeError) := by
  by_cases h0 : h 0 = 0
  · simp [hyperbolicErrors2, augmentTensor_dual_zero h0, h0, bind, Except.bind]
  by_cases h1 : h 1 = 0
  · simp [hyperbolicErrors2, augmentTensor_dual_zero h1, h1, bind, Except.bind]
  have : ∀ i, h i ≠ 0 := by
    intro i
    fin_cases i
    · exact h0
    · exact h1
  simp [hyperbolicErrors2, augmentTensor_dual this, h0, h1, bind, Except.bind]

/-- With `axes` given the curve is that of `hyperbola_values`. -/
theorem C75_with_axes_partial (h : Vec 2) (h0 : 0 < h 0) (h1 : 0 < h 1) (xs : List ℝ) :
    ∃ b, hyperbolicErrors2 h xs (some (![1, 0], ![0, 1])) = .ok (some b) ∧
      b.nominal = xs.map (fun x => ![x, 0]) ∧
      b.top.reverse.map some = xs.map (fun x => (hyperbolaValues h x).map fun y => ![x, y]) ∧
      b.bottom.map some = xs.map (fun x => (hyperbolaValues h x).map fun y => ![x, -y]) := by
  have hp : ∀ i, 0 < h i := by
    intro i
    fin_cases i
    · exact h0
    · exact h1
  have hcorr : apparentDipCorrection (d := 1) ![1, 0] = 1 := by
    have hf : flatten (d := 1) ![1, 0] = ![1, 0] := by
      funext i
      fin_cases i <;> simp [flatten]
    have : Conics.angleCos (![1, 0] : Vec 2) ![1, 0] = some 1 := by
      simp [Conics.angleCos, vdot, norm, fdiv, Fin.sum_univ_two]
    simp only [apparentDipCorrection, hf, this]
    norm_num
  have hs : Conics.semiaxes (augmentTensor (Matrix.diagonal fun i => (h i)⁻¹)) = some h := by
    unfold Conics.semiaxes
    rw [quad_augmentTensor, if_neg]
    · congr 1
      funext i
      rw [Matrix.diagonal_apply_eq, abs_of_pos (inv_pos.2 (hp i)), inv_inv]
    · rintro ⟨i, hi⟩
      rw [Matrix.diagonal_apply_eq] at hi
      exact (inv_pos.2 (hp i)).ne' hi
  simp only [hyperbolicErrors2, augmentTensor_dual (fun i => (hp i).ne'), bind, Except.bind, hs,
    hcorr]
  have hv : ∀ x, hyperbolaValues h x = some (width (Real.sqrt (h 0)) (Real.sqrt (h 1)) x) := by
    intro x
    simp [hyperbolaValues, fdiv, (Real.sqrt_pos.2 h0).ne', width]
  refine ⟨_, rfl, ?_, ?_, ?_⟩
  · simp [bands]
  · simp [bands, hv]
  · simp [bands, hv]

example := C75_with_axes_partial ![4, 9] (by norm_num) (by norm_num) [1, 2]

end Attitude.Props
