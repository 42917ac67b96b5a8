import Verif.Props.Stereonet

/-! # Duality of pole and girdle, drawn curves, coordinates: C66, C68, C69, C85 - C87 -/

namespace Attitude.Props

open Attitude Stereonet Rotations

namespace Spec

/-- The plane with normal `m` touches the double cone of directions in exactly one
line, and keeps each half of the cone on one side. -/
def TangentNormal (axes : Mat 3 3) (d : Vec 3) (h : ℝ) (m : Vec 3) : Prop :=
  (∃ w ∈ ErrorCone axes d h, w ≠ 0 ∧ vdot m w = 0 ∧
    ∀ w' ∈ ErrorCone axes d h, vdot m w' = 0 → ∃ t : ℝ, w' = t • w) ∧
  ∃ s : ℝ, (s = 1 ∨ s = -1) ∧
    ∀ w ∈ ErrorCone axes d h, 0 ≤ s * vdot w (axes 2) → 0 ≤ vdot m w

end Spec

/-! ## C66 -/

/-- Every vector is the combination of its components. -/
lemma decompose {axes : Mat 3 3} (ho : Spec.OrthonormalRows axes) (w : Vec 3) :
    w = toWorld (fun i => vdot w (axes i)) axes := by
  have hmm : axes * axes.transpose = 1 := by
    ext i j
    have := ho i j
    rw [Matrix.mul_apply, Matrix.one_apply]
    simpa [vdot] using this
  have hmm' : axes.transpose * axes = 1 := mul_eq_one_comm.1 hmm
  funext j
  have e : ∀ k : Fin 3, axes 0 k * axes 0 j + axes 1 k * axes 1 j + axes 2 k * axes 2 j
      = if k = j then 1 else 0 := by
    intro k
    have := congrFun (congrFun hmm' k) j
    rw [Matrix.mul_apply, Fin.sum_univ_three, Matrix.one_apply] at this
    simpa using this
  simp only [toWorld, Fin.sum_univ_three, vdot3]
  have e0 := e 0
  have e1 := e 1
  have e2 := e 2
  have hj : w j = w 0 * (if (0 : Fin 3) = j then 1 else 0) + w 1 * (if (1 : Fin 3) = j then 1 else 0)
      + w 2 * (if (2 : Fin 3) = j then 1 else 0) := by fin_cases j <;> simp
  rw [hj, ← e0, ← e1, ← e2]
  ring

lemma vdot_comm' {n : ℕ} (v w : Vec n) : vdot v w = vdot w v := by
  simp [vdot, mul_comm]

lemma vdot_toWorld_right {axes : Mat 3 3} (e : Vec 3) (w : Vec 3) :
    vdot (toWorld e axes) w = e 0 * vdot w (axes 0) + e 1 * vdot w (axes 1)
      + e 2 * vdot w (axes 2) := by
  simp only [vdot3, toWorld, Fin.sum_univ_three]; ring

/-- The vectors behind the normal error curve are normals of tangent planes. -/
lemma normalVec_tangent {axes : Mat 3 3} (ho : Spec.OrthonormalRows axes) {d : Vec 3}
    (h0 : 0 < d 0) (h1 : 0 < d 1) (h2 : 0 < d 2) (a : ℝ) {r : ℝ} (hr : 0 < r) :
    Spec.TangentNormal axes d (2 * d 2) (r • toWorld (normalVec d a) axes) := by
  have hcs := Real.sin_sq_add_cos_sq a
  set c := Real.cos a with hc
  set s := Real.sin a with hs
  set f := Real.sqrt ((c * d 0) ^ 2 + (s * d 1) ^ 2) with hf
  have hfsq : f ^ 2 = (c * d 0) ^ 2 + (s * d 1) ^ 2 := Real.sq_sqrt (by positivity)
  have hfpos : 0 < f := by
    apply Real.sqrt_pos.2
    by_contra hneg
    have e0 : (c * d 0) ^ 2 = 0 := by nlinarith [sq_nonneg (c * d 0), sq_nonneg (s * d 1)]
    have e1 : (s * d 1) ^ 2 = 0 := by nlinarith [sq_nonneg (c * d 0), sq_nonneg (s * d 1)]
    simp [h0.ne', h1.ne'] at e0 e1
    rw [e0, e1] at hcs
    norm_num at hcs
  set h := 2 * d 2 with hh
  have hhpos : 0 < h := by positivity
  have hm : ∀ w, vdot (r • toWorld (normalVec d a) axes) w
      = r * (-(h * c) * vdot w (axes 0) + -(h * s) * vdot w (axes 1) + f * vdot w (axes 2)) := by
    intro w
    rw [vdot_smul_left, vdot_toWorld_right]
    rfl
  -- membership in terms of scaled components
  have hcone : ∀ w ∈ Spec.ErrorCone axes d h, ∃ X Y : ℝ, vdot w (axes 0) = d 0 * X ∧
      vdot w (axes 1) = d 1 * Y ∧ h ^ 2 * (X ^ 2 + Y ^ 2) = vdot w (axes 2) ^ 2 := by
    intro w hw
    refine ⟨vdot w (axes 0) / d 0, vdot w (axes 1) / d 1, by field_simp, by field_simp, ?_⟩
    simp only [Spec.ErrorCone, Set.mem_ofPred_eq] at hw
    rw [← hw]; ring
  constructor
  · refine ⟨toWorld ![d 0 ^ 2 * c, d 1 ^ 2 * s, h * f] axes, ?_, ?_, ?_, ?_⟩
    · simp only [Spec.ErrorCone, Set.mem_ofPred_eq, toWorld_dot ho]
      simp only [Matrix.cons_val_zero, Matrix.cons_val_one, Matrix.cons_val]
      rw [mul_pow h f, hfsq]
      field_simp
    · apply toWorld_ne ho
      intro e
      have := congrFun e 2
      simp at this
      rcases this with k | k
      · exact hhpos.ne' k
      · exact hfpos.ne' k
    · rw [hm]
      simp only [toWorld_dot ho, Matrix.cons_val_zero, Matrix.cons_val_one, Matrix.cons_val]
      linear_combination (r * h) * hfsq
    · intro w' hw' hz
      obtain ⟨X, Y, hX, hY, hZ⟩ := hcone w' hw'
      rw [hm, hX, hY] at hz
      have hz' := (mul_eq_zero.1 hz).resolve_left hr.ne'
      set Z := vdot w' (axes 2) with hZdef
      have e1 : f * Z = h * (d 0 * c * X + d 1 * s * Y) := by linear_combination hz'
      have e2 : (d 0 * c * Y - d 1 * s * X) ^ 2 = 0 := by
        have q : h ^ 2 * ((d 0 * c * Y - d 1 * s * X) ^ 2) = 0 := by
          have e3 : (f * Z) ^ 2 = (h * (d 0 * c * X + d 1 * s * Y)) ^ 2 := by rw [e1]
          have e4 : f ^ 2 * Z ^ 2 = h ^ 2 * (d 0 * c * X + d 1 * s * Y) ^ 2 := by
            linear_combination e3
          rw [← hZ, hfsq] at e4
          linear_combination e4
        rcases mul_eq_zero.1 q with k | k
        · exact absurd k (by positivity)
        · exact k
      have e3 : d 0 * c * Y = d 1 * s * X := by
        have := pow_eq_zero_iff (two_ne_zero) |>.1 e2
        linarith
      set lam := (d 0 * c * X + d 1 * s * Y) / f ^ 2 with hlam
      have hf2 : f ^ 2 ≠ 0 := by positivity
      have hXl : X = lam * (d 0 * c) := by
        rw [hlam, div_mul_eq_mul_div, eq_div_iff hf2, hfsq]
        linear_combination (-(d 1 * s)) * e3
      have hYl : Y = lam * (d 1 * s) := by
        rw [hlam, div_mul_eq_mul_div, eq_div_iff hf2, hfsq]
        linear_combination (d 0 * c) * e3
      have hZl : Z = lam * (h * f) := by
        rw [hlam, div_mul_eq_mul_div, eq_div_iff hf2]
        linear_combination f * e1
      refine ⟨lam, ?_⟩
      rw [decompose ho w']
      funext j
      simp only [toWorld, Fin.sum_univ_three, Pi.smul_apply, smul_eq_mul, hX, hY, ← hZdef,
        Matrix.cons_val_zero, Matrix.cons_val_one, Matrix.cons_val]
      rw [hZl]
      linear_combination (d 0 * axes 0 j) * hXl + (d 1 * axes 1 j) * hYl
  · refine ⟨1, Or.inl rfl, fun w hw hpos => ?_⟩
    obtain ⟨X, Y, hX, hY, hZ⟩ := hcone w hw
    rw [one_mul] at hpos
    rw [hm, hX, hY]
    apply mul_nonneg hr.le
    set Z := vdot w (axes 2)
    have key : h * (d 0 * c * X + d 1 * s * Y) ≤ f * Z := by
      apply le_of_abs_le
      apply abs_le_of_sq_le_sq _ (by positivity)
      rw [mul_pow f Z, ← hZ, hfsq]
      nlinarith [mul_nonneg (sq_nonneg h) (sq_nonneg (d 0 * c * Y - d 1 * s * X))]
    linarith

lemma tangent_flipped {axes : Mat 3 3} {d : Vec 3} {h : ℝ} {m : Vec 3}
    (ht : Spec.TangentNormal (flipped axes) d h m) : Spec.TangentNormal axes d h m := by
  unfold flipped at ht
  split_ifs at ht with hneg
  · have hv : ∀ (w : Vec 3) i, vdot w ((-axes) i) = -vdot w (axes i) := by
      intro w i; simp [vdot3]; ring
    have hc : Spec.ErrorCone (-axes) d h = Spec.ErrorCone axes d h := by
      ext w
      simp only [Spec.ErrorCone, Set.mem_ofPred_eq, hv]
      constructor <;> intro k <;> linear_combination k
    obtain ⟨h1, s, hs, h2⟩ := ht
    rw [hc] at h1 h2
    refine ⟨h1, -s, ?_, fun w hw hp => h2 w hw ?_⟩
    · rcases hs with rfl | rfl
      · exact Or.inr rfl
      · exact Or.inl (by norm_num)
    · rw [hv]; linarith
  · exact ht

/-- In the natural layout pole and girdle are dual: every position of the pole
curve is the normal of a plane tangent to the cone that carries the girdle (and
`C67_on_cone` shows that the girdle lies on that cone). -/
theorem C66_natural_layout_partial (axes : Mat 3 3) (ho : Spec.OrthonormalRows axes) (d : Vec 3)
    (h0 : 0 < d 0) (h1 : 0 < d 1) (h2 : 0 < d 2) (o : Options) (hoth : o.other = [])
    (ht : o.traditional = false) :
    ∃ c ax, normalErrors axes (Matrix.diagonal d) o = .ok (c, ax) ∧
      c.length = o.n.getD 1000 ∧
      ∀ q ∈ c, ∃ p, q = some p ∧
        Spec.TangentNormal axes d (2 * d 2) (Spec.direction false p) := by
  refine ⟨_, _, normalErrors_eq axes d hoth, by simp [angles_length], ?_⟩
  intro q hq
  obtain ⟨a, -, rfl⟩ := List.mem_map.1 hq
  have hfo : Spec.OrthonormalRows (flipped axes) := flipped_orth ho
  have hne : normalVec d a ≠ 0 := by
    intro e
    have e0 := congrFun e 0
    have e1 := congrFun e 1
    simp [normalVec, h2.ne'] at e0 e1
    have := Real.sin_sq_add_cos_sq a
    rw [e0, e1] at this
    norm_num at this
  obtain ⟨p, hp, hd⟩ := planeLonLat_dir false (toWorld_ne hfo hne)
  refine ⟨p, ?_, ?_⟩
  · rw [ht]; exact hp
  · rw [hd, norm_toWorld hfo]
    exact tangent_flipped (normalVec_tangent hfo h0 h1 h2 a
      (by have := (norm_pos_iff' _).2 hne; positivity))

example : ∃ c ax, normalErrors obliqueAxes (Matrix.diagonal ![3, 2, 1])
    { n := some 10, traditional := false } = .ok (c, ax) ∧ c.length = 10 := by
  obtain ⟨c, ax, h, h', _⟩ := C66_natural_layout_partial obliqueAxes oblique_orthonormal ![3, 2, 1]
    (by simp) (by simp) (by simp) { n := some 10, traditional := false } rfl rfl
  exact ⟨c, ax, h, h'⟩

/-- A plane dipping north. -/
noncomputable def dippingAxes : Mat 3 3 := !![1, 0, 0; 0, 4/5, -3/5; 0, 3/5, 4/5]

lemma dipping_orthonormal : Spec.OrthonormalRows dippingAxes := by
  intro i j
  rw [vdot3]
  fin_cases i <;> fin_cases j <;> simp [dippingAxes] <;> norm_num

/-- In the traditional layout the two functions put north on opposite sides: read
in the same way, the first pole of this plane has directions of the upper sheet
on both of its sides. -/
theorem C66_traditional_layout_false :
    ∃ c g p q₀ q₁ ax, normalErrors dippingAxes (Matrix.diagonal ![1, 1, 1/2]) { n := some 3 }
        = .ok (c, ax) ∧
      planeErrors dippingAxes (Matrix.diagonal ![1, 1, 1/2]) "upper" { n := some 3 } = .ok g ∧
      c[0]? = some (some p) ∧ g[0]? = some (some q₀) ∧ g[1]? = some (some q₁) ∧
      vdot (Spec.direction true p) (Spec.direction true q₀) < 0 ∧
      0 < vdot (Spec.direction true p) (Spec.direction true q₁) := by
  have h22 : dippingAxes 2 2 = 4 / 5 := by simp [dippingAxes]
  have hfl : flipped dippingAxes = dippingAxes := by
    unfold flipped; rw [if_neg]; rw [h22]; norm_num
  have hh : height dippingAxes "upper" 1 = -2 := by
    unfold height; rw [if_pos rfl, if_pos (by rw [h22]; norm_num)]; norm_num
  have hN := normalErrors_eq dippingAxes ![1, 1, 1/2] (o := { n := some 3 }) rfl
  have hG := planeErrors_eq dippingAxes ![1, 1, 1/2] "upper" (o := { n := some 3 }) rfl
  rw [hfl] at hN
  have a0 : linspace 3 0 = 0 := by simp [linspace]
  have a1 : linspace 3 1 = Real.pi := by simp [linspace]; ring
  -- the pole
  set v := toWorld (normalVec ![1, 1, 1/2] 0) dippingAxes with hv
  have v0 : v = ![-1, 3/5, 4/5] := by
    funext i
    fin_cases i <;> simp [hv, toWorld, Fin.sum_univ_three, normalVec, dippingAxes]
  have vm : (![-1, -3/5, 4/5] : Vec 3) ≠ 0 := by
    intro e; have := congrFun e 0; norm_num at this
  obtain ⟨p, hp, hpd⟩ := planeLonLat_dir true vm
  have hp' : normalLonLat true v = some p := by
    rw [v0]
    rw [← hp]
    simp [normalLonLat, planeLonLat]
    norm_num
  -- the girdle
  have g0 : toWorld (girdleVec ![1, 1, 1/2] (-2) 0) dippingAxes = ![1, -3/5, -4/5] := by
    funext i
    fin_cases i <;> simp [toWorld, Fin.sum_univ_three, girdleVec, dippingAxes] <;> norm_num
  have g1 : toWorld (girdleVec ![1, 1, 1/2] (-2) Real.pi) dippingAxes = ![-1, -3/5, -4/5] := by
    funext i
    fin_cases i <;> simp [toWorld, Fin.sum_univ_three, girdleVec, dippingAxes] <;> norm_num
  have g0n : (![1, -3/5, -4/5] : Vec 3) ≠ 0 := by
    intro e; have := congrFun e 0; norm_num at this
  have g1n : (![-1, -3/5, -4/5] : Vec 3) ≠ 0 := by
    intro e; have := congrFun e 0; norm_num at this
  obtain ⟨q0, hq0, hq0d⟩ := planeLonLat_dir true g0n
  obtain ⟨q1, hq1, hq1d⟩ := planeLonLat_dir true g1n
  refine ⟨_, _, p, q0, q1, _, hN, hG, ?_, ?_, ?_, ?_, ?_⟩
  · simp [angles, List.range_succ, a0]
    rw [← hp', hv]
    simp
  · simp [angles, List.range_succ, a0]
    rw [hh]
    rw [← hq0]
    congr 1
    simpa using g0
  · simp [angles, List.range_succ, a1]
    rw [hh]
    rw [← hq1]
    congr 1
    simpa using g1
  · rw [hpd, hq0d, vdot_smul_left, vdot_smul_right]
    have b1 := (norm_pos_iff' _).2 vm
    have b2 := (norm_pos_iff' _).2 g0n
    have : vdot (![-1, -3/5, 4/5] : Vec 3) ![1, -3/5, -4/5] < 0 := by
      rw [vdot3]; simp; norm_num
    have c1 : 0 < 1 / norm (![-1, -3/5, 4/5] : Vec 3) := by positivity
    have c2 : 0 < 1 / norm (![1, -3/5, -4/5] : Vec 3) := by positivity
    exact mul_neg_of_pos_of_neg c1 (mul_neg_of_pos_of_neg c2 this)
  · rw [hpd, hq1d, vdot_smul_left, vdot_smul_right]
    have b1 := (norm_pos_iff' _).2 vm
    have b2 := (norm_pos_iff' _).2 g1n
    have : 0 < vdot (![-1, -3/5, 4/5] : Vec 3) ![-1, -3/5, -4/5] := by
      rw [vdot3]; simp; norm_num
    positivity

/-! ## C85 -/

lemma vec_girdle (p : ℝ × ℝ) : Reconstructed.vec (-p.1, -p.2) = Spec.direction true p := by
  simp [Reconstructed.vec, sph2cart, Spec.direction]

lemma vec_pole {v : Vec 3} (hv : v ≠ 0) :
    ∃ p, normalLonLat true v = some p ∧ Reconstructed.vec (-p.1, p.2) = (1 / norm v) • v := by
  have hn : 0 < norm v := (norm_pos_iff' v).2 hv
  have h2 := norm_sq3 v
  obtain ⟨p, h1, h3⟩ := cart2sph_dir (x := v 2) (y := v 0) (z := -v 1) hn (by rw [h2]; ring)
  refine ⟨p, by simpa [normalLonLat] using h1, ?_⟩
  have e1 := congrArg Prod.fst h3
  have e2 := congrArg (fun x => x.2.1) h3
  have e3 := congrArg (fun x => x.2.2) h3
  simp only [sph2cart] at e1 e2 e3
  funext i
  fin_cases i <;> simp [Reconstructed.vec, sph2cart, Pi.smul_apply, smul_eq_mul, e1, e2, e3] <;> ring

/-- What is drawn: girdle vertices are lines on the error cone, pole vertices are
poles of planes tangent to it, in the one convention in which `mplstereonet` draws
the pole of the plane itself at the upward normal (`C48`). -/
theorem C85_drawn_curves_dual (axes : Mat 3 3) (ho : Spec.OrthonormalRows axes) (d : Vec 3)
    (h0 : 0 < d 0) (h1 : 0 < d 1) (h2 : 0 < d 2) :
    ∃ g c ax, girdleVertices axes (Matrix.diagonal d) = .ok g ∧
      poleVertices axes (Matrix.diagonal d) = .ok (c, ax) ∧ g.length = 2000 ∧ c.length = 1000 ∧
      (∀ q ∈ g, ∃ p, q = some p ∧ Reconstructed.vec p ∈ Spec.ErrorCone axes d (2 * d 2)) ∧
      (∀ q ∈ c, ∃ p, q = some p ∧
        Spec.TangentNormal axes d (2 * d 2) (Reconstructed.vec p)) := by
  obtain ⟨cu, hu, hu'⟩ := C67_on_cone axes ho d h0 h1 {} rfl "upper" (Or.inl rfl)
  obtain ⟨cl, hl, hl'⟩ := C67_on_cone axes ho d h0 h1 {} rfl "lower" (Or.inr rfl)
  have lu : cu.length = 1000 := by
    have := planeErrors_eq axes d "upper" (o := {}) rfl
    rw [diag3] at this
    rw [hu] at this
    rw [Except.ok.inj this]; simp [angles_length]
  have ll : cl.length = 1000 := by
    have := planeErrors_eq axes d "lower" (o := {}) rfl
    rw [diag3] at this
    rw [hl] at this
    rw [Except.ok.inj this]; simp [angles_length]
  have hn := normalErrors_eq axes d (o := {}) rfl
  rw [diag3] at hn
  refine ⟨cu.map (fun q => q.map fun p => (-p.1, -p.2))
    ++ (cl.map (fun q => q.map fun p => (-p.1, -p.2))).reverse,
    ((angles 1000).map fun a => normalLonLat true
      (toWorld (normalVec d a) (flipped axes))).map (fun q => q.map fun p => (-p.1, p.2)),
    flipped axes, ?_, ?_, ?_, ?_, ?_, ?_⟩
  · simp only [girdleVertices, hu, hl, bind, Except.bind]
  · simp only [poleVertices, hn, bind, Except.bind]
    rfl
  · simp [lu, ll]
  · simp [angles_length]
  · intro q hq
    rw [List.mem_append, List.mem_reverse] at hq
    rcases hq with hq | hq
    · obtain ⟨r, hr, rfl⟩ := List.mem_map.1 hq
      obtain ⟨p, rfl, -, hp⟩ := hu' r hr
      refine ⟨_, rfl, ?_⟩
      rw [vec_girdle]
      simpa using hp
    · obtain ⟨r, hr, rfl⟩ := List.mem_map.1 hq
      obtain ⟨p, rfl, -, hp⟩ := hl' r hr
      refine ⟨_, rfl, ?_⟩
      rw [vec_girdle]
      simpa using hp
  · intro q hq
    obtain ⟨r, hr, rfl⟩ := List.mem_map.1 hq
    obtain ⟨a, -, rfl⟩ := List.mem_map.1 hr
    have hfo : Spec.OrthonormalRows (flipped axes) := flipped_orth ho
    have hne : normalVec d a ≠ 0 := by
      intro e
      have e0 := congrFun e 0
      have e1 := congrFun e 1
      simp [normalVec, h2.ne'] at e0 e1
      have := Real.sin_sq_add_cos_sq a
      rw [e0, e1] at this
      norm_num at this
    obtain ⟨p, hp, hd⟩ := vec_pole (toWorld_ne hfo hne)
    refine ⟨(-p.1, p.2), by rw [hp]; rfl, ?_⟩
    rw [hd, norm_toWorld hfo]
    exact tangent_flipped (normalVec_tangent hfo h0 h1 h2 a
      (by have := (norm_pos_iff' _).2 hne; positivity))

/-- The dipping plane meets the hypotheses. -/
example := C85_drawn_curves_dual dippingAxes dipping_orthonormal ![3, 2, 1] (by simp) (by simp)
  (by simp)

/-! ## C87 -/

/-- The two sheets lie strictly on opposite sides of every non-vertical plane; but
the one called upper is below it and the one called lower is above it. -/
theorem C87_upper_is_below_false (axes : Mat 3 3) (ho : Spec.OrthonormalRows axes) (d : Vec 3)
    (h0 : 0 < d 0) (h1 : 0 < d 1) (h2 : 0 < d 2) (o : Options) (hoth : o.other = [])
    (hl : 0 < o.level) (hv : axes 2 2 ≠ 0) :
    ∃ up low, planeErrors axes (Matrix.diagonal d) "upper" o = .ok up ∧
      planeErrors axes (Matrix.diagonal d) "lower" o = .ok low ∧
      (∀ q ∈ up, ∃ p, q = some p ∧
        vdot (Spec.direction o.traditional p) (Pca.upward (axes 2)) < 0) ∧
      (∀ q ∈ low, ∃ p, q = some p ∧
        0 < vdot (Spec.direction o.traditional p) (Pca.upward (axes 2))) := by
  refine ⟨_, _, planeErrors_eq axes d "upper" hoth, planeErrors_eq axes d "lower" hoth, ?_, ?_⟩
  · intro q hq
    obtain ⟨a, -, rfl⟩ := List.mem_map.1 hq
    obtain ⟨p, hp, -, hd⟩ := girdle_point ho h0 h1 o.traditional (height axes "upper" o.level) a
    have hn := (norm_pos_iff' _).2 (girdleVec_ne h0 h1 (height axes "upper" o.level) a)
    refine ⟨p, hp, ?_⟩
    rcases lt_or_gt_of_ne hv with hneg | hpos
    · have e : Pca.upward (axes 2) = -axes 2 := by simp [Pca.upward, hneg]
      have hh : height axes "upper" o.level = o.level * 2 := by
        unfold height; rw [if_pos rfl, if_neg (not_lt.2 hneg.le)]
      have : vdot (Spec.direction o.traditional p) (-axes 2)
          = -vdot (Spec.direction o.traditional p) (axes 2) := by simp [vdot3]; ring
      rw [e, this, hd 2]
      have : 0 < girdleVec d (height axes "upper" o.level) a 2 := by
        simp only [girdleVec, hh, Matrix.cons_val]; positivity
      have := div_pos this hn
      linarith
    · have e : Pca.upward (axes 2) = axes 2 := by simp [Pca.upward, not_lt.2 hpos.le]
      have hh : height axes "upper" o.level = -(o.level * 2) := by
        unfold height; rw [if_pos rfl, if_pos hpos]
      rw [e, hd 2]
      apply div_neg_of_neg_of_pos _ hn
      simp only [girdleVec, hh, Matrix.cons_val]
      have : 0 < o.level * 2 * d 2 := by positivity
      linarith
  · intro q hq
    obtain ⟨a, -, rfl⟩ := List.mem_map.1 hq
    obtain ⟨p, hp, -, hd⟩ := girdle_point ho h0 h1 o.traditional (height axes "lower" o.level) a
    have hn := (norm_pos_iff' _).2 (girdleVec_ne h0 h1 (height axes "lower" o.level) a)
    refine ⟨p, hp, ?_⟩
    rw [height_lower] at hd hn
    rcases lt_or_gt_of_ne hv with hneg | hpos
    · have e : Pca.upward (axes 2) = -axes 2 := by simp [Pca.upward, hneg]
      have hh : height axes "upper" o.level = o.level * 2 := by
        unfold height; rw [if_pos rfl, if_neg (not_lt.2 hneg.le)]
      have : vdot (Spec.direction o.traditional p) (-axes 2)
          = -vdot (Spec.direction o.traditional p) (axes 2) := by simp [vdot3]; ring
      rw [e, this, hd 2, neg_pos]
      apply div_neg_of_neg_of_pos _ hn
      simp only [girdleVec, hh, Matrix.cons_val]
      have : 0 < o.level * 2 * d 2 := by positivity
      linarith
    · have e : Pca.upward (axes 2) = axes 2 := by simp [Pca.upward, not_lt.2 hpos.le]
      have hh : height axes "upper" o.level = -(o.level * 2) := by
        unfold height; rw [if_pos rfl, if_pos hpos]
      rw [e, hd 2]
      apply div_pos _ hn
      simp only [girdleVec, hh, Matrix.cons_val]
      have : 0 < o.level * 2 * d 2 := by positivity
      linarith

example : ∃ up low, planeErrors obliqueAxes (Matrix.diagonal ![3, 2, 1]) "upper" {} = .ok up ∧
    planeErrors obliqueAxes (Matrix.diagonal ![3, 2, 1]) "lower" {} = .ok low := by
  obtain ⟨up, low, h, h', _⟩ := C87_upper_is_below_false obliqueAxes oblique_orthonormal ![3, 2, 1]
    (by simp) (by simp) (by simp) {} rfl (by simp) (by simp [obliqueAxes])
  exact ⟨up, low, h, h'⟩

/-- What holds: they are on opposite sides. -/
theorem C87_opposite_sides_partial (axes : Mat 3 3) (ho : Spec.OrthonormalRows axes) (d : Vec 3)
    (h0 : 0 < d 0) (h1 : 0 < d 1) (h2 : 0 < d 2) (o : Options) (hoth : o.other = [])
    (hl : 0 < o.level) :
    ∃ up low, planeErrors axes (Matrix.diagonal d) "upper" o = .ok up ∧
      planeErrors axes (Matrix.diagonal d) "lower" o = .ok low ∧
      ∀ q ∈ up, ∀ q' ∈ low, ∃ p p', q = some p ∧ q' = some p' ∧
        vdot (Spec.direction o.traditional p) (axes 2)
          * vdot (Spec.direction o.traditional p') (axes 2) < 0 := by
  refine ⟨_, _, planeErrors_eq axes d "upper" hoth, planeErrors_eq axes d "lower" hoth, ?_⟩
  intro q hq q' hq'
  obtain ⟨a, -, rfl⟩ := List.mem_map.1 hq
  obtain ⟨b, -, rfl⟩ := List.mem_map.1 hq'
  obtain ⟨p, hp, -, hd⟩ := girdle_point ho h0 h1 o.traditional (height axes "upper" o.level) a
  obtain ⟨p', hp', -, hd'⟩ := girdle_point ho h0 h1 o.traditional (height axes "lower" o.level) b
  refine ⟨p, p', hp, hp', ?_⟩
  have hn := (norm_pos_iff' _).2 (girdleVec_ne h0 h1 (height axes "upper" o.level) a)
  have hn' := (norm_pos_iff' _).2 (girdleVec_ne h0 h1 (height axes "lower" o.level) b)
  rw [hd 2, hd' 2, div_mul_div_comm]
  apply div_neg_of_neg_of_pos _ (mul_pos hn hn')
  rw [height_lower]
  simp only [girdleVec, Matrix.cons_val]
  have hne : height axes "upper" o.level ≠ 0 := by
    unfold height
    rw [if_pos rfl]
    split_ifs
    · have : 0 < o.level * 2 := by positivity
      linarith
    · positivity
  have : 0 < (height axes "upper" o.level * d 2) ^ 2 := by positivity
  nlinarith

example : ∃ up low, planeErrors obliqueAxes (Matrix.diagonal ![3, 2, 1]) "upper" {} = .ok up ∧
    planeErrors obliqueAxes (Matrix.diagonal ![3, 2, 1]) "lower" {} = .ok low := by
  obtain ⟨up, low, h, h', _⟩ := C87_opposite_sides_partial obliqueAxes oblique_orthonormal
    ![3, 2, 1] (by simp) (by simp) (by simp) {} rfl (by simp)
  exact ⟨up, low, h, h'⟩

/-! ## C86 -/

lemma tan_half_bounds {x : ℝ} (h0 : 0 < x) (h1 : x < Real.pi / 2) :
    x < Real.arctan (2 * Real.tan x) ∧ Real.arctan (2 * Real.tan x) < 2 * x := by
  have ht : 0 < Real.tan x := Real.tan_pos_of_pos_of_lt_pi_div_two h0 h1
  constructor
  · calc x = Real.arctan (Real.tan x) := (Real.arctan_tan (by linarith) h1).symm
      _ < _ := Real.arctan_strictMono (by linarith)
  · by_cases h : x < Real.pi / 4
    · have ht1 : Real.tan x < 1 := by
        rw [← Real.tan_pi_div_four]
        exact Real.tan_lt_tan_of_nonneg_of_lt_pi_div_two h0.le (by linarith) h
      have e : Real.tan (2 * x) = 2 * Real.tan x / (1 - Real.tan x ^ 2) := Real.tan_two_mul
      have hlt : 2 * Real.tan x < Real.tan (2 * x) := by
        rw [e, lt_div_iff₀ (by nlinarith)]
        nlinarith [pow_pos ht 3]
      calc Real.arctan (2 * Real.tan x) < Real.arctan (Real.tan (2 * x)) :=
            Real.arctan_strictMono hlt
        _ = 2 * x := Real.arctan_tan (by linarith) (by linarith)
    · have := Real.arctan_lt_pi_div_two (2 * Real.tan x)
      linarith

/-- Widths of the girdle drawn for two angular errors: every vertex is further from
the plane than half the smaller error and closer than the larger error. -/
theorem C86_width_bounds_partial (s d r e₁ e₂ : ℝ) (hd0 : 0 ≤ d) (hd1 : d ≤ 90) (h1 : 0 < e₁)
    (h1' : e₁ < 180) (h2 : 0 < e₂) (h2' : e₂ < 180) :
    ∃ fit g, Reconstructed.reconstruct s d r [e₁, e₂] = some fit ∧
      uncertainPlane s d r e₁ e₂ = some (.ok g) ∧ g.length = 2000 ∧
      ∀ q ∈ g, ∃ p, q = some p ∧
        radians (min e₁ e₂) / 2 < Spec.elevation (Reconstructed.vec p) fit.normal ∧
        Spec.elevation (Reconstructed.vec p) fit.normal < radians (max e₁ e₂) := by
  obtain ⟨fit, hfit, ho, hn, -⟩ := C47_orthonormal_partial s d r hd0 hd1 [e₁, e₂] 1
  obtain ⟨-, -, fit', hfit', -, -, -, -, -, -, -, hhyp, -⟩ := reconstruct_eq s d r [e₁, e₂] 1
  rw [hfit] at hfit'
  cases hfit'
  rw [lengths_two h1 h1' h2 h2'] at hhyp
  have hpi := Real.pi_pos
  have half : ∀ e : ℝ, 0 < e → e < 180 → 0 < radians e / 2 ∧ radians e / 2 < Real.pi / 2 := by
    intro e h h'
    unfold radians
    constructor
    · positivity
    · nlinarith
  obtain ⟨a1, a1'⟩ := half e₁ h1 h1'
  obtain ⟨a2, a2'⟩ := half e₂ h2 h2'
  have t1 : 0 < Real.tan (radians e₁ / 2) := Real.tan_pos_of_pos_of_lt_pi_div_two a1 a1'
  have t2 : 0 < Real.tan (radians e₂ / 2) := Real.tan_pos_of_pos_of_lt_pi_div_two a2 a2'
  set D : Vec 3 := ![1 / Real.tan (radians e₂ / 2), 1 / Real.tan (radians e₁ / 2), 1] with hD
  have D0 : 0 < D 0 := by show 0 < 1 / Real.tan (radians e₂ / 2); positivity
  have D1 : 0 < D 1 := by show 0 < 1 / Real.tan (radians e₁ / 2); positivity
  have D2 : 0 < D 2 := by simp [hD]
  obtain ⟨g, c, ax, hg, -, hlen, -⟩ := C85_drawn_curves_dual fit.axes ho D D0 D1 D2
  refine ⟨fit, g, hfit, ?_, hlen, ?_⟩
  · simp only [uncertainPlane, hfit, Option.bind_eq_bind, Option.bind_some, hhyp]
    rw [← hg]
    rfl
  -- both sheets
  obtain ⟨cu, hu, hu'⟩ := C67_elevation_bounds fit.axes ho D D0 D1 D2 {} rfl one_pos "upper"
    (Or.inl rfl)
  obtain ⟨cl, hl, hl'⟩ := C67_elevation_bounds fit.axes ho D D0 D1 D2 {} rfl one_pos "lower"
    (Or.inr rfl)
  have hbounds : ∀ x : ℝ, Real.arctan (2 * 1 * D 2 / max (D 0) (D 1)) ≤ x →
      x ≤ Real.arctan (2 * 1 * D 2 / min (D 0) (D 1)) →
      radians (min e₁ e₂) / 2 < x ∧ x < radians (max e₁ e₂) := by
    intro x hx hx'
    obtain ⟨b1, b1'⟩ := tan_half_bounds a1 a1'
    obtain ⟨b2, b2'⟩ := tan_half_bounds a2 a2'
    have v0 : 2 * 1 * D 2 / D 0 = 2 * Real.tan (radians e₂ / 2) := by
      show 2 * 1 * 1 / (1 / Real.tan (radians e₂ / 2)) = _
      field_simp
    have v1 : 2 * 1 * D 2 / D 1 = 2 * Real.tan (radians e₁ / 2) := by
      show 2 * 1 * 1 / (1 / Real.tan (radians e₁ / 2)) = _
      field_simp
    have hmono : ∀ a b : ℝ, a ≤ b → radians a ≤ radians b := by
      intro a b hab
      unfold radians
      have := mul_le_mul_of_nonneg_right hab hpi.le
      linarith
    constructor
    · rcases le_total (D 0) (D 1) with h | h
      · rw [max_eq_right h, v1] at hx
        have := hmono _ _ (min_le_left e₁ e₂)
        linarith
      · rw [max_eq_left h, v0] at hx
        have := hmono _ _ (min_le_right e₁ e₂)
        linarith
    · rcases le_total (D 0) (D 1) with h | h
      · rw [min_eq_left h, v0] at hx'
        have := hmono _ _ (le_max_right e₁ e₂)
        linarith
      · rw [min_eq_right h, v1] at hx'
        have := hmono _ _ (le_max_left e₁ e₂)
        linarith
  simp only [girdleVertices, hu, hl, bind, Except.bind] at hg
  cases hg
  intro q hq
  rw [← hn]
  rw [List.mem_append, List.mem_reverse] at hq
  rcases hq with hq | hq
  · obtain ⟨q', hq', rfl⟩ := List.mem_map.1 hq
    obtain ⟨p, rfl, hp, hp'⟩ := hu' q' hq'
    refine ⟨_, rfl, ?_⟩
    rw [vec_girdle]
    exact hbounds _ hp hp'
  · obtain ⟨q', hq', rfl⟩ := List.mem_map.1 hq
    obtain ⟨p, rfl, hp, hp'⟩ := hl' q' hq'
    refine ⟨_, rfl, ?_⟩
    rw [vec_girdle]
    exact hbounds _ hp hp'

example : ∃ g, uncertainPlane 30 60 45 10 20 = some (.ok g) ∧ g.length = 2000 := by
  obtain ⟨_, g, _, h, h', _⟩ := C86_width_bounds_partial 30 60 45 10 20 (by norm_num) (by norm_num)
    (by norm_num) (by norm_num) (by norm_num) (by norm_num)
  exact ⟨g, h, h'⟩

/-- Hence, with equal errors `e` on both axes, no vertex is at the angular distance
`e/2` and none at `e`. -/
theorem C86_width_false (s d r e : ℝ) (hd0 : 0 ≤ d) (hd1 : d ≤ 90) (h : 0 < e) (h' : e < 180) :
    ∃ fit g, Reconstructed.reconstruct s d r [e, e] = some fit ∧
      uncertainPlane s d r e e = some (.ok g) ∧ g ≠ [] ∧
      ∀ q ∈ g, ∃ p, q = some p ∧
        Spec.elevation (Reconstructed.vec p) fit.normal ≠ radians e / 2 ∧
        Spec.elevation (Reconstructed.vec p) fit.normal ≠ radians e := by
  obtain ⟨fit, g, h1, h2, h3, h4⟩ := C86_width_bounds_partial s d r e e hd0 hd1 h h' h h'
  refine ⟨fit, g, h1, h2, ?_, fun q hq => ?_⟩
  · intro e; rw [e] at h3; norm_num at h3
  · obtain ⟨p, hp, l, u⟩ := h4 q hq
    rw [min_self] at l
    rw [max_self] at u
    exact ⟨p, hp, l.ne', u.ne⟩

example := C86_width_false 40 30 20 10 (by norm_num) (by norm_num) (by norm_num) (by norm_num)

/-! ## C68 -/

/-- Whatever the number of points asked for, the result has three entries. -/
theorem C68_three_entries_partial (axes cov : Mat 3 3) (o : Options) (hoth : o.other = []) :
    (3 ≤ o.n.getD 1000 → ∃ c, errorEllipse axes cov o = .ok c ∧ c.length = 3) ∧
    (o.n.getD 1000 < 3 → errorEllipse axes cov o = .error .indexError) := by
  constructor
  · intro h
    obtain ⟨k, hk⟩ : ∃ k, o.n.getD 1000 = k + 3 := ⟨o.n.getD 1000 - 3, by omega⟩
    have : ∃ a0 a1 a2 r, angles (o.n.getD 1000) = a0 :: a1 :: a2 :: r := by
      rcases ha : angles (o.n.getD 1000) with _ | ⟨a0, _ | ⟨a1, _ | ⟨a2, r⟩⟩⟩
      all_goals first
        | exact ⟨_, _, _, _, rfl⟩
        | (have hl := angles_length (o.n.getD 1000); rw [ha] at hl; simp at hl; omega)
    obtain ⟨a0, a1, a2, r, ha⟩ := this
    simp only [errorEllipse, ellipse_ok hoth, bind, Except.bind, ha]
    exact ⟨_, rfl, by simp⟩
  · intro h
    have hl := angles_length (o.n.getD 1000)
    simp only [errorEllipse, ellipse_ok hoth, bind, Except.bind]
    rcases ha : angles (o.n.getD 1000) with _ | ⟨a0, _ | ⟨a1, _ | ⟨a2, r⟩⟩⟩
    · rfl
    · rfl
    · rfl
    · rw [ha] at hl; simp at hl; omega

example : ∃ c, errorEllipse obliqueAxes (Matrix.diagonal ![3, 2, 1]) {} = .ok c ∧ c.length = 3 :=
  (C68_three_entries_partial _ _ {} rfl).1 (by simp)

/-- It does not depend on the axes of the fit nor on the level. -/
theorem C68_ignores_fit_false (axes axes' cov : Mat 3 3) (o : Options) (l : ℝ) :
    errorEllipse axes cov o = errorEllipse axes' cov { o with level := l } := rfl

lemma smul_dir {v : Vec 3} (hv : v ≠ 0) {s : ℝ} (hs : 0 < s) (t : Bool) :
    planeLonLat t (s • v) = planeLonLat t v := by
  obtain ⟨p, hp, hd⟩ := planeLonLat_dir t hv
  have hn : 0 < norm v := (norm_pos_iff' v).2 hv
  have h2 := norm_sq3 v
  have e : ∀ x y z : ℝ, norm v ^ 2 = x ^ 2 + y ^ 2 + z ^ 2 →
      cart2sph (s * x) (s * y) (s * z) = cart2sph x y z := by
    intro x y z h
    have hsn : 0 < s * norm v := mul_pos hs hn
    rw [cart2sph_eq hn h, cart2sph_eq (r := s * norm v) hsn (by rw [mul_pow, h]; ring)]
    rw [mul_div_mul_left _ _ hs.ne', mul_div_mul_left _ _ hs.ne', mul_div_mul_left _ _ hs.ne']
  cases t
  · simp only [planeLonLat, Pi.smul_apply, smul_eq_mul]
    rw [if_neg (by simp), if_neg (by simp), ← mul_neg]
    exact e _ _ _ (by rw [h2]; ring)
  · simp only [planeLonLat, Pi.smul_apply, smul_eq_mul, if_true]
    exact e _ _ _ (by rw [h2]; ring)

lemma errorEllipse_eq (axes cov : Mat 3 3) {o : Options} (hoth : o.other = []) {a0 a1 a2 : ℝ}
    {r : List ℝ} (ha : angles (o.n.getD 1000) = a0 :: a1 :: a2 :: r) :
    errorEllipse axes cov o = .ok ((List.finRange 3).map fun j =>
      if cov 0 j < 0 ∨ cov 1 j < 0 then none
      else planeLonLat o.traditional ((fun k => (![0, 0, 1] : Vec 3) j + (Real.cos (![a0, a1, a2] k)
        * Real.sqrt (cov 0 j) + Real.sin (![a0, a1, a2] k) * Real.sqrt (cov 1 j))) : Vec 3)) := by
  simp only [errorEllipse, ellipse_ok hoth, bind, Except.bind, ha, planeLonLat]
  rfl

lemma angles_three {n : ℕ} (h : 3 ≤ n) : ∃ r, angles n
    = 0 :: 2 * Real.pi / (n - 1) :: 2 * (2 * Real.pi / (n - 1)) :: r := by
  obtain ⟨k, rfl⟩ : ∃ k, n = k + 3 := ⟨n - 3, by omega⟩
  simp only [angles, List.range_succ_eq_map, List.map_cons, List.map_map]
  refine ⟨List.map (linspace (k + 3) ∘ Nat.succ ∘ Nat.succ ∘ Nat.succ) (List.range k), ?_⟩
  have e0 : linspace (k + 3) 0 = 0 := by simp [linspace]
  have e1 : linspace (k + 3) (Nat.succ 0) = 2 * Real.pi / (((k + 3 : ℕ) : ℝ) - 1) := by simp [linspace]
  have e2 : linspace (k + 3) (Nat.succ 0).succ = 2 * (2 * Real.pi / (((k + 3 : ℕ) : ℝ) - 1)) := by
    simp [linspace]
    ring
  rw [e0, e1, e2]

/-- For covariances along the axes it does not depend on them either: rows and columns are
exchanged, so that the first entry is the direction whose coordinates are the cosines of the
first three angles, and the last one is the direction (1, 1, 1). -/
theorem C68_constant_false (axes : Mat 3 3) (c : Vec 3) (h0 : 0 < c 0) (h1 : 0 < c 1) (o : Options)
    (hoth : o.other = []) (hn : 3 ≤ o.n.getD 1000) :
    ∃ p q r, errorEllipse axes (Matrix.diagonal c) o = .ok [some p, q, some r] ∧
      (∀ c' : Vec 3, 0 < c' 0 → 0 < c' 1 →
        errorEllipse axes (Matrix.diagonal c') o = .ok [some p, q, some r]) ∧
      (∃ k : ℝ, 0 < k ∧ Spec.direction o.traditional p = k • (![1, Real.cos (2 * Real.pi / (o.n.getD 1000 - 1)),
        Real.cos (2 * (2 * Real.pi / (o.n.getD 1000 - 1)))] : Vec 3)) ∧
      ∃ k : ℝ, 0 < k ∧ Spec.direction o.traditional r = k • (![1, 1, 1] : Vec 3) := by
  obtain ⟨l, ha⟩ := angles_three hn
  set τ := 2 * Real.pi / ((o.n.getD 1000 : ℝ) - 1) with hτ
  have hA : (![1, Real.cos τ, Real.cos (2 * τ)] : Vec 3) ≠ 0 := fun h => by simpa using congrFun h 0
  have hC : (![1, 1, 1] : Vec 3) ≠ 0 := fun h => by simpa using congrFun h 0
  obtain ⟨p, hp, dp⟩ := planeLonLat_dir o.traditional hA
  obtain ⟨r, hr, dr⟩ := planeLonLat_dir o.traditional hC
  have key : ∀ c : Vec 3, 0 < c 0 → 0 < c 1 → errorEllipse axes (Matrix.diagonal c) o
      = .ok [some p, planeLonLat o.traditional ![0, Real.sin τ, Real.sin (2 * τ)], some r] := by
    intro c h0 h1
    rw [errorEllipse_eq axes _ hoth ha]
    congr 1
    have e0 : (fun k => (![0, 0, 1] : Vec 3) 0 + (Real.cos (![0, τ, 2 * τ] k)
        * Real.sqrt ((Matrix.diagonal c : Mat 3 3) 0 0) + Real.sin (![0, τ, 2 * τ] k)
        * Real.sqrt ((Matrix.diagonal c : Mat 3 3) 1 0)) : Vec 3)
        = Real.sqrt (c 0) • ![1, Real.cos τ, Real.cos (2 * τ)] := by
      funext k
      fin_cases k <;> simp [Matrix.diagonal, mul_comm]
    have e1 : (fun k => (![0, 0, 1] : Vec 3) 1 + (Real.cos (![0, τ, 2 * τ] k)
        * Real.sqrt ((Matrix.diagonal c : Mat 3 3) 0 1) + Real.sin (![0, τ, 2 * τ] k)
        * Real.sqrt ((Matrix.diagonal c : Mat 3 3) 1 1)) : Vec 3)
        = Real.sqrt (c 1) • ![0, Real.sin τ, Real.sin (2 * τ)] := by
      funext k
      fin_cases k <;> simp [Matrix.diagonal, mul_comm]
    have e2 : (fun k => (![0, 0, 1] : Vec 3) 2 + (Real.cos (![0, τ, 2 * τ] k)
        * Real.sqrt ((Matrix.diagonal c : Mat 3 3) 0 2) + Real.sin (![0, τ, 2 * τ] k)
        * Real.sqrt ((Matrix.diagonal c : Mat 3 3) 1 2)) : Vec 3) = ![1, 1, 1] := by
      funext k
      fin_cases k <;> simp [Matrix.diagonal]
    have hq : planeLonLat o.traditional (Real.sqrt (c 1) • (![0, Real.sin τ, Real.sin (2 * τ)] : Vec 3))
        = planeLonLat o.traditional ![0, Real.sin τ, Real.sin (2 * τ)] := by
      by_cases hB : (![0, Real.sin τ, Real.sin (2 * τ)] : Vec 3) = 0
      · rw [hB, smul_zero]
      · exact smul_dir hB (Real.sqrt_pos.2 h1) _
    have l3 : List.finRange 3 = [0, 1, 2] := by decide
    rw [l3]
    simp only [List.map_cons, List.map_nil, e0, e1, e2]
    rw [smul_dir hA (Real.sqrt_pos.2 h0), hq, hp, hr]
    rw [if_neg, if_neg, if_neg]
    all_goals simp [Matrix.diagonal, h0.le, h1.le]
  exact ⟨p, _, r, key c h0 h1, key, ⟨_, one_div_pos.2 ((norm_pos_iff' _).2 hA), dp⟩,
    ⟨1 / norm ![1, 1, 1], one_div_pos.2 ((norm_pos_iff' _).2 hC), dr⟩⟩

/-- With the default number of points, and a thousandfold covariance. -/
example : errorEllipse 1 (Matrix.diagonal ![9, 4, 1]) = errorEllipse 1 (Matrix.diagonal ![9000, 4000, 1]) := by
  obtain ⟨p, q, r, h, h', _⟩ := C68_constant_false 1 ![9, 4, 1] (by simp) (by simp) {} rfl (by simp)
  rw [h, h' ![9000, 4000, 1] (by simp) (by simp)]

/-! ## C69 -/

namespace Spec

/-- Longitude and latitude of every defined point, in degrees. -/
noncomputable def inDegrees (c : Curve) : Curve :=
  c.map (Option.map fun p => (p.1 * 180 / Real.pi, p.2 * 180 / Real.pi))

/-- The entries for one level are the upper and the lower curve at that level in
degrees, with the ellipse if and only if it was asked for. -/
def IsLevel (axes cov : Mat 3 3) (doEllipse : Bool) (o : Options) (l : ℝ) (x : LevelData) : Prop :=
  (∃ c, planeErrors axes cov "upper" { o with level := l } = .ok c ∧ x.upper = inDegrees c) ∧
  (∃ c, planeErrors axes cov "lower" { o with level := l } = .ok c ∧ x.lower = inDegrees c) ∧
  (doEllipse = true → ∃ c, errorEllipse axes cov { o with level := l } = .ok c ∧
    x.ellipse = some (inDegrees c)) ∧
  (doEllipse = false → x.ellipse = none)

end Spec

lemma curveDegrees_eq (c : Curve) : curveDegrees c = Spec.inDegrees c := rfl

lemma planeErrors_total (axes cov : Mat 3 3) (sheet : String) {o : Options} (h : o.other = []) :
    ∃ c, planeErrors axes cov sheet o = .ok c ∧ c.length = o.n.getD 1000 := by
  simp only [planeErrors, ellipse_ok h, bind, Except.bind]
  exact ⟨_, rfl, by simp [angles_length]⟩

lemma levelData_ok (axes cov : Mat 3 3) (doEllipse : Bool) {o : Options} (h : o.other = [])
    (hn : doEllipse = true → 3 ≤ o.n.getD 1000) (l : ℝ) :
    ∃ x, levelData axes cov doEllipse o l = .ok x ∧ Spec.IsLevel axes cov doEllipse o l x := by
  obtain ⟨cu, hu, -⟩ := planeErrors_total axes cov "upper" (o := { o with level := l }) h
  obtain ⟨cl, hl, -⟩ := planeErrors_total axes cov "lower" (o := { o with level := l }) h
  cases doEllipse with
  | false =>
    simp only [levelData, hu, hl, bind, Except.bind]
    exact ⟨_, rfl, ⟨cu, hu, rfl⟩, ⟨cl, hl, rfl⟩, by simp, fun _ => rfl⟩
  | true =>
    obtain ⟨ce, he, -⟩ := (C68_three_entries_partial axes cov { o with level := l } h).1 (hn rfl)
    simp only [levelData, hu, hl, he, bind, Except.bind, if_true]
    exact ⟨_, rfl, ⟨cu, hu, rfl⟩, ⟨cl, hl, rfl⟩, fun _ => ⟨ce, he, rfl⟩, by simp⟩

lemma levelsData_ok (axes cov : Mat 3 3) (doEllipse : Bool) {o : Options} (h : o.other = [])
    (hn : doEllipse = true → 3 ≤ o.n.getD 1000) (ls : List ℝ) (acc : ℝ → Option LevelData) :
    ∃ m, levelsData axes cov doEllipse o ls acc = .ok m ∧
      (∀ l ∈ ls, ∃ x, m l = some x ∧ Spec.IsLevel axes cov doEllipse o l x) ∧
      ∀ l ∉ ls, m l = acc l := by
  classical
  induction ls generalizing acc with
  | nil => exact ⟨acc, rfl, by simp, by simp⟩
  | cons a ls ih =>
    obtain ⟨x, hx, hxs⟩ := levelData_ok axes cov doEllipse h hn a
    obtain ⟨m, hm, h1, h2⟩ := ih (Function.update acc a (some x))
    refine ⟨m, ?_, ?_, ?_⟩
    · simp only [levelsData, hx, bind, Except.bind]
      exact hm
    · intro l hl
      by_cases hin : l ∈ ls
      · exact h1 l hin
      · have : l = a := by
          rcases List.mem_cons.1 hl with k | k
          · exact k
          · exact absurd k hin
        subst this
        exact ⟨x, by rw [h2 l hin]; simp, hxs⟩
    · intro l hl
      rw [List.mem_cons, not_or] at hl
      rw [h2 l hl.2, Function.update_of_ne hl.1]

/-- Without `levels`, the curves of level 1 are at top level. -/
theorem C69_top_level (axes cov : Mat 3 3) (doEllipse : Bool) (o : Options) (h : o.other = [])
    (hn : doEllipse = true → 3 ≤ o.n.getD 1000) :
    ∃ out x, errorCoords axes cov none doEllipse false o = .ok out ∧ out.top = some x ∧
      Spec.IsLevel axes cov doEllipse o 1 x ∧ (∀ l, out.byLevel l = none) ∧
      ∀ l, ∃ c, planeErrors axes cov "nominal" { o with level := l } = .ok c ∧
        out.nominal = Spec.inDegrees c := by
  obtain ⟨c, hc, -⟩ := planeErrors_total axes cov "nominal" (o := { o with level := 1 }) h
  obtain ⟨x, hx, hxs⟩ := levelData_ok axes cov doEllipse h hn 1
  simp only [errorCoords, hc, hx, bind, Except.bind]
  refine ⟨_, x, rfl, rfl, hxs, fun _ => rfl, fun l => ⟨c, ?_, rfl⟩⟩
  rw [← hc]
  simp [planeErrors, ellipse]

example : ∃ out x, errorCoords obliqueAxes (Matrix.diagonal ![3, 2, 1]) none true false {} = .ok out ∧
    out.top = some x := by
  obtain ⟨out, x, h, h', _⟩ := C69_top_level obliqueAxes (Matrix.diagonal ![3, 2, 1]) true {} rfl
    (by simp)
  exact ⟨out, x, h, h'⟩

/-- With `levels`, there is one entry per requested level and no other, and the
nominal curve is the same for all. -/
theorem C69_by_level (axes cov : Mat 3 3) (doEllipse : Bool) (o : Options) (h : o.other = [])
    (hn : doEllipse = true → 3 ≤ o.n.getD 1000) (levels : List ℝ) :
    ∃ out, errorCoords axes cov (some levels) doEllipse false o = .ok out ∧ out.top = none ∧
      (∀ l ∈ levels, ∃ x, out.byLevel l = some x ∧ Spec.IsLevel axes cov doEllipse o l x) ∧
      (∀ l ∉ levels, out.byLevel l = none) ∧
      ∀ l, ∃ c, planeErrors axes cov "nominal" { o with level := l } = .ok c ∧
        out.nominal = Spec.inDegrees c := by
  obtain ⟨c, hc, -⟩ := planeErrors_total axes cov "nominal" (o := { o with level := 1 }) h
  obtain ⟨m, hm, h1, h2⟩ := levelsData_ok axes cov doEllipse h hn levels (fun _ => none)
  simp only [errorCoords, hc, hm, bind, Except.bind]
  refine ⟨_, rfl, rfl, h1, h2, fun l => ⟨c, ?_, rfl⟩⟩
  rw [← hc]
  simp [planeErrors, ellipse]

example : ∃ out, errorCoords obliqueAxes (Matrix.diagonal ![3, 2, 1]) (some [1, 2]) true false {}
    = .ok out ∧ out.top = none := by
  obtain ⟨out, h, h', _⟩ := C69_by_level obliqueAxes (Matrix.diagonal ![3, 2, 1]) true {} rfl
    (by simp) [1, 2]
  exact ⟨out, h, h'⟩

/-- Misuse is reported: unknown keywords and `level` are a `TypeError`, too few
points for an ellipse an `IndexError`. -/
theorem C69_errors (axes cov : Mat 3 3) (doEllipse : Bool) (o : Options)
    (levels : Option (List ℝ)) :
    errorCoords axes cov levels doEllipse true o = .error .typeError ∧
    (o.other ≠ [] → errorCoords axes cov levels doEllipse false o = .error .typeError) ∧
    (o.other = [] → o.n.getD 1000 < 3 →
      errorCoords axes cov none true false o = .error .indexError) := by
  refine ⟨rfl, fun h => ?_, fun h hn => ?_⟩
  · simp [errorCoords, planeErrors, ellipse, h, bind, Except.bind]
  · obtain ⟨c, hc, -⟩ := planeErrors_total axes cov "nominal" (o := { o with level := 1 }) h
    obtain ⟨cu, hu, -⟩ := planeErrors_total axes cov "upper" (o := { o with level := 1 }) h
    obtain ⟨cl, hl, -⟩ := planeErrors_total axes cov "lower" (o := { o with level := 1 }) h
    have he := (C68_three_entries_partial axes cov { o with level := 1 } h).2 hn
    simp [errorCoords, levelData, hc, hu, hl, he, bind, Except.bind]

example : ∃ out, errorCoords (1 : Mat 3 3) (Matrix.diagonal ![3, 2, 1]) (some [1, 2]) = .ok out ∧
    out.byLevel 2 ≠ none ∧ out.byLevel 3 = none := by
  obtain ⟨out, h1, -, h2, h3, -⟩ := C69_by_level (1 : Mat 3 3) (Matrix.diagonal ![3, 2, 1]) true {}
    rfl (by simp) [1, 2]
  obtain ⟨x, hx, -⟩ := h2 2 (by simp)
  exact ⟨out, h1, by rw [hx]; simp, h3 3 (by norm_num)⟩

end Attitude.Props
