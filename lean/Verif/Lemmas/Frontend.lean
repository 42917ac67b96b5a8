import Verif.Model.Frontend
import Verif.Props.StereonetDual

/-! Helper lemmas about the model of math.ts. -/

namespace Attitude.Frontend

open Attitude

@[simp] lemma Num.mul_some (a b : ℝ) : Num.mul (some a) (some b) = some (a * b) := rfl

@[simp] lemma Num.mul_none_right (a : Num) : Num.mul a none = none := by cases a <;> rfl

@[simp] lemma Num.mul_none_left (a : Num) : Num.mul none a = none := rfl

@[simp] lemma Num.div_some (a b : ℝ) : Num.div (some a) (some b) = some (a / b) := rfl

lemma Num.mul_getD_some (a : Num) (b : ℝ) : (Num.mul a (some b)).getD 0 = a.getD 0 * b := by
  cases a <;> simp

/-- `NaN` components count as zero. -/
lemma toWorld_eq (a b c : Num) (axes : Mat 3 3) :
    toWorld [a, b, c] axes = Stereonet.toWorld ![a.getD 0, b.getD 0, c.getD 0] axes := by
  funext j
  simp [toWorld, sdot, d3sum, List.range_succ, List.finRange_succ, Stereonet.toWorld,
    Fin.sum_univ_three, Num.mul_getD_some]
  ring

lemma sqrtNum_of_nonneg {x : ℝ} (h : 0 ≤ x) : sqrtNum x = some (Real.sqrt x) := by
  simp [sqrtNum, not_lt.2 h]

lemma sqrtNum_getD (x : ℝ) : (sqrtNum x).getD 0 = Real.sqrt x := by
  unfold sqrtNum
  split_ifs with h
  · simp [Real.sqrt_eq_zero_of_nonpos h.le]
  · rfl

/-- The factor of `cart2sph`. -/
noncomputable def unit (o : Opts) : ℝ := if o.degrees.getD false then 180 / Real.pi else 1

lemma unit_pos (o : Opts) : 0 < unit o := by
  unfold unit; split_ifs
  · have := Real.pi_pos; positivity
  · norm_num

lemma norm_three (d : Vec 3) : Attitude.norm d = Real.sqrt (d 0 ^ 2 + d 1 ^ 2 + d 2 ^ 2) := by
  rw [Attitude.norm, Fin.sum_univ_three]

/-- In the upper hemisphere the positions are those of the Python code, up to the
unit. -/
lemma cart2sph_upper {o : Opts} (h : o.upperHemisphere.getD true = true) (d : Vec 3) :
    cart2sph o d = (Stereonet.planeLonLat (o.traditionalLayout.getD false) d).map
      fun p => (unit o * p.1, unit o * p.2) := by
  unfold cart2sph Stereonet.planeLonLat
  by_cases hd : d = 0
  · subst hd
    have : Attitude.norm (0 : Vec 3) = 0 := by rw [norm_three]; simp
    rw [this]
    cases o.traditionalLayout.getD false <;> simp [Stereonet.cart2sph_zero]
  · have hn : 0 < Attitude.norm d := (norm_pos_iff' d).2 hd
    have h2 := Stereonet.norm_sq3 d
    have e : ∀ x y z : ℝ, Attitude.norm d ^ 2 = x ^ 2 + y ^ 2 + z ^ 2 →
        Rotations.cart2sph x y z = some (arctan2 y x, Real.arcsin (z / Attitude.norm d)) := by
      intro x y z hx
      have hs : Real.sqrt (x ^ 2 + y ^ 2 + z ^ 2) = Attitude.norm d := by
        rw [← hx, Real.sqrt_sq hn.le]
      simp [Rotations.cart2sph, hs, fdiv, hn.ne']
    cases ht : o.traditionalLayout.getD false
    · have e' := e (-d 1) (d 0) (d 2) (by rw [h2]; ring)
      simp only [Bool.false_eq_true, if_false, e', Option.map_some, h, if_true, hn.ne', unit]
      simp
    · have e' := e (d 2) (d 0) (d 1) (by rw [h2]; ring)
      simp only [if_true, e', Option.map_some, h, hn.ne', unit]
      simp

lemma sinAngles_bounds {n : ℕ} {s : ℝ} (h : s ∈ sinAngles n) : -1 ≤ s ∧ s < 1 := by
  simp only [sinAngles, List.mem_map, List.mem_range] at h
  obtain ⟨i, hi, rfl⟩ := h
  have h1 : 2 * i < n + 1 := by omega
  have h2 : 2 * i + 1 ≤ n + 1 ∧ 0 < n := by omega
  have hn : (0 : ℝ) < n := by exact_mod_cast h2.2
  have h3 : ∀ k : ℕ, (2 * i : ℕ) < n → (2 * (i : ℝ)) < n := fun _ h => by exact_mod_cast h
  have h4 : 2 * i < n := by omega
  have h5 := h3 0 h4
  constructor
  · have : (0 : ℝ) ≤ i * (2 / (n / 2)) := by positivity
    linarith
  · have : (i : ℝ) * (2 / (n / 2)) = 2 * (2 * i) / n := by field_simp
    rw [this]
    have : 2 * (2 * (i : ℝ)) / n < 2 := by rw [div_lt_iff₀ hn]; linarith
    linarith

lemma ellipse_length (n : ℕ) (a b : Num) : (ellipse n a b).length = 2 * ((n + 1) / 2) + (if n = 0 then 1 else 0) := by
  simp only [ellipse, List.length_append, List.length_map, List.length_cons, List.length_nil,
    List.length_reverse, List.length_drop, sinAngles, List.length_range]
  split_ifs <;> omega

/-- Every point is the image of a point of the unit circle. -/
lemma mem_ellipse {n : ℕ} {a b : Num} {p : Num × Num} (h : p ∈ ellipse n a b) :
    ∃ c s : ℝ, c ^ 2 + s ^ 2 = 1 ∧ p.1.getD 0 = b.getD 0 * c ∧ p.2.getD 0 = a.getD 0 * s ∧
      (b.isSome → p.1.isSome) ∧ (a.isSome → p.2.isSome) := by
  have key : ∀ q ∈ (sinAngles n).map (fun s =>
      (Num.mul b (some (Real.cos (Real.arcsin s))), Num.mul a (some s))),
      ∃ c s : ℝ, c ^ 2 + s ^ 2 = 1 ∧ q.1.getD 0 = b.getD 0 * c ∧ q.2.getD 0 = a.getD 0 * s ∧
      (b.isSome → q.1.isSome) ∧ (a.isSome → q.2.isSome) := by
    intro q hq
    simp only [List.mem_map] at hq
    obtain ⟨s, hs, rfl⟩ := hq
    obtain ⟨h1, h2⟩ := sinAngles_bounds hs
    refine ⟨Real.cos (Real.arcsin s), s, ?_, Num.mul_getD_some _ _, Num.mul_getD_some _ _, ?_, ?_⟩
    · have := Real.sin_arcsin h1 h2.le
      have h3 := Real.sin_sq_add_cos_sq (Real.arcsin s)
      rw [this] at h3; linarith
    · cases b <;> simp
    · cases a <;> simp
  simp only [ellipse, List.mem_append, List.mem_reverse, List.mem_singleton] at h
  rcases h with (h | h) | h
  · exact key p h
  · subst h
    exact ⟨0, 1, by norm_num, by simp, by simp, by simp, by simp⟩
  · rw [List.mem_map] at h
    obtain ⟨q, hq, rfl⟩ := h
    obtain ⟨c, s, h1, h2, h3, h4, h5⟩ := key q (List.mem_of_mem_drop hq)
    refine ⟨-c, s, by linarith [h1, neg_sq c], ?_, h3, ?_, h5⟩
    · have : ∀ x : Num, (x.map fun x => -x).getD 0 = -(x.getD 0) := by intro x; cases x <;> simp
      rw [this, h2]; ring
    · intro hb; simpa using h4 hb

/-- Side of the plane (in the direction of the third axis) on which a sheet is. -/
noncomputable def side (o : Opts) (sheet : String) (axes : Mat 3 3) : ℝ :=
  (planeScale sheet).getD 0 * (if o.upperHemisphere.getD true then -1 else 1)
    * (if axes 2 2 < 0 then -1 else 1)

/-- The sheet that `planeErrors` draws. -/
def sheetOf (o : Opts) : String :=
  match o.sheet with
  | none => "nominal"
  | some s => if s = "" then "nominal" else s

lemma planeErrors_eq (cov : Vec 3) (axes : Mat 3 3) (o : Opts) :
    (planeErrors cov (some axes) o).1 =
      (ellipse (o.n.getD 100) (sqrtNum (cov 0)) (sqrtNum (cov 1))).map fun p =>
        cart2sph o.defaults (Stereonet.toWorld ![p.2.getD 0, p.1.getD 0,
          Real.sqrt (cov 2) * side o (sheetOf o) axes] axes) := by
  have hs : ∀ x : Num, ∀ y : ℝ, (Num.mul (sqrtNum y) x).getD 0 = Real.sqrt y * x.getD 0 := by
    intro x y
    rw [← sqrtNum_getD]
    cases sqrtNum y <;> cases x <;> simp
  simp only [planeErrors, List.map_map]
  have e1 : (o.defaults).n.getD 100 = o.n.getD 100 := rfl
  have e2 : (o.defaults).upperHemisphere.getD true = o.upperHemisphere.getD true := rfl
  have e3 : (o.defaults).sheet = o.sheet := rfl
  rw [e1, e2, e3]
  apply List.map_congr_left
  intro p _
  simp only [Function.comp, toWorld_eq, Option.getD_some]
  rw [hs]
  unfold side sheetOf
  congr 4
  generalize planeScale _ = x
  split_ifs <;> cases x <;> simp

lemma planeErrors_none (cov : Vec 3) (o : Opts) :
    planeErrors cov none o = planeErrors cov (some 1) o := rfl

lemma planeErrors_opts (cov : Vec 3) (axes : Option (Mat 3 3)) (o : Opts) :
    (planeErrors cov axes o).2 = o.defaults := rfl

lemma norm_pair (x y : ℝ) : norm [some x, some y] = Real.sqrt (x ^ 2 + y ^ 2) := by
  simp [norm, d3sum]
  ring_nf

/-- The hemisphere factor. -/
noncomputable def hemi (o : Opts) : ℝ := if o.upperHemisphere.getD true then -1 else 1

lemma hemi_sq (o : Opts) : hemi o ^ 2 = 1 := by unfold hemi; split_ifs <;> norm_num

/-- The vector behind a pole, in the frame of the axes. -/
noncomputable def poleVec (cov : Vec 3) (k v : ℝ) (x y : ℝ) : Vec 3 :=
  ![-x * k * Real.sqrt (cov 2) / Real.sqrt (cov 0), -y * k * Real.sqrt (cov 2) / Real.sqrt (cov 1),
    Real.sqrt (x ^ 2 + y ^ 2) * v]

/-- The options after `normalErrors`. -/
def Opts.normalDefaults (o : Opts) : Opts :=
  { o.defaults with sheet := some (o.sheet.getD "upper"), level := some (o.level.getD 1) }

lemma normalErrors_eq {cov : Vec 3} (axes : Mat 3 3) {o : Opts} {v : ℝ} (h0 : 0 < cov 0)
    (h1 : 0 < cov 1) (h2 : 0 ≤ cov 2) (hv : normalScale (o.sheet.getD "upper") = some v) :
    normalErrors cov (some axes) o = some
      ((ellipse (o.n.getD 100) (sqrtNum (cov 0)) (sqrtNum (cov 1))).map fun p =>
        cart2sph o.normalDefaults (Stereonet.toWorld
          (poleVec cov (v * hemi o * o.level.getD 1) v (p.1.getD 0) (p.2.getD 0)) axes),
        o.normalDefaults) := by
  unfold normalErrors
  simp only [h0.ne', h1.ne', or_self, if_false, Option.some.injEq, Prod.mk.injEq, List.map_map]
  refine ⟨?_, rfl⟩
  apply List.map_congr_left
  intro p hp
  obtain ⟨c, s, -, -, -, hx, hy⟩ := mem_ellipse hp
  rw [sqrtNum_of_nonneg h0.le, sqrtNum_of_nonneg h1.le] at *
  obtain ⟨x, hx⟩ := Option.isSome_iff_exists.1 (hx (by simp))
  obtain ⟨y, hy⟩ := Option.isSome_iff_exists.1 (hy (by simp))
  simp only [Function.comp, toWorld_eq]
  rw [show (some (o.sheet.getD "upper")).getD "upper" = o.sheet.getD "upper" from rfl, hv, hx, hy,
    sqrtNum_of_nonneg h2, norm_pair]
  rw [show (o.defaults).upperHemisphere.getD true = o.upperHemisphere.getD true from rfl]
  unfold Opts.normalDefaults poleVec hemi
  congr 2
  split_ifs <;> simp

end Attitude.Frontend
