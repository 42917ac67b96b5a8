import Verif.Model.Stereonet
import Verif.Props.Rotations
import Verif.Lemmas.Trig

/-! Helper facts about positions and curves. -/

namespace Attitude.Stereonet

open Attitude Rotations

lemma cart2sph_eq {x y z r : ℝ} (hr : 0 < r) (h : r ^ 2 = x ^ 2 + y ^ 2 + z ^ 2) :
    cart2sph x y z = some (arctan2 (y / r) (x / r), Real.arcsin (z / r)) := by
  have e : arctan2 (y / r) (x / r) = arctan2 y x := by
    have := arctan2_smul (r := 1 / r) (by positivity) y x
    rw [← this]; congr 1 <;> ring
  have hs : Real.sqrt (x ^ 2 + y ^ 2 + z ^ 2) = r := by rw [← h, Real.sqrt_sq hr.le]
  rw [e]
  simp only [cart2sph, hs, fdiv, hr.ne', if_false, Option.bind_eq_bind, Option.bind_some]

lemma cart2sph_dir {x y z r : ℝ} (hr : 0 < r) (h : r ^ 2 = x ^ 2 + y ^ 2 + z ^ 2) :
    ∃ p, cart2sph x y z = some p ∧ sph2cart p.1 p.2 = (x / r, y / r, z / r) := by
  have hu : (x / r) ^ 2 + (y / r) ^ 2 + (z / r) ^ 2 = 1 := by
    rw [div_pow, div_pow, div_pow, ← add_div, ← add_div, ← h]
    exact div_self (by positivity)
  exact ⟨_, cart2sph_eq hr h, Props.sph2cart_of_unit hu⟩

lemma cart2sph_zero : cart2sph 0 0 0 = none := by
  simp [cart2sph, fdiv]

/-- Lengths and products in an orthonormal frame. -/
lemma toWorld_dot {axes : Mat 3 3} (ho : ∀ i j, vdot (axes i) (axes j) = if i = j then 1 else 0)
    (e : Vec 3) (i : Fin 3) : vdot (toWorld e axes) (axes i) = e i := by
  have h0 := ho 0 i
  have h1 := ho 1 i
  have h2 := ho 2 i
  rw [vdot3] at h0 h1 h2
  rw [vdot3]
  simp only [toWorld, Fin.sum_univ_three]
  have : (e 0 * axes 0 0 + e 1 * axes 1 0 + e 2 * axes 2 0) * axes i 0
      + (e 0 * axes 0 1 + e 1 * axes 1 1 + e 2 * axes 2 1) * axes i 1
      + (e 0 * axes 0 2 + e 1 * axes 1 2 + e 2 * axes 2 2) * axes i 2
      = e 0 * (axes 0 0 * axes i 0 + axes 0 1 * axes i 1 + axes 0 2 * axes i 2)
      + e 1 * (axes 1 0 * axes i 0 + axes 1 1 * axes i 1 + axes 1 2 * axes i 2)
      + e 2 * (axes 2 0 * axes i 0 + axes 2 1 * axes i 1 + axes 2 2 * axes i 2) := by ring
  rw [this, h0, h1, h2]
  fin_cases i <;> simp

lemma toWorld_dot_toWorld {axes : Mat 3 3}
    (ho : ∀ i j, vdot (axes i) (axes j) = if i = j then 1 else 0) (e f : Vec 3) :
    vdot (toWorld e axes) (toWorld f axes) = vdot e f := by
  have h0 := toWorld_dot ho e 0
  have h1 := toWorld_dot ho e 1
  have h2 := toWorld_dot ho e 2
  rw [vdot3] at h0 h1 h2
  rw [vdot3, vdot3, ← h0, ← h1, ← h2]
  simp only [toWorld, Fin.sum_univ_three]
  ring

lemma norm_toWorld {axes : Mat 3 3}
    (ho : ∀ i j, vdot (axes i) (axes j) = if i = j then 1 else 0) (e : Vec 3) :
    norm (toWorld e axes) = norm e := by
  have := toWorld_dot_toWorld ho e e
  rw [vdot3, vdot3] at this
  rw [norm3, norm3]
  congr 1
  linarith

lemma norm_sq3 (v : Vec 3) : norm v ^ 2 = v 0 ^ 2 + v 1 ^ 2 + v 2 ^ 2 := by
  rw [norm_sq', Fin.sum_univ_three]

lemma flipped_orth {axes : Mat 3 3}
    (ho : ∀ i j, vdot (axes i) (axes j) = if i = j then 1 else 0) (i j : Fin 3) :
    vdot (flipped axes i) (flipped axes j) = if i = j then 1 else 0 := by
  rw [← ho i j]
  unfold flipped
  split_ifs
  · simp [vdot3]
  · rfl

lemma angles_length (n : ℕ) : (angles n).length = n := by simp [angles]

lemma mem_angles {n : ℕ} {a : ℝ} : a ∈ angles n ↔ ∃ k < n, linspace n k = a := by
  simp [angles]

lemma ellipse_ok {o : Options} (h : o.other = []) : ellipse o = .ok (angles (o.n.getD 1000)) := by
  simp [ellipse, h]

lemma ellipse_error {o : Options} (h : o.other ≠ []) : ellipse o = .error .typeError := by
  simp [ellipse, h]

/-- The diagonal covariance. -/
def diag3 (d : Vec 3) : Mat 3 3 := Matrix.diagonal d

/-- The vector behind a point of a plane error curve, in the frame of the axes,
for a diagonal covariance; `c` is the height. -/
noncomputable def girdleVec (d : Vec 3) (c a : ℝ) : Vec 3 :=
  ![Real.cos a * d 0, Real.sin a * d 1, c * d 2]

/-- The height that `plane_errors` uses. -/
noncomputable def height (axes : Mat 3 3) (sheet : String) (level : ℝ) : ℝ :=
  if sheet = "upper" then (if axes 2 2 > 0 then -(level * 2) else level * 2)
  else if sheet = "lower" then (if axes 2 2 > 0 then level * 2 else -(level * 2))
  else 0

lemma planeErrors_eq (axes : Mat 3 3) (d : Vec 3) (sheet : String) {o : Options}
    (h : o.other = []) :
    planeErrors axes (diag3 d) sheet o = .ok ((angles (o.n.getD 1000)).map fun a =>
      planeLonLat o.traditional (toWorld (girdleVec d (height axes sheet o.level) a) axes)) := by
  simp only [planeErrors, ellipse_ok h, bind, Except.bind]
  congr 1
  apply List.map_congr_left
  intro a _
  congr 2
  funext j
  unfold height
  split_ifs <;> fin_cases j <;>
    simp [girdleVec, diag3, Matrix.diagonal_apply] <;> ring

/-- The vector behind a point of a normal error curve. -/
noncomputable def normalVec (d : Vec 3) (a : ℝ) : Vec 3 :=
  ![-(2 * d 2 * Real.cos a), -(2 * d 2 * Real.sin a),
    Real.sqrt ((Real.cos a * d 0) ^ 2 + (Real.sin a * d 1) ^ 2)]

lemma normalErrors_eq (axes : Mat 3 3) (d : Vec 3) {o : Options} (h : o.other = []) :
    normalErrors axes (diag3 d) o = .ok ((angles (o.n.getD 1000)).map fun a =>
      normalLonLat o.traditional (toWorld (normalVec d a) (flipped axes)), flipped axes) := by
  simp only [normalErrors, ellipse_ok h, bind, Except.bind]
  congr 2
  apply List.map_congr_left
  intro a _
  congr 2
  funext j
  fin_cases j <;> simp [normalVec, diag3, norm] <;> ring

end Attitude.Stereonet
