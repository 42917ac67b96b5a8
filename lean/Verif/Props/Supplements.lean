import Verif.Props.Grouping
import Verif.Props.ConicSpheres
import Verif.Props.PcaAngles
import Verif.Model.ErrorAxes

/-!
# Supplements to C09, C37, C51, C55, C60 and C73; C167
-/

namespace Attitude.Props

open Attitude

/-! ## C09 -/

/-- A measurement can be made exactly from three or more points; otherwise `ValueError` is
raised and nothing changes. -/
theorem C09_measurement (H : Grouping.HashFn) (h : Grouping.Heap) (p : Grouping.Points) :
    (3 ≤ p.length → ∃ o, (Grouping.newMeasurement H h p).1 = .ok o ∧
      ((Grouping.newMeasurement H h p).2.obj o).array = some p) ∧
    (p.length < 3 → Grouping.newMeasurement H h p = (.error .valueError, h)) := by
  constructor
  · intro hp
    refine ⟨h.next, ?_, ?_⟩ <;> simp [Grouping.newMeasurement, Nat.not_lt.2 hp, Grouping.Heap.alloc]
  · intro hp
    simp [Grouping.newMeasurement, hp]

/-- Three points, and two. -/
example : (∃ o, (Grouping.newMeasurement sizeHash heap3 [![0, 0, 0], ![1, 0, 1], ![0, 1, 2]]).1 = .ok o) ∧
    (Grouping.newMeasurement sizeHash heap3 [![0, 0, 0], ![1, 0, 1]]).1 = .error .valueError := by
  obtain ⟨o, h, -⟩ := (C09_measurement sizeHash heap3 [![0, 0, 0], ![1, 0, 1], ![0, 1, 2]]).1 (by simp)
  exact ⟨⟨o, h⟩, by rw [(C09_measurement sizeHash heap3 [![0, 0, 0], ![1, 0, 1]]).2 (by simp)]⟩

/-! ## C37 -/

section
open Grouping Spec

/-- Without copies, a measurement that already is in a group of the collection cannot be
grouped again: `GroupedPlaneError` is raised, and the list is not extended. -/
theorem C37_regrouping_raises_partial (H : HashFn) (h : Heap) (l : List ℕ) (u : String) (us : List String)
    (gs : List (List String)) (sp ex : Bool) (m g : ℕ) (hu : ∀ o ∈ l, (h.obj o).uid.isSome)
    (hm : IsFirst h l u m) (hg : g ∈ l) (hin : InGroup h g m) :
    (createGroups H h l ((u :: us) :: gs) false sp ex).result = .error .groupedPlaneError ∧
    (createGroups H h l ((u :: us) :: gs) false sp ex).callerList = l := by
  have huid : ∀ a, ((resetMembership l h).2.obj a).uid = (h.obj a).uid :=
    fun a => core_uid (reset_core l h a)
  have hu' : ∀ o ∈ l, ((resetMembership l h).2.obj o).uid.isSome := fun o ho => by rw [huid]; exact hu o ho
  have hfirst : firstWith (resetMembership l h).2 u l = .ok m :=
    (isFirst_iff hu' u m).1 ((isFirst_congr huid u m).2 hm)
  have hgr : m ∈ (resetMembership l h).1 := by
    rw [reset_grouped]
    obtain ⟨ms, h1, h2⟩ := hin
    exact ⟨g, hg, ms, h1, h2⟩
  simp [createGroups, buildGroups, findAll, find, hfirst, hgr]

/-- Such a collection: `a` and `b` have been grouped before. -/
example : ∃ (h : Heap) (l : List ℕ) (m g : ℕ), Reachable sizeHash h ∧ (∀ o ∈ l, (h.obj o).uid.isSome) ∧
    IsFirst h l "a" m ∧ g ∈ l ∧ InGroup h g m := by
  obtain ⟨h0, h1, h2⟩ := heap3_obj
  refine ⟨(createGroups sizeHash heap3 [0, 1, 2] [["a", "b"]] false).heap, [0, 1, 2, 3], 0, 3,
    .step (.create [0, 1, 2] [["a", "b"]] false false false) heap3_reachable heap3_exists, ?_, ?_, by simp, ?_⟩
  · intro o ho
    simp only [List.mem_cons, List.not_mem_nil, or_false] at ho
    rcases ho with rfl | rfl | rfl | rfl <;>
    simp [createGroups, resetMembership, buildGroups, findAll, find, firstWith,
      newGroup, arraysOf, vstack, markMembers, Heap.alloc, Heap.set, Heap.setMemberOf, heap3_next,
      h0, h1, h2, centeredPts_length, pts]
  · refine ⟨[], [1, 2, 3], rfl, ?_, by simp⟩
    simp [createGroups, resetMembership, buildGroups, findAll, find, firstWith,
      newGroup, arraysOf, vstack, markMembers, Heap.alloc, Heap.set, Heap.setMemberOf, heap3_next,
      h0, h1, h2, centeredPts_length, pts]
  · refine ⟨[0, 1], ?_, by simp⟩
    simp [createGroups, resetMembership, buildGroups, findAll, find, firstWith,
      newGroup, arraysOf, vstack, markMembers, Heap.alloc, Heap.set, Heap.setMemberOf, heap3_next,
      h0, h1, h2, centeredPts_length, pts]

end

/-! ## C51 -/

section
open Conics Matrix

variable {d : ℕ}

/-- `contains(p, shell_only=True)` accepts exactly the points at which the quadratic form of
the conic is zero to eight decimals: all points of the shell ... -/
theorem C186_shell_only (C : Con d) (x : Vec d) : contains C x true = true ↔
    |(∑ i, ∑ j, C (Fin.castSucc i) (Fin.castSucc j) * x i * x j)
      + (∑ i, C (Fin.castSucc i) (Fin.last d) * x i) + (∑ j, C (Fin.last d) (Fin.castSucc j) * x j)
      + C (Fin.last d) (Fin.last d)| ≤ 1 / 10 ^ 8 := by
  rw [← solve_expand]
  simp only [contains, if_true, decide_eq_true_eq]
  norm_num

/-- ... but not only these: the tolerance is absolute, and every point is on the "shell" of
a conic that is scaled down. -/
theorem C186_shell_only_false (C : Con d) (x : Vec d) : ∃ t : ℝ, 0 < t ∧
    Spec.Shell (t • C) = Spec.Shell C ∧ contains (t • C) x true = true := by
  have hs : ∀ (t : ℝ) (y : Vec d), solve (t • C) (augment y) = t * solve C (augment y) := by
    intro t y
    simp [solve, Matrix.smul_mulVec, dotProduct_smul]
  refine ⟨1e-8 / (1 + |solve C (augment x)|), by positivity, ?_, ?_⟩
  · ext y
    rw [mem_shell_iff, mem_shell_iff, hs, mul_eq_zero]
    constructor
    · rintro (h | h)
      · have : (0 : ℝ) < 1e-8 / (1 + |solve C (augment x)|) := by positivity
        linarith
      · exact h
    · exact Or.inr
  · simp only [contains, if_true, decide_eq_true_eq, hs]
    rw [abs_mul, abs_of_pos (by positivity), div_mul_eq_mul_div, div_le_iff₀ (by positivity)]
    have := abs_nonneg (solve C (augment x))
    nlinarith

/-! ## C55 in two dimensions -/

/-- Slicing a conic in the plane by a line, with a given direction: the result is the conic
along that direction from the point of the line nearest to the origin. -/
theorem C187_slice_line_with_axes (C : Con 2) (p : Vec 3) (hp : Spec.normalPart p ≠ 0) (v : Vec 2) :
    ∃ con tr pt, slice2 C p (some v) = .ok (some (con, tr, pt)) ∧
      pt ∈ Spec.PlanePoints p ∧ (∀ x ∈ Spec.PlanePoints p, x ≠ pt → norm pt < norm x) ∧
      (∀ a, solve con (augment ![a]) = solve C (augment (a • v + pt))) ∧
      (∀ i, tr 0 (Fin.castSucc i) = v i) ∧ ∀ i, tr 1 (Fin.castSucc i) = pt i := by
  obtain ⟨h, o, n, _, ho, hn, _, _, _, _, _, hop, hnear, _⟩ := C62_hessian_normal p hp
  refine ⟨transform C (affine (Matrix.of fun i _ => v i : Mat 2 1) o),
    (affine (Matrix.of fun i _ => v i : Mat 2 1) o).transpose, o, ?_, hop, hnear, ?_, ?_, ?_⟩
  · simp [slice2, hn, ho, bind, Except.bind]
  · intro a
    rw [solve_transform, affine_augment]
    congr 2
    funext i
    simp
  · intro i
    simp only [Matrix.transpose_apply, affine, Matrix.of_apply, Fin.snoc_castSucc]
    exact Fin.snoc_castSucc (α := fun _ => ℝ) (o i) (fun _ : Fin 1 => v i) 0
  · intro i
    simp only [Matrix.transpose_apply, affine, Matrix.of_apply, Fin.snoc_castSucc]
    exact Fin.snoc_last (α := fun _ => ℝ) (o i) (fun _ : Fin 1 => v i)

/-- Such a line. -/
example : Spec.normalPart (![3, 4, 10] : Vec 3) ≠ 0 := by
  intro h
  have := congrFun h 0
  simp [Spec.normalPart] at this

/-- Without a given direction the direction used is not along the line, unless the line is
parallel to an axis: the slice is not that of the line. -/
theorem C187_slice_line_false (C : Con 2) (p : Vec 3) (h0 : p 0 ≠ 0) (h1 : p 1 ≠ 0) :
    ∃ con tr pt v, slice2 C p none = .ok (some (con, tr, pt)) ∧
      (∀ a, solve con (augment ![a]) = solve C (augment (a • v + pt))) ∧
      ∀ a : ℝ, a ≠ 0 → a • v + pt ∉ Spec.PlanePoints p := by
  have hp : Spec.normalPart p ≠ 0 := by
    intro h
    exact h0 (congrFun h 0)
  obtain ⟨h, o, n, _, ho, hn, _, hnorm, ⟨t, ht, hnt⟩, _, _, hop, hnear, _⟩ := C62_hessian_normal p hp
  refine ⟨transform C (affine (Matrix.of fun i _ => (![n 1, n 0] : Vec 2) i : Mat 2 1) o),
    (affine (Matrix.of fun i _ => (![n 1, n 0] : Vec 2) i : Mat 2 1) o).transpose, o, ![n 1, n 0], ?_, ?_, ?_⟩
  · simp [slice2, hn, ho, bind, Except.bind, perpendicularVector]
  · intro a
    rw [solve_transform, affine_augment]
    congr 2
    funext i
    fin_cases i <;> simp
  · intro a ha hmem
    have e0 : n 0 = t * p 0 := by rw [hnt]; rfl
    have e1 : n 1 = t * p 1 := by rw [hnt]; rfl
    simp only [Spec.PlanePoints, Set.mem_ofPred_eq, Fin.sum_univ_two] at hop hmem
    simp only [Pi.add_apply, Pi.smul_apply, smul_eq_mul, Matrix.cons_val_zero, Matrix.cons_val_one, e0, e1] at hmem
    change p 0 * o 0 + p 1 * o 1 + p 2 = 0 at hop
    change p 0 * (a * (t * p 1) + o 0) + p 1 * (a * (t * p 0) + o 1) + p 2 = 0 at hmem
    have : 2 * a * t * p 0 * p 1 = 0 := by linear_combination hmem - hop
    have : 2 * a * t * p 0 * p 1 ≠ 0 := by positivity
    contradiction

example : ∃ con tr pt, slice2 (Conics.fromAxes ![1, 2]) ![1, 2, 3] none = .ok (some (con, tr, pt)) := by
  obtain ⟨con, tr, pt, _, h, _⟩ := C187_slice_line_false (Conics.fromAxes ![1, 2]) ![1, 2, 3]
    (by simp) (by simp)
  exact ⟨con, tr, pt, h⟩

/-! ## C60 for ellipsoids -/

/-- The ellipsoid with semi-axes `p`, `q`, `r` along the coordinate axes, around `(0, 0, c)`. -/
noncomputable def ellipsoid (p q r c : ℝ) : Con 3 :=
  translate (fromAxes ![1 / p ^ 2, 1 / q ^ 2, 1 / r ^ 2]) ![0, 0, c]

lemma ellipsoid_symm (p q r c : ℝ) : (ellipsoid p q r c).transpose = ellipsoid p q r c :=
  transform_symm (fromAxes_symm _) _

lemma solve_ellipsoid (p q r c : ℝ) (x : Vec 3) : solve (ellipsoid p q r c) (augment x)
    = x 0 ^ 2 / p ^ 2 + x 1 ^ 2 / q ^ 2 + (x 2 - c) ^ 2 / r ^ 2 - 1 := by
  rw [ellipsoid, solve_translate, solve_fromAxes, Fin.sum_univ_three]
  simp
  ring

/-- The true angles: a line from the viewpoint in the section along the first axis meets the
ellipsoid if and only if the tangent of its angle with the line of sight is at most
`p / √(c² - r²)`. -/
theorem C60_true_angle (p q r c : ℝ) (hp : 0 < p) (hr : 0 < r) (hc : r < c) (t : ℝ) :
    (∃ s : ℝ, s • (![t, 0, 1] : Vec 3) ∈ Spec.Shell (ellipsoid p q r c)) ↔ |t| ≤ p / Real.sqrt (c ^ 2 - r ^ 2) := by
  have hg : 0 < c ^ 2 - r ^ 2 := by nlinarith
  have hsp := Real.sqrt_pos.2 hg
  have hiff : |t| ≤ p / Real.sqrt (c ^ 2 - r ^ 2) ↔ t ^ 2 * (c ^ 2 - r ^ 2) ≤ p ^ 2 := by
    rw [le_div_iff₀ hsp]
    constructor
    · intro h
      have := mul_self_le_mul_self (by positivity) h
      nlinarith [Real.sq_sqrt hg.le, sq_abs t]
    · intro h
      apply le_of_sq_le_sq _ hp.le
      rw [mul_pow, sq_abs, Real.sq_sqrt hg.le]
      exact h
  rw [hiff]
  simp only [mem_shell_iff, solve_ellipsoid]
  set A := t ^ 2 / p ^ 2 + 1 / r ^ 2 with hA
  have hA0 : 0 < A := by positivity
  have hq : ∀ s : ℝ, ((s • ![t, 0, 1] : Vec 3) 0) ^ 2 / p ^ 2 + ((s • ![t, 0, 1] : Vec 3) 1) ^ 2 / q ^ 2
      + ((s • ![t, 0, 1] : Vec 3) 2 - c) ^ 2 / r ^ 2 - 1
      = A * s ^ 2 - 2 * (c / r ^ 2) * s + (c ^ 2 / r ^ 2 - 1) := by
    intro s
    simp [hA]
    field_simp
    ring
  simp only [hq]
  have hdisc : (c / r ^ 2) ^ 2 - A * (c ^ 2 / r ^ 2 - 1) = (p ^ 2 - t ^ 2 * (c ^ 2 - r ^ 2)) / (p ^ 2 * r ^ 2) := by
    rw [hA]
    field_simp
    ring
  constructor
  · rintro ⟨s, hs⟩
    have h1 : (c / r ^ 2) ^ 2 - A * (c ^ 2 / r ^ 2 - 1) = (A * s - c / r ^ 2) ^ 2 := by
      linear_combination -A * hs
    rw [hdisc] at h1
    have h2 : 0 ≤ (p ^ 2 - t ^ 2 * (c ^ 2 - r ^ 2)) / (p ^ 2 * r ^ 2) := by rw [h1]; positivity
    have h3 : 0 < p ^ 2 * r ^ 2 := by positivity
    by_contra hneg
    have := div_neg_of_neg_of_pos (by linarith : p ^ 2 - t ^ 2 * (c ^ 2 - r ^ 2) < 0) h3
    linarith
  · intro h
    have h2 : 0 ≤ (c / r ^ 2) ^ 2 - A * (c ^ 2 / r ^ 2 - 1) := by
      rw [hdisc]; apply div_nonneg (by linarith); positivity
    refine ⟨(c / r ^ 2 + Real.sqrt ((c / r ^ 2) ^ 2 - A * (c ^ 2 / r ^ 2 - 1))) / A, ?_⟩
    have h3 := Real.sq_sqrt h2
    set w := Real.sqrt ((c / r ^ 2) ^ 2 - A * (c ^ 2 / r ^ 2 - 1))
    have : A * ((c / r ^ 2 + w) / A) ^ 2 - 2 * (c / r ^ 2) * ((c / r ^ 2 + w) / A) + (c ^ 2 / r ^ 2 - 1)
        = (w ^ 2 - ((c / r ^ 2) ^ 2 - A * (c ^ 2 / r ^ 2 - 1))) / A := by
      field_simp
      ring
    rw [this, h3]
    simp

example : ∃ s : ℝ, s • (![0, 0, 1] : Vec 3) ∈ Spec.Shell (ellipsoid 3 2 1 5) :=
  (C60_true_angle 3 2 1 5 (by norm_num) (by norm_num) (by norm_num) 0).2 (by simp; positivity)

/-- The right singular vectors of a diagonal array of order two. -/
lemma svd_diagonal2 {svd : SqSvd} (hs : svd.Valid) {α β : ℝ} (hα : 0 < α) (hβ : 0 < β) (i : Fin 2) :
    ∑ j, (svd 2 (Matrix.diagonal ![α, β])).2.1 j * (svd 2 (Matrix.diagonal ![α, β])).2.2 i j ^ 2
      = ![α, β] i := by
  have h := hs 2 (Matrix.diagonal ![α, β])
  set r := svd 2 (Matrix.diagonal ![α, β])
  have hVV := h.orthV
  have hVV' : r.2.2.transpose * r.2.2 = 1 := mul_eq_one_comm.1 h.orthV
  -- `S² V = V A²`
  have key : ∀ i j, r.2.1 i ^ 2 * r.2.2 i j = r.2.2 i j * (![α, β] j) ^ 2 := by
    have e1 : (Matrix.diagonal ![α, β]).transpose * Matrix.diagonal ![α, β]
        = r.2.2.transpose * (Matrix.diagonal r.2.1 * Matrix.diagonal r.2.1) * r.2.2 := by
      conv_lhs => rw [h.recon]
      rw [Matrix.transpose_mul, Matrix.transpose_mul, Matrix.diagonal_transpose]
      calc r.2.2.transpose * (Matrix.diagonal r.2.1 * r.1.transpose)
            * (r.1 * Matrix.diagonal r.2.1 * r.2.2)
          = r.2.2.transpose * (Matrix.diagonal r.2.1 * (r.1.transpose * r.1)
            * Matrix.diagonal r.2.1) * r.2.2 := by simp only [Matrix.mul_assoc]
        _ = _ := by rw [h.orthU, Matrix.mul_one]
    have e2 := congrArg (fun M => r.2.2 * M) e1
    simp only [← Matrix.mul_assoc] at e2
    rw [h.orthV, Matrix.one_mul, Matrix.diagonal_transpose, Matrix.mul_assoc, Matrix.diagonal_mul_diagonal,
      Matrix.diagonal_mul_diagonal] at e2
    intro i j
    have := congrFun (congrFun e2 i) j
    rw [Matrix.mul_diagonal, Matrix.diagonal_mul] at this
    rw [sq, sq]
    exact this.symm
  have hval : ∀ i j, r.2.2 i j ≠ 0 → r.2.1 i = ![α, β] j := by
    intro i j hne
    have h1 := key i j
    have h2 : r.2.1 i ^ 2 = (![α, β] j) ^ 2 := mul_right_cancel₀ hne (by rw [h1]; ring)
    have h3 : 0 ≤ ![α, β] j := by fin_cases j <;> simp <;> linarith
    exact (sq_eq_sq₀ (h.nonneg i) h3).1 h2
  have o00 : r.2.2 0 0 ^ 2 + r.2.2 0 1 ^ 2 = 1 := by
    have := congrFun (congrFun hVV 0) 0
    simp [Matrix.mul_apply, Fin.sum_univ_two] at this
    nlinarith
  have o11 : r.2.2 1 0 ^ 2 + r.2.2 1 1 ^ 2 = 1 := by
    have := congrFun (congrFun hVV 1) 1
    simp [Matrix.mul_apply, Fin.sum_univ_two] at this
    nlinarith
  have c00 : r.2.2 0 0 ^ 2 + r.2.2 1 0 ^ 2 = 1 := by
    have := congrFun (congrFun hVV' 0) 0
    simp [Matrix.mul_apply, Fin.sum_univ_two] at this
    nlinarith
  have c11 : r.2.2 0 1 ^ 2 + r.2.2 1 1 ^ 2 = 1 := by
    have := congrFun (congrFun hVV' 1) 1
    simp [Matrix.mul_apply, Fin.sum_univ_two] at this
    nlinarith
  rw [Fin.sum_univ_two]
  by_cases hab : α = β
  · have hall : ∀ i, r.2.1 i = α := by
      intro i
      by_cases hz : r.2.2 i 0 = 0
      · have : r.2.2 i 1 ≠ 0 := by
          intro h1
          fin_cases i
          · simp at hz h1; rw [hz, h1] at o00; norm_num at o00
          · simp at hz h1; rw [hz, h1] at o11; norm_num at o11
        rw [hval i 1 this, hab]; rfl
      · exact hval i 0 hz
    rw [hall 0, hall 1]
    fin_cases i
    · simp; linear_combination α * o00
    · simp; rw [← hab]; linear_combination α * o11
  · by_cases hz : r.2.2 0 0 = 0
    · have h01 : r.2.2 0 1 ^ 2 = 1 := by rw [hz] at o00; linarith
      have h10 : r.2.2 1 0 ^ 2 = 1 := by rw [hz] at c00; linarith
      have h11 : r.2.2 1 1 ^ 2 = 0 := by linarith
      have s0 : r.2.1 0 = β := hval 0 1 (by intro h1; rw [h1] at h01; norm_num at h01)
      have s1 : r.2.1 1 = α := hval 1 0 (by intro h1; rw [h1] at h10; norm_num at h10)
      fin_cases i
      · simp [s0, s1, hz, h01]
      · simp only [Fin.mk_one]
        rw [s0, s1, h10, h11]; simp
    · have s0 : r.2.1 0 = α := hval 0 0 hz
      have h01 : r.2.2 0 1 = 0 := by
        by_contra hne
        exact hab (s0.symm.trans (hval 0 1 hne))
      have h00 : r.2.2 0 0 ^ 2 = 1 := by rw [h01] at o00; linarith
      have h11 : r.2.2 1 1 ^ 2 = 1 := by rw [h01] at c11; linarith
      have h10 : r.2.2 1 0 ^ 2 = 0 := by linarith
      have s1 : r.2.1 1 = β := hval 1 1 (by intro h1; rw [h1] at h11; norm_num at h11)
      fin_cases i
      · simp [s0, h01, h00]
      · simp only [Fin.mk_one]
        rw [s0, s1, h10, h11]; simp

/-- What `angle_subtended` computes for ellipsoids seen along an axis: the tangents are
`1 / (q √(c² - r²))` and `1 / (p √(c² - r²))`, the larger first.  They are the true ones,
`p / √(c² - r²)` and `q / √(c² - r²)`, exactly if `p q = 1`. -/
theorem C60_ellipsoids_partial (svd : SqSvd) (hs : svd.Valid) (p q r c : ℝ) (hp : 0 < p) (hq : 0 < q)
    (hr : 0 < r) (hc : r < c) :
    let w := Real.sqrt (c ^ 2 - r ^ 2)
    angleSubtended3 svd (ellipsoid p q r c) 0 true
      = .ok (some (1 / (min p q * w), 1 / (max p q * w))) ∧
    angleSubtended3 svd (ellipsoid p q r c)
      = .ok (some (Real.arctan (1 / (min p q * w)), Real.arctan (1 / (max p q * w)))) ∧
    ((1 / (min p q * w), 1 / (max p q * w)) = (max p q / w, min p q / w) ↔ p * q = 1) := by
  intro w
  have hc0 : 0 < c := hr.trans hc
  have hg : 0 < c ^ 2 - r ^ 2 := by nlinarith
  have hw : 0 < w := Real.sqrt_pos.2 hg
  have hw2 : w ^ 2 = c ^ 2 - r ^ 2 := Real.sq_sqrt hg.le
  set E := ellipsoid p q r c with hE
  -- the polar plane of the viewpoint
  have hlin : lin E = ![0, 0, -(c / r ^ 2)] := by
    rw [hE, ellipsoid, translate, lin_transform, quad_fromAxes, lin_fromAxes]
    funext i
    fin_cases i <;> simp [Matrix.mulVec, dotProduct, Fin.sum_univ_three, Matrix.diagonal_apply]
    ring
  have hquad : quad E = Matrix.diagonal ![1 / p ^ 2, 1 / q ^ 2, 1 / r ^ 2] := by
    rw [hE, ellipsoid, translate, quad_transform, quad_fromAxes]
    simp
  have hlast : E (Fin.last 3) (Fin.last 3) = c ^ 2 / r ^ 2 - 1 := by
    have h := solve_augment E (ellipsoid_symm p q r c) 0
    rw [hE, solve_ellipsoid] at h
    simp at h
    rw [← hE] at h
    change E 3 3 = _
    linarith
  have hpp : ∀ i : Fin 3, polarPlane E 0 i.castSucc = (![0, 0, -(c / r ^ 2)] : Vec 3) i := by
    intro i
    have := congrFun hlin i
    simp only [lin] at this
    simp only [polarPlane, Matrix.mulVec, dotProduct, Fin.sum_univ_castSucc (n := 3),
      augment_castSucc, augment_last, Pi.zero_apply, mul_zero, Finset.sum_const_zero, zero_add,
      mul_one]
    exact this
  have hpl : polarPlane E 0 (Fin.last 3) = c ^ 2 / r ^ 2 - 1 := by
    simp only [polarPlane, Matrix.mulVec, dotProduct, Fin.sum_univ_castSucc (n := 3),
      augment_castSucc, augment_last, Pi.zero_apply, mul_zero, Finset.sum_const_zero, zero_add,
      mul_one]
    exact hlast
  have hnorm : norm (fun i : Fin 3 => polarPlane E 0 i.castSucc) = c / r ^ 2 := by
    have : (fun i : Fin 3 => polarPlane E 0 i.castSucc) = ![0, 0, -(c / r ^ 2)] := funext hpp
    rw [this, norm3]
    simp
    rw [Real.sqrt_sq (by positivity)]
  have hne : c / r ^ 2 ≠ 0 := by positivity
  have hN : planeNormal (polarPlane E 0) = some ![0, 0, -1] := by
    rw [planeNormal, hessianNormal, hnorm, vdivOpt, if_neg hne, Option.map_some]
    congr 1
    funext i
    simp only [hpp]
    fin_cases i
    · simp
    · simp
    · simp
      field_simp
  have hO : planeOffset (polarPlane E 0) = some ![0, 0, (c ^ 2 - r ^ 2) / c] := by
    rw [planeOffset, hessianNormal, hnorm, vdivOpt, if_neg hne, Option.map_some]
    congr 1
    funext i
    simp only [hpp, hpl]
    fin_cases i
    · simp
    · simp
    · simp
      field_simp
  have hv1 : perpendicularVector 3 ![0, 0, -1] = .ok ![1, 0, 0] := by
    simp only [perpendicularVector, perpendicular3, norm_ne_zero_iff']
    have e1 : cross (![0, 0, -1] : Vec 3) ![0, 0, 1] = 0 := by
      funext i; fin_cases i <;> simp [cross]
    have e2 : cross (![0, 0, -1] : Vec 3) ![0, 1, 0] = ![1, 0, 0] := by
      funext i; fin_cases i <;> simp [cross]
    rw [e1, e2, if_neg (by simp), if_pos]
    intro h
    have := congrFun h 0
    simp at this
  have hv2 : cross (![1, 0, 0] : Vec 3) ![0, 0, -1] = ![0, 1, 0] := by
    funext i; fin_cases i <;> simp [cross]
  set pt : Vec 3 := ![0, 0, (c ^ 2 - r ^ 2) / c] with hpt
  set L : Mat 3 2 := Matrix.of fun i j => ![![1, 0, 0], ![0, 1, 0]] j i with hL
  have hslice : slice3 E (polarPlane E 0) none
      = .ok (some (transform E (affine L pt), (affine L pt).transpose, pt)) := by
    simp [slice3, hN, hO, hv1, hv2, bind, Except.bind, hL]
  set con := transform E (affine L pt) with hcon
  have hcq : quad con = Matrix.diagonal ![1 / p ^ 2, 1 / q ^ 2] := by
    rw [hcon, quad_transform, hquad]
    ext i j
    fin_cases i <;> fin_cases j <;>
      simp [Matrix.mul_apply, Fin.sum_univ_three, hL, Matrix.diagonal_apply]
  have hl : lin con = 0 := by
    rw [hcon, lin_transform, hquad, hlin]
    funext i
    fin_cases i <;>
      simp [Matrix.mulVec, dotProduct, Fin.sum_univ_three, hL, Matrix.diagonal_apply, hpt]
  have hll : con (Fin.last 2) (Fin.last 2) = r ^ 2 / c ^ 2 - 1 := by
    have h := solve_augment con (transform_symm (ellipsoid_symm p q r c) _) 0
    rw [hcon, solve_transform, affine_augment, hE, solve_ellipsoid] at h
    simp only [Matrix.mulVec_zero, zero_add, dotProduct_zero, mul_zero] at h
    rw [hcon, hE, ← h]
    simp only [hpt, Matrix.cons_val_zero, Matrix.cons_val_one, Matrix.cons_val]
    field_simp
    ring
  have hscal : -((∑ i, ∑ j, con i j) - ∑ i, ∑ j, quad con i j) = w ^ 2 / c ^ 2 := by
    rw [scalar_eq con (transform_symm (ellipsoid_symm p q r c) _), hl, hll, hw2]
    simp
    field_simp
  have hM : ∃ M, majorAxes svd con = some M ∧ norm (M 0) = w / (p * c) ∧ norm (M 1) = w / (q * c) := by
    have hnn : ∀ i, 0 ≤ (svd 2 (quad con)).2.1 i := (hs 2 (quad con)).nonneg
    have hcond : ¬ ∃ i, (svd 2 (quad con)).2.1 i
        * -((∑ i, ∑ j, con i j) - ∑ i, ∑ j, quad con i j) < 0 := by
      rintro ⟨i, hi⟩
      rw [hscal] at hi
      have := mul_nonneg (hnn i) (by positivity : 0 ≤ w ^ 2 / c ^ 2)
      linarith
    refine ⟨_, by unfold majorAxes; rw [if_neg hcond], ?_⟩
    have hrow : ∀ i : Fin 2, ∑ j, (Real.sqrt ((svd 2 (quad con)).2.1 j
        * -((∑ i, ∑ j, con i j) - ∑ i, ∑ j, quad con i j))
        * (svd 2 (quad con)).2.2 i j) ^ 2 = ![1 / p ^ 2, 1 / q ^ 2] i * (w ^ 2 / c ^ 2) := by
      intro i
      rw [← svd_diagonal2 hs (by positivity : 0 < 1 / p ^ 2) (by positivity : 0 < 1 / q ^ 2) i, ← hcq,
        Finset.sum_mul]
      refine Finset.sum_congr rfl fun j _ => ?_
      rw [hscal, mul_pow, Real.sq_sqrt (mul_nonneg (hnn j) (by positivity))]
      ring
    constructor
    · rw [norm]
      simp only [Matrix.of_apply]
      rw [hrow 0]
      simp only [Matrix.cons_val_zero]
      rw [show 1 / p ^ 2 * (w ^ 2 / c ^ 2) = (w / (p * c)) ^ 2 by field_simp, Real.sqrt_sq (by positivity)]
    · rw [norm]
      simp only [Matrix.of_apply]
      rw [hrow 1]
      simp only [Matrix.cons_val_one, Matrix.cons_val_zero]
      rw [show 1 / q ^ 2 * (w ^ 2 / c ^ 2) = (w / (q * c)) ^ 2 by field_simp, Real.sqrt_sq (by positivity)]
  obtain ⟨M, hM, hn0, hn1⟩ := hM
  have hB : norm pt = w ^ 2 / c := by
    rw [norm3, hpt, hw2]
    simp
    rw [Real.sqrt_sq (by positivity)]
  have hB0 : w ^ 2 / c ≠ 0 := by positivity
  have hmax : max (w / (p * c)) (w / (q * c)) = w / (min p q * c) := by
    rcases le_total p q with h | h
    · rw [min_eq_left h, max_eq_left]
      exact div_le_div_of_nonneg_left hw.le (by positivity) (by nlinarith)
    · rw [min_eq_right h, max_eq_right]
      exact div_le_div_of_nonneg_left hw.le (by positivity) (by nlinarith)
  have hmin : min (w / (p * c)) (w / (q * c)) = w / (max p q * c) := by
    rcases le_total p q with h | h
    · rw [max_eq_right h, min_eq_right]
      exact div_le_div_of_nonneg_left hw.le (by positivity) (by nlinarith)
    · rw [max_eq_left h, min_eq_left]
      exact div_le_div_of_nonneg_left hw.le (by positivity) (by nlinarith)
  have hmp : 0 < min p q := lt_min hp hq
  have hxp : 0 < max p q := lt_max_of_lt_left hp
  have t1 : w / (min p q * c) / (w ^ 2 / c) = 1 / (min p q * w) := by field_simp
  have t2 : w / (max p q * c) / (w ^ 2 / c) = 1 / (max p q * w) := by field_simp
  refine ⟨?_, ?_, ?_⟩
  · simp only [angleSubtended3, projection3, hslice, bind, Except.bind, hM, hn0, hn1, hB]
    rw [if_pos trivial, if_neg hB0, hmax, hmin, t1, t2]
  · simp only [angleSubtended3, projection3, hslice, bind, Except.bind, hM, hn0, hn1, hB]
    rw [hmax, hmin, arctan2_of_pos _ (by positivity), arctan2_of_pos _ (by positivity), t1, t2]
    simp
  · rw [Prod.mk.injEq, ← min_mul_max p q]
    constructor
    · rintro ⟨h1, -⟩
      field_simp at h1
      linarith
    · intro h
      constructor
      · field_simp; linarith
      · field_simp; linarith

/-- An ellipsoid with semiaxes 3, 2, 4 seen from a distance of 5: the tangents are 1/6 and 1/9
instead of 1 and 2/3. -/
example : ∃ svd : SqSvd, svd.Valid ∧
    angleSubtended3 svd (ellipsoid 3 2 4 5) 0 true = .ok (some (1 / 6, 1 / 9)) := by
  obtain ⟨svd, hs⟩ := exists_valid_sqSvd
  refine ⟨svd, hs, ?_⟩
  rw [(C60_ellipsoids_partial svd hs 3 2 4 5 (by norm_num) (by norm_num) (by norm_num)
    (by norm_num)).1, show Real.sqrt ((5 : ℝ) ^ 2 - 4 ^ 2) = 3 by
      rw [show (5 : ℝ) ^ 2 - 4 ^ 2 = 3 ^ 2 by norm_num]; exact Real.sqrt_sq (by norm_num)]
  norm_num

end

/-! ## C73 -/

/-- `error_bounds` are symmetric about the nominal value, as far from it as the width. -/
theorem C73_error_bounds {n : ℕ} (nominal width : Vec n) (i : Fin n) :
    nominal i - (ErrorAxes.errorBounds nominal width).1 i = width i ∧
    (ErrorAxes.errorBounds nominal width).2 i - nominal i = width i ∧
    (0 ≤ width i → (ErrorAxes.errorBounds nominal width).1 i ≤ nominal i ∧
      nominal i ≤ (ErrorAxes.errorBounds nominal width).2 i) := by
  simp only [ErrorAxes.errorBounds]
  refine ⟨by ring, by ring, fun h => ⟨by linarith, by linarith⟩⟩

/-! ## C167 -/

section
open Pca

/-- `_strike_dip`, `azimuth` and `slope` (radians): the third axis is the normal of the plane
with that strike and dip, the azimuth is its azimuth (90 degrees from the strike), and the
slope its angle with the vertical. -/
theorem C167_raw (svd : SvdFn) (hs : svd.Valid) {n : ℕ} (a : Fin n → Vec 3)
    (f : Fit n) (hf : init svd a none none = .ok (some f)) :
    ∃ s d, strikeDipRaw (f.V 2) = some (s, d) ∧ azimuth f = s + Real.pi / 2 ∧ Pca.slope f = some d ∧
      f.V 2 = ![Real.sin (azimuth f) * Real.sin d, Real.cos (azimuth f) * Real.sin d, Real.cos d] ∧
      0 ≤ d ∧ d ≤ Real.pi := by
  obtain ⟨U, h⟩ := init_default hs hf
  have hV := h.svd.row_norm 2
  have hne := fit_axis_ne_zero h 2
  have raw := sdNormal_raw hne
  rw [hV, one_smul, div_one] at raw
  refine ⟨arctan2 (f.V 2 0) (f.V 2 1) - Real.pi / 2, Real.arccos (f.V 2 2), ?_, ?_, ?_, ?_,
    Real.arccos_nonneg _, Real.arccos_le_pi _⟩
  · simp [strikeDipRaw, fdiv, hV]
  · simp [azimuth]
  · simp [Pca.slope, fdiv, hV]
  · rw [azimuth]
    conv_lhs => rw [← raw]
    simp only [sdNormal, radians_sub, radians_degrees, radians_90, Real.cos_sub_pi_div_two,
      Real.sin_sub_pi_div_two]
    funext i
    fin_cases i
    · simp; ring
    · simp; ring
    · simp

example : ∃ (svd : SvdFn) (f : Fit 4) (s d : ℝ), svd.Valid ∧
    init svd Witness.tilted none none = .ok (some f) ∧ strikeDipRaw (f.V 2) = some (s, d) := by
  obtain ⟨svd, f, hs, hf, _⟩ := Witness.exists_tilted
  obtain ⟨s, d, h, _⟩ := C167_raw svd hs _ f hf
  exact ⟨svd, f, s, d, hs, hf, h⟩

/-- So for axes that do not point down these are dip direction and dip as in `strike_dip`
(up to full turns and the unit) ... -/
theorem C167_dip_partial (svd : SvdFn) (hs : svd.Valid) {n : ℕ} (a : Fin n → Vec 3)
    (f : Fit n) (hf : init svd a none none = .ok (some f)) (hup : 0 ≤ f.V 2 2) :
    ∃ s d r, strikeDip f = some (s, d) ∧ Pca.slope f = some r ∧ degrees r = d ∧
      (degrees (azimuth f) = s + 90 ∨ degrees (azimuth f) = s + 90 - 360) := by
  obtain ⟨U, h⟩ := init_default hs hf
  have hV := h.svd.row_norm 2
  have hne := fit_axis_ne_zero h 2
  have hnd : ¬ degrees (Real.arccos (f.V 2 2 / norm (f.V 2))) > 90 :=
    fun hc => absurd ((dip_gt_90_iff hne).1 hc) (not_lt.2 hup)
  rw [hV, div_one] at hnd
  have hsd : strikeDip f = some (if degrees (arctan2 (f.V 2 0) (f.V 2 1)) - 90 < 0
      then degrees (arctan2 (f.V 2 0) (f.V 2 1)) - 90 + 360
      else degrees (arctan2 (f.V 2 0) (f.V 2 1)) - 90, degrees (Real.arccos (f.V 2 2))) := by
    simp only [strikeDip, strikeDipOf, fdiv, hV, one_ne_zero, if_false, Option.bind_eq_bind, Option.bind_some,
      div_one, if_neg hnd]
  refine ⟨_, _, Real.arccos (f.V 2 2), hsd, by simp [Pca.slope, fdiv, hV], rfl, ?_⟩
  simp only [azimuth]
  split_ifs
  · right; ring
  · left; ring

example : ∃ (svd : SvdFn) (f : Fit 4), svd.Valid ∧ init svd Witness.tilted none none = .ok (some f) ∧
    0 ≤ f.V 2 2 := by
  obtain ⟨svd, f, hs, hf, hV, _⟩ := Witness.exists_tilted
  exact ⟨svd, f, hs, hf, by rw [hV]; simp [Witness.tilt]; norm_num⟩

/-- ... but for axes that point down the slope is more than 90 degrees, which no plane has,
and the azimuth is opposite to the dip direction. -/
theorem C167_down_false (svd : SvdFn) (hs : svd.Valid) {n : ℕ} (a : Fin n → Vec 3)
    (f : Fit n) (hf : init svd a none none = .ok (some f)) (hdn : f.V 2 2 < 0) :
    ∃ s d r, strikeDip f = some (s, d) ∧ Pca.slope f = some r ∧ 90 < degrees r ∧ degrees r = 180 - d ∧
      (degrees (azimuth f) = s + 90 - 180 ∨ degrees (azimuth f) = s + 90 - 180 - 360) := by
  obtain ⟨U, h⟩ := init_default hs hf
  have hV := h.svd.row_norm 2
  have hne := fit_axis_ne_zero h 2
  have hd : degrees (Real.arccos (f.V 2 2 / norm (f.V 2))) > 90 := (dip_gt_90_iff hne).2 hdn
  rw [hV, div_one] at hd
  have hsd : strikeDip f = some (if degrees (arctan2 (f.V 2 0) (f.V 2 1)) - 90 + 180 < 0
      then degrees (arctan2 (f.V 2 0) (f.V 2 1)) - 90 + 180 + 360
      else degrees (arctan2 (f.V 2 0) (f.V 2 1)) - 90 + 180, 180 - degrees (Real.arccos (f.V 2 2))) := by
    simp only [strikeDip, strikeDipOf, fdiv, hV, one_ne_zero, if_false, Option.bind_eq_bind, Option.bind_some,
      div_one, if_pos hd]
  refine ⟨_, _, Real.arccos (f.V 2 2), hsd, by simp [Pca.slope, fdiv, hV], hd, by ring, ?_⟩
  simp only [azimuth]
  split_ifs
  · right; ring
  · left; ring

/-- Fits exist; both signs of the third axis meet the contract of the SVD. -/
example (svd : SvdFn) : ∃ f : Fit 3, init svd (fun i => ![(i : ℝ), 0, 0]) none none = .ok (some f) :=
  init_default_exists svd (le_refl 3) _

end

end Attitude.Props
