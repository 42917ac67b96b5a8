import Verif.Lemmas.Svd

/-! Helper facts about `PCAOrientation.__init__`. -/

namespace Attitude.Pca

open Attitude Matrix

/-- What a successful default fit contains. -/
structure IsFit {n : ℕ} (a : Fin n → Vec 3) (f : Fit n) (U : Mat n 3) : Prop where
  size : 3 ≤ n
  hU : f.U = some U
  svd : IsSVD (Matrix.of (Coordinates.centered a)) U f.s f.V
  array : f.array = a
  mean : f.mean = some (meanRows a)
  arr : f.arr = Coordinates.centered a
  weights : f.weights = ![1, 1, 1]
  normal : f.normal = upward (f.V 2)
  view : f.normalIsView = decide (¬ f.V 2 2 < 0)
  strikeVec : f.strikeVec = cross f.normal vertical
  dipDr : f.dipDr = normalize (cross f.strikeVec f.normal)

lemma init_default {svd : SvdFn} (hs : svd.Valid) {n : ℕ} {a : Fin n → Vec 3} {f : Fit n}
    (h : init svd a none none = .ok (some f)) : ∃ U, IsFit a f U := by
  by_cases hn : n < 3
  · simp [init, runSvd, hn, bind, Except.bind] at h
  · have h3 : 3 ≤ n := not_lt.1 hn
    have h0 : n ≠ 0 := by omega
    simp [init, runSvd, hn, bind, Except.bind] at h
    subst h
    refine ⟨_, ⟨h3, rfl, ?_, rfl, by simp [derive, h0], rfl, rfl, rfl, rfl, rfl, rfl⟩⟩
    simp only [derive]
    have hv := hs n (Matrix.of fun i j => Coordinates.centered a i j / ![1, 1, 1] j) h3
    have e : (Matrix.of fun i j => Coordinates.centered a i j / ![1, 1, 1] j)
        = Matrix.of (Coordinates.centered a) := by
      ext i j; fin_cases j <;> simp
    have e2 : ∀ x : Vec 3, (fun j => x j * ![1, 1, 1] j) = x := by
      intro x; funext j; fin_cases j <;> simp
    rw [e2]
    rw [e] at hv ⊢
    exact hv

lemma init_default_exists (svd : SvdFn) {n : ℕ} (hn : 3 ≤ n) (a : Fin n → Vec 3) :
    ∃ f, init svd a none none = .ok (some f) := by
  simp [init, runSvd, not_lt.2 hn, bind, Except.bind]

lemma upward_eq (n : Vec 3) : upward n = n ∨ upward n = -n := by
  unfold upward; split_ifs <;> simp

lemma upward_nonneg (n : Vec 3) : 0 ≤ upward n 2 := by
  unfold upward; split_ifs with h
  · simp; linarith
  · exact not_lt.1 h

lemma norm_neg' {n : ℕ} (v : Vec n) : norm (-v) = norm v := by simp [norm]

lemma norm_upward (n : Vec 3) : norm (upward n) = norm n := by
  rcases upward_eq n with h | h <;> rw [h]
  exact norm_neg' n

end Attitude.Pca
