import Verif.Model.Inherited

/-! # Inherited methods of orientations: C284 -/

namespace Attitude.Props

open Attitude Inherited

namespace Spec

/-- What `BaseOrientation` offers to the classes that inherit from it. -/
def baseApi : List Attr :=
  [.disabled, .dipDirection, .dipDirectionErrors, .gradient, .errors, .rotatedCovariance,
    .standardErrors, .errorEllipse, .principalAxes, .hash, .center, .centeredArray, .toMapping]

end Spec

lemma uses_nil (c : Cls) (k : ℕ) : uses c k [] = .ok () := by
  cases k <;> simp [uses]

lemma uses_cons (c : Cls) (k : ℕ) (a : Attr) (as : List Attr) : uses c (k + 1) (a :: as)
    = match find c a with
      | none => .error (.attributeError a)
      | some reads =>
        match uses c k reads with
        | .error e => .error e
        | .ok () => uses c (k + 1) as := by
  rw [uses]
  rfl

/-- A deeper limit changes only the error of the limit itself. -/
lemma uses_mono (c : Cls) : ∀ (k : ℕ) (as : List Attr), uses c k as ≠ .error .recursionError →
    uses c (k + 1) as = uses c k as
  | k, [] => by intro _; rw [uses_nil, uses_nil]
  | 0, a :: as => by intro h; exact absurd (by rw [uses]) h
  | k + 1, a :: as => by
    intro h
    rw [uses_cons] at h ⊢
    rw [uses_cons]
    cases hf : find c a with
    | none => rfl
    | some reads =>
      rw [hf] at h
      simp only at h ⊢
      cases hu : uses c k reads with
      | error e =>
        rw [hu] at h
        have hr := uses_mono c k reads (by rw [hu]; intro q; cases q; exact h rfl)
        rw [hr, hu]
      | ok u =>
        cases u
        rw [hu] at h
        have hr := uses_mono c k reads (by rw [hu]; intro q; cases q)
        rw [hr, hu]
        exact uses_mono c (k + 1) as h
termination_by k as => (k, as.length)

lemma use_limit {c : Cls} {a : Attr} {r : Except Failure Unit} {k : ℕ} (h : use c k a = r)
    (hr : r ≠ .error .recursionError) (n : ℕ) (hn : k ≤ n) : use c n a = r := by
  induction n, hn using Nat.le_induction with
  | base => exact h
  | succ m _ ih =>
    rw [use, uses_mono c m [a] (by rw [show uses c m [a] = r from ih]; exact hr)]
    exact ih

/-- All of it can be used with principal component fits. -/
theorem C284_pca (limit : ℕ) (hl : 10 ≤ limit) (a : Attr) (ha : a ∈ Spec.baseApi) :
    use .pca limit a = .ok () := by
  refine use_limit (k := 10) ?_ (by simp) limit hl
  simp only [Spec.baseApi, List.mem_cons, List.not_mem_nil, or_false] at ha
  rcases ha with rfl | rfl | rfl | rfl | rfl | rfl | rfl | rfl | rfl | rfl | rfl | rfl | rfl <;>
    simp [use, uses, find, instanceAttrs, mro, body]

/-- Linear orientations have neither principal axes nor a hash nor a mapping: for these the use is
an `AttributeError`, and all the others can be used. -/
theorem C284_linear_false (limit : ℕ) (hl : 10 ≤ limit) (a : Attr) (ha : a ∈ Spec.baseApi) :
    (use .linear limit a = .ok () ↔ a ∉ [Attr.principalAxes, .hash, .toMapping]) ∧
    (a ∈ [Attr.principalAxes, .hash] →
      use .linear limit a = .error (.attributeError .singularValues)) ∧
    use .linear limit .toMapping = .error (.attributeError .strikeDipRake) := by
  have hm : use .linear limit .toMapping = .error (.attributeError .strikeDipRake) :=
    use_limit (k := 10) (by simp [use, uses, find, instanceAttrs, mro, body]) (by simp) limit hl
  have hp : ∀ a ∈ [Attr.principalAxes, .hash],
      use .linear limit a = .error (.attributeError .singularValues) := by
    intro a ha
    refine use_limit (k := 10) ?_ (by simp) limit hl
    simp only [List.mem_cons, List.not_mem_nil, or_false] at ha
    rcases ha with rfl | rfl <;> simp [use, uses, find, instanceAttrs, mro, body]
  refine ⟨⟨?_, ?_⟩, hp a, hm⟩
  · intro h hmem
    simp only [List.mem_cons, List.not_mem_nil, or_false] at hmem
    rcases hmem with rfl | rfl | rfl
    · rw [hp _ (by simp)] at h; cases h
    · rw [hp _ (by simp)] at h; cases h
    · rw [hm] at h; cases h
  · intro hmem
    refine use_limit (k := 10) ?_ (by simp) limit hl
    simp only [Spec.baseApi, List.mem_cons, List.not_mem_nil, or_false] at ha
    rcases ha with rfl | rfl | rfl | rfl | rfl | rfl | rfl | rfl | rfl | rfl | rfl | rfl | rfl <;>
      first
      | (simp [use, uses, find, instanceAttrs, mro, body]; done)
      | simp at hmem

/-- Of reconstructed planes only the flag, the hash, the centers (which are `None`) and the mapping
can be used; dip direction, gradient, standard errors, the error ellipse and principal axes are an
`AttributeError`, for the names given here. -/
theorem C284_reconstructed_false (limit : ℕ) (hl : 10 ≤ limit) (a : Attr) (ha : a ∈ Spec.baseApi) :
    (use .recon limit a = .ok () ↔
      a ∈ [Attr.disabled, .hash, .center, .centeredArray, .toMapping]) ∧
    (a ∈ [Attr.dipDirection, .dipDirectionErrors] →
      use .recon limit a = .error (.attributeError .strikeDip)) ∧
    (a ∈ [Attr.gradient, .errors, .rotatedCovariance, .standardErrors] →
      use .recon limit a = .error (.attributeError .azimuth)) ∧
    (a = .errorEllipse → use .recon limit a = .error (.attributeError .coefficients)) ∧
    (a = .principalAxes → use .recon limit a = .error (.attributeError .singularValues)) := by
  have ev : ∀ r, use .recon 10 a = r → r ≠ .error .recursionError → use .recon limit a = r :=
    fun r h hr => use_limit h hr limit hl
  simp only [Spec.baseApi, List.mem_cons, List.not_mem_nil, or_false] at ha
  rcases ha with rfl | rfl | rfl | rfl | rfl | rfl | rfl | rfl | rfl | rfl | rfl | rfl | rfl
  · rw [ev (.ok ()) (by simp [use, uses, find, instanceAttrs, mro, body]) (by simp)]
    simp
  · rw [ev (.error (.attributeError .strikeDip)) (by simp [use, uses, find, instanceAttrs, mro, body]) (by simp)]
    simp
  · rw [ev (.error (.attributeError .strikeDip)) (by simp [use, uses, find, instanceAttrs, mro, body]) (by simp)]
    simp
  · rw [ev (.error (.attributeError .azimuth)) (by simp [use, uses, find, instanceAttrs, mro, body]) (by simp)]
    simp
  · rw [ev (.error (.attributeError .azimuth)) (by simp [use, uses, find, instanceAttrs, mro, body]) (by simp)]
    simp
  · rw [ev (.error (.attributeError .azimuth)) (by simp [use, uses, find, instanceAttrs, mro, body]) (by simp)]
    simp
  · rw [ev (.error (.attributeError .azimuth)) (by simp [use, uses, find, instanceAttrs, mro, body]) (by simp)]
    simp
  · rw [ev (.error (.attributeError .coefficients)) (by simp [use, uses, find, instanceAttrs, mro, body]) (by simp)]
    simp
  · rw [ev (.error (.attributeError .singularValues)) (by simp [use, uses, find, instanceAttrs, mro, body]) (by simp)]
    simp
  · rw [ev (.ok ()) (by simp [use, uses, find, instanceAttrs, mro, body]) (by simp)]
    simp
  · rw [ev (.ok ()) (by simp [use, uses, find, instanceAttrs, mro, body]) (by simp)]
    simp
  · rw [ev (.ok ()) (by simp [use, uses, find, instanceAttrs, mro, body]) (by simp)]
    simp
  · rw [ev (.ok ()) (by simp [use, uses, find, instanceAttrs, mro, body]) (by simp)]
    simp

/-- The limit of Python is 1000. -/
example : use .pca 1000 .toMapping = .ok () ∧
    use .recon 1000 .gradient = .error (.attributeError .azimuth) :=
  ⟨C284_pca 1000 (by norm_num) _ (by simp [Spec.baseApi]),
    (C284_reconstructed_false 1000 (by norm_num) .gradient (by simp [Spec.baseApi])).2.2.1 (by simp)⟩

end Attitude.Props
