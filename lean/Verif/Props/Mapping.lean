import Verif.Model.Mapping

/-! # Serialisation: C46 -/

namespace Attitude.Props

open Attitude Mapping

namespace Spec

/-- The keys documented in the docstring of `to_mapping` (pca.py L480-508) for all
planes; `name` and `color` are supplied by the caller, `member_of` only exists for
members. -/
def documentedKeys : List String :=
  ["uid", "disabled", "strike", "dip", "rake", "max_angular_error", "min_angular_error", "axes",
    "hyperbolic_axes"]

/-- Further documented keys of a plane that was fitted to data. -/
def inputKeys : List String := ["center", "centered_array"]

/-- The object was fitted to data. -/
def IsFitted : Kind → Prop
  | .reconstructed _ => False
  | _ => True

/-- The value that belongs to a key, if the caller says nothing. -/
def expected {V : Type} (c : Computed V) (o : Kind) : String → Option V
  | "uid" => some c.uid
  | "axes" => some c.axes
  | "hyperbolic_axes" => some c.hyperbolicAxes
  | "max_angular_error" => some c.maxAngularError
  | "min_angular_error" => some c.minAngularError
  | "strike" => some c.strike
  | "dip" => some c.dip
  | "rake" => some c.rake
  | "disabled" => some c.disabled
  | "center" => match o with
    | .reconstructed _ => none
    | _ => some c.center
  | "centered_array" => match o with
    | .reconstructed _ => none
    | .pca _ => some c.centeredArray
    | .group _ _ => some c.none
  | "member_of" => match o with
    | .pca (some (some u)) => some (c.str u)
    | .group (some (some u)) _ => some (c.str u)
    | _ => none
  | "members" => match o with
    | .group _ us => some (c.strs us)
    | _ => none
  | _ => none

/-- The object is a member of a group. -/
def IsMember : Kind → Prop
  | .pca (some _) => True
  | .group (some _) _ => True
  | _ => False

/-- The object is a group. -/
def IsGroupKind : Kind → Prop
  | .group _ _ => True
  | _ => False

/-- The object can be serialised: it has two angular errors, and the hash of its
group, if any, can be computed. -/
def Serialisable : Kind → Prop
  | .reconstructed k => k = 2
  | .pca m => m ≠ some none
  | .group m _ => m ≠ some none

end Spec

open Spec

/-- Keys whose value the methods write themselves, whatever the caller passes. -/
def forcedKey (o : Kind) (k : String) : Prop :=
  (k = "member_of" ∧ IsMember o) ∨ (k = "members" ∧ IsGroupKind o)

lemma base_expected {V : Type} (c : Computed V) (n : ℕ) (k : String) :
    put (put (put (put (put (put (put (put (put (fun _ => Option.none)
      "uid" c.uid) "axes" c.axes) "hyperbolic_axes" c.hyperbolicAxes)
      "max_angular_error" c.maxAngularError) "min_angular_error" c.minAngularError)
      "strike" c.strike) "dip" c.dip) "rake" c.rake) "disabled" c.disabled k
      = expected c (.reconstructed n) k := by
  unfold expected
  split <;> simp_all [put]

/-- The computed values of the other kinds extend those of a reconstructed plane. -/
lemma expected_other {V : Type} (c : Computed V) (o : Kind) (n : ℕ) {k : String}
    (h1 : k ≠ "center") (h2 : k ≠ "centered_array") (h3 : k ≠ "member_of") (h4 : k ≠ "members") :
    expected c o k = expected c (.reconstructed n) k := by
  unfold expected
  split <;> simp_all

lemma toMapping_reconstructed {V : Type} (c : Computed V) (values : Dict V)
    (hv : values "self" = none) :
    toMapping c (.reconstructed 2) values
      = .ok fun k => (values k).orElse fun _ => expected c (.reconstructed 2) k := by
  simp only [toMapping, hv, Option.isSome_none, Bool.false_eq_true, if_false, baseMapping, if_true,
    base_expected c 2]

/-- The values after `setdefault`, completed by the computed ones. -/
lemma default_expected {V : Type} (c : Computed V) (values : Dict V) (o : Kind) {k : String}
    (hk : k ≠ "member_of") (hk' : k ≠ "members") {ca : V}
    (ho : expected c o "center" = some c.center) (ho' : expected c o "centered_array" = some ca) :
    ((setDefault (setDefault values "centered_array" ca) "center" c.center k).orElse
        fun _ => expected c (.reconstructed 2) k)
      = (values k).orElse fun _ => expected c o k := by
  by_cases h1 : k = "center"
  · subst h1
    rw [ho]
    simp only [setDefault]
    cases values "center" <;> simp
  by_cases h2 : k = "centered_array"
  · subst h2
    rw [ho']
    simp only [setDefault]
    cases values "centered_array" <;> simp
  · rw [expected_other c o 2 h1 h2 hk hk']
    simp [setDefault, h1, h2]

/-- The result, key by key. -/
lemma toMapping_spec {V : Type} (c : Computed V) (o : Kind) (values : Dict V) (hs : Serialisable o)
    (hv : values "self" = none) :
    ∃ m, toMapping c o values = .ok m ∧
      (∀ k, forcedKey o k → m k = expected c o k) ∧
      (∀ k, ¬ forcedKey o k → m k = (values k).orElse fun _ => expected c o k) := by
  cases o with
  | reconstructed n =>
    obtain rfl : n = 2 := hs
    refine ⟨_, toMapping_reconstructed c values hv, ?_, fun k _ => rfl⟩
    rintro k (⟨_, h⟩ | ⟨_, h⟩) <;> exact absurd h (by simp [IsMember, IsGroupKind])
  | pca mo =>
    simp only [toMapping, hv, Option.isSome_none, Bool.false_eq_true, if_false, pcaMapping,
      baseMapping, if_true, base_expected c 2]
    rcases mo with _ | _ | u
    · refine ⟨_, rfl, ?_, fun k _ => ?_⟩
      · rintro k (⟨_, h⟩ | ⟨_, h⟩) <;> exact absurd h (by simp [IsMember, IsGroupKind])
      · by_cases h3 : k = "member_of"
        · subst h3; simp [setDefault, expected]
        by_cases h4 : k = "members"
        · subst h4; simp [setDefault, expected]
        · exact default_expected c values (.pca none) h3 h4 rfl rfl
    · exact absurd rfl hs
    · refine ⟨_, rfl, ?_, fun k hk => ?_⟩
      · rintro k (⟨rfl, h⟩ | ⟨_, h⟩)
        · simp [put, expected]
        · exact absurd h (by simp [IsGroupKind])
      · by_cases h3 : k = "member_of"
        · exact absurd (Or.inl ⟨h3, trivial⟩) hk
        by_cases h4 : k = "members"
        · subst h4; simp [put, setDefault, expected]
        · simp only [put, h3, if_false]
          exact default_expected c values (.pca (some (some u))) h3 h4 rfl rfl
  | group mo us =>
    have hset : ∀ d : Dict V, ∀ k, k ≠ "members" →
        setDefault (setDefault (put (setDefault d "centered_array" c.none) "members" (c.strs us))
          "centered_array" c.centeredArray) "center" c.center k
        = setDefault (setDefault d "centered_array" c.none) "center" c.center k := by
      intro d k hk
      simp only [setDefault, put, hk, if_false]
      split_ifs <;> simp_all
    have hmem : ∀ d : Dict V,
        setDefault (setDefault (put (setDefault d "centered_array" c.none) "members" (c.strs us))
          "centered_array" c.centeredArray) "center" c.center "members" = some (c.strs us) := by
      intro d
      simp [setDefault, put]
    simp only [toMapping, hv, Option.isSome_none, Bool.false_eq_true, if_false, pcaMapping,
      baseMapping, if_true, base_expected c 2]
    rcases mo with _ | _ | u
    · refine ⟨_, rfl, ?_, fun k hk => ?_⟩
      · rintro k (⟨_, h⟩ | ⟨rfl, h⟩)
        · exact absurd h (by simp [IsMember])
        · simp only [hmem]; simp [expected]
      · by_cases h4 : k = "members"
        · exact absurd (Or.inr ⟨h4, trivial⟩) hk
        simp only [hset values k h4]
        by_cases h3 : k = "member_of"
        · subst h3; simp [setDefault, expected]
        · exact default_expected c values (.group none us) h3 h4 rfl rfl
    · exact absurd rfl hs
    · refine ⟨_, rfl, ?_, fun k hk => ?_⟩
      · rintro k (⟨rfl, h⟩ | ⟨rfl, h⟩)
        · simp [put, expected]
        · rw [put, if_neg (by decide), hmem values]
          simp [expected]
      · by_cases h3 : k = "member_of"
        · exact absurd (Or.inl ⟨h3, trivial⟩) hk
        by_cases h4 : k = "members"
        · exact absurd (Or.inr ⟨h4, trivial⟩) hk
        · have h5 := hset values k h4
          rw [put, if_neg h3, h5]
          exact default_expected c values (.group (some (some u)) us) h3 h4 rfl rfl

lemma not_forced {o : Kind} {k : String} (h1 : k ≠ "member_of") (h2 : k ≠ "members") :
    ¬ forcedKey o k := by
  rintro (⟨h, _⟩ | ⟨h, _⟩)
  · exact h1 h
  · exact h2 h

/-- C46, keys: serialising succeeds for every object with two angular errors and a
computable group hash, and the result has all documented keys, whatever the caller
passes; `member_of` and `members` are there for members and groups. -/
theorem C46_documented_keys {V : Type} (c : Computed V) (o : Kind) (values : Dict V)
    (hs : Serialisable o) (hv : values "self" = none) :
    ∃ m, toMapping c o values = .ok m ∧
      (∀ k ∈ documentedKeys, (m k).isSome) ∧
      (IsFitted o → ∀ k ∈ inputKeys, (m k).isSome) ∧
      (IsMember o → (m "member_of").isSome) ∧ (IsGroupKind o → (m "members").isSome) := by
  obtain ⟨m, h1, h2, h3⟩ := toMapping_spec c o values hs hv
  refine ⟨m, h1, ?_, ?_, ?_, ?_⟩
  · intro k hk
    have hne : k ≠ "member_of" ∧ k ≠ "members" ∧ (expected c o k).isSome := by
      simp only [documentedKeys, List.mem_cons, List.not_mem_nil, or_false] at hk
      rcases hk with rfl | rfl | rfl | rfl | rfl | rfl | rfl | rfl | rfl <;>
        exact ⟨by decide, by decide, rfl⟩
    rw [h3 k (not_forced hne.1 hne.2.1)]
    obtain ⟨v, hv'⟩ := Option.isSome_iff_exists.1 hne.2.2
    rw [hv']
    cases values k <;> simp
  · intro hf k hk
    have hne : k ≠ "member_of" ∧ k ≠ "members" ∧ (expected c o k).isSome := by
      simp only [inputKeys, List.mem_cons, List.not_mem_nil, or_false] at hk
      cases o with
      | reconstructed n => exact absurd hf (by simp [IsFitted])
      | pca mo => rcases hk with rfl | rfl <;> exact ⟨by decide, by decide, rfl⟩
      | group mo us => rcases hk with rfl | rfl <;> exact ⟨by decide, by decide, rfl⟩
    rw [h3 k (not_forced hne.1 hne.2.1)]
    obtain ⟨v, hv'⟩ := Option.isSome_iff_exists.1 hne.2.2
    rw [hv']
    cases values k <;> simp
  · intro hm
    rw [h2 _ (Or.inl ⟨rfl, hm⟩)]
    cases o with
    | reconstructed n => exact absurd hm (by simp [IsMember])
    | pca mo =>
      rcases mo with _ | _ | u
      · exact absurd hm (by simp [IsMember])
      · exact absurd rfl hs
      · rfl
    | group mo us =>
      rcases mo with _ | _ | u
      · exact absurd hm (by simp [IsMember])
      · exact absurd rfl hs
      · rfl
  · intro hg
    rw [h2 _ (Or.inr ⟨rfl, hg⟩)]
    cases o with
    | reconstructed n => exact absurd hg (by simp [IsGroupKind])
    | pca mo => exact absurd hg (by simp [IsGroupKind])
    | group mo us => rfl

/-- C46, overriding, as far as it holds: every key that the caller passes keeps the
caller's value, except `member_of` for members of groups and `members` for groups;
every key that is not passed has the computed value (in particular no other keys
appear).  What is missing are the two exceptions, for which the claim is false. -/
theorem C46_caller_overrides_partial {V : Type} (c : Computed V) (o : Kind) (values : Dict V)
    (hs : Serialisable o) (hv : values "self" = none) :
    ∃ m, toMapping c o values = .ok m ∧
      (∀ k v, values k = some v → (k = "member_of" → ¬ IsMember o) →
        (k = "members" → ¬ IsGroupKind o) → m k = some v) ∧
      (∀ k, values k = none → m k = expected c o k) := by
  obtain ⟨m, h1, h2, h3⟩ := toMapping_spec c o values hs hv
  refine ⟨m, h1, ?_, ?_⟩
  · intro k v hk ha hb
    have hnf : ¬ forcedKey o k := by
      rintro (⟨h, h'⟩ | ⟨h, h'⟩)
      · exact ha h h'
      · exact hb h h'
    rw [h3 k hnf, hk]
    rfl
  · intro k hk
    by_cases hf : forcedKey o k
    · exact h2 k hf
    · rw [h3 k hf, hk]
      rfl

/-- Hypotheses met: a member of a group, with a caller who sets the name. -/
example : Serialisable (.pca (some (some "g"))) ∧
    (fun k => if k = "name" then some 1 else none : Dict ℕ) "self" = none := by
  refine ⟨by simp [Serialisable], by decide⟩

/-- C46, errors: an object that cannot be serialised raises. -/
theorem C46_unserialisable_raises {V : Type} (c : Computed V) (values : Dict V)
    (hv : values "self" = none) :
    (∀ n, n ≠ 2 → toMapping c (.reconstructed n) values = .error .valueError) ∧
    toMapping c (.pca (some none)) values = .error .attributeError ∧
    ∀ us, toMapping c (.group (some none) us) values = .error .attributeError := by
  refine ⟨fun n hn => ?_, ?_, fun us => ?_⟩
  · simp [toMapping, hv, baseMapping, hn]
  · simp [toMapping, hv, pcaMapping]
  · simp [toMapping, hv, pcaMapping]

example {V : Type} (c : Computed V) : toMapping c (.reconstructed 3) (fun _ => none) = .error .valueError :=
  (C46_unserialisable_raises c _ rfl).1 3 (by norm_num)

/-- The claim of C46 about the caller's values. -/
def Spec.CallerAlwaysOverrides : Prop :=
  ∀ (V : Type) (c : Computed V) (o : Kind) (values m : Dict V),
    toMapping c o values = .ok m → ∀ k v, values k = some v → m k = some v

/-- Values for the counterexamples: JSON values are strings. -/
def stringComputed : Computed String where
  uid := "u"
  axes := "[]"
  hyperbolicAxes := "[]"
  maxAngularError := "0"
  minAngularError := "0"
  strike := "0"
  dip := "0"
  rake := "0"
  disabled := "false"
  centeredArray := "[]"
  center := "[]"
  none := "null"
  str := id
  strs := fun _ => "[members]"

/-- C46 is false for `member_of` of a member and for `members` of a group: the
caller's value is overwritten. -/
theorem C46_caller_always_overrides_false : ¬ CallerAlwaysOverrides ∧
    (∃ m, toMapping stringComputed (.group none ["a"])
        (fun k => if k = "members" then some "mine" else none) = .ok m ∧
      m "members" ≠ some "mine") := by
  constructor
  · intro hc
    obtain ⟨m, h1, h2, -⟩ := toMapping_spec stringComputed (.pca (some (some "g")))
      (fun k => if k = "member_of" then some "mine" else none) (by simp [Serialisable]) (by decide)
    have h3 := hc _ _ _ _ m h1 "member_of" "mine" (by decide)
    rw [h2 "member_of" (Or.inl ⟨rfl, trivial⟩)] at h3
    exact absurd h3 (by decide)
  · obtain ⟨m, h1, h2, -⟩ := toMapping_spec stringComputed (.group none ["a"])
      (fun k => if k = "members" then some "mine" else none) (by simp [Serialisable]) (by decide)
    refine ⟨m, h1, ?_⟩
    rw [h2 "members" (Or.inr ⟨rfl, trivial⟩)]
    decide

end Attitude.Props
