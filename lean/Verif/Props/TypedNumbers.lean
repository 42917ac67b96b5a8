import Mathlib.Data.Nat.Digits.Defs
import Verif.Props.Webapp

/-!
# C293: numbers typed into cells
-/

namespace Attitude.Props

open Attitude Webapp

/-! ## Specification -/

namespace Spec

/-- The character of a digit. -/
def digitChar (d : Fin 10) : Char := Char.ofNat (48 + d)

/-- Digits as they are typed, the first one first. -/
def digits (ds : List (Fin 10)) : List Char := ds.map digitChar

/-- The whole number with these digits. -/
def whole (ds : List (Fin 10)) : ℕ := Nat.ofDigits 10 (ds.reverse.map Fin.val)

/-- A sign as it is typed: none, minus (`true`) or plus. -/
def signText : Option Bool → List Char
  | none => []
  | some true => ['-']
  | some false => ['+']

/-- The factor of a sign. -/
def signFactor (σ : Option Bool) : ℤ := if σ = some true then -1 else 1

/-- A decimal number as it is typed: a sign, digits, and, where there are any, a dot with digits after it
and the letter e (or E) with a whole number. -/
structure Typed where
  sign : Option Bool
  int : List (Fin 10)
  frac : Option (List (Fin 10))
  exp : Option (Bool × Option Bool × List (Fin 10))

/-- The text of the fraction. -/
def fracText : Option (List (Fin 10)) → List Char
  | none => []
  | some ds => '.' :: digits ds

/-- The text of the exponent. -/
def expText : Option (Bool × Option Bool × List (Fin 10)) → List Char
  | none => []
  | some (capital, σ, ds) => (if capital then 'E' else 'e') :: (signText σ ++ digits ds)

/-- The text that is typed. -/
def Typed.text (x : Typed) : List Char :=
  signText x.sign ++ (digits x.int ++ (fracText x.frac ++ expText x.exp))

/-- There is a digit before or after the dot, and one in the exponent. -/
def Typed.Proper (x : Typed) : Prop :=
  (x.int ≠ [] ∨ x.frac.getD [] ≠ []) ∧ ∀ c σ ds, x.exp = some (c, σ, ds) → ds ≠ []

/-- The exponent as a number. -/
def Typed.power (x : Typed) : ℤ :=
  match x.exp with
  | none => 0
  | some (_, σ, ds) => signFactor σ * whole ds

/-- The number that is meant. -/
def Typed.value (x : Typed) : ℚ :=
  signFactor x.sign * (whole x.int + whole (x.frac.getD []) / 10 ^ (x.frac.getD []).length) * 10 ^ x.power

end Spec

/-! ## Helper lemmas -/

lemma digitChar_spec : ∀ d : Fin 10, isDigit (Spec.digitChar d) = true ∧
    (Spec.digitChar d).toNat - '0'.toNat = d ∧ Spec.digitChar d ≠ '-' ∧ Spec.digitChar d ≠ '+' ∧
    isSpace (Spec.digitChar d) = false := by decide

lemma natOf_digits (ds : List (Fin 10)) : natOf (Spec.digits ds) = Spec.whole ds := by
  induction ds using List.reverseRecOn with
  | nil => rfl
  | append_singleton ds d ih =>
    unfold natOf Spec.digits Spec.whole at *
    rw [List.map_append, List.foldl_append, ih, List.reverse_append]
    simp only [List.map_cons, List.map_nil, List.foldl_cons, List.foldl_nil, List.reverse_cons, List.reverse_nil,
      List.nil_append, List.cons_append, Nat.ofDigits_cons, (digitChar_spec d).2.1]
    omega

lemma whole_append (a b : List (Fin 10)) : Spec.whole (a ++ b) = Spec.whole a * 10 ^ b.length + Spec.whole b := by
  unfold Spec.whole
  rw [List.reverse_append, List.map_append, Nat.ofDigits_append]
  simp
  ring

lemma takeDigits_digits (ds : List (Fin 10)) (r : List Char) (h : ∀ c t, r = c :: t → isDigit c = false) :
    takeDigits (Spec.digits ds ++ r) = (Spec.digits ds, r) := by
  have hd : ∀ c ∈ Spec.digits ds, isDigit c = true := by
    intro c hc
    obtain ⟨d, -, rfl⟩ := List.mem_map.1 hc
    exact (digitChar_spec d).1
  unfold takeDigits
  rw [List.takeWhile_append_of_pos hd, List.dropWhile_append_of_pos hd]
  cases r with
  | nil => simp
  | cons c t => simp [h c t rfl]

lemma takeSign_signText (σ : Option Bool) (r : List Char) (h : ∀ c t, r = c :: t → c ≠ '-' ∧ c ≠ '+') :
    takeSign (Spec.signText σ ++ r) = (decide (σ = some true), r) := by
  rcases σ with _ | _ | _
  · cases r with
    | nil => rfl
    | cons c t =>
      obtain ⟨h1, h2⟩ := h c t rfl
      simp only [Spec.signText, List.nil_append, takeSign]
      split <;> simp_all
  · rfl
  · rfl

lemma takeFraction_fracText (f : Option (List (Fin 10))) (r : List Char)
    (h : ∀ c t, r = c :: t → isDigit c = false ∧ c ≠ '.') :
    takeFraction (Spec.fracText f ++ r) = (Spec.digits (f.getD []), r) := by
  rcases f with _ | ds
  · cases r with
    | nil => rfl
    | cons c t =>
      have := (h c t rfl).2
      simp only [Spec.fracText, List.nil_append, takeFraction]
      split <;> simp_all [Spec.digits]
  · simp only [Spec.fracText, List.cons_append, takeFraction]
    exact takeDigits_digits ds r fun c t e => (h c t e).1

lemma digits_head (ds : List (Fin 10)) (r : List Char) (h : ∀ c t, r = c :: t → c ≠ '-' ∧ c ≠ '+') :
    ∀ c t, Spec.digits ds ++ r = c :: t → c ≠ '-' ∧ c ≠ '+' := by
  intro c t e
  cases ds with
  | nil => exact h c t e
  | cons d ds =>
    simp only [Spec.digits, List.map_cons, List.cons_append, List.cons.injEq] at e
    rw [← e.1]
    exact ⟨(digitChar_spec d).2.2.1, (digitChar_spec d).2.2.2.1⟩

lemma takeExponent_expText (x : Spec.Typed) (hx : x.Proper) : takeExponent (Spec.expText x.exp) = (x.power, []) := by
  unfold Spec.Typed.power
  rcases he : x.exp with _ | ⟨c, σ, ds⟩
  · rfl
  · have hds := hx.2 c σ ds he
    have hs : takeSign (Spec.signText σ ++ Spec.digits ds) = (decide (σ = some true), Spec.digits ds) := by
      have := takeSign_signText σ (Spec.digits ds ++ []) (digits_head ds [] (by simp))
      simpa using this
    have ht : takeDigits (Spec.digits ds) = (Spec.digits ds, []) := by
      simpa using takeDigits_digits ds [] (by simp)
    have hne : Spec.digits ds ≠ [] := by simpa [Spec.digits] using hds
    have hexp : exponentOf (Spec.signText σ ++ Spec.digits ds) = some (Spec.signFactor σ * Spec.whole ds, []) := by
      unfold exponentOf
      rw [hs]
      simp only [ht]
      rw [← natOf_digits]
      generalize hl : Spec.digits ds = l at hne
      cases l with
      | nil => exact absurd rfl hne
      | cons a l =>
        by_cases hσ : σ = some true <;> simp [hσ, Spec.signFactor]
    have hc : (if c then 'E' else 'e') = 'e' ∨ (if c then 'E' else 'e') = 'E' := by cases c <;> simp
    simp only [Spec.expText, takeExponent, if_pos hc, hexp, Option.getD_some]

lemma expText_head (x : Option (Bool × Option Bool × List (Fin 10))) :
    ∀ c t, Spec.expText x = c :: t → c = 'e' ∨ c = 'E' := by
  rintro c t h
  rcases x with _ | ⟨k, σ, ds⟩
  · simp [Spec.expText] at h
  · simp only [Spec.expText, List.cons.injEq] at h
    rw [← h.1]
    cases k <;> simp

lemma decimalPrefix_typed (x : Spec.Typed) (hx : x.Proper) : decimalPrefix x.text = some (x.value, []) := by
  have he := expText_head x.exp
  have hrest : ∀ c t, Spec.fracText x.frac ++ Spec.expText x.exp = c :: t → c = '.' ∨ c = 'e' ∨ c = 'E' := by
    intro c t e
    rcases hf : x.frac with _ | ds
    · rw [hf] at e
      exact Or.inr (he c t e)
    · rw [hf] at e
      simp only [Spec.fracText, List.cons_append, List.cons.injEq] at e
      exact Or.inl e.1.symm
  have h1 := takeSign_signText x.sign (Spec.digits x.int ++ (Spec.fracText x.frac ++ Spec.expText x.exp))
    (digits_head _ _ fun c t e => by rcases hrest c t e with rfl | rfl | rfl <;> decide)
  have h2 := takeDigits_digits x.int (Spec.fracText x.frac ++ Spec.expText x.exp)
    (fun c t e => by rcases hrest c t e with rfl | rfl | rfl <;> decide)
  have h3 := takeFraction_fracText x.frac (Spec.expText x.exp)
    (fun c t e => by rcases he c t e with rfl | rfl <;> decide)
  have hne : ¬ (Spec.digits x.int = [] ∧ Spec.digits (x.frac.getD []) = []) := by
    rintro ⟨a, b⟩
    simp only [Spec.digits, List.map_eq_nil_iff] at a b
    rcases hx.1 with h | h
    · exact h a
    · exact h b
  unfold decimalPrefix Spec.Typed.text
  rw [h1]
  simp only [h2, h3, if_neg hne, takeExponent_expText x hx]
  have hn : natOf (Spec.digits x.int ++ Spec.digits (x.frac.getD [])) =
      Spec.whole x.int * 10 ^ (x.frac.getD []).length + Spec.whole (x.frac.getD []) := by
    rw [← whole_append, ← natOf_digits]
    simp [Spec.digits]
  have hl : (Spec.digits (x.frac.getD [])).length = (x.frac.getD []).length := by simp [Spec.digits]
  rw [hn, hl]
  have hv : ((Spec.whole x.int * 10 ^ (x.frac.getD []).length + Spec.whole (x.frac.getD []) : ℕ) : ℚ) *
      10 ^ (x.power - ((x.frac.getD []).length : ℤ)) =
      (Spec.whole x.int + Spec.whole (x.frac.getD []) / 10 ^ (x.frac.getD []).length) * 10 ^ x.power := by
    rw [zpow_sub₀ (by norm_num), zpow_natCast]
    push_cast
    field_simp
  rw [hv]
  unfold Spec.Typed.value Spec.signFactor
  by_cases hs : x.sign = some true
  · simp [hs]
    ring
  · simp [hs]

lemma typed_chars (x : Spec.Typed) : ∀ c ∈ x.text, isSpace c = false ∧ c ≠ 'x' ∧ c ≠ 'X' := by
  have hd : ∀ ds, ∀ c ∈ Spec.digits ds, isSpace c = false ∧ c ≠ 'x' ∧ c ≠ 'X' := by
    intro ds c hc
    obtain ⟨d, -, rfl⟩ := List.mem_map.1 hc
    clear hc
    revert d
    decide
  have hs : ∀ σ, ∀ c ∈ Spec.signText σ, isSpace c = false ∧ c ≠ 'x' ∧ c ≠ 'X' := by
    intro σ c hc
    rcases σ with _ | _ | _ <;> simp only [Spec.signText, List.not_mem_nil, List.mem_singleton] at hc <;>
      subst hc <;> decide
  intro c hc
  unfold Spec.Typed.text at hc
  simp only [List.mem_append] at hc
  rcases hc with h | h | h | h
  · exact hs _ c h
  · exact hd _ c h
  · rcases hf : x.frac with _ | ds
    · rw [hf] at h
      simp [Spec.fracText] at h
    · rw [hf, Spec.fracText, List.mem_cons] at h
      rcases h with rfl | h
      · decide
      · exact hd _ c h
  · rcases he : x.exp with _ | ⟨k, σ, ds⟩
    · rw [he] at h
      simp [Spec.expText] at h
    · rw [he, Spec.expText, List.mem_cons, List.mem_append] at h
      rcases h with rfl | h | h
      · cases k <;> decide
      · exact hs _ c h
      · exact hd _ c h

/-! ## C293 -/

/-- A number typed into a cell, also with blanks before and after it, is read as the number that is meant:
with its sign, its fraction and its power of ten. -/
theorem C293_read (x : Spec.Typed) (hx : x.Proper) (before after : List Char)
    (hb : ∀ c ∈ before, c = ' ' ∨ c = '\t') (ha : ∀ c ∈ after, c = ' ' ∨ c = '\t') :
    (Value.str (before ++ (x.text ++ after))).parseFloat = some x.value := by
  have hsp : ∀ c ∈ before, isSpace c = true := by
    intro c hc
    rcases hb c hc with rfl | rfl <;> decide
  have hstop : Stops after := by
    intro c t e
    rcases ha c (by rw [e]; simp) with rfl | rfl <;> decide
  have hdec := decimalPrefix_typed x hx
  have hhead : (x.text ++ after).dropWhile isSpace = x.text ++ after := by
    have hh : ∀ c t, x.text = c :: t → isSpace c = false := by
      intro c t e
      by_contra hc
      simp only [Bool.not_eq_false] at hc
      have hc' : c = ' ' ∨ c = '\t' ∨ c = '\n' ∨ c = '\r' := by simpa [isSpace, or_assoc] using hc
      rw [e] at hdec
      rcases hc' with rfl | rfl | rfl | rfl <;>
        simp [decimalPrefix, takeSign, takeDigits, takeFraction, isDigit] at hdec
    cases ht : x.text with
    | nil =>
      rw [ht] at hdec
      simp [decimalPrefix, takeSign, takeDigits, takeFraction] at hdec
    | cons c t => simp [hh c t ht]
  simp only [Value.parseFloat, Webapp.parseFloat]
  rw [List.dropWhile_append_of_pos hsp, hhead, decimalPrefix_append hstop, hdec]
  rfl

/-- Minus twelve and a half, written with a power of ten and between blanks. -/
example : (Value.str "  -1.25E+1 ".toList).parseFloat = some (-25 / 2) := by
  have := C293_read ⟨some true, [1], some [2, 5], some (true, some false, [1])⟩
    ⟨by simp, by simp⟩ [' ', ' '] [' '] (by simp) (by simp)
  have e : "  -1.25E+1 ".toList = [' ', ' '] ++ ((⟨some true, [1], some [2, 5], some (true, some false, [1])⟩ :
    Spec.Typed).text ++ [' ']) := by decide
  rw [e, this]
  norm_num [Spec.Typed.value, Spec.Typed.power, Spec.signFactor, Spec.whole, Nat.ofDigits]

/-- It is marked as valid, and both agree: `Number` gives the same value. -/
theorem C293_marked (g : Value → Bool) (f : Field) (hf : f.isColor = false) (x : Spec.Typed) (hx : x.Proper)
    (before after : List Char) (hb : ∀ c ∈ before, c = ' ' ∨ c = '\t') (ha : ∀ c ∈ after, c = ' ' ∨ c = '\t') :
    status g f (.str (before ++ (x.text ++ after))) = .ok ∧
      toNumber (before ++ (x.text ++ after)) = some x.value := by
  have hdec := decimalPrefix_typed x hx
  have hch := typed_chars x
  have hne : x.text ≠ [] := by
    intro h
    rw [h] at hdec
    simp [decimalPrefix, takeSign, takeDigits, takeFraction] at hdec
  have hsb : ∀ c ∈ before, isSpace c = true := by
    intro c hc
    rcases hb c hc with rfl | rfl <;> decide
  have hsa : ∀ c ∈ after.reverse, isSpace c = true := by
    intro c hc
    rcases ha c (List.mem_reverse.1 hc) with rfl | rfl <;> decide
  have drop : ∀ l r : List Char, l ≠ [] → (∀ c ∈ l, isSpace c = false) → (l ++ r).dropWhile isSpace = l ++ r := by
    intro l r hl h
    cases l with
    | nil => exact absurd rfl hl
    | cons c t => simp [h c (by simp)]
  have htrim : trim (before ++ (x.text ++ after)) = x.text := by
    unfold trim
    rw [List.dropWhile_append_of_pos hsb, drop _ _ hne fun c hc => (hch c hc).1, List.rdropWhile,
      List.reverse_append, List.dropWhile_append_of_pos hsa]
    have := drop x.text.reverse [] (by simpa using hne) fun c hc => (hch c (List.mem_reverse.1 hc)).1
    rw [List.append_nil] at this
    rw [this, List.reverse_reverse]
  have hhex : hexLiteral x.text = none := by
    generalize x.text = l at hch
    unfold hexLiteral
    split
    · rename_i y d t
      have := hch y (by simp)
      rw [if_neg (by tauto)]
    · rfl
  have hnum : toNumber (before ++ (x.text ++ after)) = some x.value := by
    simp only [toNumber, htrim, if_neg hne, hhex, hdec]
  refine ⟨?_, hnum⟩
  have he : (Value.str (before ++ (x.text ++ after))).isEmpty = false := by
    simp [Value.isEmpty, hne]
  simp [status, he, hf, Value.isNumber, hnum]

/-- Half a degree without a digit before the dot, and a tab after it. -/
example : status (fun _ => true) { key := "dip" } (.str ".5\t".toList) = .ok := by
  have := C293_marked (fun _ => true) { key := "dip" } rfl ⟨none, [], some [5], none⟩ ⟨by simp, by simp⟩ [] ['\t']
    (by simp) (by simp)
  have e : ".5\t".toList = [] ++ ((⟨none, [], some [5], none⟩ : Spec.Typed).text ++ ['\t']) := by decide
  rw [e]
  exact this.1

end Attitude.Props
