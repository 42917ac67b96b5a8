import Verif.Model.NbExtension

/-!
# Properties of the notebook extension: C83, C84
-/

namespace Attitude.Props

open Attitude NbExtension

/-! ## C83 -/

namespace Spec

/-- Data without single quotes, backslashes, line breaks and `<`. -/
def Plain (data : List Char) : Prop :=
  ∀ c ∈ data, c ≠ '\'' ∧ c ≠ '\\' ∧ c ≠ '\n' ∧ c ≠ '\r' ∧ c ≠ '<'

/-- A class name as `plot_interactive` makes it: `A` and a UUID. -/
def ClassName (hash : List Char) : Prop :=
  ∀ c ∈ hash, c = 'A' ∨ c = '-' ∨ ('0' ≤ c ∧ c ≤ '9') ∨ ('a' ≤ c ∧ c ≤ 'f')

/-- `c` is the hexadecimal digit for `v`, in either case. -/
def HexDigit (c : Char) (v : ℕ) : Prop :=
  v < 16 ∧ (c = Nat.digitChar v ∨ c = (Nat.digitChar v).toUpper)

/-- What letters stand for after a backslash in a JavaScript string: line break, tabulator, carriage
return, backspace, form feed, vertical tabulator, null. -/
def controls : List (Char × ℕ) := [('n', 10), ('t', 9), ('r', 13), ('b', 8), ('f', 12), ('v', 11), ('0', 0)]

end Spec

/-! ### Replacement -/

lemma isPrefixOf_ne {o c : Char} (os cs : List Char) (h : c ≠ o) :
    (o :: os).isPrefixOf (c :: cs) = false := by
  rw [List.isPrefixOf]
  have : (o == c) = false := by
    rw [beq_eq_false_iff_ne]
    exact h.symm
  rw [this, Bool.false_and]

lemma replaceAux_append {o : Char} {os new : List Char} (a rest : List Char) (h : ∀ c ∈ a, c ≠ o) :
    replaceAux (o :: os) new 0 (a ++ rest) = a ++ replaceAux (o :: os) new 0 rest := by
  induction a with
  | nil => rfl
  | cons c a ih =>
    rw [List.cons_append, replaceAux, isPrefixOf_ne _ _ (h c (by simp)),
      ih fun c hc => h c (by simp [hc])]
    rfl

lemma replaceAux_lt {os new : List Char} (d : Char) (rest : List Char) (h : d ≠ '<') :
    replaceAux ('<' :: '<' :: os) new 0 ('<' :: d :: rest)
      = '<' :: replaceAux ('<' :: '<' :: os) new 0 (d :: rest) := by
  have hp : ('<' :: '<' :: os).isPrefixOf ('<' :: d :: rest) = false := by
    rw [List.isPrefixOf, isPrefixOf_ne _ _ h, Bool.and_false]
  rw [replaceAux, hp]
  rfl

lemma replaceAux_skip (old new a rest : List Char) :
    replaceAux old new a.length (a ++ rest) = replaceAux old new 0 rest := by
  induction a with
  | nil => rfl
  | cons c a ih => simpa [replaceAux] using ih

lemma replaceAux_key (o : Char) (os new rest : List Char) :
    replaceAux (o :: os) new 0 (o :: os ++ rest) = new ++ replaceAux (o :: os) new 0 rest := by
  have hp : (o :: os).isPrefixOf (o :: os ++ rest) = true := by
    rw [List.isPrefixOf_iff_prefix]
    exact List.prefix_append _ _
  rw [List.cons_append] at hp ⊢
  rw [replaceAux, if_pos hp]
  simp [replaceAux_skip]

/-- `<<<hash>>>` -/
def hashKey : List Char := ['<', '<', '<', 'h', 'a', 's', 'h', '>', '>', '>']
/-- `<<<data>>>` -/
def dataKey : List Char := ['<', '<', '<', 'd', 'a', 't', 'a', '>', '>', '>']

/-- The template around the class name. -/
def head (name : List Char) : List Char :=
  "\n".toList ++ ('<' :: "div id='a__".toList ++ (name ++ ("'>".toList ++ ('<' :: "/div>\n".toList
    ++ ('<' :: "script type='text/javascript'>\n  var data=JSON.parse('".toList)))))

/-- The end of the template around the class name. -/
def tail (name : List Char) : List Char :=
  "');\n  attitudeUI(document.querySelector('#a__".toList ++ (name ++ ("'),data);\n".toList
    ++ ('<' :: "/script>\n".toList)))

lemma template_eq : template = head hashKey ++ (dataKey ++ tail hashKey) := by decide +kernel

lemma key_eq : "<<<data>>>".toList = dataKey ∧ "<<<hash>>>".toList = hashKey := by decide +kernel

lemma replaceAux_step {os new : List Char} (a rest : List Char) (ha : ∀ c ∈ a, c ≠ '<')
    (hne : a ≠ []) :
    replaceAux ('<' :: '<' :: os) new 0 ('<' :: (a ++ rest))
      = '<' :: (a ++ replaceAux ('<' :: '<' :: os) new 0 rest) := by
  obtain ⟨d, a', rfl⟩ := List.exists_cons_of_ne_nil hne
  rw [List.cons_append, replaceAux_lt d _ (ha d (by simp)), ← List.cons_append,
    replaceAux_append _ _ ha]

/-- Passing over the head of the template: only the class name can change. -/
lemma replaceAux_head {os new name name' : List Char}
    (hn : ∀ rest, replaceAux ('<' :: '<' :: os) new 0 (name ++ rest)
      = name' ++ replaceAux ('<' :: '<' :: os) new 0 rest) (rest : List Char) :
    replaceAux ('<' :: '<' :: os) new 0 (head name ++ rest)
      = head name' ++ replaceAux ('<' :: '<' :: os) new 0 rest := by
  have h1 : ∀ c ∈ "\n".toList, c ≠ '<' := by simp
  have h2 : ∀ c ∈ "div id='a__".toList, c ≠ '<' := by simp
  have h3 : ∀ c ∈ "'>".toList, c ≠ '<' := by simp
  have h4 : ∀ c ∈ "/div>\n".toList, c ≠ '<' := by simp
  have h5 : ∀ c ∈ "script type='text/javascript'>\n  var data=JSON.parse('".toList, c ≠ '<' := by
    simp
  have n2 : "div id='a__".toList ≠ [] := by simp
  have n4 : "/div>\n".toList ≠ [] := by simp
  have n5 : "script type='text/javascript'>\n  var data=JSON.parse('".toList ≠ [] := by simp
  unfold head
  generalize "\n".toList = s1 at *
  generalize "div id='a__".toList = s2 at *
  generalize "'>".toList = s3 at *
  generalize "/div>\n".toList = s4 at *
  generalize "script type='text/javascript'>\n  var data=JSON.parse('".toList = s5 at *
  simp only [List.append_assoc, List.cons_append]
  rw [replaceAux_append _ _ h1, replaceAux_step _ _ h2 n2, hn, replaceAux_append _ _ h3,
    replaceAux_step _ _ h4 n4, replaceAux_step _ _ h5 n5]

lemma replaceAux_tail {os new name name' : List Char}
    (hn : ∀ rest, replaceAux ('<' :: '<' :: os) new 0 (name ++ rest)
      = name' ++ replaceAux ('<' :: '<' :: os) new 0 rest) :
    replaceAux ('<' :: '<' :: os) new 0 (tail name) = tail name' := by
  have h1 : ∀ c ∈ "');\n  attitudeUI(document.querySelector('#a__".toList, c ≠ '<' := by simp
  have h2 : ∀ c ∈ "'),data);\n".toList, c ≠ '<' := by simp
  have h3 : ∀ c ∈ "/script>\n".toList, c ≠ '<' := by simp
  have h4 : "/script>\n".toList ≠ [] := by simp
  unfold tail
  generalize "');\n  attitudeUI(document.querySelector('#a__".toList = s1 at h1
  generalize "'),data);\n".toList = s2 at h2
  generalize "/script>\n".toList = s3 at h3 h4
  have := replaceAux_step (os := os) (new := new) s3 [] h3 h4
  rw [List.append_nil] at this
  rw [replaceAux_append _ _ h1, hn, replaceAux_append _ _ h2, this]
  simp [replaceAux]

lemma dataKey_hash (new rest : List Char) :
    replaceAux dataKey new 0 (hashKey ++ rest) = hashKey ++ replaceAux dataKey new 0 rest := by
  simp [dataKey, hashKey, replaceAux, List.isPrefixOf]

/-- The script, for any data: the class name is put in the template around the data
and in the data itself. -/
lemma script_eq (data hash : List Char) :
    script data hash = head hash ++ replaceAux hashKey hash 0 (data ++ tail hashKey) := by
  have e1 : replace template "<<<data>>>".toList data = head hashKey ++ (data ++ tail hashKey) := by
    rw [replace, template_eq, key_eq.1]
    have h := dataKey_hash data
    unfold dataKey at h ⊢
    rw [replaceAux_head h, replaceAux_key, replaceAux_tail h]
  rw [script, e1, replace, key_eq.2]
  have h : ∀ rest, replaceAux hashKey hash 0 (hashKey ++ rest)
      = hash ++ replaceAux hashKey hash 0 rest := fun rest => replaceAux_key _ _ _ _
  exact replaceAux_head h _

lemma script_plain (data hash : List Char) (h : ∀ c ∈ data, c ≠ '<') :
    script data hash = head hash ++ (data ++ tail hash) := by
  have hk : ∀ rest, replaceAux hashKey hash 0 (hashKey ++ rest)
      = hash ++ replaceAux hashKey hash 0 rest := fun rest => replaceAux_key _ _ _ _
  rw [script_eq]
  congr 1
  have := replaceAux_append (os := ['<', '<', 'h', 'a', 's', 'h', '>', '>', '>']) (new := hash)
    data (tail hashKey) h
  exact this.trans (congrArg (data ++ ·) (replaceAux_tail hk))

/-! ### The browser -/

lemma after_append {o : Char} {os : List Char} (a rest : List Char) (h : ∀ c ∈ a, c ≠ o) :
    after (o :: os) (a ++ rest) = after (o :: os) rest := by
  induction a with
  | nil => rfl
  | cons c a ih =>
    rw [List.cons_append, after, isPrefixOf_ne _ _ (h c (by simp)),
      ih fun c hc => h c (by simp [hc])]
    rfl

lemma after_key (o : Char) (os rest : List Char) : after (o :: os) (o :: os ++ rest) = some rest := by
  have hp : (o :: os).isPrefixOf (o :: os ++ rest) = true := by
    rw [List.isPrefixOf_iff_prefix]
    exact List.prefix_append _ _
  rw [List.cons_append] at hp ⊢
  rw [after, if_pos hp, ← List.cons_append, List.drop_left]

lemma before_append {o : Char} {os : List Char} (a rest : List Char) (h : ∀ c ∈ a, c ≠ o) :
    before (o :: os) (a ++ rest) = a ++ before (o :: os) rest := by
  induction a with
  | nil => rfl
  | cons c a ih =>
    rw [List.cons_append, before, isPrefixOf_ne _ _ (h c (by simp)),
      ih fun c hc => h c (by simp [hc])]
    rfl

/-- What the browser does with a page that starts like the script: it reads the
literal up to the end of the script element. -/
lemma received_head (hash rest : List Char) (hh : ∀ c ∈ hash, c ≠ '<') :
    received (head hash ++ rest) = jsString (before "</script".toList rest) := by
  have k1 : "<script type='text/javascript'>".toList
      = '<' :: 's' :: "cript type='text/javascript'>".toList := by decide +kernel
  have k2 : "</script".toList = '<' :: "/script".toList := by decide +kernel
  have k3 : "JSON.parse('".toList = 'J' :: "SON.parse('".toList := by decide +kernel
  have h5 : "script type='text/javascript'>\n  var data=JSON.parse('".toList
      = 's' :: "cript type='text/javascript'>".toList ++ ("\n  var data=".toList
        ++ ('J' :: "SON.parse('".toList)) := by decide +kernel
  have b1 : ∀ c ∈ "\n".toList, c ≠ '<' := by simp
  have b2 : ∀ c ∈ "div id='a__".toList, c ≠ '<' := by simp
  have b3 : ∀ c ∈ "'>".toList, c ≠ '<' := by simp
  have b4 : ∀ c ∈ "/div>\n".toList, c ≠ '<' := by simp
  have b6 : ∀ c ∈ "\n  var data=".toList, c ≠ '<' := by simp
  have b7 : ∀ c ∈ "\n  var data=".toList, c ≠ 'J' := by simp
  have b8 : ∀ c ∈ 'J' :: "SON.parse('".toList, c ≠ '<' := by simp
  have d2 : "div id='a__".toList = 'd' :: "iv id='a__".toList := by decide +kernel
  have d4 : "/div>\n".toList = '/' :: "div>\n".toList := by decide +kernel
  rw [received, k1, k2, k3]
  unfold head
  rw [h5]
  generalize "\n".toList = s1 at *
  generalize "'>".toList = s3 at *
  generalize "\n  var data=".toList = s6 at *
  generalize "SON.parse('".toList = s7 at *
  generalize "cript type='text/javascript'>".toList = s8 at *
  generalize "/script".toList = s12 at *
  rw [d2] at b2 ⊢
  rw [d4] at b4 ⊢
  generalize "iv id='a__".toList = s2 at *
  generalize "div>\n".toList = s4 at *
  have skip : ∀ (d : Char) (r : List Char), d ≠ 's' →
      after ('<' :: 's' :: s8) ('<' :: d :: r) = after ('<' :: 's' :: s8) (d :: r) := by
    intro d r hdr
    have hp : ('<' :: 's' :: s8).isPrefixOf ('<' :: d :: r) = false := by
      rw [List.isPrefixOf, isPrefixOf_ne _ _ hdr, Bool.and_false]
    rw [after, hp]
    rfl
  have e1 : after ('<' :: 's' :: s8)
      ((s1 ++ ('<' :: ('d' :: s2) ++ (hash ++ (s3 ++ ('<' :: ('/' :: s4) ++ ('<' :: ('s' :: s8
        ++ (s6 ++ 'J' :: s7)))))))) ++ rest)
      = some (s6 ++ 'J' :: s7 ++ rest) := by
    simp only [List.append_assoc, List.cons_append]
    rw [after_append _ _ b1, skip _ _ (by decide), ← List.cons_append, after_append _ _ b2,
      after_append _ _ hh, after_append _ _ b3, skip _ _ (by decide), ← List.cons_append,
      after_append _ _ b4]
    have := after_key '<' ('s' :: s8) (s6 ++ 'J' :: s7 ++ rest)
    simpa only [List.append_assoc, List.cons_append] using this
  have e2 : before ('<' :: s12) (s6 ++ 'J' :: s7 ++ rest)
      = s6 ++ ('J' :: s7 ++ before ('<' :: s12) rest) := by
    rw [List.append_assoc, before_append _ _ b6, before_append _ _ b8]
  simp only [bind, e1, Option.bind_some, e2]
  rw [after_append _ _ b7, after_key]
  rfl

/-- What the browser does with a script whose data and class name have no `<`. -/
lemma received_eq (data hash : List Char) (hd : ∀ c ∈ data, c ≠ '<') (hh : ∀ c ∈ hash, c ≠ '<') :
    ∃ rest, received (script data hash) = jsString (data ++ '\'' :: rest) := by
  have k2 : "</script".toList = '<' :: "/script".toList := by decide +kernel
  have t1 : "');\n  attitudeUI(document.querySelector('#a__".toList
      = '\'' :: ");\n  attitudeUI(document.querySelector('#a__".toList := by decide +kernel
  have t3 : "/script>\n".toList = "/script".toList ++ ">\n".toList := by decide +kernel
  have b9 : ∀ c ∈ '\'' :: ");\n  attitudeUI(document.querySelector('#a__".toList, c ≠ '<' := by simp
  have b10 : ∀ c ∈ "'),data);\n".toList, c ≠ '<' := by simp
  refine ⟨");\n  attitudeUI(document.querySelector('#a__".toList ++ (hash ++ "'),data);\n".toList), ?_⟩
  rw [script_plain _ _ hd, received_head _ _ hh, k2]
  unfold tail
  rw [t1, t3]
  generalize ");\n  attitudeUI(document.querySelector('#a__".toList = s9 at *
  generalize "'),data);\n".toList = s10 at *
  generalize ">\n".toList = s11 at *
  generalize "/script".toList = s12 at *
  have hl : before ('<' :: s12) ('<' :: (s12 ++ s11)) = [] := by
    have hp : ('<' :: s12).isPrefixOf ('<' :: (s12 ++ s11)) = true := by
      rw [List.isPrefixOf_iff_prefix, ← List.cons_append]
      exact List.prefix_append _ _
    rw [before, if_pos hp]
  rw [before_append _ _ hd, before_append _ _ b9, before_append _ _ hh, before_append _ _ b10, hl,
    List.append_nil, List.cons_append]

lemma jsString_plain (a rest : List Char) (h : Spec.Plain a) :
    jsString (a ++ rest) = (jsString rest).map (a ++ ·) := by
  induction a with
  | nil => simp
  | cons c a ih =>
    obtain ⟨h1, h2, h3, h4, -⟩ := h c (by simp)
    rw [List.cons_append, jsString.eq_def]
    simp only []
    rw [if_neg h1, if_neg (by tauto), if_neg h2,
      ih fun c hc => h c (by simp [hc])]
    cases jsString rest <;> simp

lemma jsString_quote (rest : List Char) : jsString ('\'' :: rest) = some [] := by
  rw [jsString.eq_def]
  simp

lemma className_lt {hash : List Char} (h : Spec.ClassName hash) : ∀ c ∈ hash, c ≠ '<' := by
  intro c hc e
  subst e
  rcases h _ hc with h | h | h | h <;> revert h <;> decide

lemma className_plain {hash : List Char} (h : Spec.ClassName hash) : Spec.Plain hash := by
  intro c hc
  have := h c hc
  refine ⟨?_, ?_, ?_, ?_, ?_⟩ <;> rintro rfl <;> rcases this with h | h | h | h <;> revert h <;> decide

lemma plain_lt {a : List Char} (h : Spec.Plain a) : ∀ c ∈ a, c ≠ '<' := fun c hc => (h c hc).2.2.2.2

/-- Data without the critical characters arrive unchanged. -/
theorem C83_plain_partial (data hash : List Char) (hd : Spec.Plain data) (hh : Spec.ClassName hash) :
    received (script data hash) = some data := by
  obtain ⟨rest, h⟩ := received_eq data hash (plain_lt hd) (className_lt hh)
  rw [h, jsString_plain _ _ hd, jsString_quote]
  simp

/-- A single quote in the data, as in a name like `O'Higgins`, ends the literal: what
follows is lost. -/
theorem C83_quote_false (a b hash : List Char) (ha : Spec.Plain a) (hb : ∀ c ∈ b, c ≠ '<')
    (hh : Spec.ClassName hash) :
    received (script (a ++ '\'' :: b) hash) = some a := by
  obtain ⟨rest, h⟩ := received_eq (a ++ '\'' :: b) hash (by
    intro c hc
    rcases List.mem_append.1 hc with hc | hc
    · exact plain_lt ha c hc
    · rcases List.mem_cons.1 hc with rfl | hc
      · decide
      · exact hb c hc) (className_lt hh)
  rw [h, List.append_assoc, jsString_plain _ _ ha, List.cons_append, jsString_quote]
  simp

/-- A double quote in a string, `\"` in the JSON text, loses its backslash: the text
received, if any, is not the text sent. -/
theorem C83_escape_false (a b hash : List Char) (ha : Spec.Plain a) (hb : ∀ c ∈ b, c ≠ '<')
    (hh : Spec.ClassName hash) :
    received (script (a ++ '\\' :: '"' :: b) hash) ≠ some (a ++ '\\' :: '"' :: b) ∧
    ∀ t, received (script (a ++ '\\' :: '"' :: b) hash) = some t → ∃ t', t = a ++ '"' :: t' := by
  obtain ⟨rest, h⟩ := received_eq (a ++ '\\' :: '"' :: b) hash (by
    intro c hc
    rcases List.mem_append.1 hc with hc | hc
    · exact plain_lt ha c hc
    · simp only [List.mem_cons] at hc
      rcases hc with rfl | rfl | hc
      · decide
      · decide
      · exact hb c hc) (className_lt hh)
  have hjs : jsString ('\\' :: '"' :: (b ++ '\'' :: rest))
      = (jsString (b ++ '\'' :: rest)).map ('"' :: ·) := by
    rw [jsString.eq_def]
    simp only []
    rw [if_neg (by decide), if_neg (by decide), if_pos trivial]
    cases hj : jsString (b ++ '\'' :: rest) <;> simp [escape, hj]
  rw [List.append_assoc, jsString_plain _ _ ha, List.cons_append, List.cons_append, hjs] at h
  have key : ∀ t, received (script (a ++ '\\' :: '"' :: b) hash) = some t →
      ∃ t', t = a ++ '"' :: t' := by
    intro t ht
    rw [h] at ht
    cases hj : jsString (b ++ '\'' :: rest) with
    | none => simp [hj] at ht
    | some t' =>
      rw [hj] at ht
      exact ⟨t', by simpa using ht.symm⟩
  refine ⟨fun hc => ?_, key⟩
  obtain ⟨t', ht'⟩ := key _ hc
  have := List.append_cancel_left ht'
  simp at this

lemma hexDigit_eq {c : Char} {v : ℕ} (h : Spec.HexDigit c v) : hexDigit c = some v ∧ c ≠ '<' := by
  have key : ∀ v : Fin 16, (hexDigit (Nat.digitChar v) = some v.1 ∧ Nat.digitChar v ≠ '<') ∧
      hexDigit (Nat.digitChar v).toUpper = some v.1 ∧ (Nat.digitChar v).toUpper ≠ '<' := by
    decide +kernel
  obtain ⟨hv, rfl | rfl⟩ := h
  · exact (key ⟨v, hv⟩).1
  · exact (key ⟨v, hv⟩).2

/-- Characters that Python writes as `\u` and four hexadecimal digits, as those that are not ASCII,
arrive as themselves. -/
theorem C83_unicode (a b hash : List Char) (ha : Spec.Plain a) (hb : Spec.Plain b)
    (hh : Spec.ClassName hash) (d3 d2 d1 d0 : Char) (v3 v2 v1 v0 : ℕ) (h3 : Spec.HexDigit d3 v3)
    (h2 : Spec.HexDigit d2 v2) (h1 : Spec.HexDigit d1 v1) (h0 : Spec.HexDigit d0 v0) (c : Char)
    (hc : c.toNat = 16 ^ 3 * v3 + 16 ^ 2 * v2 + 16 * v1 + v0) :
    received (script (a ++ ['\\', 'u', d3, d2, d1, d0] ++ b) hash) = some (a ++ c :: b) := by
  obtain ⟨e3, l3⟩ := hexDigit_eq h3
  obtain ⟨e2, l2⟩ := hexDigit_eq h2
  obtain ⟨e1, l1⟩ := hexDigit_eq h1
  obtain ⟨e0, l0⟩ := hexDigit_eq h0
  obtain ⟨rest, h⟩ := received_eq (a ++ ['\\', 'u', d3, d2, d1, d0] ++ b) hash (by
    intro x hx
    simp only [List.mem_append, List.mem_cons, List.not_mem_nil, or_false] at hx
    rcases hx with (hx | hx) | hx
    · exact plain_lt ha x hx
    · rcases hx with rfl | rfl | rfl | rfl | rfl | rfl
      · decide
      · decide
      · exact l3
      · exact l2
      · exact l1
      · exact l0
    · exact plain_lt hb x hx) (className_lt hh)
  rw [h, List.append_assoc, List.append_assoc, jsString_plain _ _ ha]
  have hjs : jsString (b ++ '\'' :: rest) = some b := by
    rw [jsString_plain _ _ hb, jsString_quote]
    simp
  have e : Char.ofNat (((v3 * 16 + v2) * 16 + v1) * 16 + v0) = c := by
    rw [← Char.ofNat_toNat c, hc]
    congr 1
    ring
  have : jsString (['\\', 'u', d3, d2, d1, d0] ++ (b ++ '\'' :: rest)) = some (c :: b) := by
    rw [List.cons_append, jsString.eq_def]
    simp only []
    rw [if_neg (by decide), if_neg (by decide), if_pos trivial]
    simp [e3, e2, e1, e0, hjs, e]
  rw [this]
  simp

/-- `\u00e9`, for a letter with an accent. -/
example : Spec.HexDigit '0' 0 ∧ Spec.HexDigit 'e' 14 ∧ Spec.HexDigit '9' 9 ∧
    'é'.toNat = 16 ^ 3 * 0 + 16 ^ 2 * 0 + 16 * 14 + 9 := by
  refine ⟨⟨by norm_num, .inl (by decide)⟩, ⟨by norm_num, .inl (by decide)⟩,
    ⟨by norm_num, .inl (by decide)⟩, by decide⟩

/-- A line break or another control character in a string, which Python writes with a backslash,
arrives as the character itself.  JSON does not allow these characters in strings. -/
theorem C83_control_false (a b hash : List Char) (ha : Spec.Plain a) (hb : Spec.Plain b)
    (hh : Spec.ClassName hash) (e : Char) (v : ℕ) (hv : (e, v) ∈ Spec.controls) :
    v < 32 ∧ received (script (a ++ ['\\', e] ++ b) hash) = some (a ++ Char.ofNat v :: b) := by
  have he : v < 32 ∧ e ≠ '<' ∧ e ≠ 'u' ∧ escape e = Char.ofNat v := by
    simp only [Spec.controls, List.mem_cons, Prod.mk.injEq, List.not_mem_nil, or_false] at hv
    rcases hv with ⟨rfl, rfl⟩ | ⟨rfl, rfl⟩ | ⟨rfl, rfl⟩ | ⟨rfl, rfl⟩ | ⟨rfl, rfl⟩ | ⟨rfl, rfl⟩ | ⟨rfl, rfl⟩ <;>
      decide
  obtain ⟨h1, h2, h3, h4⟩ := he
  refine ⟨h1, ?_⟩
  obtain ⟨rest, h⟩ := received_eq (a ++ ['\\', e] ++ b) hash (by
    intro x hx
    simp only [List.mem_append, List.mem_cons, List.not_mem_nil, or_false] at hx
    rcases hx with (hx | hx) | hx
    · exact plain_lt ha x hx
    · rcases hx with rfl | rfl
      · decide
      · exact h2
    · exact plain_lt hb x hx) (className_lt hh)
  rw [h, List.append_assoc, List.append_assoc, jsString_plain _ _ ha]
  have hjs : jsString (b ++ '\'' :: rest) = some b := by
    rw [jsString_plain _ _ hb, jsString_quote]
    simp
  have : jsString (['\\', e] ++ (b ++ '\'' :: rest)) = some (Char.ofNat v :: b) := by
    rw [List.cons_append, jsString.eq_def]
    simp only []
    rw [if_neg (by decide), if_neg (by decide), if_pos trivial]
    simp [h3, hjs, h4]
  rw [this]
  simp

/-- A line break in the name of a measurement. -/
example : ('n', 10) ∈ Spec.controls ∧ Char.ofNat 10 = '\n' ∧ Spec.Plain "\"north".toList ∧
    Spec.Plain "south\"".toList := by
  refine ⟨by decide, by decide, ?_, ?_⟩ <;> unfold Spec.Plain <;> decide +kernel

/-- The text `<<<hash>>>` in the data is replaced by the class name. -/
theorem C83_hash_false (a b hash : List Char) (ha : Spec.Plain a) (hb : Spec.Plain b)
    (hh : Spec.ClassName hash) :
    received (script (a ++ "<<<hash>>>".toList ++ b) hash) = some (a ++ hash ++ b) := by
  have hp : Spec.Plain (a ++ hash ++ b) := by
    intro c hc
    simp only [List.mem_append] at hc
    rcases hc with (hc | hc) | hc
    · exact ha c hc
    · exact className_plain hh c hc
    · exact hb c hc
  rw [← C83_plain_partial _ hash hp hh]
  congr 1
  rw [key_eq.2, script_eq, script_plain _ _ (plain_lt hp)]
  congr 1
  have hk : ∀ rest, replaceAux hashKey hash 0 (hashKey ++ rest)
      = hash ++ replaceAux hashKey hash 0 rest := fun rest => replaceAux_key _ _ _ _
  have hA := fun l rest (h : ∀ c ∈ l, c ≠ '<') =>
    replaceAux_append (os := ['<', '<', 'h', 'a', 's', 'h', '>', '>', '>']) (new := hash) l rest h
  simp only [List.append_assoc]
  refine (hA a _ (plain_lt ha)).trans (congrArg (a ++ ·) ?_)
  refine (hk _).trans (congrArg (hash ++ ·) ?_)
  exact (hA b _ (plain_lt hb)).trans (congrArg (b ++ ·) (replaceAux_tail hk))

/-- The text `</script` in the data ends the script: nothing is received. -/
theorem C83_script_false (a b hash : List Char) (ha : Spec.Plain a)
    (hh : Spec.ClassName hash) :
    received (script (a ++ "</script".toList ++ b) hash) = none := by
  have k2 : "</script".toList = '<' :: "/script".toList := by decide +kernel
  have h3 : ∀ c ∈ "/script".toList, c ≠ '<' := by simp
  have h4 : "/script".toList ≠ [] := by simp
  have hA := fun l rest (h : ∀ c ∈ l, c ≠ '<') =>
    replaceAux_append (os := ['<', '<', 'h', 'a', 's', 'h', '>', '>', '>']) (new := hash) l rest h
  have hnone : jsString a = none := by
    have := jsString_plain a [] ha
    rw [List.append_nil] at this
    rw [this]
    simp [jsString]
  rw [script_eq, received_head _ _ (className_lt hh), k2]
  generalize "/script".toList = s at h3 h4
  have e : replaceAux hashKey hash 0 (a ++ '<' :: s ++ b ++ tail hashKey)
      = a ++ '<' :: (s ++ replaceAux hashKey hash 0 (b ++ tail hashKey)) := by
    simp only [List.append_assoc, List.cons_append]
    refine (hA a _ (plain_lt ha)).trans (congrArg (a ++ ·) ?_)
    exact replaceAux_step (os := ['<', 'h', 'a', 's', 'h', '>', '>', '>']) s _ h3 h4
  rw [e, before_append _ _ (plain_lt ha)]
  have hl : ∀ r, before ('<' :: s) ('<' :: (s ++ r)) = [] := by
    intro r
    have hp : ('<' :: s).isPrefixOf ('<' :: (s ++ r)) = true := by
      rw [List.isPrefixOf_iff_prefix, ← List.cons_append]
      exact List.prefix_append _ _
    rw [before, if_pos hp]
  rw [hl, List.append_nil, hnone]

/-- Concrete data: a mapping without critical characters, and a class name. -/
example : Spec.Plain "[{\"strike\": 12.5, \"dip\": 30.0}]".toList ∧
    Spec.ClassName "A0f3c-9b".toList := by
  constructor
  · unfold Spec.Plain; decide +kernel
  · unfold Spec.ClassName; decide +kernel

/-! ## C84 -/

namespace Spec

/-- Whether one of the attempts to load succeeds. -/
def AnySuccess (os : List (Except PyErr Unit)) : Prop := .ok () ∈ os

end Spec

/-- For every history of calls from a fresh import: the library has been displayed
exactly once if an attempt succeeded and not at all otherwise, and the flag says
which. -/
theorem C84_once (os : List (Except PyErr Unit)) :
    (Spec.AnySuccess os →
      (calls os State.start).2.displayed = 1 ∧ (calls os State.start).2.initialized = true) ∧
    (¬ Spec.AnySuccess os →
      (calls os State.start).2.displayed = 0 ∧ (calls os State.start).2.initialized = false) := by
  have hdone : ∀ (os : List (Except PyErr Unit)) (s : State), s.initialized = true →
      (calls os s).2 = s := by
    intro os
    induction os with
    | nil => intro s _; rfl
    | cons o os ih =>
      intro s hs
      simp only [calls, initNotebookMode, hs, if_true]
      exact ih s hs
  induction os with
  | nil =>
    constructor
    · intro h
      simp [Spec.AnySuccess] at h
    · intro _
      exact ⟨rfl, rfl⟩
  | cons o os ih =>
    cases o with
    | error e =>
      have h1 : (calls (.error e :: os) State.start).2 = (calls os State.start).2 := rfl
      have h2 : Spec.AnySuccess (.error e :: os) ↔ Spec.AnySuccess os := by
        simp [Spec.AnySuccess]
      rw [h1, h2]
      exact ih
    | ok u =>
      have h1 : (calls (.ok u :: os) State.start).2 = ⟨true, 1⟩ := by
        have : (calls (.ok u :: os) State.start).2 = (calls os ⟨true, 1⟩).2 := rfl
        rw [this, hdone os _ rfl]
      have h2 : Spec.AnySuccess (.ok u :: os) := by simp [Spec.AnySuccess]
      rw [h1]
      exact ⟨fun _ => ⟨rfl, rfl⟩, fun h => absurd h2 h⟩

/-- What the caller sees: every call before the first success reports its own failure,
so loading is retried, and every call from then on succeeds, even if loading would
fail. -/
theorem C84_retry (es : List PyErr) (os : List (Except PyErr Unit)) :
    (calls (es.map .error ++ .ok () :: os) State.start).1
      = es.map .error ++ .ok () :: os.map fun _ => .ok () := by
  have hdone : ∀ (os : List (Except PyErr Unit)) (s : State), s.initialized = true →
      (calls os s).1 = os.map fun _ => .ok () := by
    intro os
    induction os with
    | nil => intro s _; rfl
    | cons o os ih =>
      intro s hs
      simp only [calls, initNotebookMode, hs, if_true, List.map_cons]
      rw [ih s hs]
  induction es with
  | nil =>
    have : (calls (.ok () :: os) State.start).1 = .ok () :: (calls os ⟨true, 1⟩).1 := rfl
    rw [List.map_nil, List.nil_append, this, hdone os _ rfl, List.nil_append]
  | cons e es ih =>
    have : (calls ((e :: es).map .error ++ .ok () :: os) State.start).1
        = .error e :: (calls (es.map .error ++ .ok () :: os) State.start).1 := rfl
    rw [this, ih]
    rfl

/-- Two failures, a success and two more calls. -/
example : Spec.AnySuccess [.error .keyError, .error .keyError, .ok (), .error .keyError, .ok ()] := by
  simp [Spec.AnySuccess]

end Attitude.Props
