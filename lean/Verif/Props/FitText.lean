import Verif.Model.FitText
import Verif.Props.ErrorAxes
import Verif.Props.PcaAngles

/-! # The text of a fit: C281 -/

namespace Attitude.Props

open Attitude FitText

namespace Spec

/-- Blanks and line ends separate words. -/
def blankChar (c : Char) : Bool := c = ' ' ∨ c = '\n'

/-- The words of a text, with the word begun so far. -/
def wordsFrom : List Char → List Char → List (List Char)
  | cur, [] => if cur = [] then [] else [cur]
  | cur, c :: cs =>
    if blankChar c then (if cur = [] then wordsFrom [] cs else cur :: wordsFrom [] cs)
    else wordsFrom (cur ++ [c]) cs

/-- The word that follows the first occurrence of a label. -/
def wordAfter (label : List Char) : List (List Char) → Option (List Char)
  | a :: b :: rest => if a = label then some b else wordAfter label (b :: rest)
  | _ => none

/-- The word that a reader finds after a label. -/
def field (label text : List Char) : Option (List Char) := wordAfter label (wordsFrom [] text)

/-- The value of a digit. -/
def digitOf (c : Char) : Option ℕ :=
  if '0' ≤ c ∧ c ≤ '9' then some (c.toNat - 48) else none

/-- The number that decimal digits stand for, after digits worth `v`. -/
def digitsFrom : ℕ → List Char → Option ℕ
  | v, [] => some v
  | v, c :: cs => (digitOf c).bind fun d => digitsFrom (10 * v + d) cs

/-- The number of hundredths that a text like `12.34` stands for: digits, a dot, two digits. -/
def hundredthsOf (w : List Char) : Option ℕ :=
  let k := w.length - 3
  if w.length < 4 ∨ w.getD k ' ' ≠ '.' then none
  else digitsFrom 0 (w.take k ++ w.drop (k + 1))

/-- The word shows a number: `nan` if there is none, otherwise a decimal number with two digits
after the dot that differs from it by at most half a hundredth. -/
def Shows (w : List Char) (x : Option ℝ) : Prop :=
  (x = none → w = ['n', 'a', 'n']) ∧
  ∀ y, x = some y → ∃ h : ℕ, hundredthsOf w = some h ∧ |(h : ℝ) / 100 - y| ≤ 1 / 200

end Spec

open Spec (Shows)

lemma digitOf_digitChar {d : ℕ} (h : d < 10) : Spec.digitOf (digitChar d) = some d := by
  interval_cases d <;> decide

lemma digitChar_word {d : ℕ} (h : d < 10) : Spec.blankChar (digitChar d) = false := by
  interval_cases d <;> decide

lemma natText_word (n : ℕ) : (∀ c ∈ natText n, Spec.blankChar c = false) ∧ natText n ≠ [] := by
  induction n using Nat.strong_induction_on with
  | _ n ih =>
    rw [natText]
    split_ifs with h
    · refine ⟨fun c hc => ?_, by simp⟩
      rw [List.mem_singleton] at hc
      rw [hc]; exact digitChar_word h
    · refine ⟨fun c hc => ?_, by simp⟩
      rcases List.mem_append.1 hc with k | k
      · exact (ih _ (by omega)).1 c k
      · rw [List.mem_singleton] at k
        rw [k]; exact digitChar_word (Nat.mod_lt _ (by norm_num))

lemma digitsFrom_append (u w : List Char) (v : ℕ) :
    Spec.digitsFrom v (u ++ w) = (Spec.digitsFrom v u).bind fun v' => Spec.digitsFrom v' w := by
  induction u generalizing v with
  | nil => simp [Spec.digitsFrom]
  | cons c cs ih =>
    simp only [List.cons_append, Spec.digitsFrom]
    cases Spec.digitOf c with
    | none => simp
    | some d => simp [ih]

lemma digitsFrom_natText (n : ℕ) : Spec.digitsFrom 0 (natText n) = some n := by
  induction n using Nat.strong_induction_on with
  | _ n ih =>
    rw [natText]
    split_ifs with h
    · simp [Spec.digitsFrom, digitOf_digitChar h]
    · rw [digitsFrom_append, ih _ (by omega)]
      simp only [Option.bind_some, Spec.digitsFrom,
        digitOf_digitChar (Nat.mod_lt n (by norm_num : 0 < 10)), Option.some.injEq]
      omega

lemma roundHalfEven_near {x : ℝ} (hx : 0 ≤ x) : |(roundHalfEven x : ℝ) - x| ≤ 1 / 2 := by
  have h1 := Nat.floor_le hx
  have h2 := Nat.lt_floor_add_one x
  unfold roundHalfEven
  split_ifs with a b c
  · rw [abs_le]; constructor <;> linarith
  · push_cast; rw [abs_le]; constructor <;> linarith
  · rw [abs_le]; constructor <;> linarith
  · push_cast; rw [abs_le]; constructor <;> linarith

lemma hundredthsOf_fixed2 {x : ℝ} (hx : 0 ≤ x) :
    Spec.hundredthsOf (fixed2 (some x)) = some (roundHalfEven (x * 100)) := by
  have hne := (natText_word (roundHalfEven (x * 100) / 100)).2
  have hd := digitsFrom_natText (roundHalfEven (x * 100) / 100)
  simp only [fixed2, not_lt.2 hx, if_false, abs_of_nonneg hx, List.nil_append]
  generalize roundHalfEven (x * 100) = h at *
  generalize natText (h / 100) = t at *
  have hl : 0 < t.length := List.length_pos_of_ne_nil hne
  have hlen : (t ++ ['.', digitChar (h / 10 % 10), digitChar (h % 10)]).length - 3 = t.length := by
    simp
  unfold Spec.hundredthsOf
  simp only [hlen]
  rw [if_neg]
  · have e1 : List.take t.length (t ++ ['.', digitChar (h / 10 % 10), digitChar (h % 10)]) = t := by
      simp
    have e2 : List.drop (t.length + 1) (t ++ ['.', digitChar (h / 10 % 10), digitChar (h % 10)])
        = [digitChar (h / 10 % 10), digitChar (h % 10)] := by
      rw [List.drop_append]
      simp
    rw [e1, e2, digitsFrom_append, hd]
    simp only [Option.bind_some, Spec.digitsFrom,
      digitOf_digitChar (Nat.mod_lt h (by norm_num : 0 < 10)),
      digitOf_digitChar (Nat.mod_lt (h / 10) (by norm_num : 0 < 10)), Option.some.injEq]
    omega
  · simp
    omega

lemma shows_fixed2 {x : Option ℝ} (hx : ∀ y, x = some y → 0 ≤ y) : Shows (fixed2 x) x := by
  refine ⟨?_, ?_⟩
  · rintro rfl
    decide
  · rintro y rfl
    have hy := hx y rfl
    refine ⟨_, hundredthsOf_fixed2 hy, ?_⟩
    have := roundHalfEven_near (x := y * 100) (by positivity)
    rw [abs_le] at this ⊢
    constructor <;> linarith [this.1, this.2]

lemma fixed2_word (x : Option ℝ) :
    (∀ c ∈ fixed2 x, Spec.blankChar c = false) ∧ fixed2 x ≠ [] := by
  cases x with
  | none => exact ⟨by decide, by decide⟩
  | some x =>
    simp only [fixed2]
    refine ⟨fun c hc => ?_, by simp⟩
    simp only [List.append_assoc, List.mem_append, List.mem_cons, List.not_mem_nil, or_false] at hc
    rcases hc with k | k | k | k | k
    · split_ifs at k
      · rw [List.mem_singleton] at k
        rw [k]; decide
      · simp at k
    · exact (natText_word _).1 c k
    · rw [k]; decide
    · rw [k]; exact digitChar_word (Nat.mod_lt _ (by norm_num))
    · rw [k]; exact digitChar_word (Nat.mod_lt _ (by norm_num))

lemma wordsFrom_word (w cur : List Char) (hw : ∀ c ∈ w, Spec.blankChar c = false) (rest : List Char) :
    Spec.wordsFrom cur (w ++ rest) = Spec.wordsFrom (cur ++ w) rest := by
  induction w generalizing cur with
  | nil => simp
  | cons c cs ih =>
    rw [List.cons_append, Spec.wordsFrom, hw c (by simp)]
    simp only [Bool.false_eq_true, if_false]
    rw [ih _ fun d hd => hw d (by simp [hd])]
    simp

lemma wordsFrom_end (w : List Char) (hw : ∀ c ∈ w, Spec.blankChar c = false) (hne : w ≠ []) :
    Spec.wordsFrom [] w = [w] := by
  have := wordsFrom_word w [] hw []
  rw [List.append_nil] at this
  rw [this]
  simp [Spec.wordsFrom, hne]

lemma wordsFrom_blank (w : List Char) (hw : ∀ c ∈ w, Spec.blankChar c = false) (hne : w ≠ [])
    {b : Char} (hb : Spec.blankChar b = true) (rest : List Char) :
    Spec.wordsFrom [] (w ++ b :: rest) = w :: Spec.wordsFrom [] rest := by
  rw [wordsFrom_word w [] hw, Spec.wordsFrom, hb, if_pos rfl, if_neg (by simpa using hne)]
  simp

lemma wordsFrom_skip {b : Char} (hb : Spec.blankChar b = true) (rest : List Char) :
    Spec.wordsFrom [] (b :: rest) = Spec.wordsFrom [] rest := by
  rw [Spec.wordsFrom, hb, if_pos rfl, if_pos rfl]

/-- The words of the text: the labels, each followed by its number. -/
lemma words_reprText (s d r a b : Option ℝ) :
    Spec.wordsFrom [] (reprText s d r a b) =
      ["Orientation::".toList, "strike:".toList, fixed2 s, "dip:".toList, fixed2 d,
        "error::".toList, "min:".toList, fixed2 a, "max:".toList, fixed2 b, "rake:".toList,
        fixed2 r] := by
  have c1 : "Orientation:: strike: ".toList
      = "Orientation::".toList ++ ' ' :: ("strike:".toList ++ ' ' :: []) := by decide +kernel
  have c2 : " dip: ".toList = ' ' :: ("dip:".toList ++ ' ' :: []) := by decide +kernel
  have c3 : "\n".toList = '\n' :: [] := by decide +kernel
  have c4 : "      error:: min: ".toList = ' ' :: ' ' :: ' ' :: ' ' :: ' ' :: ' ' ::
      ("error::".toList ++ ' ' :: ("min:".toList ++ ' ' :: [])) := by decide +kernel
  have c5 : " max: ".toList = ' ' :: ("max:".toList ++ ' ' :: []) := by decide +kernel
  have c6 : " rake: ".toList = ' ' :: ("rake:".toList ++ ' ' :: []) := by decide +kernel
  have sp : Spec.blankChar ' ' = true := by decide
  have nl : Spec.blankChar '\n' = true := by decide
  unfold reprText
  rw [c1, c2, c3, c4, c5, c6]
  simp only [List.cons_append, List.append_assoc, List.nil_append]
  rw [wordsFrom_blank _ (by decide +kernel) (by decide +kernel) sp,
    wordsFrom_blank _ (by decide +kernel) (by decide +kernel) sp,
    wordsFrom_blank _ (fixed2_word s).1 (fixed2_word s).2 sp,
    wordsFrom_blank _ (by decide +kernel) (by decide +kernel) sp,
    wordsFrom_blank _ (fixed2_word d).1 (fixed2_word d).2 nl,
    wordsFrom_skip sp, wordsFrom_skip sp, wordsFrom_skip sp, wordsFrom_skip sp, wordsFrom_skip sp,
    wordsFrom_skip sp, wordsFrom_blank _ (by decide +kernel) (by decide +kernel) sp,
    wordsFrom_blank _ (by decide +kernel) (by decide +kernel) sp,
    wordsFrom_blank _ (fixed2_word a).1 (fixed2_word a).2 sp,
    wordsFrom_blank _ (by decide +kernel) (by decide +kernel) sp,
    wordsFrom_blank _ (fixed2_word b).1 (fixed2_word b).2 sp,
    wordsFrom_blank _ (by decide +kernel) (by decide +kernel) sp,
    wordsFrom_end _ (fixed2_word r).1 (fixed2_word r).2]

lemma digitChar_colon {d : ℕ} (h : d < 10) : digitChar d ≠ ':' := by
  interval_cases d <;> decide

lemma natText_colon (n : ℕ) : ':' ∉ natText n := by
  induction n using Nat.strong_induction_on with
  | _ n ih =>
    rw [natText]
    split_ifs with h
    · rw [List.mem_singleton]; exact (digitChar_colon h).symm
    · rw [List.mem_append, List.mem_singleton]
      rintro (k | k)
      · exact ih _ (by omega) k
      · exact digitChar_colon (Nat.mod_lt _ (by norm_num)) k.symm

lemma fixed2_colon (x : Option ℝ) : ':' ∉ fixed2 x := by
  cases x with
  | none => decide +kernel
  | some x =>
    simp only [fixed2, List.append_assoc, List.mem_append, List.mem_cons, List.not_mem_nil, or_false]
    rintro (k | k | k | k | k)
    · split_ifs at k
      · rw [List.mem_singleton] at k; exact absurd k (by decide)
      · simp at k
    · exact natText_colon _ k
    · exact absurd k (by decide)
    · exact digitChar_colon (Nat.mod_lt _ (by norm_num)) k.symm
    · exact digitChar_colon (Nat.mod_lt _ (by norm_num)) k.symm

lemma fixed2_label (x : Option ℝ) {label : List Char} (h : ':' ∈ label) : fixed2 x ≠ label := by
  rintro rfl
  exact fixed2_colon x h

lemma wordAfter_skip {l a b : List Char} {rest : List (List Char)} (h : a ≠ l) :
    Spec.wordAfter l (a :: b :: rest) = Spec.wordAfter l (b :: rest) := by
  rw [Spec.wordAfter, if_neg h]

lemma wordAfter_hit {l b : List Char} {rest : List (List Char)} :
    Spec.wordAfter l (l :: b :: rest) = some b := by
  rw [Spec.wordAfter, if_pos rfl]

/-- Every number is found after its label. -/
lemma reprText_fields (s d r a b : Option ℝ) :
    Spec.field "strike:".toList (reprText s d r a b) = some (fixed2 s) ∧
    Spec.field "dip:".toList (reprText s d r a b) = some (fixed2 d) ∧
    Spec.field "rake:".toList (reprText s d r a b) = some (fixed2 r) ∧
    Spec.field "min:".toList (reprText s d r a b) = some (fixed2 a) ∧
    Spec.field "max:".toList (reprText s d r a b) = some (fixed2 b) := by
  have m2 : ':' ∈ "dip:".toList := by decide +kernel
  have m3 : ':' ∈ "rake:".toList := by decide +kernel
  have m4 : ':' ∈ "min:".toList := by decide +kernel
  have m5 : ':' ∈ "max:".toList := by decide +kernel
  unfold Spec.field
  rw [words_reprText]
  refine ⟨?_, ?_, ?_, ?_, ?_⟩
  · rw [wordAfter_skip (by decide +kernel), wordAfter_hit]
  · rw [wordAfter_skip (by decide +kernel), wordAfter_skip (by decide +kernel),
      wordAfter_skip (fixed2_label s m2), wordAfter_hit]
  · rw [wordAfter_skip (by decide +kernel), wordAfter_skip (by decide +kernel),
      wordAfter_skip (fixed2_label s m3), wordAfter_skip (by decide +kernel),
      wordAfter_skip (fixed2_label d m3), wordAfter_skip (by decide +kernel),
      wordAfter_skip (by decide +kernel), wordAfter_skip (fixed2_label a m3),
      wordAfter_skip (by decide +kernel), wordAfter_skip (fixed2_label b m3), wordAfter_hit]
  · rw [wordAfter_skip (by decide +kernel), wordAfter_skip (by decide +kernel),
      wordAfter_skip (fixed2_label s m4), wordAfter_skip (by decide +kernel),
      wordAfter_skip (fixed2_label d m4), wordAfter_skip (by decide +kernel), wordAfter_hit]
  · rw [wordAfter_skip (by decide +kernel), wordAfter_skip (by decide +kernel),
      wordAfter_skip (fixed2_label s m5), wordAfter_skip (by decide +kernel),
      wordAfter_skip (fixed2_label d m5), wordAfter_skip (by decide +kernel),
      wordAfter_skip (by decide +kernel), wordAfter_skip (fixed2_label a m5), wordAfter_hit]

lemma rake_nonneg {n : ℕ} (f : Pca.Fit n) (y : ℝ) (h : Pca.rake f = some y) : 0 ≤ y := by
  unfold Pca.rake at h
  cases hd : f.dipDr with
  | none => simp [hd] at h
  | some d =>
    simp only [hd, Option.bind_eq_bind, Option.bind_some, Rotations.angle] at h
    cases hq : fdiv (vdot d (f.V 0)) (norm d * norm (f.V 0)) with
    | none => simp [hq] at h
    | some q =>
      simp only [hq, Option.bind_some, Option.some.injEq] at h
      rw [← h]
      unfold degrees
      have := Real.arccos_nonneg q
      have := Real.pi_pos
      positivity

/-- The text of every fit shows, after the labels, the strike, dip, rake and both angular errors
that the methods give, each to half a hundredth of a degree, and `nan` for a rake that is not
defined; strike, dip and errors always are. -/
theorem C281_shows (Q : ErrorAxes.Quantiles) (hQ : Spec.QuantilesOK Q) (svd : Pca.SvdFn)
    (hs : svd.Valid) {n : ℕ} (a : Fin n → Vec 3) (f : Pca.Fit n)
    (hf : Pca.init svd a none none = .ok (some f)) :
    ∃ s d x y, Pca.strikeDip f = some (s, d) ∧ ErrorAxes.fitAngularErrors Q f = some (x, y) ∧
      (∃ w, Spec.field "strike:".toList (fitRepr Q f) = some w ∧ Shows w (some s)) ∧
      (∃ w, Spec.field "dip:".toList (fitRepr Q f) = some w ∧ Shows w (some d)) ∧
      (∃ w, Spec.field "rake:".toList (fitRepr Q f) = some w ∧ Shows w (Pca.rake f)) ∧
      (∃ w, Spec.field "min:".toList (fitRepr Q f) = some w ∧ Shows w (some (degrees x))) ∧
      (∃ w, Spec.field "max:".toList (fitRepr Q f) = some w ∧ Shows w (some (degrees y))) := by
  obtain ⟨s, d, h, h1, h2, h3, h4⟩ := C12_fit_ranges svd hs a f hf
  obtain ⟨x, y, e, x0, -, y0, -, -⟩ := C22_angular_errors_partial Q hQ svd hs a f hf false 0.95
    (by norm_num) (by norm_num)
  have e' : ErrorAxes.fitAngularErrors Q f = some (x, y) := e
  have R : fitRepr Q f = reprText (some s) (some d) (Pca.rake f) (some (degrees x))
      (some (degrees y)) := by
    simp only [fitRepr, h, e', Option.map_some]
  obtain ⟨f1, f2, f3, f4, f5⟩ := reprText_fields (some s) (some d) (Pca.rake f) (some (degrees x))
    (some (degrees y))
  rw [← R] at f1 f2 f3 f4 f5
  refine ⟨s, d, x, y, h, e', ⟨_, f1, shows_fixed2 ?_⟩, ⟨_, f2, shows_fixed2 ?_⟩,
    ⟨_, f3, shows_fixed2 (rake_nonneg f)⟩, ⟨_, f4, shows_fixed2 ?_⟩, ⟨_, f5, shows_fixed2 ?_⟩⟩
  · rintro _ ⟨⟩; exact h1
  · rintro _ ⟨⟩; exact h3
  · rintro _ ⟨⟩; exact x0
  · rintro _ ⟨⟩; exact y0

/-- The hypotheses are met by a tilted plane. -/
example : ∃ (svd : Pca.SvdFn) (f : Pca.Fit 4) (w : List Char) (s : ℝ), svd.Valid ∧
    Pca.init svd Witness.tilted none none = .ok (some f) ∧
    Spec.field "strike:".toList (fitRepr Spec.quantiles2 f) = some w ∧ Shows w (some s) := by
  obtain ⟨svd, f, hs, hf, _⟩ := Witness.exists_tilted
  obtain ⟨s, _, _, _, _, _, ⟨w, h, h'⟩, _⟩ := C281_shows _ Spec.quantiles2_ok svd hs _ f hf
  exact ⟨svd, f, w, s, hs, hf, h, h'⟩

lemma roundHalfEven_mono {x y : ℝ} (hx : 0 ≤ x) (h : x ≤ y) :
    roundHalfEven x ≤ roundHalfEven y := by
  have hy := hx.trans h
  have a1 := Nat.floor_le hx
  have a2 := Nat.lt_floor_add_one x
  have b1 := Nat.floor_le hy
  have b2 := Nat.lt_floor_add_one y
  have hm := Nat.floor_le_floor h
  rcases hm.lt_or_eq with k | k
  · have u : roundHalfEven x ≤ ⌊x⌋₊ + 1 := by unfold roundHalfEven; split_ifs <;> omega
    have v : ⌊y⌋₊ ≤ roundHalfEven y := by unfold roundHalfEven; split_ifs <;> omega
    omega
  · unfold roundHalfEven
    rw [k] at *
    split_ifs <;> first | omega | (exfalso; linarith)

/-- The order of two numbers is not reversed in the text: of two fits, or of the two errors of
one fit, the larger number never has the smaller text. -/
theorem C281_order {x y : ℝ} (hx : 0 ≤ x) (h : x ≤ y) :
    ∃ a b : ℕ, Spec.hundredthsOf (fixed2 (some x)) = some a ∧
      Spec.hundredthsOf (fixed2 (some y)) = some b ∧ a ≤ b :=
  ⟨_, _, hundredthsOf_fixed2 hx, hundredthsOf_fixed2 (hx.trans h),
    roundHalfEven_mono (by positivity) (by linarith)⟩

example : ∃ a b : ℕ, Spec.hundredthsOf (fixed2 (some 1.234)) = some a ∧
    Spec.hundredthsOf (fixed2 (some 1.236)) = some b ∧ a ≤ b :=
  C281_order (by norm_num) (by norm_num)

/-- Three points of the plane of strike `s` and dip `d`. -/
noncomputable def planePoints (s d : ℝ) : Fin 3 → Vec 3 :=
  ![![0, 0, 0], ![Real.sin (radians s), Real.cos (radians s), 0],
    ![-(Real.cos (radians s) * Real.cos (radians d)), Real.sin (radians s) * Real.cos (radians d),
      Real.sin (radians d)]]

/-- Every strike, and every dip between 0 and 90 degrees, is the one of a fit. -/
lemma planePoints_fit (svd : Pca.SvdFn) (hs : svd.Valid) {s d : ℝ} (h0 : 0 ≤ s) (h1 : s < 360)
    (hd : 0 < d) (hd' : d < 90) :
    ∃ f, Pca.init svd (planePoints s d) none none = .ok (some f) ∧
      Pca.strikeDip f = some (s, d) := by
  have q1 := Real.sin_sq_add_cos_sq (radians s)
  have q2 := Real.sin_sq_add_cos_sq (radians d)
  have hpi := Real.pi_pos
  have hcd : 0 < Real.cos (radians d) := by
    apply Real.cos_pos_of_mem_Ioo
    constructor
    · have : 0 < radians d := by unfold radians; positivity
      linarith
    · unfold radians; nlinarith
  obtain ⟨f, hf⟩ := Pca.init_default_exists svd (le_refl 3) (planePoints s d)
  have hm : norm (Pca.sdNormal s d) = 1 := by
    rw [norm3, Real.sqrt_eq_one]
    simp only [Pca.sdNormal, Matrix.cons_val_zero, Matrix.cons_val_one, Matrix.cons_val]
    linear_combination (Real.sin (radians d) ^ 2) * q1 + q2
  have hp : ∀ i, Spec.OnPlane (Pca.sdNormal s d) 0 (planePoints s d i) := by
    intro i
    fin_cases i
    · simp [Spec.OnPlane, planePoints]
    · simp [Spec.OnPlane, planePoints, Pca.sdNormal]; ring
    · simp [Spec.OnPlane, planePoints, Pca.sdNormal]
      linear_combination (-Real.sin (radians d) * Real.cos (radians d)) * q1
  have p1 := normal_perp_of_coplanar hs hf _ 0 hm hp 1 0
  have p2 := normal_perp_of_coplanar hs hf _ 0 hm hp 2 0
  simp [planePoints] at p1 p2
  obtain ⟨hu, hz, _⟩ := C06_best_fit svd hs _ f hf
  obtain ⟨s', d', h, k1, k2, k3, k4⟩ := C12_fit_ranges svd hs _ f hf
  obtain ⟨s'', d'', h', -, -, hn⟩ := C14_fit_right_hand_rule svd hs _ f hf
  rw [h] at h'
  cases h'
  have hsq : f.normal 0 ^ 2 + f.normal 1 ^ 2 + f.normal 2 ^ 2 = 1 := by
    have := norm_sq' f.normal
    rw [hu, Fin.sum_univ_three] at this
    linarith
  have hn' : f.normal = Pca.sdNormal s' d' := hn
  generalize f.normal = v at *
  set S := Real.sin (radians s)
  set C := Real.cos (radians s)
  set D := Real.sin (radians d)
  set E := Real.cos (radians d)
  have e2 : v 2 = (v 0 * (D * C) - v 1 * (D * S) + v 2 * E) * E := by
    linear_combination D * p2 - (v 2) * q2
  have e0 : v 0 = (v 0 * (D * C) - v 1 * (D * S) + v 2 * E) * (D * C) := by
    linear_combination S * p1 + (-C * E) * p2 + (-v 0) * q1 + (-(C * (C * v 0 - S * v 1))) * q2
  have e1 : v 1 = (v 0 * (D * C) - v 1 * (D * S) + v 2 * E) * -(D * S) := by
    linear_combination C * p1 + (S * E) * p2 + (-v 1) * q1 + (S * (C * v 0 - S * v 1)) * q2
  generalize v 0 * (D * C) - v 1 * (D * S) + v 2 * E = t at e0 e1 e2
  have ht : t ^ 2 = 1 := by
    rw [e0, e1, e2] at hsq
    linear_combination hsq + (-t ^ 2 * D ^ 2) * q1 + (-t ^ 2) * q2
  have ht1 : t = 1 := by
    rcases sq_eq_sq_iff_eq_or_eq_neg.1 (ht.trans (one_pow 2).symm) with k | k
    · exact k
    · rw [e2, k] at hz; linarith
  rw [ht1] at e0 e1 e2
  have hv : Pca.sdNormal s' d' = Pca.sdNormal s d := by
    rw [← hn']
    funext i
    fin_cases i
    · simpa [Pca.sdNormal] using e0
    · simpa [Pca.sdNormal] using e1
    · simpa [Pca.sdNormal] using e2
  obtain ⟨a1, a2⟩ := Pca.sdNormal_inj k1 k2 k3 k4 h0 h1 hd.le hd'.le hv
  have a3 := a2 (by rw [a1]; exact hd.ne')
  exact ⟨f, hf, by rw [h, a1, a3]⟩

lemma natText_360 : natText 360 = ['3', '6', '0'] := by
  rw [natText, natText, natText]
  decide +kernel

/-- The strike is a compass direction below 360, but for every strike above 359.995, and every
dip, there are measurements with that strike and a text that says 360. -/
theorem C281_strike_false (Q : ErrorAxes.Quantiles) (svd : Pca.SvdFn) (hs : svd.Valid) (s d : ℝ)
    (h0 : 359.995 < s) (h1 : s < 360) (hd : 0 < d) (hd' : d < 90) :
    ∃ (a : Fin 3 → Vec 3) (f : Pca.Fit 3), Pca.init svd a none none = .ok (some f) ∧
      Pca.strikeDip f = some (s, d) ∧
      Spec.field "strike:".toList (fitRepr Q f) = some ['3', '6', '0', '.', '0', '0'] := by
  obtain ⟨f, hf, hsd⟩ := planePoints_fit svd hs (by linarith) h1 hd hd'
  refine ⟨_, f, hf, hsd, ?_⟩
  unfold fitRepr
  rw [(reprText_fields _ _ _ _ _).1, hsd]
  have hs : 0 ≤ s := by linarith
  have hfl : ⌊s * 100⌋₊ = 35999 := by
    rw [Nat.floor_eq_iff (by positivity)]
    constructor <;> norm_num <;> linarith
  have hR : roundHalfEven (s * 100) = 36000 := by
    unfold roundHalfEven
    rw [hfl, if_neg (by push_cast; linarith), if_pos (by push_cast; linarith)]
  simp only [Option.map_some, fixed2, abs_of_nonneg hs, not_lt.2 hs, if_false, hR, List.nil_append]
  norm_num
  rw [natText_360]
  decide +kernel

/-- The hypotheses are met by strike 359.999 and dip 30. -/
example : ∃ (svd : Pca.SvdFn) (f : Pca.Fit 3), svd.Valid ∧
    Spec.field "strike:".toList (fitRepr Spec.quantiles2 f)
      = some ['3', '6', '0', '.', '0', '0'] := by
  obtain ⟨svd, hs⟩ := Pca.exists_valid_svd
  obtain ⟨_, f, _, _, h⟩ := C281_strike_false Spec.quantiles2 svd hs 359.999 30 (by norm_num)
    (by norm_num) (by norm_num) (by norm_num)
  exact ⟨svd, f, hs, h⟩

end Attitude.Props
