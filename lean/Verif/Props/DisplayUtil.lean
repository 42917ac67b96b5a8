import Verif.Model.DisplayUtil
import Verif.Props.ErrorAxes

/-!
# Properties of `display/util.py`, `display/plot/misc.py` and `error/bootstrap.py`
-/

namespace Attitude.Props

open Attitude DisplayUtil

namespace Spec

/-- The value of the first attribute of an HTML tag: what is between the first and the second
quotation mark. -/
def srcValue (s : List Char) : List Char :=
  ((s.dropWhile (· ≠ '"')).drop 1).takeWhile (· ≠ '"')

/-- The value of a hexadecimal digit. -/
def hexValue (c : Char) : Option ℕ := ("0123456789ABCDEF".toList.idxOf? c)

/-- Percent-decoding (RFC 3986) to bytes. -/
def percentDecode : List Char → Option (List ℕ)
  | [] => some []
  | '%' :: a :: b :: r => do some ((16 * (← hexValue a) + (← hexValue b)) :: (← percentDecode r))
  | c :: r => do some (c.toNat :: (← percentDecode r))

/-- The value of a character of the base64 alphabet, given by its code (RFC 4648, table 1). -/
def base64Value (c : ℕ) : Option ℕ :=
  ("ABCDEFGHIJKLMNOPQRSTUVWXYZabcdefghijklmnopqrstuvwxyz0123456789+/".toList.map Char.toNat).idxOf? c

/-- Base64 decoding (RFC 4648): each group of four characters is a number of 24 bits, that is
three bytes; the last group may be filled with one or two `=`. -/
def base64Decode : List ℕ → Option (List ℕ)
  | [] => some []
  | a :: b :: c :: d :: r => do
    let x ← base64Value a
    let y ← base64Value b
    if c = 61 ∧ d = 61 ∧ r = [] then some [(x * 2 ^ 6 + y) / 2 ^ 4]
    else
      let z ← base64Value c
      if d = 61 ∧ r = [] then
        some [(x * 2 ^ 12 + y * 2 ^ 6 + z) / 2 ^ 10, (x * 2 ^ 12 + y * 2 ^ 6 + z) / 2 ^ 2 % 2 ^ 8]
      else
        let w ← base64Value d
        let v := x * 2 ^ 18 + y * 2 ^ 12 + z * 2 ^ 6 + w
        some (v / 2 ^ 16 :: v / 2 ^ 8 % 2 ^ 8 :: v % 2 ^ 8 :: (← base64Decode r))
  | _ => none

/-- The bytes of the image that a browser shows for an `img` tag whose source is a `data:` URL
with a PNG image (RFC 2397). -/
def imageBytes (tag : List Char) : Option (List ℕ) :=
  let url := srcValue tag
  let head := "data:image/png;base64,".toList
  if url.take head.length = head then (percentDecode (url.drop head.length)).bind base64Decode
  else none

/-- `y = m x + c` is a least-squares line through the points. -/
def IsRegressionLine {n : ℕ} (p : Fin n → ℝ × ℝ) (m c : ℝ) : Prop :=
  ∀ m' c' : ℝ, ∑ i, ((p i).2 - (m * (p i).1 + c)) ^ 2 ≤ ∑ i, ((p i).2 - (m' * (p i).1 + c')) ^ 2

end Spec

lemma base64Value_char : ∀ i < 64, Spec.base64Value (b64char i) = some i := by decide

lemma b64char_ne : ∀ i < 64, b64char i ≠ 61 := by decide

lemma b64char_lt : ∀ i < 64, b64char i < 128 := by decide

/-- Decoding inverts the encoding. -/
lemma base64_encode : ∀ l : List Byte, Spec.base64Decode (b64encode l) = some (l.map Fin.val)
  | [] => by simp [b64encode, Spec.base64Decode]
  | [a] => by
    have ha := a.2
    have h1 := base64Value_char (a / 4) (by omega)
    have h2 := base64Value_char (a % 4 * 16) (by omega)
    simp only [b64encode, Spec.base64Decode, h1, h2, and_self, if_true, List.map_cons, List.map_nil,
      Option.bind_eq_bind, Option.bind_some, Option.some.injEq, List.cons.injEq, and_true]
    omega
  | [a, b] => by
    have ha := a.2
    have hb := b.2
    have h1 := base64Value_char (a / 4) (by omega)
    have h2 := base64Value_char (a % 4 * 16 + b / 16) (by omega)
    have h3 := base64Value_char (b % 16 * 4) (by omega)
    have n3 := b64char_ne (b % 16 * 4) (by omega)
    simp only [b64encode, Spec.base64Decode, h1, h2, h3, n3, if_false, and_self, if_true,
      List.map_cons, List.map_nil, Option.bind_eq_bind, Option.bind_some, Option.some.injEq,
      List.cons.injEq, and_true]
    omega
  | a :: b :: c :: r => by
    have ha := a.2
    have hb := b.2
    have hc := c.2
    have h1 := base64Value_char (a / 4) (by omega)
    have h2 := base64Value_char (a % 4 * 16 + b / 16) (by omega)
    have h3 := base64Value_char (b % 16 * 4 + c / 64) (by omega)
    have h4 := base64Value_char (c % 64) (by omega)
    have n3 := b64char_ne (b % 16 * 4 + c / 64) (by omega)
    have n4 := b64char_ne (c % 64) (by omega)
    have ih := base64_encode r
    simp only [b64encode, Spec.base64Decode, h1, h2, h3, h4, n3, n4, ih, false_and, if_false,
      List.map_cons, Option.bind_eq_bind, Option.bind_some, Option.some.injEq, List.cons.injEq,
      and_true]
    omega

/-- All characters of the encoding are ASCII. -/
lemma b64encode_lt : ∀ l : List Byte, ∀ x ∈ b64encode l, x < 128
  | [] => by simp [b64encode]
  | [a] => by
    have ha := a.2
    have h1 := b64char_lt (a / 4) (by omega)
    have h2 := b64char_lt (a % 4 * 16) (by omega)
    simp only [b64encode, List.mem_cons, List.not_mem_nil, or_false]
    rintro x (h | h | h | h) <;> omega
  | [a, b] => by
    have ha := a.2
    have hb := b.2
    have h1 := b64char_lt (a / 4) (by omega)
    have h2 := b64char_lt (a % 4 * 16 + b / 16) (by omega)
    have h3 := b64char_lt (b % 16 * 4) (by omega)
    simp only [b64encode, List.mem_cons, List.not_mem_nil, or_false]
    rintro x (h | h | h | h) <;> omega
  | a :: b :: c :: r => by
    have ha := a.2
    have hb := b.2
    have hc := c.2
    have h1 := b64char_lt (a / 4) (by omega)
    have h2 := b64char_lt (a % 4 * 16 + b / 16) (by omega)
    have h3 := b64char_lt (b % 16 * 4 + c / 64) (by omega)
    have h4 := b64char_lt (c % 64) (by omega)
    have ih := b64encode_lt r
    simp only [b64encode, List.mem_cons]
    rintro x (h | h | h | h | h)
    · omega
    · omega
    · omega
    · omega
    · exact ih x h

lemma percent_safe : ∀ b < 128, quoteSafe b = true →
    (Char.ofNat b).toNat = b ∧ Char.ofNat b ≠ '%' ∧ Char.ofNat b ≠ '"' := by decide

lemma percent_hex : ∀ i < 16, Spec.hexValue (hexDigit i) = some i ∧ hexDigit i ≠ '"' := by decide

/-- Percent-decoding inverts `quote`. -/
lemma percent_quote (l : List ℕ) (hl : ∀ x ∈ l, x < 128) : Spec.percentDecode (quote l) = some l := by
  induction l with
  | nil => simp [quote, Spec.percentDecode]
  | cons b r ih =>
    have hb : b < 128 := hl b (by simp)
    have ih := ih fun x hx => hl x (by simp [hx])
    simp only [quote, List.flatMap_cons] at ih ⊢
    by_cases h : quoteSafe b = true
    · obtain ⟨h1, h2, -⟩ := percent_safe b hb h
      simp only [quoteByte, h, if_true, List.singleton_append]
      rw [Spec.percentDecode, ih]
      · simp [h1]
      · intro a b' r' h'
        exact absurd h' h2
    · have h1 := (percent_hex (b / 16) (by omega)).1
      have h2 := (percent_hex (b % 16) (by omega)).1
      simp only [quoteByte, h, if_false, List.cons_append, List.nil_append, Bool.false_eq_true]
      rw [Spec.percentDecode, ih, h1, h2]
      simp
      omega

lemma quote_mark (l : List ℕ) (hl : ∀ x ∈ l, x < 128) : ∀ c ∈ quote l, c ≠ '"' := by
  intro c hc
  simp only [quote, List.mem_flatMap] at hc
  obtain ⟨b, hb, hc⟩ := hc
  have hb := hl b hb
  unfold quoteByte at hc
  split at hc
  · next h =>
    simp only [List.mem_singleton] at hc
    exact hc ▸ (percent_safe b hb h).2.2
  · simp only [List.mem_cons, List.not_mem_nil, or_false] at hc
    rcases hc with h | h | h
    · rw [h]; decide
    · exact h ▸ (percent_hex (b / 16) (by omega)).2
    · exact h ▸ (percent_hex (b % 16) (by omega)).2

/-- Whatever bytes the figure is saved as, a browser that is given the tag shows exactly these
bytes as its image. -/
theorem C188_image (png : List Byte) : Spec.imageBytes (encode png) = some (png.map Fin.val) := by
  have hq := quote_mark (b64encode png) (b64encode_lt png)
  have ht : ∀ l : List Char, (∀ c ∈ l, c ≠ '"') → ∀ r, (l ++ '"' :: r).takeWhile (· ≠ '"') = l := by
    intro l h r
    rw [List.takeWhile_append_of_pos (by simpa using h)]
    simp
  have ha : Spec.srcValue (encode png) =
      "data:image/png;base64,".toList ++ quote (b64encode png) := by
    unfold Spec.srcValue encode
    have e : "<img src =\"".toList ++ ("data:image/png;base64".toList ++ ',' :: quote (b64encode png)) ++
        "\"/>".toList = "<img src =\"".toList ++
        (("data:image/png;base64,".toList ++ quote (b64encode png)) ++ '"' :: "/>".toList) := by
      simp
    rw [e]
    have e2 : ∀ r : List Char, (("<img src =\"".toList ++ r).dropWhile (· ≠ '"')).drop 1 = r := by
      intro r
      simp
    rw [e2, ht]
    intro c hc
    rw [List.mem_append] at hc
    rcases hc with h | h
    · revert c
      decide
    · exact hq c h
  simp only [Spec.imageBytes, ha]
  rw [if_pos (by rw [List.take_left']; rfl), List.drop_left' rfl,
    percent_quote _ (b64encode_lt png)]
  exact base64_encode png

/-- Figures are told apart by their tags. -/
theorem C188_injective (p q : List Byte) (h : encode p = encode q) : p = q := by
  have := C188_image p
  rw [h, C188_image q, Option.some.injEq] at this
  exact (List.map_injective_iff.2 Fin.val_injective this).symm

example : encode [137, 80, 78, 71] ≠ encode [137, 80, 78, 72] := fun h => by
  simpa using C188_injective _ _ h

example : String.ofList (encode [251, 255]) = "<img src =\"data:image/png;base64,%2B/8%3D\"/>" := by decide

lemma flat_regression {n : ℕ} (x y : Fin n → ℝ) (hx : ∑ i, x i = 0) (hy : ∑ i, y i = 0)
    (hxy : ∑ i, x i * y i = 0) (m c : ℝ) :
    ∑ i, (y i - (m * x i + c)) ^ 2 = ∑ i, y i ^ 2 + m ^ 2 * ∑ i, x i ^ 2 + n * c ^ 2 := by
  have e : ∀ i, (y i - (m * x i + c)) ^ 2 = y i ^ 2 + m ^ 2 * x i ^ 2 + c ^ 2 - 2 * m * (x i * y i)
      - 2 * c * y i + 2 * m * c * x i := fun i => by ring
  simp only [e, Finset.sum_add_distrib, Finset.sum_sub_distrib, ← Finset.mul_sum, hx, hy, hxy,
    Finset.sum_const, Finset.card_univ, Fintype.card_fin, nsmul_eq_mul]
  ring

/-- The plots of `aligned_residuals` show distances from the fitted plane over positions along its
first and its second axis, and the regression line through them is the trace of the plane: flat,
at height zero, and there is no other unless all positions coincide. -/
theorem C189_flat_partial (svd : Pca.SvdFn) (hs : svd.Valid) {n : ℕ} (a : Fin n → Vec 3) (f : Pca.Fit n)
    (hf : Pca.init svd a none none = .ok (some f)) :
    ∃ long short, alignedResiduals 2 f = .ok [long, short] ∧
      (∀ i, long.points i = (vdot (fun j => a i j - meanRows a j) (f.V 0),
        vdot (fun j => a i j - meanRows a j) (f.V 2))) ∧
      (∀ i, short.points i = (vdot (fun j => a i j - meanRows a j) (f.V 1),
        vdot (fun j => a i j - meanRows a j) (f.V 2))) ∧
      Spec.IsRegressionLine long.points 0 0 ∧ Spec.IsRegressionLine short.points 0 0 ∧
      (f.s 0 ≠ 0 → ∀ m c, Spec.IsRegressionLine long.points m c → m = 0 ∧ c = 0) ∧
      (f.s 1 ≠ 0 → ∀ m c, Spec.IsRegressionLine short.points m c → m = 0 ∧ c = 0) := by
  obtain ⟨U, h⟩ := Pca.init_default hs hf
  have hn : 0 < n := by
    have := h.size
    omega
  have key : ∀ j : Fin 3, j ≠ 2 → ∀ m c, ∑ i, (Pca.rotated f i 2 - (m * Pca.rotated f i j + c)) ^ 2
      = ∑ i, Pca.rotated f i 2 ^ 2 + m ^ 2 * f.s j ^ 2 + n * c ^ 2 := by
    intro j hj m c
    rw [flat_regression _ _ (rotated_sum h j) (rotated_sum h 2)
      (by rw [rotated_gram h, if_neg hj])]
    have := rotated_gram h j j
    simp only [if_true, ← pow_two] at this
    rw [this]
  have flat : ∀ j : Fin 3, j ≠ 2 →
      Spec.IsRegressionLine (fun i => (Pca.rotated f i j, Pca.rotated f i 2)) 0 0 := by
    intro j hj m c
    simp only [key j hj]
    have : 0 ≤ m ^ 2 * f.s j ^ 2 := by positivity
    have : 0 ≤ (n : ℝ) * c ^ 2 := by positivity
    linarith
  have only : ∀ j : Fin 3, j ≠ 2 → f.s j ≠ 0 → ∀ m c,
      Spec.IsRegressionLine (fun i => (Pca.rotated f i j, Pca.rotated f i 2)) m c → m = 0 ∧ c = 0 := by
    intro j hj hsj m c hm
    have := hm 0 0
    simp only [key j hj] at this
    have h1 : 0 ≤ m ^ 2 * f.s j ^ 2 := by positivity
    have h2 : 0 ≤ (n : ℝ) * c ^ 2 := by positivity
    have h3 : m ^ 2 * f.s j ^ 2 = 0 := by linarith
    have h4 : (n : ℝ) * c ^ 2 = 0 := by linarith
    have hn' : (n : ℝ) ≠ 0 := by positivity
    constructor
    · simpa [hsj] using h3
    · simpa [hn'] using h4
  have pos : ∀ i j, Pca.rotated f i j = vdot (fun k => a i k - meanRows a k) (f.V j) := by
    intro i j
    simp [Pca.rotated, Matrix.mul_apply, vdot, h.arr, Coordinates.centered]
  refine ⟨⟨_, _⟩, ⟨_, _⟩, by simp [alignedResiduals, alignedResidualsWith, valueMethods, sections]; exact ⟨rfl, rfl⟩, ?_, ?_, flat 0 (by decide), flat 1 (by decide),
    only 0 (by decide), only 1 (by decide)⟩
  · intro i
    simp only [pos]
  · intro i
    simp only [pos]

example : ∃ (svd : Pca.SvdFn) (f : Pca.Fit 4), svd.Valid ∧
    Pca.init svd Witness.tilted none none = .ok (some f) ∧ f.s 0 ≠ 0 ∧ f.s 1 ≠ 0 := by
  obtain ⟨svd, f, hs, hf, -, h⟩ := Witness.exists_tilted
  exact ⟨svd, f, hs, hf, by simp [h], by simp [h]⟩

/-- With Python 3 and later `aligned_residuals` returns no figure, for any fit; with `values` it would return
the same figure as with Python 2. -/
theorem C189_python3_false {n : ℕ} (f : Pca.Fit n) (python : ℕ) (hp : 3 ≤ python) :
    alignedResiduals python f = .error .attributeError ∧
    alignedResidualsWith "values" python f = alignedResiduals 2 f := by
  simp [alignedResiduals, alignedResidualsWith, valueMethods, hp]

example : 3 ≤ 3 := le_refl 3

/-- `bootstrap` never returns: every call is a `TypeError`, also the documented one with an array as
its only argument. -/
theorem C190_bootstrap_false (positional : ℕ) (keywords : List String) :
    bootstrap positional keywords = .error .typeError := by
  unfold bootstrap
  have h : bindArgs bootstrapParams 1 ["func"] = .error .typeError := by decide
  cases h' : bindArgs bootstrapParams positional keywords with
  | error e =>
    have : e = .typeError := by
      unfold bindArgs at h'
      split at h'
      · exact (Except.error.inj h').symm
      · split at h'
        · cases h'
        · exact (Except.error.inj h').symm
    rw [this]
    rfl
  | ok u => rw [h]; rfl

/-- The calls whose arguments `bootstrap` accepts are those with one argument, the array, given by
position or by name; also these raise. -/
theorem C190_accepted (positional : ℕ) (keywords : List String) :
    bindArgs bootstrapParams positional keywords = .ok () ↔
      (positional = 1 ∧ keywords = []) ∨
        (positional = 0 ∧ keywords ≠ [] ∧ ∀ k ∈ keywords, k = "array") := by
  unfold bindArgs bootstrapParams
  match positional with
  | 0 =>
    cases keywords with
    | nil => simp
    | cons a l =>
      simp only [List.length_singleton, not_lt_zero', if_false, List.drop_zero, ne_eq, reduceCtorEq,
        not_false_eq_true, true_and, false_and, or_false, zero_ne_one, false_or]
      constructor
      · intro h
        split at h
        · rename_i h'
          simpa using h'.1
        · cases h
      · intro h
        rw [if_pos]
        refine ⟨by simpa using h, ?_⟩
        simp [h a (by simp)]
  | 1 =>
    cases keywords <;> simp
  | k + 2 => simp

example : bindArgs bootstrapParams 1 [] = .ok () := by decide

end Attitude.Props
