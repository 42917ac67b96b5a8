import Verif.Props.Hyperbola

/-!
# C258: the straight edges of the drawn error band
-/

namespace Attitude.Props

open Attitude Matrix Hyperbola

namespace Spec

/-- The point at the part `t` of the way from `u` to `v`. -/
def along (u v : Vec 2) (t : ℝ) : Vec 2 := (1 - t) • u + t • v

end Spec

lemma le_of_sq_le_sq' {x y : ℝ} (h : x ^ 2 ≤ y ^ 2) (hy : 0 ≤ y) : x ≤ y :=
  le_of_abs_le (by rw [← abs_of_nonneg hy]; exact sq_le_sq.1 h)

/-- A chord of the upper branch: above the branch, and how far. -/
lemma chord_of_branch {a b p q A B t g : ℝ} (ha : 0 < a) (hb : 0 < b)
    (hA : Spec.OnBranch a b p A) (hB : Spec.OnBranch a b q B) (t0 : 0 ≤ t) (t1 : t ≤ 1)
    (hg : Spec.OnBranch a b ((1 - t) * p + t * q) g) :
    g ≤ (1 - t) * A + t * B ∧
      (1 - t) * A + t * B ≤ g + b * (q - p) ^ 2 / (8 * a ^ 2) ∧
      (1 - t) * A + t * B ≤ g + b / a * |q - p| / 2 ∧
      (0 < t → t < 1 → p ≠ q → g < (1 - t) * A + t * B) := by
  obtain ⟨A0, hA⟩ := hA
  obtain ⟨B0, hB⟩ := hB
  obtain ⟨g0, hg⟩ := hg
  obtain ⟨k, hk⟩ : ∃ k, k = b / a := ⟨_, rfl⟩
  have k0 : 0 < k := by rw [hk]; positivity
  have sq : ∀ {x y : ℝ}, y ^ 2 / b ^ 2 - x ^ 2 / a ^ 2 = 1 → y ^ 2 = b ^ 2 + k ^ 2 * x ^ 2 := by
    intro x y h
    have : y ^ 2 / b ^ 2 = 1 + x ^ 2 / a ^ 2 := by linarith
    rw [div_eq_iff (by positivity)] at this
    rw [this, hk]
    field_simp
  replace hA := sq hA
  replace hB := sq hB
  replace hg := sq hg
  have hAB : (A * B) ^ 2 - (b ^ 2 + k ^ 2 * (p * q)) ^ 2 = b ^ 2 * k ^ 2 * (p - q) ^ 2 := by
    rw [mul_pow, hA, hB]
    ring
  have hAB0 : 0 < A * B := mul_pos A0 B0
  have lo : b ^ 2 + k ^ 2 * (p * q) ≤ A * B := by
    apply le_of_sq_le_sq' _ hAB0.le
    nlinarith [sq_nonneg (b * k * (p - q))]
  have lo' : p ≠ q → b ^ 2 + k ^ 2 * (p * q) < A * B := by
    intro hpq
    apply lt_of_pow_lt_pow_left₀ 2 hAB0.le
    have : 0 < b ^ 2 * k ^ 2 * (p - q) ^ 2 := by
      have := sub_ne_zero.2 hpq
      positivity
    linarith
  have hi : A * B ≤ b ^ 2 + k ^ 2 * (p * q) + k ^ 2 * (p - q) ^ 2 / 2 := by
    nlinarith [sq_nonneg (A - B)]
  set W := (1 - t) * A + t * B with hW
  have W0 : 0 < W := by
    rcases eq_or_lt_of_le t0 with h | h
    · simp [hW, ← h, A0]
    · have : 0 ≤ (1 - t) * A := mul_nonneg (by linarith) A0.le
      have := mul_pos h B0
      rw [hW]; linarith
  have e : W ^ 2 - g ^ 2 = 2 * (t * (1 - t)) * (A * B - (b ^ 2 + k ^ 2 * (p * q))) := by
    rw [hg, hW]
    linear_combination (1 - t) ^ 2 * hA + t ^ 2 * hB
  have tt : 0 ≤ t * (1 - t) := mul_nonneg t0 (by linarith)
  have tq : t * (1 - t) ≤ 1 / 4 := by nlinarith [sq_nonneg (t - 1 / 2)]
  have gW : g ≤ W := by
    apply le_of_sq_le_sq' _ W0.le
    have := mul_nonneg tt (sub_nonneg.2 lo)
    linarith
  have D : W ^ 2 - g ^ 2 ≤ k ^ 2 * (q - p) ^ 2 / 4 := by
    have h1 : t * (1 - t) * (A * B - (b ^ 2 + k ^ 2 * (p * q)))
        ≤ 1 / 4 * (k ^ 2 * (p - q) ^ 2 / 2) :=
      mul_le_mul tq (by linarith) (sub_nonneg.2 lo) (by norm_num)
    rw [e]
    nlinarith [h1]
  refine ⟨gW, ?_, ?_, ?_⟩
  · have gb : b ≤ g := by
      apply le_of_sq_le_sq' _ g0.le
      rw [hg]
      have := sq_nonneg (k * ((1 - t) * p + t * q))
      nlinarith
    have h2 : (W - g) * (2 * b) ≤ k ^ 2 * (q - p) ^ 2 / 4 := by
      calc (W - g) * (2 * b) ≤ (W - g) * (W + g) :=
            mul_le_mul_of_nonneg_left (by linarith) (by linarith)
        _ = W ^ 2 - g ^ 2 := by ring
        _ ≤ _ := D
    have e3 : b * (q - p) ^ 2 / (8 * a ^ 2) = k ^ 2 * (q - p) ^ 2 / 4 / (2 * b) := by
      rw [hk]; field_simp; ring
    rw [e3, ← sub_le_iff_le_add', le_div_iff₀ (by positivity)]
    exact h2
  · rw [← hk, ← sub_le_iff_le_add']
    apply le_of_sq_le_sq' _ (by positivity)
    have : (k * |q - p| / 2) ^ 2 = k ^ 2 * (q - p) ^ 2 / 4 := by
      rw [div_pow, mul_pow, sq_abs]; norm_num
    rw [this]
    have h3 := mul_nonneg g0.le (sub_nonneg.2 gW)
    have h4 : (W - g) ^ 2 = W ^ 2 - g ^ 2 - 2 * (g * (W - g)) := by ring
    linarith
  · intro h0 h1 hpq
    apply lt_of_pow_lt_pow_left₀ 2 W0.le
    have := mul_pos (mul_pos h0 (sub_pos.2 h1)) (sub_pos.2 (lo' hpq))
    linarith

/-- The polygon filled for `hyperbolic_errors`, with straight edges from each vertex
to the next: over an edge from `xs[i]` to `xs[i+1]` the drawn band contains the true
band of the hyperbola, is wider by at most `b h²/(8 a²)` and by at most `(b/a) h/2` on
each side, and is strictly wider inside the edge. -/
theorem C258_edges (h : Vec 3) (hh : ∀ i, 0 < h i) (T : Mat 3 3) (hT : T.det ≠ 0)
    (ax : Vec 3 × Vec 3) (hax : cross ax.1 ax.2 ≠ 0) (xs : List ℝ) (means : Vec 2) (rev : Bool) :
    ∃ bd e f, hyperbolicErrors h xs T (some ax) means rev = .ok (some bd) ∧ Spec.Frame e f ∧
      ∃ a b : ℝ, 0 < a ∧ 0 < b ∧ a = 1 / Real.sqrt (Spec.weight h T ax.1) ∧
        b = 1 / Real.sqrt (Spec.weight h T ax.2) ∧
      ∀ i, ∀ p q : ℝ, xs[i]? = some p → xs[i + 1]? = some q →
        ∃ l l' u u' : Vec 2, (polygon bd)[i]? = some l ∧ (polygon bd)[i + 1]? = some l' ∧
          (polygon bd)[2 * xs.length - 1 - i]? = some u ∧
          (polygon bd)[2 * xs.length - 2 - i]? = some u' ∧
          ∀ t : ℝ, 0 ≤ t → t ≤ 1 → ∃ x y w : ℝ, x = (1 - t) * p + t * q ∧
            Spec.OnBranch a b x y ∧
            Spec.along l l' t = means + x • e - w • f ∧
            Spec.along u u' t = means + x • e + w • f ∧
            y ≤ w ∧ w ≤ y + b * (q - p) ^ 2 / (8 * a ^ 2) ∧ w ≤ y + b / a * |q - p| / 2 ∧
            (0 < t → t < 1 → p ≠ q → y < w) := by
  obtain ⟨bd, e, f, y, hb, hF, w0, w1, hy, -, hl, hu⟩ :=
    C71_hyperbolic_errors h hh T hT ax hax xs means rev
  have hu' : bd.top = (xs.map fun x => means + x • e + y x • f).reverse := by
    rw [← hu, List.reverse_reverse]
  have a0 : 0 < 1 / Real.sqrt (Spec.weight h T ax.1) := by positivity
  have b0 : 0 < 1 / Real.sqrt (Spec.weight h T ax.2) := by positivity
  refine ⟨bd, e, f, hb, hF, _, _, a0, b0, rfl, rfl, ?_⟩
  intro i p q hp hq
  have hi : i + 1 < xs.length := (List.getElem?_eq_some_iff.1 hq).1
  have ll : bd.bottom.length = xs.length := by simp [hl]
  refine ⟨means + p • e - y p • f, means + q • e - y q • f, means + p • e + y p • f,
    means + q • e + y q • f, ?_, ?_, ?_, ?_, ?_⟩
  · rw [polygon, List.getElem?_append_left (by omega)]
    simp [hl, hp]
  · rw [polygon, List.getElem?_append_left (by omega)]
    simp [hl, hq]
  · rw [polygon, List.getElem?_append_right (by omega), ll, hu',
      List.getElem?_reverse (by simp; omega)]
    rw [List.length_map, show xs.length - 1 - (2 * xs.length - 1 - i - xs.length) = i by omega]
    simp [hp]
  · rw [polygon, List.getElem?_append_right (by omega), ll, hu',
      List.getElem?_reverse (by simp; omega)]
    rw [List.length_map, show xs.length - 1 - (2 * xs.length - 2 - i - xs.length) = i + 1 by omega]
    simp [hq]
  · intro t t0 t1
    refine ⟨_, y ((1 - t) * p + t * q), (1 - t) * y p + t * y q, rfl, hy _, ?_, ?_, ?_⟩
    · ext j
      simp only [Spec.along, Pi.add_apply, Pi.sub_apply, Pi.smul_apply, smul_eq_mul]
      ring
    · ext j
      simp only [Spec.along, Pi.add_apply, Pi.smul_apply, smul_eq_mul]
      ring
    · exact chord_of_branch a0 b0 (hy p) (hy q) t0 t1 (hy _)

/-- Three different error axes, a vertical section and three x values. -/
example : ∃ bd, hyperbolicErrors ![4, 9, 1] [-1, 0, 2] 1 (some (![0, 1, 0], ![0, 0, 1])) 0 false
    = .ok (some bd) := by
  obtain ⟨bd, -, -, h, -⟩ := C258_edges ![4, 9, 1] (by intro i; fin_cases i <;> norm_num) 1
    (by simp) (![0, 1, 0], ![0, 0, 1])
    (by intro h; have := congrFun h 0; simp [cross] at this) [-1, 0, 2] 0 false
  exact ⟨bd, h⟩

/-- The same for `hyperbola_values`: values joined by straight lines are nowhere
below the hyperbola. -/
theorem C258_values (h : Vec 2) (h0 : 0 < h 0) (h1 : 0 < h 1) (p q t : ℝ) (t0 : 0 ≤ t)
    (t1 : t ≤ 1) :
    ∃ A B y : ℝ, hyperbolaValues h p = some A ∧ hyperbolaValues h q = some B ∧
      hyperbolaValues h ((1 - t) * p + t * q) = some y ∧
      y ≤ (1 - t) * A + t * B ∧
      (1 - t) * A + t * B ≤ y + Real.sqrt (h 1) * (q - p) ^ 2 / (8 * h 0) := by
  obtain ⟨y, hy, hb, -⟩ := C71_hyperbola_values h h0 h1
  refine ⟨_, _, _, hy p, hy q, hy _, ?_⟩
  have := chord_of_branch (Real.sqrt_pos.2 h0) (Real.sqrt_pos.2 h1) (hb p) (hb q) t0 t1 (hb _)
  rw [Real.sq_sqrt h0.le] at this
  exact ⟨this.1, this.2.1⟩

example : ∃ y, hyperbolaValues ![4, 9] 1 = some y := by
  obtain ⟨-, -, y, -, -, h, -⟩ := C258_values ![4, 9] (by norm_num) (by norm_num) 0 2 (1 / 2)
    (by norm_num) (by norm_num)
  norm_num at h
  exact ⟨y, h⟩

/-- The drawn band is not the band: with the x values -1 and 1 and unit axes the
drawn band at 0 is `√2` times as wide as the errors. -/
theorem C258_exact_false : ∃ A B y : ℝ, hyperbolaValues ![1, 1] (-1) = some A ∧
    hyperbolaValues ![1, 1] 1 = some B ∧ hyperbolaValues ![1, 1] 0 = some y ∧
    0 < y ∧ (1 - 1 / 2) * A + 1 / 2 * B = Real.sqrt 2 * y := by
  obtain ⟨y, hy, hb, hq, he, -⟩ := C71_hyperbola_values ![1, 1] (by norm_num) (by norm_num)
  refine ⟨_, _, _, hy _, hy _, hy _, (hb 0).1, ?_⟩
  rw [he 1, hq 1, hq 0]
  norm_num
  ring

end Attitude.Props
