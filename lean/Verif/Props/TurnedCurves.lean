import Verif.Props.PcaMotion
import Verif.Props.PcaCovariance
import Verif.Props.Display

/-!
# C238: turning the measurements turns the error curves
-/

namespace Attitude.Props

open Attitude Pca Matrix Stereonet

lemma turn_mulVec (α : ℝ) : ∃ R : Mat 3 3, R * R.transpose = 1 ∧ ∀ v, Spec.turn α v = R *ᵥ v := by
  have := Real.sin_sq_add_cos_sq (α * Real.pi / 180)
  refine ⟨!![Real.cos (α * Real.pi / 180), Real.sin (α * Real.pi / 180), 0;
    -Real.sin (α * Real.pi / 180), Real.cos (α * Real.pi / 180), 0; 0, 0, 1], ?_, fun v => ?_⟩
  · ext i j
    fin_cases i <;> fin_cases j <;> simp [Matrix.mul_apply, Fin.sum_univ_three] <;> nlinarith
  · funext i
    fin_cases i <;> simp [Spec.turn, Matrix.mulVec, dotProduct, Fin.sum_univ_three] <;> ring

/-- Products of the data with an axis. -/
lemma svd_dot_row {m : ℕ} {A U : Mat m 3} {s : Vec 3} {V : Mat 3 3} (h : IsSVD A U s V)
    (v : Vec 3) (j : Fin 3) : (A *ᵥ v) ⬝ᵥ (A *ᵥ V j) = s j ^ 2 * (v ⬝ᵥ V j) := by
  have e : ∀ w, A *ᵥ w = U *ᵥ (fun j => s j * (V *ᵥ w) j) := by
    intro w
    rw [h.recon, ← Matrix.mulVec_mulVec, ← Matrix.mulVec_mulVec]
    congr 1
    funext j
    rw [Matrix.mulVec_diagonal]
  rw [e, e, Matrix.dotProduct_mulVec, ← Matrix.mulVec_transpose, Matrix.mulVec_mulVec, h.orthU,
    Matrix.one_mulVec, h.V_row]
  simp only [dotProduct, Pi.single_apply, mul_ite, mul_one, mul_zero, Finset.sum_ite_eq',
    Finset.mem_univ, if_true, Matrix.mulVec]
  have : ∑ i, V j i * v i = ∑ i, v i * V j i := Finset.sum_congr rfl fun _ _ => mul_comm _ _
  rw [this]
  ring

lemma expand_rows {V : Mat 3 3} (h : V * V.transpose = 1) (w : Vec 3) (j : Fin 3) :
    w j = (w ⬝ᵥ V 0) * V 0 j + (w ⬝ᵥ V 1) * V 1 j + (w ⬝ᵥ V 2) * V 2 j := by
  have h' : V.transpose * V = 1 := mul_eq_one_comm.1 h
  have e : w = V.transpose *ᵥ (V *ᵥ w) := by rw [Matrix.mulVec_mulVec, h', Matrix.one_mulVec]
  have e' := congrFun e j
  simp only [Matrix.mulVec, dotProduct, Matrix.transpose_apply, Fin.sum_univ_three] at e' ⊢
  rw [e']
  ring

/-- The axes of turned data are the turned axes, up to sign, if the three singular values differ. -/
lemma moved_rows {svd svd' : SvdFn} (hs : svd.Valid) (hs' : svd'.Valid) {n : ℕ}
    {a : Fin n → Vec 3} {f g : Fit n} {l α : ℝ} (hl : 0 < l) {t : Vec 3}
    (hf : init svd a none none = .ok (some f))
    (hg : init svd' (Spec.moved l α t a) none none = .ok (some g)) (h12 : f.s 2 < f.s 1)
    (h01 : f.s 1 < f.s 0) :
    (∀ j, g.s j = l * f.s j) ∧
      ∀ i, g.V i = Spec.turn α (f.V i) ∨ g.V i = -Spec.turn α (f.V i) := by
  obtain ⟨U, h⟩ := init_default hs hf
  obtain ⟨U', h'⟩ := init_default hs' hg
  obtain ⟨R, hR, hturn⟩ := turn_mulVec α
  obtain ⟨hsv, -⟩ := related_fits h h' hR hl (fun w => by
    rw [← hturn]
    simp only [mulVec_moved, mul_pow, ← Finset.mul_sum])
  refine ⟨hsv, fun i => ?_⟩
  set w := Spec.turn (-α) (g.V i) with hw
  have hgw : g.V i = Spec.turn α w := by rw [hw, turn_turn_neg]
  have hdot : ∀ u v : Vec 3, Spec.turn α u ⬝ᵥ Spec.turn α v = u ⬝ᵥ v := by
    intro u v
    have := turn_dot α u v
    simpa only [vdot, dotProduct] using this
  have hmul : ∀ v, Matrix.of (Coordinates.centered (Spec.moved l α t a)) *ᵥ Spec.turn α v
      = l • (Matrix.of (Coordinates.centered a) *ᵥ v) := by
    intro v
    funext k
    rw [mulVec_moved]
    rfl
  have hz : ∀ j, j ≠ i → w ⬝ᵥ f.V j = 0 := by
    intro j hj
    have e1 := svd_dot_row h'.svd (Spec.turn α (f.V j)) i
    rw [hgw, hmul, hmul, hdot, smul_dotProduct, dotProduct_smul, dotProduct_comm,
      svd_dot_row h.svd w j, hsv, dotProduct_comm (f.V j)] at e1
    simp only [smul_eq_mul] at e1
    have e2 : (f.s j ^ 2 - f.s i ^ 2) * (w ⬝ᵥ f.V j) = 0 := by
      have : l ^ 2 * ((f.s j ^ 2 - f.s i ^ 2) * (w ⬝ᵥ f.V j)) = 0 := by linear_combination e1
      rcases mul_eq_zero.1 this with k | k
      · exact absurd k (by positivity)
      · exact k
    rcases mul_eq_zero.1 e2 with k | k
    · exfalso
      have hn := h.svd.nonneg
      have : f.s j = f.s i := by
        have a := h.svd.nonneg' j
        have b := h.svd.nonneg' i
        exact (sq_eq_sq₀ a b).1 (by linarith)
      fin_cases i <;> fin_cases j <;> simp at hj this <;> linarith
    · exact k
  have hwu : w ⬝ᵥ w = 1 := by
    rw [← hdot, ← hgw]
    have := h'.svd.row_dot i i
    simpa only [vdot, dotProduct, if_true] using this
  have hc : w = (w ⬝ᵥ f.V i) • f.V i := by
    funext k
    have e := expand_rows h.svd.orthV w k
    rw [e]
    simp only [Pi.smul_apply, smul_eq_mul]
    fin_cases i <;> simp [hz 0, hz 1, hz 2]
  set c := w ⬝ᵥ f.V i with hcdef
  have hrow : f.V i ⬝ᵥ f.V i = 1 := by
    have := h.svd.row_dot i i
    simpa only [vdot, dotProduct, if_true] using this
  have hc2 : c ^ 2 = 1 := by
    rw [hc, smul_dotProduct, dotProduct_smul, hrow] at hwu
    simp only [smul_eq_mul, mul_one] at hwu
    linarith
  rcases mul_self_eq_one_iff.1 (show c * c = 1 by rw [← sq]; exact hc2) with k | k
  · left; rw [hgw, hc, k, one_smul]
  · right; rw [hgw, hc, k, neg_one_smul, turn_neg]


/-! ## The curves -/

lemma turned_world {axes axes' : Mat 3 3} {α : ℝ} {σ : Vec 3}
    (h : ∀ i, axes' i = σ i • Spec.turn α (axes i)) (e : Vec 3) :
    toWorld e axes' = Spec.turn α (toWorld (fun i => e i * σ i) axes) := by
  have h' : ∀ i j, axes' i j = σ i * Spec.turn α (axes i) j := fun i j => congrFun (h i) j
  funext j
  simp only [toWorld, Fin.sum_univ_three, h']
  fin_cases j <;> simp [Spec.turn, toWorld, Fin.sum_univ_three] <;> ring

/-- All reflections of a sample in the axes of the ellipse are among the `2n - 1` samples. -/
lemma mirrored_samples {n k : ℕ} (hn : 2 ≤ n) (hk : k < n) {σ τ : ℝ} (hσ : σ = 1 ∨ σ = -1)
    (hτ : τ = 1 ∨ τ = -1) :
    ∃ k' < 2 * n - 1, Real.cos (linspace (2 * n - 1) k') = σ * Real.cos (linspace n k) ∧
      Real.sin (linspace (2 * n - 1) k') = τ * Real.sin (linspace n k) := by
  obtain ⟨m, rfl⟩ : ∃ m, n = m + 2 := ⟨n - 2, by omega⟩
  have h3 : ((m : ℝ) + 1) ≠ 0 := by positivity
  have hl : ∀ j : ℕ, linspace (m + 2) j = 2 * Real.pi * j / (m + 1) := by
    intro j
    rw [linspace_of_ne (by omega)]
    push_cast
    congr 1
    ring
  have hl2 : ∀ j : ℕ, linspace (2 * (m + 2) - 1) j = Real.pi * j / (m + 1) := by
    intro j
    rw [show 2 * (m + 2) - 1 = 2 * m + 3 by omega, linspace_of_ne (by omega)]
    push_cast
    rw [show (2 * (m : ℝ) + 3 - 1) = 2 * (m + 1) by ring]
    field_simp
  have hrefl : linspace (m + 2) (m + 1 - k) = 2 * Real.pi - linspace (m + 2) k := by
    rw [hl, hl, Nat.cast_sub (by omega)]
    push_cast
    field_simp
  have hhalf : ∀ j < m + 2, ∃ k' < 2 * (m + 2) - 1,
      Real.cos (linspace (2 * (m + 2) - 1) k') = -Real.cos (linspace (m + 2) j) ∧
      Real.sin (linspace (2 * (m + 2) - 1) k') = -Real.sin (linspace (m + 2) j) := by
    intro j hj
    obtain ⟨k', hk', h | h⟩ := half_turn_double hn hj
    · exact ⟨k', hk', by rw [h, Real.cos_add_pi], by rw [h, Real.sin_add_pi]⟩
    · refine ⟨k', hk', ?_, ?_⟩
      · rw [← Real.cos_add_pi, ← h, Real.cos_add_two_pi]
      · rw [← Real.sin_add_pi, ← h, Real.sin_add_two_pi]
  have hdouble : ∀ j < m + 2, ∃ k' < 2 * (m + 2) - 1,
      linspace (2 * (m + 2) - 1) k' = linspace (m + 2) j := by
    intro j hj
    refine ⟨2 * j, by omega, ?_⟩
    rw [hl, hl2]
    push_cast
    ring
  rcases hσ with rfl | rfl <;> rcases hτ with rfl | rfl
  · obtain ⟨k', h, e⟩ := hdouble k hk
    exact ⟨k', h, by rw [e, one_mul], by rw [e, one_mul]⟩
  · obtain ⟨k', h, e⟩ := hdouble (m + 1 - k) (by omega)
    refine ⟨k', h, ?_, ?_⟩
    · rw [e, hrefl, Real.cos_two_pi_sub, one_mul]
    · rw [e, hrefl, Real.sin_two_pi_sub, neg_one_mul]
  · obtain ⟨k', h, e, e'⟩ := hhalf (m + 1 - k) (by omega)
    refine ⟨k', h, ?_, ?_⟩
    · rw [e, hrefl, Real.cos_two_pi_sub, neg_one_mul]
    · rw [e', hrefl, Real.sin_two_pi_sub, neg_neg, one_mul]
  · obtain ⟨k', h, e, e'⟩ := hhalf k hk
    exact ⟨k', h, by rw [e, neg_one_mul], by rw [e', neg_one_mul]⟩

lemma turn_smul (α c : ℝ) (v : Vec 3) : Spec.turn α (c • v) = c • Spec.turn α v := by
  funext i
  fin_cases i <;> simp [Spec.turn] <;> ring

lemma norm_turn (α : ℝ) (v : Vec 3) : Attitude.norm (Spec.turn α v) = Attitude.norm v := by
  unfold Attitude.norm
  have := turn_dot α v v
  rw [sum_sq_eq_vdot, sum_sq_eq_vdot, this]

lemma norm_scaled {c : ℝ} (hc : 0 < c) (v : Vec 3) :
    Attitude.norm (c • v) = c * Attitude.norm v := by
  unfold Attitude.norm
  simp only [Pi.smul_apply, smul_eq_mul, mul_pow, ← Finset.mul_sum]
  rw [Real.sqrt_mul (sq_nonneg c), Real.sqrt_sq hc.le]

/-- A scaled and turned vector is shown in the turned direction. -/
lemma turned_position (tr : Bool) {v w : Vec 3} {α c : ℝ} (hc : 0 < c) (hw : w ≠ 0)
    (h : v = c • Spec.turn α w) :
    ∃ p p', planeLonLat tr v = some p ∧ planeLonLat tr w = some p' ∧
      Spec.direction tr p = Spec.turn α (Spec.direction tr p') := by
  have hn : 0 < Attitude.norm w := (norm_pos_iff' w).2 hw
  have hnv : Attitude.norm v = c * Attitude.norm w := by rw [h, norm_scaled hc, norm_turn]
  have hv : v ≠ 0 := (norm_pos_iff' v).1 (by rw [hnv]; positivity)
  obtain ⟨p, e, d⟩ := planeLonLat_dir tr hv
  obtain ⟨p', e', d'⟩ := planeLonLat_dir tr hw
  refine ⟨p, p', e, e', ?_⟩
  rw [d, d', turn_smul, hnv, h, smul_smul]
  congr 1
  field_simp

/-- Both kinds of covariance are positive for the larger two axes and multiplied alike. -/
lemma moved_covariance {svd svd' : SvdFn} (hs : svd.Valid) (hs' : svd'.Valid) {n : ℕ}
    {a b : Fin n → Vec 3} {f g : Fit n} {l : ℝ} (hl : 0 < l)
    (hf : init svd a none none = .ok (some f)) (hg : init svd' b none none = .ok (some g))
    (hsv : ∀ j, g.s j = l * f.s j) (h12 : f.s 2 < f.s 1) (ty : CovType) :
    ∃ (d : Vec 3) (c : ℝ), 0 < c ∧ 0 < d 0 ∧ 0 < d 1 ∧ 0 ≤ d 2 ∧
      covarianceMatrix f ty = Matrix.diagonal d ∧ covarianceMatrix g ty = Matrix.diagonal (c • d) := by
  obtain ⟨U, h⟩ := init_default hs hf
  obtain ⟨U', h'⟩ := init_default hs' hg
  have h2 := h.svd.nonneg
  have h1 : 0 < f.s 1 := by linarith
  have h0 : 0 < f.s 0 := lt_of_lt_of_le h1 h.svd.le01
  have hn : (3 : ℝ) ≤ n := by exact_mod_cast h.size
  have hn1 : (0 : ℝ) < (n : ℝ) - 1 := by linarith
  have hn0 : (0 : ℝ) < n := by linarith
  cases ty
  · refine ⟨fun i => f.s i ^ 2 / ((n : ℝ) - 1), l ^ 2, by positivity, by positivity, by positivity,
      by positivity, sampling_diagonal f, ?_⟩
    rw [sampling_diagonal g]
    congr 1
    funext i
    simp only [hsv, Pi.smul_apply, smul_eq_mul]
    ring
  · refine ⟨fun i => 4 * f.s i ^ 3 / n, l ^ 3, by positivity, by positivity, by positivity,
      by positivity, noise_diagonal h, ?_⟩
    rw [noise_diagonal h']
    congr 1
    funext i
    simp only [hsv, Pi.smul_apply, smul_eq_mul]
    ring

lemma signs_of {axes axes' : Mat 3 3} {α : ℝ}
    (h : ∀ i, axes' i = Spec.turn α (axes i) ∨ axes' i = -Spec.turn α (axes i)) :
    ∃ σ : Vec 3, (∀ i, σ i = 1 ∨ σ i = -1) ∧ ∀ i, axes' i = σ i • Spec.turn α (axes i) := by
  have : ∀ i, ∃ s : ℝ, (s = 1 ∨ s = -1) ∧ axes' i = s • Spec.turn α (axes i) := by
    intro i
    rcases h i with k | k
    · exact ⟨1, Or.inl rfl, by rw [k, one_smul]⟩
    · exact ⟨-1, Or.inr rfl, by rw [k, neg_one_smul]⟩
  choose σ h1 h2 using this
  exact ⟨σ, h1, h2⟩

/-- One sheet of turned data, in terms of the heights the two fits use. -/
lemma turned_sheet {V V' : Mat 3 3} (ho : Spec.OrthonormalRows V) {α c : ℝ} (hc : 0 < c)
    {d σ : Vec 3} (h0 : 0 < d 0) (h1 : 0 < d 1) (hσ : ∀ i, σ i = 1 ∨ σ i = -1)
    (hax : ∀ i, V' i = σ i • Spec.turn α (V i)) {x y : ℝ} (hh : y * σ 2 = x) (tr : Bool) {n : ℕ}
    (hn : 2 ≤ n) :
    ∀ q ∈ (angles n).map fun u => planeLonLat tr (toWorld (girdleVec (c • d) y u) V'),
      ∃ p p', q = some p ∧ some p' ∈ ((angles (2 * n - 1)).map fun u =>
        planeLonLat tr (toWorld (girdleVec d x u) V)) ∧
        Spec.direction tr p = Spec.turn α (Spec.direction tr p') := by
  intro q hq
  obtain ⟨u, hu, rfl⟩ := List.mem_map.1 hq
  obtain ⟨i, hi, rfl⟩ := mem_angles.1 hu
  obtain ⟨i', hi', hcos, hsin⟩ := mirrored_samples hn hi (hσ 0) (hσ 1)
  have hw : toWorld (girdleVec (c • d) y (linspace n i)) V'
      = c • Spec.turn α (toWorld (girdleVec d x (linspace (2 * n - 1) i')) V) := by
    rw [turned_world hax, ← turn_smul]
    congr 1
    funext j
    simp only [toWorld, Fin.sum_univ_three, Pi.smul_apply, smul_eq_mul, girdleVec,
      Matrix.cons_val_zero, Matrix.cons_val_one, Matrix.cons_val, hcos, hsin, ← hh]
    ring
  obtain ⟨p, p', e, e', hd⟩ := turned_position tr hc
    (toWorld_ne ho (girdleVec_ne h0 h1 x (linspace (2 * n - 1) i'))) hw
  refine ⟨p, p', e, ?_, hd⟩
  rw [← e']
  exact List.mem_map.2 ⟨_, mem_angles.2 ⟨i', hi', rfl⟩, rfl⟩

/-- Turning the measurements about the vertical (with any change of scale and any shift) turns
the error curves of the plane: every position of the new curve is, turned back, a position of the
old curve sampled twice as densely.  The two decompositions may choose their signs as they like. -/
theorem C238_curves (svd svd' : SvdFn) (hs : svd.Valid) (hs' : svd'.Valid) {k : ℕ}
    (a : Fin k → Vec 3) (l α : ℝ) (hl : 0 < l) (t : Vec 3) (f g : Fit k)
    (hf : init svd a none none = .ok (some f))
    (hg : init svd' (Spec.moved l α t a) none none = .ok (some g)) (h12 : f.s 2 < f.s 1)
    (h01 : f.s 1 < f.s 0) (hv : f.V 2 2 ≠ 0) (ty : CovType) (sheet : String) (level : ℝ) (tr : Bool)
    (n : ℕ) (hn : 2 ≤ n) :
    ∃ c c', planeErrors g.V (covarianceMatrix g ty) sheet { level, traditional := tr, n := some n }
        = .ok c ∧
      planeErrors f.V (covarianceMatrix f ty) sheet
        { level, traditional := tr, n := some (2 * n - 1) } = .ok c' ∧
      c.length = n ∧ ∀ q ∈ c, ∃ p p', q = some p ∧ some p' ∈ c' ∧
        Spec.direction tr p = Spec.turn α (Spec.direction tr p') := by
  obtain ⟨hsv, hrows⟩ := moved_rows hs hs' hl hf hg h12 h01
  obtain ⟨d, c, hc, h0, h1, h2, ef, eg⟩ := moved_covariance hs hs' hl hf hg hsv h12 ty
  obtain ⟨σ, hσ, hax⟩ := signs_of hrows
  obtain ⟨U, hF⟩ := init_default hs hf
  have ho : Spec.OrthonormalRows f.V := hF.svd.row_dot
  rw [ef, eg]
  refine ⟨_, _, planeErrors_eq g.V (c • d) sheet rfl, planeErrors_eq f.V d sheet rfl,
    by simp [angles_length], ?_⟩
  have hh : height g.V sheet level * σ 2 = height f.V sheet level := by
    have e : g.V 2 2 = σ 2 * f.V 2 2 := by
      have := congrFun (hax 2) 2
      simpa [Spec.turn] using this
    unfold height
    rw [e]
    rcases hσ 2 with k | k <;> rw [k] <;> rcases lt_or_gt_of_ne hv with hv' | hv' <;>
      simp [hv', not_lt.2 hv'.le] <;> split_ifs <;> ring
  exact turned_sheet ho hc h0 h1 hσ hax hh tr hn

/-- For a vertical plane the names of the two sheets depend on the sign that the decomposition
happened to choose: the new sheet is, turned back, the sheet of the same name or the other one. -/
theorem C238_vertical (svd svd' : SvdFn) (hs : svd.Valid) (hs' : svd'.Valid) {k : ℕ}
    (a : Fin k → Vec 3) (l α : ℝ) (hl : 0 < l) (t : Vec 3) (f g : Fit k)
    (hf : init svd a none none = .ok (some f))
    (hg : init svd' (Spec.moved l α t a) none none = .ok (some g)) (h12 : f.s 2 < f.s 1)
    (h01 : f.s 1 < f.s 0) (hv : f.V 2 2 = 0) (ty : CovType) (sheet : String)
    (hsh : sheet = "upper" ∨ sheet = "lower") :
    ∃ sheet', (sheet' = "upper" ∨ sheet' = "lower") ∧
      ∀ (level : ℝ) (tr : Bool) (n : ℕ), 2 ≤ n →
      ∃ c c', planeErrors g.V (covarianceMatrix g ty) sheet { level, traditional := tr, n := some n }
          = .ok c ∧
        planeErrors f.V (covarianceMatrix f ty) sheet'
          { level, traditional := tr, n := some (2 * n - 1) } = .ok c' ∧
        c.length = n ∧ ∀ q ∈ c, ∃ p p', q = some p ∧ some p' ∈ c' ∧
          Spec.direction tr p = Spec.turn α (Spec.direction tr p') := by
  obtain ⟨hsv, hrows⟩ := moved_rows hs hs' hl hf hg h12 h01
  obtain ⟨d, c, hc, h0, h1, h2, ef, eg⟩ := moved_covariance hs hs' hl hf hg hsv h12 ty
  obtain ⟨σ, hσ, hax⟩ := signs_of hrows
  obtain ⟨U, hF⟩ := init_default hs hf
  have ho : Spec.OrthonormalRows f.V := hF.svd.row_dot
  have e : g.V 2 2 = 0 := by
    have := congrFun (hax 2) 2
    simpa [Spec.turn, hv] using this
  obtain ⟨sheet', hsh', hh⟩ : ∃ sheet', (sheet' = "upper" ∨ sheet' = "lower") ∧
      ∀ level, height g.V sheet level * σ 2 = height f.V sheet' level := by
    unfold height
    rw [e, hv]
    rcases hσ 2 with k | k <;> rw [k]
    · exact ⟨sheet, hsh, fun level => by rw [mul_one]⟩
    · rcases hsh with rfl | rfl
      · exact ⟨"lower", Or.inr rfl, fun level => by simp⟩
      · exact ⟨"upper", Or.inl rfl, fun level => by simp⟩
  rw [ef, eg]
  refine ⟨sheet', hsh', fun level tr n hn => ⟨_, _, planeErrors_eq g.V (c • d) sheet rfl,
    planeErrors_eq f.V d sheet' rfl, by simp [angles_length], ?_⟩⟩
  exact turned_sheet ho hc h0 h1 hσ hax (hh level) tr hn

/-- The same for the curve of the poles (in the layout without mirroring). -/
theorem C238_poles (svd svd' : SvdFn) (hs : svd.Valid) (hs' : svd'.Valid) {k : ℕ}
    (a : Fin k → Vec 3) (l α : ℝ) (hl : 0 < l) (t : Vec 3) (f g : Fit k)
    (hf : init svd a none none = .ok (some f))
    (hg : init svd' (Spec.moved l α t a) none none = .ok (some g)) (h12 : f.s 2 < f.s 1)
    (h01 : f.s 1 < f.s 0) (hv : f.V 2 2 ≠ 0) (ty : CovType) (n : ℕ) (hn : 2 ≤ n) :
    ∃ c c' x x', normalErrors g.V (covarianceMatrix g ty) { traditional := false, n := some n }
        = .ok (c, x) ∧
      normalErrors f.V (covarianceMatrix f ty) { traditional := false, n := some (2 * n - 1) }
        = .ok (c', x') ∧
      c.length = n ∧ ∀ q ∈ c, ∃ p p', q = some p ∧ some p' ∈ c' ∧
        Spec.direction false p = Spec.turn α (Spec.direction false p') := by
  obtain ⟨hsv, hrows⟩ := moved_rows hs hs' hl hf hg h12 h01
  obtain ⟨d, c, hc, h0, h1, h2, ef, eg⟩ := moved_covariance hs hs' hl hf hg hsv h12 ty
  obtain ⟨U, hF⟩ := init_default hs hf
  have ho : Spec.OrthonormalRows (flipped f.V) := flipped_orth hF.svd.row_dot
  obtain ⟨τ, hτ, hτa⟩ := signs_of hrows
  have e22 : g.V 2 2 = τ 2 * f.V 2 2 := by
    have := congrFun (hτa 2) 2
    simpa [Spec.turn] using this
  -- the third axes point up, so they agree
  obtain ⟨σ, hσ, hσ2, hax⟩ : ∃ σ : Vec 3, (∀ i, σ i = 1 ∨ σ i = -1) ∧ σ 2 = 1 ∧
      ∀ i, flipped g.V i = σ i • Spec.turn α (flipped f.V i) := by
    refine ⟨fun i => τ i * τ 2, fun i => ?_, ?_, fun i => ?_⟩
    · rcases hτ i with k | k <;> rcases hτ 2 with k' | k' <;> simp [k, k']
    · rcases hτ 2 with k' | k' <;> simp [k']
    · have hng : (-g.V) i = -g.V i := rfl
      have hnf : (-f.V) i = -f.V i := rfl
      unfold flipped
      rw [e22]
      rcases hτ 2 with k | k <;> rw [k] <;> rcases lt_or_gt_of_ne hv with hv' | hv' <;>
        simp [hv', not_lt.2 hv'.le, hng, hnf, hτa i, turn_neg]
  rw [ef, eg]
  refine ⟨_, _, _, _, normalErrors_eq g.V (c • d) rfl, normalErrors_eq f.V d rfl,
    by simp [angles_length], ?_⟩
  intro q hq
  simp only [Option.getD_some] at hq ⊢
  obtain ⟨x, hx, rfl⟩ := List.mem_map.1 hq
  obtain ⟨i, hi, rfl⟩ := mem_angles.1 hx
  obtain ⟨i', hi', hcos, hsin⟩ := mirrored_samples hn hi (hσ 0) (hσ 1)
  have hsq : ∀ i, σ i ^ 2 = 1 := fun i => by rcases hσ i with k | k <;> simp [k]
  have hw : toWorld (normalVec (c • d) (linspace n i)) (flipped g.V)
      = c • Spec.turn α (toWorld (normalVec d (linspace (2 * n - 1) i')) (flipped f.V)) := by
    rw [turned_world hax, ← turn_smul]
    congr 1
    have hr : Real.sqrt ((Real.cos (linspace n i) * (c * d 0)) ^ 2
          + (Real.sin (linspace n i) * (c * d 1)) ^ 2)
        = c * Real.sqrt ((σ 0 * Real.cos (linspace n i) * d 0) ^ 2
          + (σ 1 * Real.sin (linspace n i) * d 1) ^ 2) := by
      rw [show (Real.cos (linspace n i) * (c * d 0)) ^ 2 + (Real.sin (linspace n i) * (c * d 1)) ^ 2
        = c ^ 2 * ((σ 0 * Real.cos (linspace n i) * d 0) ^ 2
          + (σ 1 * Real.sin (linspace n i) * d 1) ^ 2) by
          simp only [mul_pow, hsq]; ring, Real.sqrt_mul (sq_nonneg c), Real.sqrt_sq hc.le]
    funext j
    simp only [toWorld, Fin.sum_univ_three, Pi.smul_apply, smul_eq_mul, normalVec,
      Matrix.cons_val_zero, Matrix.cons_val_one, Matrix.cons_val, hcos, hsin, hσ2, hr]
    ring
  have hne : normalVec d (linspace (2 * n - 1) i') ≠ 0 := by
    intro h
    have := normalVec_ne h0 h1 (linspace (2 * n - 1) i')
    rw [h] at this
    simp at this
  obtain ⟨p, p', e, e', hd⟩ := turned_position false hc (toWorld_ne ho hne) hw
  refine ⟨p, p', e, ?_, hd⟩
  have : normalLonLat false (toWorld (normalVec d (linspace (2 * n - 1) i')) (flipped f.V))
      = some p' := e'
  rw [← this]
  exact List.mem_map.2 ⟨_, mem_angles.2 ⟨i', hi', rfl⟩, rfl⟩

/-- Tilted points with three different singular values, turned by 30 degrees, at twice the scale
and at another place. -/
example : ∃ (svd : SvdFn) (f g : Fit 4), svd.Valid ∧
    init svd Witness.tilted none none = .ok (some f) ∧
    init svd (Spec.moved 2 30 ![1, 2, 3] Witness.tilted) none none = .ok (some g) ∧
    f.s 2 < f.s 1 ∧ f.s 1 < f.s 0 ∧ f.V 2 2 ≠ 0 ∧
    ∃ c, planeErrors g.V (covarianceMatrix g .noise) "upper" { n := some 10 } = .ok c ∧
      c.length = 10 := by
  obtain ⟨svd, f, hs, hf, eV, es⟩ := Witness.exists_tilted
  obtain ⟨g, hg⟩ := init_default_exists svd (by norm_num : 3 ≤ 4)
    (Spec.moved 2 30 ![1, 2, 3] Witness.tilted)
  have h12 : f.s 2 < f.s 1 := by rw [es]; simp
  have h01 : f.s 1 < f.s 0 := by rw [es]; norm_num
  have hv : f.V 2 2 ≠ 0 := by rw [eV]; simp [Witness.tilt]
  obtain ⟨c, -, h, -, hl, -⟩ := C238_curves svd svd hs hs _ 2 30 (by norm_num) _ f g hf hg h12 h01 hv
    .noise "upper" 1 true 10 (by norm_num)
  exact ⟨svd, f, g, hs, hf, hg, h12, h01, hv, c, h, hl⟩

/-- Points on a vertical plane. -/
example : ∃ (svd : SvdFn) (f g : Fit 4) (a : Fin 4 → Vec 3), svd.Valid ∧
    init svd a none none = .ok (some f) ∧
    init svd (Spec.moved 2 30 ![1, 2, 3] a) none none = .ok (some g) ∧
    f.s 2 < f.s 1 ∧ f.s 1 < f.s 0 ∧ f.V 2 2 = 0 := by
  have hV : (!![0, 0, 1; 0, 1, 0; 1, 0, 0] : Mat 3 3) * (!![0, 0, 1; 0, 1, 0; 1, 0, 0] :
      Mat 3 3).transpose = 1 := by
    ext i j
    fin_cases i <;> fin_cases j <;> simp [Matrix.mul_apply, Fin.sum_univ_three]
  obtain ⟨svd, f, hs, hf, eV, es⟩ := Witness.exists_fit _ hV ![3, 2, 1] (by simp) (by simp)
    (by norm_num)
  obtain ⟨g, hg⟩ := init_default_exists svd (by norm_num : 3 ≤ 4)
    (Spec.moved 2 30 ![1, 2, 3] (Witness.points !![0, 0, 1; 0, 1, 0; 1, 0, 0] ![3, 2, 1]))
  exact ⟨svd, f, g, _, hs, hf, hg, by rw [es]; simp, by rw [es]; norm_num, by rw [eV]; simp⟩

end Attitude.Props
