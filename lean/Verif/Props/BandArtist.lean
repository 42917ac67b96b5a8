import Verif.Model.BandArtist
import Verif.Props.Hyperbola
import Mathlib.Data.List.TakeWhile

/-!
# C260: error bands that are drawn and updated
-/

namespace Attitude.Props

open Attitude Hyperbola BandArtist

namespace Spec

/-- The data in force after calls of methods, beginning with `d`: that of the last update that was
computed. -/
noncomputable def latest (d : Option (Option Bands)) : List Op → Option (Option Bands)
  | [] => d
  | .updateData r :: ops =>
    (match r.eval with
      | .ok b => latest (some b) ops
      | .error _ => latest d ops)
  | _ :: ops => latest d ops

/-- Whether a call is one of `plot`. -/
def isPlot : Op → Bool
  | .plot _ => true
  | _ => false

/-- The vertices that show some data; a single point when there is no data. -/
def vertices : Option (Option Bands) → Option (List (Vec 2))
  | none => some [0]
  | some none => none
  | some (some b) => some (b.bottom ++ b.top)

end Spec

lemma vertices_some (d : Option Bands) : Spec.vertices (some d) = d.map polygon := by
  cases d <;> rfl

lemma latest_append (d : Option (Option Bands)) (l m : List Op) :
    Spec.latest d (l ++ m) = Spec.latest (Spec.latest d l) m := by
  induction l generalizing d with
  | nil => rfl
  | cons o l ih =>
    cases o with
    | plot kw => exact ih d
    | plotNominal => exact ih d
    | updateData r =>
      simp only [List.cons_append, Spec.latest]
      cases r.eval with
      | error e => exact ih d
      | ok b => exact ih (some b)

lemma bandRun_append (s : Artist) (l m : List Op) : run s (l ++ m) = run (run s l) m := by
  simp [run, List.foldl_append]

lemma step_data (s : Artist) (o : Op) : (step s o).1.data = Spec.latest s.data [o] := by
  cases o with
  | plot kw =>
    simp only [step, BandArtist.plot, Spec.latest]
    cases h : s.data <;> simp [setPlotData]
  | plotNominal =>
    simp only [step, BandArtist.plotNominal, Spec.latest]
    cases h : s.data <;> simp [h]
  | updateData r =>
    simp only [step, BandArtist.updateData, Spec.latest]
    cases r.eval with
    | error e => rfl
    | ok b => cases s.poly <;> simp [setPlotData]

lemma run_data (s : Artist) (ops : List Op) : (run s ops).data = Spec.latest s.data ops := by
  induction ops generalizing s with
  | nil => rfl
  | cons o ops ih =>
    rw [show run s (o :: ops) = run (step s o).1 ops from rfl, ih, step_data]
    rw [← latest_append]
    rfl

lemma step_length (s : Artist) (o : Op) :
    (step s o).1.patches.length = s.patches.length + if Spec.isPlot o then 1 else 0 := by
  cases o with
  | plot kw =>
    simp only [step, BandArtist.plot, Spec.isPlot, if_true]
    cases s.data <;> simp [setPlotData]
  | plotNominal =>
    simp only [step, BandArtist.plotNominal, Spec.isPlot]
    cases s.data <;> simp
  | updateData r =>
    simp only [step, BandArtist.updateData, Spec.isPlot]
    cases r.eval with
    | error e => simp
    | ok b => cases s.poly <;> simp [setPlotData]

lemma run_length (s : Artist) (ops : List Op) :
    (run s ops).patches.length = s.patches.length + ops.countP Spec.isPlot := by
  induction ops generalizing s with
  | nil => rfl
  | cons o ops ih =>
    rw [show run s (o :: ops) = run (step s o).1 ops from rfl, ih, step_length, List.countP_cons]
    omega

/-- Patches other than the current one stay as they are. -/
lemma step_other (s : Artist) (o : Op) (i : ℕ) (hi : i < s.patches.length) (hp : s.poly ≠ some i) :
    (step s o).1.patches[i]? = s.patches[i]? ∧ (step s o).1.poly ≠ some i := by
  cases o with
  | plot kw =>
    simp only [step, BandArtist.plot]
    cases s.data with
    | none => simp [List.getElem?_append_left hi]; omega
    | some d =>
      simp only [setPlotData, List.getElem?_modify, if_neg (show s.patches.length ≠ i by omega)]
      simp [List.getElem?_append_left hi]; omega
  | plotNominal =>
    simp only [step, BandArtist.plotNominal]
    cases s.data <;> exact ⟨rfl, hp⟩
  | updateData r =>
    simp only [step, BandArtist.updateData]
    cases r.eval with
    | error e => exact ⟨rfl, hp⟩
    | ok b =>
      cases h : s.poly with
      | none => exact ⟨rfl, by simp⟩
      | some k =>
        have hk : k ≠ i := by rintro rfl; exact hp h
        simp [setPlotData, hk]

lemma run_other (s : Artist) (ops : List Op) (i : ℕ) (hi : i < s.patches.length) (hp : s.poly ≠ some i) :
    (run s ops).patches[i]? = s.patches[i]? := by
  induction ops generalizing s with
  | nil => rfl
  | cons o ops ih =>
    obtain ⟨h1, h2⟩ := step_other s o i hi hp
    rw [show run s (o :: ops) = run (step s o).1 ops from rfl,
      ih _ (by rw [step_length]; omega) h2, h1]

/-- The current patch, until the next one is drawn. -/
lemma run_current (s : Artist) (ops : List Op) (i : ℕ) (kw : Kw) (hp : s.poly = some i)
    (h : s.patches[i]? = some { kw := kw, xy := Spec.vertices s.data })
    (hops : ∀ o ∈ ops, Spec.isPlot o = false) :
    (run s ops).poly = some i ∧
      (run s ops).patches[i]? = some { kw := kw, xy := Spec.vertices (Spec.latest s.data ops) } := by
  induction ops generalizing s with
  | nil => exact ⟨hp, h⟩
  | cons o ops ih =>
    have ih' := fun s' hp' h' => ih s' hp' h' fun x hx => hops x (List.mem_cons_of_mem _ hx)
    have ho := hops o List.mem_cons_self
    rw [show run s (o :: ops) = run (step s o).1 ops from rfl]
    have hd : Spec.latest s.data (o :: ops) = Spec.latest (step s o).1.data ops := by
      rw [step_data, ← latest_append]; rfl
    rw [hd]
    apply ih'
    · cases o with
      | plot kw => simp [Spec.isPlot] at ho
      | plotNominal =>
        simp only [step, BandArtist.plotNominal]
        cases s.data <;> exact hp
      | updateData r =>
        simp only [step, BandArtist.updateData]
        cases r.eval with
        | error e => exact hp
        | ok b => simp [hp, setPlotData]
    · cases o with
      | plot kw => simp [Spec.isPlot] at ho
      | plotNominal =>
        simp only [step, BandArtist.plotNominal]
        cases hsd : s.data <;> simpa [hsd] using h
      | updateData r =>
        simp only [step, BandArtist.updateData]
        cases r.eval with
        | error e => exact h
        | ok b =>
          rw [hp]
          simp [setPlotData, h, vertices_some]

lemma plot_spec (s : Artist) (kw : Kw) :
    (BandArtist.plot kw s).poly = some s.patches.length ∧
      (BandArtist.plot kw s).patches[s.patches.length]? =
        some { kw := plotKw kw, xy := Spec.vertices s.data } ∧
      (BandArtist.plot kw s).data = s.data := by
  simp only [BandArtist.plot]
  cases h : s.data with
  | none => simp [Spec.vertices]
  | some d => simp [setPlotData, vertices_some]

/-- What is on the axes after any calls of methods: one polygon for every call of `plot`, with the settings of
that call, that shows the data in force when the next call of `plot` was made, and the latest data if there
was none. -/
theorem C260_polygons_partial (c : Construction) (s : Artist) (hs : construct c = .ok s) (pre post : List Op)
    (kw : Kw) :
    (run s (pre ++ .plot kw :: post)).patches.length = pre.countP Spec.isPlot + 1 + post.countP Spec.isPlot ∧
    (run s (pre ++ .plot kw :: post)).patches[pre.countP Spec.isPlot]? = some
      { kw := plotKw kw
        xy := Spec.vertices (Spec.latest s.data (pre ++ post.takeWhile fun o => !Spec.isPlot o)) } := by
  have h0 : s.patches = [] := by
    cases c with
    | positional r =>
      simp only [construct] at hs
      cases h : r.eval with
      | error e => rw [h] at hs; cases hs
      | ok d => rw [h] at hs; cases hs; rfl
    | keywords r => cases hs; rfl
    | empty => cases hs; rfl
  constructor
  · rw [run_length, h0, List.countP_append, List.countP_cons]
    simp [Spec.isPlot]; omega
  rw [bandRun_append]
  have hlen : (run s pre).patches.length = pre.countP Spec.isPlot := by rw [run_length, h0]; simp
  have hdata := run_data s pre
  set t := run s pre
  rw [show run t (.plot kw :: post) = run (BandArtist.plot kw t) post from rfl]
  obtain ⟨hp, hx, hd⟩ := plot_spec t kw
  set u := BandArtist.plot kw t
  rw [← hlen, latest_append, ← hdata, ← hd]
  rw [← hd] at hx
  have hsplit := List.takeWhile_append_dropWhile (p := fun o => !Spec.isPlot o) (l := post)
  have hcur := run_current u (post.takeWhile fun o => !Spec.isPlot o) t.patches.length (plotKw kw) hp hx (by
    intro o ho
    have := List.all_takeWhile (p := fun o => !Spec.isPlot o) (l := post)
    simpa using List.all_eq_true.1 this o ho)
  rw [← hsplit, bandRun_append, hsplit]
  cases hdrop : post.dropWhile fun o => !Spec.isPlot o with
  | nil => exact hcur.2
  | cons o rest =>
    have ho : Spec.isPlot o = true := by
      have := List.head_dropWhile_not (fun o => !Spec.isPlot o) (l := post) (by rw [hdrop]; simp)
      simpa [hdrop] using this
    cases o with
    | plotNominal => simp [Spec.isPlot] at ho
    | updateData r => simp [Spec.isPlot] at ho
    | plot kw' =>
      set v := run u (post.takeWhile fun o => !Spec.isPlot o)
      rw [show run v (.plot kw' :: rest) = run (BandArtist.plot kw' v) rest from rfl]
      have hlt : t.patches.length < v.patches.length := (List.getElem?_eq_some_iff.1 hcur.2).1
      obtain ⟨hp', -, -⟩ := plot_spec v kw'
      have hl' := step_length v (.plot kw')
      rw [run_other _ _ _ (by
          rw [show (step v (.plot kw')).1 = BandArtist.plot kw' v from rfl] at hl'
          rw [hl']; omega) (by rw [hp']; intro h; injection h with h; omega)]
      rw [← hcur.2]
      simp only [BandArtist.plot]
      cases v.data with
      | none => simp [List.getElem?_append_left hlt]
      | some d =>
        simp [setPlotData, List.getElem?_append_left hlt,
          show v.patches.length ≠ t.patches.length by omega]

/-- Arguments that give a band. -/
def exampleRequest (xs : List ℝ) : Request :=
  { hyp := ![4, 9, 1], xs := xs, axes := some (![0, 1, 0], ![0, 0, 1]) }

lemma exampleRequest_eval (xs : List ℝ) : ∃ b, (exampleRequest xs).eval = .ok (some b) ∧
    b.nominal.length = xs.length ∧ b.bottom.length = xs.length ∧ b.top.length = xs.length := by
  obtain ⟨b, e, f, y, hb, hF, -, -, -, hn, hl, hu⟩ := C71_hyperbolic_errors ![4, 9, 1]
    (by intro i; fin_cases i <;> norm_num) 1 (by simp) (![0, 1, 0], ![0, 0, 1])
    (by intro h; have := congrFun h 0; simp [cross] at this) xs 0 false
  exact ⟨b, hb, by simp [hn], by simp [hl], by rw [← List.length_reverse, hu]; simp⟩

/-- An object that is drawn, updated and drawn again. -/
example : ∃ s, construct (.positional (exampleRequest [-1, 1])) = .ok s ∧
    (run s ([] ++ .plot [("fc", "red")] :: [.updateData (exampleRequest [-1, 0, 1]), .plot []])).patches.length = 2 := by
  obtain ⟨b, hb, -⟩ := exampleRequest_eval [-1, 1]
  have hs : construct (.positional (exampleRequest [-1, 1])) = .ok { data := some (some b) } := by
    simp [construct, hb, bind, Except.bind]
  exact ⟨_, hs, (C260_polygons_partial _ _ hs [] _ _).1⟩

/-- The newest polygon always shows the latest data, whatever happened before it. -/
theorem C260_newest (c : Construction) (s : Artist) (hs : construct c = .ok s) (pre post : List Op)
    (kw : Kw) (hpost : ∀ o ∈ post, Spec.isPlot o = false) :
    ∃ p, (run s (pre ++ .plot kw :: post)).patches.getLast? = some p ∧ p.kw = plotKw kw ∧
      p.xy = Spec.vertices (Spec.latest s.data (pre ++ post)) := by
  obtain ⟨hl, hp⟩ := C260_polygons_partial c s hs pre post kw
  have hc : post.countP Spec.isPlot = 0 := by
    rw [List.countP_eq_zero]; intro o ho; simp [hpost o ho]
  have ht : post.takeWhile (fun o => !Spec.isPlot o) = post := by
    rw [List.takeWhile_eq_self_iff]
    intro o ho; simp [hpost o ho]
  rw [ht] at hp
  refine ⟨{ kw := plotKw kw, xy := Spec.vertices (Spec.latest s.data (pre ++ post)) }, ?_, rfl, rfl⟩
  rw [List.getLast?_eq_getElem?, hl, hc]
  simpa using hp

/-- An object that is drawn and updated shows the band of the update. -/
example : ∃ s b p, construct (.positional (exampleRequest [-1, 1])) = .ok s ∧ (exampleRequest [-1, 0, 1]).eval = .ok (some b) ∧
    (run s ([] ++ .plot [] :: [.updateData (exampleRequest [-1, 0, 1])])).patches.getLast? = some p ∧
    p.xy = some (b.bottom ++ b.top) := by
  obtain ⟨b, hb, -⟩ := exampleRequest_eval [-1, 1]
  obtain ⟨b', hb', -⟩ := exampleRequest_eval [-1, 0, 1]
  have hs : construct (.positional (exampleRequest [-1, 1])) = .ok { data := some (some b) } := by
    simp [construct, hb, bind, Except.bind]
  obtain ⟨p, hp, -, hx⟩ := C260_newest _ _ hs [] [.updateData (exampleRequest [-1, 0, 1])] [] (by simp [Spec.isPlot])
  exact ⟨_, b', p, hs, hb', hp, by rw [hx]; simp [Spec.latest, hb', Spec.vertices]⟩

/-- Not every polygon on the axes shows the latest data: a polygon that was drawn before another one keeps the
data it had, and stays on the axes. -/
theorem C260_stale_false : ∃ s b p, construct (.positional (exampleRequest [-1, 1])) = .ok s ∧
    (exampleRequest [-1, 0, 1]).eval = .ok (some b) ∧
    (run s [.plot [], .plot [], .updateData (exampleRequest [-1, 0, 1])]).patches[0]? = some p ∧
    (run s [.plot [], .plot [], .updateData (exampleRequest [-1, 0, 1])]).patches.length = 2 ∧
    (run s [.plot [], .plot [], .updateData (exampleRequest [-1, 0, 1])]).data = some (some b) ∧
    p.xy ≠ some (b.bottom ++ b.top) := by
  obtain ⟨b, hb, -, hlen, hlent⟩ := exampleRequest_eval [-1, 1]
  obtain ⟨b', hb', -, hlen', hlent'⟩ := exampleRequest_eval [-1, 0, 1]
  have hs : construct (.positional (exampleRequest [-1, 1])) = .ok { data := some (some b) } := by
    simp [construct, hb, bind, Except.bind]
  obtain ⟨hl, hp⟩ := C260_polygons_partial _ _ hs [] [.plot [], .updateData (exampleRequest [-1, 0, 1])] []
  refine ⟨_, b', _, hs, hb', hp, hl, by rw [run_data]; simp [Spec.latest, hb'], ?_⟩
  simp only [Spec.isPlot, List.takeWhile, Bool.not_true, List.nil_append, Spec.latest, Spec.vertices, ne_eq,
    Option.some.injEq]
  intro h
  have := congrArg List.length h
  rw [List.length_append, List.length_append, hlen, hlen', hlent, hlent'] at this
  simp at this

/-- An update whose computation fails changes nothing, and the exception is that of the computation. -/
theorem C260_failed_update (s : Artist) (r : Request) (e : PyErr) (h : r.eval = .error e) :
    step s (.updateData r) = (s, some e) := by
  simp [step, BandArtist.updateData, h]

/-- An error axis of length zero. -/
example (s : Artist) : step s (.updateData { hyp := ![0, 1, 1], xs := [1], axes := some (![0, 1, 0], ![0, 0, 1]) })
    = (s, some .linAlgError) :=
  C260_failed_update s _ _ ((C71_hyperbolic_errors_degenerate ![0, 1, 1] 1 (![0, 1, 0], ![0, 0, 1]) [1] 0
    false).1 ⟨0, rfl⟩)

/-- An update before the first drawing raises `AttributeError`; the data is kept all the same, and the next
drawing shows it. -/
theorem C260_update_before_drawing (c : Construction) (s : Artist) (hs : construct c = .ok s) (r : Request)
    (d : Option Bands) (h : r.eval = .ok d) (kw : Kw) :
    (step s (.updateData r)).2 = some .attributeError ∧
    ∃ p, (run s [.updateData r, .plot kw]).patches = [p] ∧ p.xy = Spec.vertices (some d) ∧
      p.kw = plotKw kw := by
  have hp : s.poly = none := by
    cases c with
    | positional r =>
      simp only [construct] at hs
      cases h : r.eval with
      | error e => rw [h] at hs; cases hs
      | ok d => rw [h] at hs; cases hs; rfl
    | keywords r => cases hs; rfl
    | empty => cases hs; rfl
  obtain ⟨hl, hx⟩ := C260_polygons_partial c s hs [.updateData r] [] kw
  refine ⟨by simp [step, BandArtist.updateData, h, hp], ?_⟩
  have e : Spec.latest s.data [.updateData r] = some d := by simp [Spec.latest, h]
  simp only [List.takeWhile_nil, List.append_nil, e] at hx
  obtain ⟨p, hp'⟩ := List.length_eq_one_iff.1 (show (run s [.updateData r, .plot kw]).patches.length = 1 by
    simpa [Spec.isPlot] using hl)
  have hx' : (run s [.updateData r, .plot kw]).patches[0]? = _ := hx
  rw [hp'] at hx'
  simp only [List.getElem?_cons_zero, Option.some.injEq] at hx'
  exact ⟨p, hp', by rw [hx'], by rw [hx']⟩

/-- An empty object that is updated and then drawn. -/
example : ∃ b p, (exampleRequest [-1, 1]).eval = .ok (some b) ∧
    (run {} [.updateData (exampleRequest [-1, 1]), .plot []]).patches = [p] ∧
    p.xy = some (b.bottom ++ b.top) := by
  obtain ⟨b, hb, -⟩ := exampleRequest_eval [-1, 1]
  obtain ⟨-, p, hp, hx, -⟩ := C260_update_before_drawing .empty {} rfl _ _ hb []
  exact ⟨b, p, hb, hp, hx⟩

/-- The nominal line is that of the data in force; without data, `TypeError`. -/
theorem C260_nominal (s : Artist) (ops : List Op) :
    (∀ d, Spec.latest s.data ops = some d → (step (run s ops) .plotNominal).2 = none ∧
      (step (run s ops) .plotNominal).1.lines = (run s ops).lines ++ [d.map Bands.nominal] ∧
      (step (run s ops) .plotNominal).1.patches = (run s ops).patches) ∧
    (Spec.latest s.data ops = none → step (run s ops) .plotNominal = (run s ops, some .typeError)) := by
  have hd := run_data s ops
  constructor
  · intro d h
    rw [h] at hd
    simp [step, BandArtist.plotNominal, hd]
  · intro h
    rw [h] at hd
    simp [step, BandArtist.plotNominal, hd]

example : ∃ b, (exampleRequest [-1, 1]).eval = .ok (some b) ∧
    (step (run {} [.plot [], .updateData (exampleRequest [-1, 1])]) .plotNominal).2 = none := by
  obtain ⟨b, hb, -⟩ := exampleRequest_eval [-1, 1]
  exact ⟨b, hb, ((C260_nominal {} [.plot [], .updateData (exampleRequest [-1, 1])]).1 (some b)
    (by simp [Spec.latest, hb])).1⟩

/-- Arguments given by name are not used by the class: for all arguments the object has no data, its polygon is
a single point and the nominal line raises `TypeError`, though the same arguments by position give a band. -/
theorem C260_by_name_false (r : Request) (d : Option Bands) (h : r.eval = .ok d) (kw : Kw) :
    (∃ s, construct (.positional r) = .ok s ∧ s.data = some d) ∧
    ∃ s, construct (.keywords r) = .ok s ∧ s.data = none ∧ (step s .plotNominal).2 = some .typeError ∧
      (run s [.plot kw]).patches = [{ kw := plotKw kw, xy := some [0] }] := by
  refine ⟨⟨{ data := some d }, by simp [construct, h, bind, Except.bind], rfl⟩, {}, rfl, rfl, rfl, rfl⟩

example : ∃ b, (exampleRequest [-1, 1]).eval = .ok (some b) ∧
    ∃ s, construct (.keywords (exampleRequest [-1, 1])) = .ok s ∧ s.data = none := by
  obtain ⟨b, hb, -⟩ := exampleRequest_eval [-1, 1]
  obtain ⟨-, s, h, hd, -⟩ := C260_by_name_false _ _ hb []
  exact ⟨b, hb, s, h, hd⟩

lemma lookup_without (kw : Kw) (k l : String) :
    (kw.without k).lookup l = if l = k then none else kw.lookup l := by
  induction kw with
  | nil => simp [Kw.without]
  | cons p kw ih =>
    obtain ⟨a, v⟩ := p
    simp only [Kw.without, List.filter_cons] at ih ⊢
    by_cases ha : a = k
    · subst ha
      simp only [bne_self_eq_false, Bool.false_eq_true, if_false, List.lookup_cons, ih]
      by_cases hl : l = a
      · simp [hl]
      · simp [hl, beq_false_of_ne hl]
    · simp only [show (a != k) = true by simp [ha], if_true, List.lookup_cons, ih]
      by_cases hl : l = a
      · subst hl; simp [ha]
      · simp [beq_false_of_ne hl]

lemma lookup_append' (l m : Kw) (k : String) :
    (l ++ m).lookup k = (l.lookup k).or (m.lookup k) := by
  induction l with
  | nil => simp
  | cons p l ih =>
    obtain ⟨a, v⟩ := p
    simp only [List.cons_append, List.lookup_cons]
    by_cases h : k = a
    · simp [h]
    · simp [beq_false_of_ne h, ih]

/-- The colour of the edge: `edgecolor` if it is given, else `ec`, else the colour of the face (`facecolor`
before `fc`), else `color`, else black.  `ec` is not passed on and all other settings are as given. -/
theorem C260_edge (kw : Kw) :
    (plotKw kw).lookup "edgecolor" = (kw.lookup "edgecolor" <|> kw.lookup "ec" <|> kw.lookup "facecolor"
      <|> kw.lookup "fc" <|> kw.lookup "color" <|> some "black") ∧
    (plotKw kw).lookup "ec" = none ∧
    ∀ k, k ≠ "edgecolor" → k ≠ "ec" → (plotKw kw).lookup k = kw.lookup k := by
  refine ⟨?_, ?_, ?_⟩
  · simp only [plotKw, lookup_append', lookup_without, Kw.get]
    cases kw.lookup "edgecolor" <;> cases kw.lookup "ec" <;> cases kw.lookup "facecolor" <;>
      cases kw.lookup "fc" <;> cases kw.lookup "color" <;> simp [List.lookup]
  · simp [plotKw, lookup_append', lookup_without, List.lookup]
  · intro k h1 h2
    simp [plotKw, lookup_append', lookup_without, h1, h2, List.lookup, beq_false_of_ne h1]

/-- As in `error_comparison`. -/
example : (plotKw [("fc", "#ffcccc"), ("alpha", "0.3")]).lookup "edgecolor" = some "#ffcccc" := by
  rw [(C260_edge _).1]; rfl

end Attitude.Props
