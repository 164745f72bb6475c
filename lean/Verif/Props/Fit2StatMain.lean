import Verif.Props.Fit2StatFile
import Verif.Props.FitExport
/-
C89: the program `fit2stat`, from its files to a file.
-/
namespace Alta
noncomputable section

/-- The same data with another kind of values. -/
def Data.withKind (d : Data) (o : Output) : Data := { d with output := o }

/-- Data on the abscissae of the function are converted by a change of the kind of their values. -/
theorem statData_kind (g : Evaluable) (d : Data) (hr : DistanceReady g d) (hin : d.input = g.par.input)
    (hx : d.dimX = g.par.dimX) :
    statData d g.par = some (d.withKind g.par.output) := by
  by_cases hout : d.output = g.par.output
  · unfold statData
    rw [if_pos hin, if_pos hout]
    cases d
    cases hout
    rfl
  · rw [statData_copies d g.par hin hout hx hr.size (.inl hr.channels)]
    congr 1
    cases d with
    | mk dX dY i o rows =>
      simp only at hin hx ⊢
      have hY : g.par.dimY = dY := hr.channels
      unfold Data.withKind
      simp only [Data.mk.injEq]
      refine ⟨hx.symm, hY, hin.symm, trivial, ?_⟩
      conv_rhs => rw [← List.map_id rows]
      apply List.map_congr_left
      intro row hrow
      have hs : row.length = dX + dY := hr.size row hrow
      simp only [hY, if_true]
      apply List.ext_getElem
      · simp [hs]
      · intro k q1 q2
        simp only [id] at q2
        rw [List.getElem_append]
        split
        · simp
        · rename_i hk
          simp only [List.length_take, hs] at hk
          simp only [List.getElem_map, List.getElem_range, List.length_take, hs]
          have e : dX + (k - min dX (dX + dY)) = k := by omega
          rw [e]
          simp [arr, q2]

theorem withKind_ready (g : Evaluable) (d : Data) (hr : DistanceReady g d) (o : Output) : DistanceReady g (d.withKind o) :=
  ⟨hr.channels, hr.size, hr.points⟩

theorem distances_withKind (g : Evaluable) (d : Data) (o : Output) :
    l2Distance g (d.withKind o) = l2Distance g d ∧ linfDistance g (d.withKind o) = linfDistance g d := ⟨rfl, rfl⟩

/-- The matrices do not depend on the kind of the values, for data on the abscissae of the function. -/
theorem statMatrices_kind (g : Evaluable) (d : Data) (hr : DistanceReady g d) (hin : d.input = g.par.input)
    (hx : d.dimX = g.par.dimX) : statMatrices g d = statMatrices g (d.withKind g.par.output) := by
  unfold statMatrices
  rw [statData_kind g d hr hin hx,
    statData_kind g (d.withKind g.par.output) (withKind_ready g d hr g.par.output) hin hx]
  rfl

/-- The matrices of comparable data. -/
theorem statMatrices_comparable (g : Evaluable) (d : Data) (h : StatComparable g d) :
    ∃ c A B, statMatrices g d = some (c, A, B) ∧ c.dimX = g.par.dimX ∧ c.input = g.par.input ∧
      (c.rows.map fun row => row.take c.dimX) = d.rows.map (fun row => (g.abscissa d row).getD []) ∧
      A.length = d.rows.length ∧ B.length = d.rows.length ∧
      ∀ k < d.dimY, diffCol A B k = d.rows.map fun row => g.error d row k := by
  rcases h.kinds with ⟨h1, h2⟩ | ⟨h1, h2, h3, h4, h5⟩
  · rw [statMatrices_kind g d h.ready h1 h2]
    exact statMatrices_ready g (d.withKind g.par.output)
      ⟨withKind_ready g d h.ready _, rfl, .inl ⟨h1, h2⟩⟩
  · exact statMatrices_ready g d ⟨h.ready, h1, .inr ⟨h2, h3, h4, h5⟩⟩

/-- The weighted errors, by name. -/
theorem weightedErrors_named (d : Data) (A B : Mat) (e : List ℝ → ℕ → ℝ) (w : List ℝ → ℝ) (hA : A.length = d.rows.length)
    (hd : ∀ k < d.dimY, diffCol A B k = d.rows.map fun row => e row k) (a b : Str) :
    [(a, (weightedErrors d.dimY A B (d.rows.map w)).1), (b, (weightedErrors d.dimY A B (d.rows.map w)).2)] =
      weightedStats d e w a b := by
  have key : ∀ c < d.dimY, ((List.zipWith (fun e k => (e * k) ^ 2) (diffCol A B c) (d.rows.map w)).sum : ℝ) / (A.length : ℝ)
      = meanOver d fun row => (w row * e row c) ^ 2 := by
    intro c hc
    rw [hd c hc, List.zipWith_map, List.zipWith_self, hA]
    unfold meanOver
    congr 3
    funext row
    ring
  unfold weightedErrors weightedStats
  simp only [List.map_map]
  have k1 : (List.range d.dimY).map (fun c => ((List.zipWith (fun e k => (e * k) ^ 2) (diffCol A B c) (d.rows.map w)).sum : ℝ) /
      (A.length : ℝ)) = (List.range d.dimY).map fun c => meanOver d fun row => (w row * e row c) ^ 2 :=
    List.map_congr_left fun c hc => key c (List.mem_range.1 hc)
  have k2 : (List.range d.dimY).map (fun c => √ (((List.zipWith (fun e k => (e * k) ^ 2) (diffCol A B c) (d.rows.map w)).sum : ℝ) /
      (A.length : ℝ))) = (List.range d.dimY).map fun c => √ (meanOver d fun row => (w row * e row c) ^ 2) :=
    List.map_congr_left fun c hc => by rw [key c (List.mem_range.1 hc)]
  exact congrArg₂ _ (congrArg _ k1) (congrArg₂ _ (congrArg _ k2) rfl)

/-- What a run does once the data and the function are loaded. -/
theorem fit2statMain_loaded (val : Dbl → ℝ) (junk : ℝ) (fmt : ℝ → Decimal) (dir : Str) (env : Option Str)
    (ff : Str → Option (Symbols (Provider LobeObj))) (files : Str → Option Str) (writable : Str → Bool) (args : SMap)
    (hh : args.isDefined "help".toList = false ∧ args.isDefined "h".toList = false)
    (hb : args.isDefined "brdf".toList = true) (hi : args.isDefined "input".toList = true) (content text : Str)
    (hf : files (args.get "input".toList) = some content) (hg : files (args.get "brdf".toList) = some text) (d : Data)
    (hl : loadDataStream val dir env (fun _ => none) "vertical_segment".toList content
      (args.update "filename".toList (args.get "input".toList)) = some (some (.ofData d)))
    (f : AnyFn) (hload : loadAny junk dir env ff text = some (some f)) :
    fit2statMain val junk fmt dir env ff files writable args = fit2statWrite fmt writable args f.evaluable d := by
  unfold fit2statMain
  rw [if_neg (by rw [hh.1, hh.2]; simp), if_neg (by rw [hb]; simp), if_neg (by rw [hi]; simp)]
  simp only [hf, hl, hg, Option.map_some, hload]
  rfl

/-- The run, once the data and the function are there. -/
theorem fit2statWrite_run (fmt : ℝ → Decimal) (hfmt : ∀ v, (fmt v).ip ≠ [] ∨ (fmt v).fp ≠ []) (writable : Str → Bool)
    (args : SMap) (ha : AsksFitStats args writable) (g : Evaluable) (d : Data) (h : StatComparable g d) (hne : d.rows ≠ [])
    (hn : 0 < d.dimY) (hc : g.par.input = .CARTESIAN) (hx : g.par.dimX = 6) :
    ∃ file, fit2statWrite fmt writable args g d = (some 0, some file) ∧
      readFitStats file = printedStats fmt (fitStatsOf d (g.error d)
        (fun row => (g.directions d row).v.z) (fun row => (g.directions d row).v.z)) := by
  obtain ⟨c, A, B, h1, h2, h2', h3, h4, -, h5⟩ := statMatrices_comparable g d h
  obtain ⟨linf, mean, var, hli, -⟩ := linf_distance g d h.ready
  have hl2 := l2_distance g d h.ready hne
  have hw : cosineFactors c = some (d.rows.map (fun row => (g.directions d row).v.z),
      d.rows.map fun row => (g.directions d row).l.z) := by
    unfold cosineFactors
    rw [if_pos (h2'.trans hc), if_neg (by rw [h2, hx]; simp)]
    have e1 : (c.rows.map fun row => arr (row.take c.dimX) 2) = d.rows.map fun row => (g.directions d row).v.z := by
      have := congrArg (List.map fun x : List ℝ => arr x 2) h3
      rw [List.map_map, List.map_map] at this
      exact this
    have e2 : (c.rows.map fun row => arr (row.take c.dimX) 5) = d.rows.map fun row => (g.directions d row).l.z := by
      have := congrArg (List.map fun x : List ℝ => arr x 5) h3
      rw [List.map_map, List.map_map] at this
      exact this
    rw [e1, e2]
  have hnamed : fitStatsNamed (fastNorms d.dimY A B)
      (weightedErrors d.dimY A B (d.rows.map fun row => (g.directions d row).v.z))
      (weightedErrors d.dimY A B (d.rows.map fun row => (g.directions d row).v.z)) =
      fitStatsOf d (g.error d) (fun row => (g.directions d row).v.z) (fun row => (g.directions d row).v.z) := by
    unfold fitStatsNamed fitStatsOf
    rw [fastNorms_named d.dimY A B _ h5, h4, weightedErrors_named d A B (g.error d) _ h4 h5,
      weightedErrors_named d A B (g.error d) _ h4 h5]
  refine ⟨fit2statFile fmt args g.par (fastNorms d.dimY A B)
    (weightedErrors d.dimY A B (d.rows.map fun row => (g.directions d row).v.z)), ?_, ?_⟩
  · unfold fit2statWrite
    rw [h1]
    simp only
    rw [hw]
    simp only
    rw [if_neg (by rw [ha.output.2.2]; simp), if_pos ⟨ha.output.1, ha.output.2.1⟩, hl2, hli, h.ready.channels]
  · rw [fit2statFile_read fmt hfmt args ha.oneLine _ _ _ (by
      rw [hnamed]
      have hne : ∀ f : ℕ → ℝ, (List.range d.dimY).map f ≠ [] := by
        intro f e
        have := congrArg List.length e
        simp at this
        omega
      intro s hs
      simp only [fitStatsOf, statsOf, weightedStats, List.mem_append, List.mem_cons, List.not_mem_nil, or_false] at hs
      rcases hs with ((rfl | rfl | rfl | rfl | rfl | rfl) | rfl | rfl) | rfl | rfl <;> exact hne _), hnamed]

/-- **C89.**  When the data and a function of the two directions are loaded, and can be compared, the program ends with the code 0
    and its file, read again, has the statistics of the differences between the samples and the function, as they are printed;
    all the four weighted ones have for weight the first cosine, that of the view. -/
theorem fit2stat_file (val : Dbl → ℝ) (junk : ℝ) (fmt : ℝ → Decimal) (hfmt : ∀ v, (fmt v).ip ≠ [] ∨ (fmt v).fp ≠ [])
    (dir : Str) (env : Option Str)
    (ff : Str → Option (Symbols (Provider LobeObj))) (files : Str → Option Str) (writable : Str → Bool) (args : SMap)
    (ha : AsksFitStats args writable) (content text : Str)
    (hf : files (args.get "input".toList) = some content) (hg : files (args.get "brdf".toList) = some text) (d : Data)
    (hl : loadDataStream val dir env (fun _ => none) "vertical_segment".toList content
      (args.update "filename".toList (args.get "input".toList)) = some (some (.ofData d)))
    (f : AnyFn) (hload : loadAny junk dir env ff text = some (some f))
    (h : StatComparable f.evaluable d) (hne : d.rows ≠ []) (hn : 0 < d.dimY) (hc : f.evaluable.par.input = .CARTESIAN)
    (hx : f.evaluable.par.dimX = 6) :
    ∃ file, fit2statMain val junk fmt dir env ff files writable args = (some 0, some file) ∧
      readFitStats file = printedStats fmt (fitStatsOf d (f.evaluable.error d)
        (fun row => (f.evaluable.directions d row).v.z) (fun row => (f.evaluable.directions d row).v.z)) := by
  rw [fit2statMain_loaded val junk fmt dir env ff files writable args ha.noHelp ha.brdf ha.input content text hf hg d hl f hload]
  exact fit2statWrite_run fmt hfmt writable args ha f.evaluable d h hne hn hc hx

/-- **C89.**  The same run without `--output`, or with an empty name, writes nothing and ends with the code 0; with a file that
    cannot be opened it ends with the code 1. -/
theorem fit2stat_no_file (val : Dbl → ℝ) (junk : ℝ) (fmt : ℝ → Decimal)
    (dir : Str) (env : Option Str)
    (ff : Str → Option (Symbols (Provider LobeObj))) (files : Str → Option Str) (writable : Str → Bool) (args : SMap)
    (hh : args.isDefined "help".toList = false ∧ args.isDefined "h".toList = false)
    (hb : args.isDefined "brdf".toList = true) (hi : args.isDefined "input".toList = true) (content text : Str)
    (hf : files (args.get "input".toList) = some content) (hg : files (args.get "brdf".toList) = some text) (d : Data)
    (hl : loadDataStream val dir env (fun _ => none) "vertical_segment".toList content
      (args.update "filename".toList (args.get "input".toList)) = some (some (.ofData d)))
    (f : AnyFn) (hload : loadAny junk dir env ff text = some (some f))
    (h : StatComparable f.evaluable d) (hne : d.rows ≠ []) (hc : f.evaluable.par.input = .CARTESIAN)
    (hx : f.evaluable.par.dimX = 6) :
    (args.isDefined "output".toList = false ∨ args.get "output".toList = [] →
      fit2statMain val junk fmt dir env ff files writable args = (some 0, none)) ∧
    (args.isDefined "output".toList = true → args.get "output".toList ≠ [] → writable (args.get "output".toList) = false →
      fit2statMain val junk fmt dir env ff files writable args = (some 1, none)) := by
  rw [fit2statMain_loaded val junk fmt dir env ff files writable args hh hb hi content text hf hg d hl f hload]
  obtain ⟨c, A, B, h1, h2, h2', -⟩ := statMatrices_comparable f.evaluable d h
  obtain ⟨linf, mean, var, hli, -⟩ := linf_distance f.evaluable d h.ready
  have hl2 := l2_distance f.evaluable d h.ready hne
  have hw : (cosineFactors c).isSome := by
    unfold cosineFactors
    rw [if_pos (h2'.trans hc), if_neg (by rw [h2, hx]; simp)]
    rfl
  obtain ⟨w, hw⟩ := Option.isSome_iff_exists.1 hw
  unfold fit2statWrite
  rw [h1]
  simp only
  rw [hw]
  simp only
  rw [hl2, hli]
  constructor
  · intro ho
    have hno : ¬ (args.isDefined "output".toList = true ∧ args.get "output".toList ≠ []) := by
      rintro ⟨q1, q2⟩
      rcases ho with ho | ho
      · rw [ho] at q1; cases q1
      · exact q2 ho
    rw [if_neg (fun q => hno ⟨q.1, q.2.1⟩), if_neg hno]
  · intro q1 q2 q3
    rw [if_pos ⟨q1, q2, q3⟩]

/-- **C89.**  A run that ends normally ends with the code 0 or 1, and writes nothing with the code 1. -/
theorem fit2stat_exit (val : Dbl → ℝ) (junk : ℝ) (fmt : ℝ → Decimal) (dir : Str) (env : Option Str)
    (ff : Str → Option (Symbols (Provider LobeObj))) (files : Str → Option Str) (writable : Str → Bool) (args : SMap)
    (c : ℕ) (out : Option Str) (h : fit2statMain val junk fmt dir env ff files writable args = (some c, out)) :
    c = 0 ∨ (c = 1 ∧ out = none) := by
  have done : ∀ {k : ℕ} {o : Option Str}, (some k, o) = (some c, out) → k = 0 ∨ (k = 1 ∧ o = none) → c = 0 ∨ (c = 1 ∧ out = none) := by
    intro k o e hk
    simp only [Prod.mk.injEq, Option.some.injEq] at e
    rw [← e.1, ← e.2]
    exact hk
  have bad : ∀ {o : Option Str}, ((none : Option ℕ), o) = (some c, out) → False := by
    intro o e
    simp at e
  unfold fit2statMain at h
  split at h
  · exact done h (.inl rfl)
  split at h
  · exact done h (.inr ⟨rfl, rfl⟩)
  split at h
  · exact done h (.inr ⟨rfl, rfl⟩)
  split at h
  · exact done h (.inr ⟨rfl, rfl⟩)
  split at h
  · exact (bad h).elim
  · exact (bad h).elim
  split at h
  · exact done h (.inr ⟨rfl, rfl⟩)
  · exact (bad h).elim
  · exact done h (.inr ⟨rfl, rfl⟩)
  unfold fit2statWrite at h
  split at h
  · exact (bad h).elim
  split at h
  · exact (bad h).elim
  simp only at h
  split at h
  · exact done h (.inr ⟨rfl, rfl⟩)
  split at h
  · exact done h (.inl rfl)
  · exact (bad h).elim

/-- **C89.**  Without a file of data or of a function the code is 1 and nothing is written. -/
theorem fit2stat_missing (val : Dbl → ℝ) (junk : ℝ) (fmt : ℝ → Decimal) (dir : Str) (env : Option Str)
    (ff : Str → Option (Symbols (Provider LobeObj))) (files : Str → Option Str) (writable : Str → Bool) (args : SMap)
    (hh : args.isDefined "help".toList = false ∧ args.isDefined "h".toList = false) :
    (args.isDefined "brdf".toList = false ∨ args.isDefined "input".toList = false ∨ files (args.get "input".toList) = none →
      fit2statMain val junk fmt dir env ff files writable args = (some 1, none)) ∧
    ∀ (content : Str) (d : Data), files (args.get "input".toList) = some content →
      loadDataStream val dir env (fun _ => none) "vertical_segment".toList content
        (args.update "filename".toList (args.get "input".toList)) = some (some (.ofData d)) →
      (files (args.get "brdf".toList) = none ∨
        ∃ text, files (args.get "brdf".toList) = some text ∧ loadAny junk dir env ff text = some none) →
      fit2statMain val junk fmt dir env ff files writable args = (some 1, none) := by
  constructor
  · intro h
    unfold fit2statMain
    rw [if_neg (by rw [hh.1, hh.2]; simp)]
    split
    · rfl
    split
    · rfl
    rename_i h1 h2
    rcases h with h | h | h
    · exact absurd h h1
    · exact absurd h h2
    · simp only [h]
  · intro content d hf hl h
    unfold fit2statMain
    rw [if_neg (by rw [hh.1, hh.2]; simp)]
    split
    · rfl
    split
    · rfl
    simp only [hf, hl]
    rcases h with h | ⟨text, h, h'⟩
    · simp only [h, Option.map_none]
    · simp only [h, Option.map_some, h']

/-- **C89.**  Limit: a function that is not on the two directions, compared with data, ends the program by an exception before
    anything is written. -/
theorem fit2stat_not_cartesian (val : Dbl → ℝ) (junk : ℝ) (fmt : ℝ → Decimal) (dir : Str) (env : Option Str)
    (ff : Str → Option (Symbols (Provider LobeObj))) (files : Str → Option Str) (writable : Str → Bool) (args : SMap)
    (hh : args.isDefined "help".toList = false ∧ args.isDefined "h".toList = false)
    (hb : args.isDefined "brdf".toList = true) (hi : args.isDefined "input".toList = true) (content text : Str)
    (hf : files (args.get "input".toList) = some content) (hg : files (args.get "brdf".toList) = some text) (d : Data)
    (hl : loadDataStream val dir env (fun _ => none) "vertical_segment".toList content
      (args.update "filename".toList (args.get "input".toList)) = some (some (.ofData d)))
    (f : AnyFn) (hload : loadAny junk dir env ff text = some (some f))
    (h : StatComparable f.evaluable d) (hc : f.evaluable.par.input ≠ .CARTESIAN) :
    fit2statMain val junk fmt dir env ff files writable args = (none, none) := by
  rw [fit2statMain_loaded val junk fmt dir env ff files writable args hh hb hi content text hf hg d hl f hload]
  obtain ⟨c, A, B, h1, -, h2, -⟩ := statMatrices_comparable f.evaluable d h
  unfold fit2statWrite
  rw [h1]
  simp only
  have : cosineFactors c = none := by
    unfold cosineFactors
    rw [if_neg (by rw [h2]; exact hc)]
  rw [this]

/-- **C89.**  Limit: data on other abscissae and with another kind of values than the function's end the program by an exception
    before anything is written, though the function has distances to them. -/
theorem fit2stat_other_kinds (val : Dbl → ℝ) (junk : ℝ) (fmt : ℝ → Decimal) (dir : Str) (env : Option Str)
    (ff : Str → Option (Symbols (Provider LobeObj))) (files : Str → Option Str) (writable : Str → Bool) (args : SMap)
    (hh : args.isDefined "help".toList = false ∧ args.isDefined "h".toList = false)
    (hb : args.isDefined "brdf".toList = true) (hi : args.isDefined "input".toList = true) (content text : Str)
    (hf : files (args.get "input".toList) = some content) (hg : files (args.get "brdf".toList) = some text) (d : Data)
    (hl : loadDataStream val dir env (fun _ => none) "vertical_segment".toList content
      (args.update "filename".toList (args.get "input".toList)) = some (some (.ofData d)))
    (f : AnyFn) (hload : loadAny junk dir env ff text = some (some f))
    (h1 : d.input ≠ f.evaluable.par.input) (h2 : d.output ≠ f.evaluable.par.output) :
    fit2statMain val junk fmt dir env ff files writable args = (none, none) := by
  rw [fit2statMain_loaded val junk fmt dir env ff files writable args hh hb hi content text hf hg d hl f hload]
  have : statData d f.evaluable.par = none := by unfold statData; simp only; rw [if_neg h1, if_neg h2]
  unfold fit2statWrite statMatrices
  rw [this]
  rfl

end
end Alta
