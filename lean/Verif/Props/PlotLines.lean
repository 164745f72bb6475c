import Verif.Spec.PlotLines
import Verif.Props.Samplewise
import Verif.Props.Brdf2GnuplotMain
import Verif.Props.StatsOrder
/-
C98: `brdf2gnuplot` works sample by sample.
-/
namespace Alta
noncomputable section

/-- What is written for a sample, without the number of the line and without the end of line. -/
def plotCells (fmt : ℝ → Decimal) (g : Evaluable) (d : Data) (kind : PlotKind) (cos : Bool) (v : List ℝ) : Option Str :=
  if kind = .linear then
    (plotLine g d .error cos 0 v).map fun l => ((List.range d.dimY).map fun u =>
      quotientText fmt (arr l (d.dimX + u)) (arr v (d.dimX + u))).flatMap fun c => c ++ ['\t']
  else (plotLine g d kind cos 0 v).map fun l => (l.map fun x => (fmt x).text).flatMap fun c => c ++ ['\t']

/-- The line, from what is written for the sample. -/
def numberedLine (kind : PlotKind) (i : ℕ) (s : Str) : Str := if kind = .linear then showNat i ++ '\t' :: s else s

theorem plotLine_index (g : Evaluable) (d : Data) (kind : PlotKind) (hk : kind ≠ .linear) (cos : Bool) (i : ℕ) (v : List ℝ) :
    plotLine g d kind cos i v = plotLine g d kind cos 0 v := by
  unfold plotLine
  simp only [if_neg hk]

theorem gnuplotLine_cells (fmt : ℝ → Decimal) (g : Evaluable) (d : Data) (kind : PlotKind) (cos : Bool) (i : ℕ) (v : List ℝ) :
    gnuplotLine fmt g d kind cos i v = (plotCells fmt g d kind cos v).map fun s => numberedLine kind i s ++ ['\n'] := by
  unfold gnuplotLine plotCells numberedLine
  by_cases hk : kind = .linear
  · simp only [if_pos hk]
    rw [plotLine_index g d .error (by decide) cos i v, Option.map_map]
    congr 1
    funext l
    simp [tabLine]
  · simp only [if_neg hk]
    rw [plotLine_index g d kind hk cos i v, Option.map_map]
    rfl

theorem mapM_zipIdx {α β γ : Type} (F : α → Option β) (G : ℕ → β → γ) : ∀ (l : List α) (k : ℕ),
    ((l.zipIdx k).mapM fun p => (F p.1).map (G p.2)) = (l.mapM F).map fun r => (r.zipIdx k).map fun q => G q.2 q.1
  | [], k => rfl
  | a :: l, k => by
    rw [List.zipIdx_cons, List.mapM_cons, List.mapM_cons, mapM_zipIdx F G l (k + 1)]
    cases F a with
    | none => rfl
    | some y => cases l.mapM F <;> rfl

/-- The plot can be made: the distances can be computed. -/
def PlotReady (g : Evaluable) (d : Data) : Prop :=
  d.rows ≠ [] ∧ d.dimY = g.par.dimY ∧ (d.rows.mapM (sampleError g d)).isSome

theorem plotReady_iff (g : Evaluable) (d : Data) : PlotReady g d ↔ (l2Distance g d).isSome ∧ (linfDistance g d).isSome := by
  have hlen : ∀ r, d.rows.mapM (sampleError g d) = some r → r.length = d.rows.length := fun r hr => mapM_get_length _ _ _ hr
  unfold PlotReady
  rw [l2Distance_errors]
  unfold sampleErrorsOf linfDistance
  cases h : d.rows.mapM (sampleError g d) with
  | none => simp
  | some r =>
    have hl := hlen r h
    have hr : r = [] ↔ d.rows = [] := by rw [← List.length_eq_zero_iff, hl, List.length_eq_zero_iff]
    simp only [Option.bind_some, hl, Option.isSome_some, and_true, List.length_eq_zero_iff, ne_eq]
    by_cases h0 : d.rows = []
    · simp [h0, hr]
    · by_cases hy : d.dimY = g.par.dimY
      · simp [h0, hy, hr]
      · simp [h0, hy, hr]

theorem gnuplotData_iff (fmt : ℝ → Decimal) (g : Evaluable) (d : Data) (kind : PlotKind) (cos : Bool) (t : Str) :
    gnuplotData fmt g d kind cos = some t ↔ PlotReady g d ∧ ∃ ls, d.rows.mapM (plotCells fmt g d kind cos) = some ls ∧
      t = textOfLines (ls.zipIdx.map fun p => numberedLine kind p.2 p.1) := by
  rw [plotReady_iff]
  unfold gnuplotData
  have e : (fun p : List ℝ × ℕ => gnuplotLine fmt g d kind cos p.2 p.1) = fun p =>
      (plotCells fmt g d kind cos p.1).map ((fun i s => numberedLine kind i s ++ ['\n']) p.2) := by
    funext p
    exact gnuplotLine_cells fmt g d kind cos p.2 p.1
  rw [e, mapM_zipIdx (plotCells fmt g d kind cos) (fun i s => numberedLine kind i s ++ ['\n']) d.rows 0]
  cases l2Distance g d with
  | none => simp
  | some a =>
    cases linfDistance g d with
    | none => simp
    | some b =>
      cases d.rows.mapM (plotCells fmt g d kind cos) with
      | none => simp
      | some ls =>
        have : textOfLines (ls.zipIdx.map fun p => numberedLine kind p.2 p.1) =
            (ls.zipIdx.map fun q => numberedLine kind q.2 q.1 ++ ['\n']).flatten := by
          unfold textOfLines
          rw [List.flatMap_map]
          rfl
        simp only [Option.bind_some, Option.map_some, Option.some.injEq, Option.isSome_some, and_self, true_and, exists_eq_left',
          this]
        exact eq_comm

theorem numbered_file (args : SMap) (ls : List Str) :
    textOfLines (ls.zipIdx.map fun p =>
      numberedLine (plotKind (args.isDefined "error".toList) (args.isDefined "linear_error".toList)) p.2 p.1) = plotFile args ls := by
  unfold plotFile numberedLine plotKind Numbered
  cases args.isDefined "error".toList <;> cases args.isDefined "linear_error".toList <;> simp [List.zipIdx_map_fst]

theorem quotientText_avoids (fmt : ℝ → Decimal) (x v : ℝ) : '\n' ∉ quotientText fmt x v := by
  unfold quotientText
  split
  · exact (fmt _).text_avoids _ (by decide)
  · split
    · decide
    · split <;> decide

theorem plotCells_single (fmt : ℝ → Decimal) (g : Evaluable) (d : Data) (kind : PlotKind) (cos : Bool) (rows : List (List ℝ))
    (ls : List Str) (h : rows.mapM (plotCells fmt g d kind cos) = some ls) : SingleLines ls := by
  induction rows generalizing ls with
  | nil =>
    obtain rfl : [] = ls := by simpa using h
    intro l hl; cases hl
  | cons a rows ih =>
    rw [List.mapM_cons] at h
    cases ha : plotCells fmt g d kind cos a with
    | none => rw [ha] at h; cases h
    | some s =>
      cases hm : rows.mapM (plotCells fmt g d kind cos) with
      | none => rw [ha, hm] at h; cases h
      | some r =>
        rw [ha, hm] at h
        obtain rfl : s :: r = ls := by simpa using h
        intro l hl
        rcases List.mem_cons.1 hl with rfl | hl
        · unfold plotCells at ha
          split at ha
          · obtain ⟨y, -, rfl⟩ := Option.map_eq_some_iff.1 ha
            intro hn
            obtain ⟨c, hc, hn⟩ := List.mem_flatMap.1 hn
            obtain ⟨u, -, rfl⟩ := List.mem_map.1 hc
            rcases List.mem_append.1 hn with hn | hn
            · exact quotientText_avoids _ _ _ hn
            · exact absurd hn (by decide)
          · obtain ⟨y, -, rfl⟩ := Option.map_eq_some_iff.1 ha
            intro hn
            obtain ⟨c, hc, hn⟩ := List.mem_flatMap.1 hn
            obtain ⟨x, -, rfl⟩ := List.mem_map.1 hc
            rcases List.mem_append.1 hn with hn | hn
            · exact (fmt x).text_avoids _ (by decide) hn
            · exact absurd hn (by decide)
        · exact ih r hm l hl

/-! ### Data with the same shape -/

theorem SameShape.sampleError {d e : Data} (h : SameShape d e) (g : Evaluable) : sampleError g e = sampleError g d := by
  funext row
  unfold Alta.sampleError distancePoint
  simp only [h.dimX, h.input]

theorem SameShape.plotCells {d e : Data} (h : SameShape d e) (fmt : ℝ → Decimal) (g : Evaluable) (kind : PlotKind) (cos : Bool) :
    plotCells fmt g e kind cos = plotCells fmt g d kind cos := by
  funext row
  unfold Alta.plotCells plotLine distancePoint
  simp only [h.dimX, h.dimY, h.input]

/-! ### The runs -/

/-- The options of a run on a file in ALTA's text format. -/
structure AsksPlotFile (args : SMap) : Prop where
  asks : AsksPlot args (fun _ => true)
  format : args.get "data".toList = [] ∨ args.get "data".toList = "vertical_segment".toList

/-- The content of the file that is written. -/
theorem plotsTo_content (val : Dbl → ℝ) (junk : ℝ) (fmt : ℝ → Decimal) (dir : Str) (env : Option Str)
    (ff : Str → Option (Symbols (Provider LobeObj))) (fs : Str → Option (Symbols (Str → SMap → Option DataObj)))
    (args : SMap) (ha : AsksPlotFile args) (g : Str) (f : AnyFn) (hload : loadAny junk dir env ff g = some (some f)) (a : Str)
    (d : Segments) (hd : loadDataText a (args.update "filename".toList (args.get "data-file".toList)) = some d) (t : Str)
    (h : PlotsTo val junk fmt dir env ff fs args g a t) :
    gnuplotData fmt f.evaluable d.store.toData
      (plotKind (args.isDefined "error".toList) (args.isDefined "linear_error".toList)) (args.isDefined "cos-plot".toList) =
        some t := by
  obtain ⟨files, writable, h1, h2, h3⟩ := h
  rw [brdf2gnuplot_function val junk fmt dir env ff fs files writable args ha.asks.noHelp ha.asks.input ha.asks.output.1 g h2 f
    hload] at h3
  unfold gnuplotWrite at h3
  rw [if_pos (.inr ha.asks.file)] at h3
  simp only [h1, loadDataStream_text val dir env fs _ ha.format a _ d hd] at h3
  obtain ⟨s, h4, h5⟩ := Option.map_eq_some_iff.1 h3
  unfold gnuplotOutput at h5
  have h6 : s = t := by
    have := congrArg Prod.snd h5
    simp only at this
    split at this
    · exact Option.some.inj this
    · cases this
  rw [← h6]
  exact h4

theorem plotsTo_iff (val : Dbl → ℝ) (junk : ℝ) (fmt : ℝ → Decimal) (dir : Str) (env : Option Str)
    (ff : Str → Option (Symbols (Provider LobeObj))) (fs : Str → Option (Symbols (Str → SMap → Option DataObj)))
    (args : SMap) (ha : AsksPlotFile args) (hname : args.get "data-file".toList ≠ args.get "input".toList) (g : Str) (f : AnyFn)
    (hload : loadAny junk dir env ff g = some (some f)) (a : Str)
    (d : Segments) (hd : loadDataText a (args.update "filename".toList (args.get "data-file".toList)) = some d) (t : Str) :
    PlotsTo val junk fmt dir env ff fs args g a t ↔ PlotReady f.evaluable d.store.toData ∧
      ∃ ls, d.store.toData.rows.mapM (plotCells fmt f.evaluable d.store.toData
        (plotKind (args.isDefined "error".toList) (args.isDefined "linear_error".toList)) (args.isDefined "cos-plot".toList)) =
          some ls ∧ t = plotFile args ls := by
  have key := gnuplotData_iff fmt f.evaluable d.store.toData
    (plotKind (args.isDefined "error".toList) (args.isDefined "linear_error".toList)) (args.isDefined "cos-plot".toList) t
  simp only [numbered_file] at key
  rw [← key]
  constructor
  · exact plotsTo_content val junk fmt dir env ff fs args ha g f hload a d hd t
  · intro h
    refine ⟨fun n => if n = args.get "data-file".toList then some a else some g, fun _ => true, if_pos rfl,
      if_neg (fun h => hname h.symm), ?_⟩
    rw [brdf2gnuplot_loaded val junk fmt dir env ff fs _ _ args ha.asks a g (if_pos rfl) (if_neg (fun h => hname h.symm)) _
      (loadDataStream_text val dir env fs _ ha.format a _ d hd) f hload]
    show (gnuplotData fmt f.evaluable d.store.toData _ _).map _ = _
    rw [h]
    rfl

/-- **C98.**  `brdf2gnuplot` on two files of data joined: it writes the lines of the first plot and then those of the second. -/
theorem brdf2gnuplot_joined (val : Dbl → ℝ) (junk : ℝ) (fmt : ℝ → Decimal) (dir : Str) (env : Option Str)
    (ff : Str → Option (Symbols (Provider LobeObj))) (fs : Str → Option (Symbols (Str → SMap → Option DataObj)))
    (args : SMap) (ha : AsksPlotFile args) (hname : args.get "data-file".toList ≠ args.get "input".toList) (g : Str) (f : AnyFn)
    (hload : loadAny junk dir env ff g = some (some f)) (a b j : Str)
    (d e k : Segments) (hd : loadDataText a (args.update "filename".toList (args.get "data-file".toList)) = some d)
    (he : loadDataText b (args.update "filename".toList (args.get "data-file".toList)) = some e)
    (hk : loadDataText j (args.update "filename".toList (args.get "data-file".toList)) = some k)
    (h1 : SameLayout e d) (h2 : SameLayout k d) (hs : k.samples = d.samples ++ e.samples) (t u : Str)
    (r1 : PlotsTo val junk fmt dir env ff fs args g a t) (r2 : PlotsTo val junk fmt dir env ff fs args g b u) :
    ∃ ls ms, SingleLines (ls ++ ms) ∧ t = plotFile args ls ∧ u = plotFile args ms ∧
      ∀ v, PlotsTo val junk fmt dir env ff fs args g j v ↔ v = plotFile args (ls ++ ms) := by
  have s : SameShape d.store.toData e.store.toData := sameLayout_shape h1
  have s' : SameShape d.store.toData k.store.toData := sameLayout_shape h2
  have hp : k.store.toData.rows = d.store.toData.rows ++ e.store.toData.rows := by
    rw [samples_rows, hs, List.map_append, ← samples_rows, ← samples_rows]
  obtain ⟨⟨p1, p2, p3⟩, ls, p4, p5⟩ :=
    (plotsTo_iff val junk fmt dir env ff fs args ha hname g f hload a d hd t).1 r1
  obtain ⟨⟨q1, q2, q3⟩, ms, q4, q5⟩ :=
    (plotsTo_iff val junk fmt dir env ff fs args ha hname g f hload b e he u).1 r2
  rw [s.sampleError] at q3
  rw [s.plotCells] at q4
  refine ⟨ls, ms, ?_, p5, q5, fun v => ?_⟩
  · intro l hl
    rcases List.mem_append.1 hl with hl | hl
    · exact plotCells_single _ _ _ _ _ _ _ p4 l hl
    · exact plotCells_single _ _ _ _ _ _ _ q4 l hl
  · rw [plotsTo_iff val junk fmt dir env ff fs args ha hname g f hload j k hk v]
    unfold PlotReady
    rw [s'.sampleError, s'.plotCells, hp, mapM_append', mapM_append', p4, q4, s'.dimY]
    obtain ⟨x, hx⟩ := Option.isSome_iff_exists.1 p3
    obtain ⟨y, hy⟩ := Option.isSome_iff_exists.1 q3
    rw [hx, hy]
    simp [p1, p2]

/-- **C98.**  Without numbers, the plot of the joined file is the first plot followed by the second one. -/
theorem brdf2gnuplot_joined_plain (args : SMap) (h : ¬ Numbered args) (ls ms : List Str) :
    plotFile args (ls ++ ms) = plotFile args ls ++ plotFile args ms := by
  unfold plotFile
  simp only [if_neg h]
  unfold textOfLines
  rw [List.flatMap_append]

/-- **C98.**  The run on the joined file writes a plot exactly when both runs do, for files that have samples. -/
theorem brdf2gnuplot_joined_runs (val : Dbl → ℝ) (junk : ℝ) (fmt : ℝ → Decimal) (dir : Str) (env : Option Str)
    (ff : Str → Option (Symbols (Provider LobeObj))) (fs : Str → Option (Symbols (Str → SMap → Option DataObj)))
    (args : SMap) (ha : AsksPlotFile args) (hname : args.get "data-file".toList ≠ args.get "input".toList) (g : Str) (f : AnyFn)
    (hload : loadAny junk dir env ff g = some (some f)) (a b j : Str)
    (d e k : Segments) (hd : loadDataText a (args.update "filename".toList (args.get "data-file".toList)) = some d)
    (he : loadDataText b (args.update "filename".toList (args.get "data-file".toList)) = some e)
    (hk : loadDataText j (args.update "filename".toList (args.get "data-file".toList)) = some k)
    (h1 : SameLayout e d) (h2 : SameLayout k d) (hs : k.samples = d.samples ++ e.samples)
    (hn : d.samples ≠ []) (hn' : e.samples ≠ []) :
    (∃ v, PlotsTo val junk fmt dir env ff fs args g j v) ↔
      (∃ t, PlotsTo val junk fmt dir env ff fs args g a t) ∧ ∃ u, PlotsTo val junk fmt dir env ff fs args g b u := by
  have s : SameShape d.store.toData e.store.toData := sameLayout_shape h1
  have s' : SameShape d.store.toData k.store.toData := sameLayout_shape h2
  have hp : k.store.toData.rows = d.store.toData.rows ++ e.store.toData.rows := by
    rw [samples_rows, hs, List.map_append, ← samples_rows, ← samples_rows]
  constructor
  · rintro ⟨v, hv⟩
    obtain ⟨⟨-, p2, p3⟩, ls, p4, -⟩ := (plotsTo_iff val junk fmt dir env ff fs args ha hname g f hload j k hk v).1 hv
    rw [s'.sampleError, hp, mapM_append'] at p3
    rw [s'.plotCells, hp, mapM_append'] at p4
    rw [s'.dimY] at p2
    cases hx : d.store.toData.rows.mapM (sampleError f.evaluable d.store.toData) with
    | none => rw [hx] at p3; cases p3
    | some x =>
    cases hy : e.store.toData.rows.mapM (sampleError f.evaluable d.store.toData) with
    | none => rw [hx, hy] at p3; cases p3
    | some y =>
    obtain ⟨l1, k1, p4⟩ := Option.bind_eq_some_iff.1 p4
    obtain ⟨l2, k2, -⟩ := Option.map_eq_some_iff.1 p4
    refine ⟨⟨_, (plotsTo_iff val junk fmt dir env ff fs args ha hname g f hload a d hd _).2
      ⟨⟨?_, p2, by rw [hx]; rfl⟩, l1, k1, rfl⟩⟩, ⟨_, (plotsTo_iff val junk fmt dir env ff fs args ha hname g f hload b e he _).2
      ⟨⟨?_, by rw [s.dimY]; exact p2, by rw [s.sampleError, hy]; rfl⟩, l2, by rw [s.plotCells]; exact k2, rfl⟩⟩⟩
    · rw [samples_rows]; simpa using hn
    · rw [samples_rows]; simpa using hn'
  · rintro ⟨⟨t, r1⟩, u, r2⟩
    obtain ⟨ls, ms, -, -, -, h⟩ := brdf2gnuplot_joined val junk fmt dir env ff fs args ha hname g f hload a b j d e k hd he hk h1 h2
      hs t u r1 r2
    exact ⟨_, (h _).2 rfl⟩

/-- **C98.**  With the samples in another order, it writes the same lines in another order. -/
theorem brdf2gnuplot_reordered (val : Dbl → ℝ) (junk : ℝ) (fmt : ℝ → Decimal) (dir : Str) (env : Option Str)
    (ff : Str → Option (Symbols (Provider LobeObj))) (fs : Str → Option (Symbols (Str → SMap → Option DataObj)))
    (args : SMap) (ha : AsksPlotFile args) (hname : args.get "data-file".toList ≠ args.get "input".toList) (g : Str) (f : AnyFn)
    (hload : loadAny junk dir env ff g = some (some f)) (a b : Str)
    (d e : Segments) (hd : loadDataText a (args.update "filename".toList (args.get "data-file".toList)) = some d)
    (he : loadDataText b (args.update "filename".toList (args.get "data-file".toList)) = some e) (hr : Reordered d e) (t : Str)
    (r1 : PlotsTo val junk fmt dir env ff fs args g a t) :
    ∃ ls ms, SingleLines ls ∧ t = plotFile args ls ∧ ls.Perm ms ∧
      ∀ u, PlotsTo val junk fmt dir env ff fs args g b u ↔ u = plotFile args ms := by
  have s : SameShape d.store.toData e.store.toData := sameLayout_shape hr.layout
  obtain ⟨⟨p1, p2, p3⟩, ls, p4, p5⟩ :=
    (plotsTo_iff val junk fmt dir env ff fs args ha hname g f hload a d hd t).1 r1
  rcases mapM_perm (plotCells fmt f.evaluable d.store.toData
      (plotKind (args.isDefined "error".toList) (args.isDefined "linear_error".toList)) (args.isDefined "cos-plot".toList))
      hr.rows with ⟨n1, -⟩ | ⟨r, r', n1, n2, n3⟩
  · rw [n1] at p4; cases p4
  · rw [n1] at p4
    obtain rfl := Option.some.inj p4
    refine ⟨r, r', plotCells_single _ _ _ _ _ _ _ n1, p5, n3, fun u => ?_⟩
    rw [plotsTo_iff val junk fmt dir env ff fs args ha hname g f hload b e he u]
    unfold PlotReady
    rw [s.sampleError, s.plotCells, n2, s.dimY]
    have hne : e.store.toData.rows ≠ [] := fun h0 => p1 (List.Perm.eq_nil (h0 ▸ hr.rows))
    rcases mapM_perm (sampleError f.evaluable d.store.toData) hr.rows with ⟨m1, -⟩ | ⟨x, y, m1, m2, -⟩
    · rw [m1] at p3; cases p3
    · rw [m2]
      simp [p2, hne]

/-- **C98.**  With samples removed (not all), it writes the lines of those that stay. -/
theorem brdf2gnuplot_cut (val : Dbl → ℝ) (junk : ℝ) (fmt : ℝ → Decimal) (dir : Str) (env : Option Str)
    (ff : Str → Option (Symbols (Provider LobeObj))) (fs : Str → Option (Symbols (Str → SMap → Option DataObj)))
    (args : SMap) (ha : AsksPlotFile args) (hname : args.get "data-file".toList ≠ args.get "input".toList) (g : Str) (f : AnyFn)
    (hload : loadAny junk dir env ff g = some (some f)) (a b : Str)
    (d e : Segments) (hd : loadDataText a (args.update "filename".toList (args.get "data-file".toList)) = some d)
    (he : loadDataText b (args.update "filename".toList (args.get "data-file".toList)) = some e) (hl : SameLayout e d)
    (hs : e.samples.Sublist d.samples) (hne : e.samples ≠ []) (t : Str)
    (r1 : PlotsTo val junk fmt dir env ff fs args g a t) :
    ∃ ls ms, SingleLines ls ∧ t = plotFile args ls ∧ ls.length = d.samples.length ∧ ms.Sublist ls ∧ ms.length = e.samples.length ∧
      ∀ u, PlotsTo val junk fmt dir env ff fs args g b u ↔ u = plotFile args ms := by
  have s : SameShape d.store.toData e.store.toData := sameLayout_shape hl
  have hp : e.store.toData.rows.Sublist d.store.toData.rows := by
    rw [samples_rows, samples_rows]; exact hs.map _
  have sub : ∀ {β : Type} (F : List ℝ → Option β) {l l' : List (List ℝ)}, l.Sublist l' → ∀ r', l'.mapM F = some r' →
      ∃ r, l.mapM F = some r ∧ r.Sublist r' := by
    intro β F l l' h
    induction h with
    | slnil => intro r' hr'; exact ⟨[], rfl, by simp⟩
    | @cons l l' x _ ih =>
      intro r' hr'
      rw [List.mapM_cons] at hr'
      obtain ⟨y, -, hr'⟩ := Option.bind_eq_some_iff.1 hr'
      obtain ⟨z, hz, hr'⟩ := Option.bind_eq_some_iff.1 hr'
      obtain rfl := Option.some.inj hr'
      obtain ⟨r, k1, k2⟩ := ih z hz
      exact ⟨r, k1, k2.cons _⟩
    | @cons_cons l l' x _ ih =>
      intro r' hr'
      rw [List.mapM_cons] at hr'
      obtain ⟨y, hy, hr'⟩ := Option.bind_eq_some_iff.1 hr'
      obtain ⟨z, hz, hr'⟩ := Option.bind_eq_some_iff.1 hr'
      obtain rfl := Option.some.inj hr'
      obtain ⟨r, k1, k2⟩ := ih z hz
      exact ⟨y :: r, by rw [List.mapM_cons, hy, k1]; rfl, k2.cons_cons _⟩
  obtain ⟨⟨p1, p2, p3⟩, ls, p4, p5⟩ :=
    (plotsTo_iff val junk fmt dir env ff fs args ha hname g f hload a d hd t).1 r1
  obtain ⟨ms, q4, q5⟩ := sub _ hp ls p4
  obtain ⟨x, hx⟩ := Option.isSome_iff_exists.1 p3
  obtain ⟨y, hy, -⟩ := sub _ hp x hx
  refine ⟨ls, ms, plotCells_single _ _ _ _ _ _ _ p4, p5, ?_, q5, ?_, fun u => ?_⟩
  · rw [mapM_get_length _ _ _ p4, samples_rows, List.length_map]
  · rw [mapM_get_length _ _ _ q4, samples_rows, List.length_map]
  · rw [plotsTo_iff val junk fmt dir env ff fs args ha hname g f hload b e he u]
    unfold PlotReady
    rw [s.sampleError, s.plotCells, q4, s.dimY, hy]
    have : e.store.toData.rows ≠ [] := by rw [samples_rows]; simpa using hne
    simp [p2, this]

end
end Alta
