import Verif.Props.Brdf2GnuplotFile
import Verif.Props.PolarPlot
import Verif.Props.FitExport
/-
C90: the runs of `brdf2gnuplot`.
-/
namespace Alta
noncomputable section

/-- What a run does once the function is loaded. -/
theorem brdf2gnuplot_function (val : Dbl → ℝ) (junk : ℝ) (fmt : ℝ → Decimal) (dir : Str) (env : Option Str)
    (ff : Str → Option (Symbols (Provider LobeObj))) (fs : Str → Option (Symbols (Str → SMap → Option DataObj)))
    (files : Str → Option Str) (writable : Str → Bool) (args : SMap) (h1 : args.isDefined "help".toList = false)
    (h2 : args.isDefined "input".toList = true) (h3 : args.isDefined "output".toList = true) (text : Str)
    (hg : files (args.get "input".toList) = some text) (f : AnyFn) (hload : loadAny junk dir env ff text = some (some f)) :
    brdf2gnuplotMain val junk fmt dir env ff fs files writable args =
      gnuplotWrite val fmt dir env fs files writable args f.evaluable := by
  unfold brdf2gnuplotMain
  rw [if_neg (by rw [h1]; simp), if_neg (by rw [h2]; simp), if_neg (by rw [h3]; simp)]
  simp only [hg, Option.map_some, hload]

/-- What a run does once the function and the data are loaded. -/
theorem brdf2gnuplot_loaded (val : Dbl → ℝ) (junk : ℝ) (fmt : ℝ → Decimal) (dir : Str) (env : Option Str)
    (ff : Str → Option (Symbols (Provider LobeObj))) (fs : Str → Option (Symbols (Str → SMap → Option DataObj)))
    (files : Str → Option Str) (writable : Str → Bool) (args : SMap) (ha : AsksPlot args writable) (content text : Str)
    (hf : files (args.get "data-file".toList) = some content) (hg : files (args.get "input".toList) = some text) (d : DataObj)
    (hl : loadDataStream val dir env fs (args.get "data".toList) content
      (args.update "filename".toList (args.get "data-file".toList)) = some (some d))
    (f : AnyFn) (hload : loadAny junk dir env ff text = some (some f)) :
    brdf2gnuplotMain val junk fmt dir env ff fs files writable args =
      (gnuplotData fmt f.evaluable d.toData (plotKind (args.isDefined "error".toList) (args.isDefined "linear_error".toList))
        (args.isDefined "cos-plot".toList)).map fun t => (0, some t) := by
  rw [brdf2gnuplot_function val junk fmt dir env ff fs files writable args ha.noHelp ha.input ha.output.1 text hg f hload]
  unfold gnuplotWrite
  rw [if_pos (.inr ha.file)]
  simp only [hf, hl]
  congr 1
  funext t
  unfold gnuplotOutput
  rw [if_pos ha.output.2]

/-- The plot with the weights `w`. -/
theorem brdf2gnuplot_weighted (val : Dbl → ℝ) (junk : ℝ) (fmt : ℝ → Decimal) (hfmt : ∀ v, (fmt v).ip ≠ [] ∨ (fmt v).fp ≠ [])
    (dir : Str) (env : Option Str)
    (ff : Str → Option (Symbols (Provider LobeObj))) (fs : Str → Option (Symbols (Str → SMap → Option DataObj)))
    (files : Str → Option Str) (writable : Str → Bool) (args : SMap) (ha : AsksPlot args writable) (content text : Str)
    (hf : files (args.get "data-file".toList) = some content) (hg : files (args.get "input".toList) = some text) (d : DataObj)
    (hl : loadDataStream val dir env fs (args.get "data".toList) content
      (args.update "filename".toList (args.get "data-file".toList)) = some (some d))
    (f : AnyFn) (hload : loadAny junk dir env ff text = some (some f)) (h : DistanceReady f.evaluable d.toData) (hne : d.rows ≠ [])
    (w : List ℝ → ℝ) (hw : ∀ row ∈ d.rows, ∀ x, f.evaluable.abscissa d.toData row = some x →
      cosTerm f.evaluable (args.isDefined "cos-plot".toList) x = some (w row))
    (hk : plotKind (args.isDefined "error".toList) (args.isDefined "linear_error".toList) ≠ .linear) :
    ∃ file, brdf2gnuplotMain val junk fmt dir env ff fs files writable args = some (0, some file) ∧
      readTable file = some (printedTable fmt (d.rows.zipIdx.map fun p => plotted f.evaluable d.toData
        (plotKind (args.isDefined "error".toList) (args.isDefined "linear_error".toList)) (w p.1) p.2 p.1)) := by
  obtain ⟨l2, linf, mean, var, -, -, e⟩ := dataPlot_weighted f.evaluable d.toData h hne
    (plotKind (args.isDefined "error".toList) (args.isDefined "linear_error".toList)) (args.isDefined "cos-plot".toList) w hw
  rw [brdf2gnuplot_loaded val junk fmt dir env ff fs files writable args ha content text hf hg d hl f hload,
    gnuplotData_text fmt _ _ _ hk, e]
  exact ⟨_, rfl, readTable_numbers fmt hfmt _⟩

/-- **C90.**  Without `--cos-plot` (or for a function without parametrization), the program ends with the code 0 and its file has
    one line for each sample of the data, in order: the abscissa and the values of the function, or with `--error` the values of the
    data less those of the function, as they are printed. -/
theorem brdf2gnuplot_file (val : Dbl → ℝ) (junk : ℝ) (fmt : ℝ → Decimal) (hfmt : ∀ v, (fmt v).ip ≠ [] ∨ (fmt v).fp ≠ [])
    (dir : Str) (env : Option Str)
    (ff : Str → Option (Symbols (Provider LobeObj))) (fs : Str → Option (Symbols (Str → SMap → Option DataObj)))
    (files : Str → Option Str) (writable : Str → Bool) (args : SMap) (ha : AsksPlot args writable) (content text : Str)
    (hf : files (args.get "data-file".toList) = some content) (hg : files (args.get "input".toList) = some text) (d : DataObj)
    (hl : loadDataStream val dir env fs (args.get "data".toList) content
      (args.update "filename".toList (args.get "data-file".toList)) = some (some d))
    (f : AnyFn) (hload : loadAny junk dir env ff text = some (some f)) (h : DistanceReady f.evaluable d.toData) (hne : d.rows ≠ [])
    (hc : args.isDefined "cos-plot".toList = false ∨ f.evaluable.par.input = .UNKNOWN_INPUT)
    (hk : plotKind (args.isDefined "error".toList) (args.isDefined "linear_error".toList) ≠ .linear) :
    ∃ file, brdf2gnuplotMain val junk fmt dir env ff fs files writable args = some (0, some file) ∧
      readTable file = some (printedTable fmt (d.rows.zipIdx.map fun p => plotted f.evaluable d.toData
        (plotKind (args.isDefined "error".toList) (args.isDefined "linear_error".toList)) 1 p.2 p.1)) := by
  refine brdf2gnuplot_weighted val junk fmt hfmt dir env ff fs files writable args ha content text hf hg d hl f hload h hne
    (fun _ => 1) ?_ hk
  intro row _ x _
  unfold cosTerm
  rw [if_neg]
  rintro ⟨k1, k2⟩
  rcases hc with hc | hc
  · rw [k1] at hc; exact Bool.noConfusion hc
  · exact k2 hc

/-- **C90.**  With `--cos-plot` and a function of the two directions, the values of the function are multiplied by the product of
    the two cosines. -/
theorem brdf2gnuplot_cos_file (val : Dbl → ℝ) (junk : ℝ) (fmt : ℝ → Decimal) (hfmt : ∀ v, (fmt v).ip ≠ [] ∨ (fmt v).fp ≠ [])
    (dir : Str) (env : Option Str)
    (ff : Str → Option (Symbols (Provider LobeObj))) (fs : Str → Option (Symbols (Str → SMap → Option DataObj)))
    (files : Str → Option Str) (writable : Str → Bool) (args : SMap) (ha : AsksPlot args writable) (content text : Str)
    (hf : files (args.get "data-file".toList) = some content) (hg : files (args.get "input".toList) = some text) (d : DataObj)
    (hl : loadDataStream val dir env fs (args.get "data".toList) content
      (args.update "filename".toList (args.get "data-file".toList)) = some (some d))
    (f : AnyFn) (hload : loadAny junk dir env ff text = some (some f)) (h : DistanceReady f.evaluable d.toData) (hne : d.rows ≠ [])
    (hc : args.isDefined "cos-plot".toList = true) (hin : f.evaluable.par.input = .CARTESIAN)
    (pairs : List ℝ → Cart) (hd : ∀ row ∈ d.rows, d.toData.directions row (pairs row))
    (hk : plotKind (args.isDefined "error".toList) (args.isDefined "linear_error".toList) ≠ .linear) :
    ∃ file, brdf2gnuplotMain val junk fmt dir env ff fs files writable args = some (0, some file) ∧
      readTable file = some (printedTable fmt (d.rows.zipIdx.map fun p => plotted f.evaluable d.toData
        (plotKind (args.isDefined "error".toList) (args.isDefined "linear_error".toList))
        ((pairs p.1).v.z * (pairs p.1).l.z) p.2 p.1)) := by
  obtain ⟨l2, linf, e⟩ := data_plot_cos f.evaluable d.toData h hne
    (plotKind (args.isDefined "error".toList) (args.isDefined "linear_error".toList)) hin pairs hd
  rw [brdf2gnuplot_loaded val junk fmt dir env ff fs files writable args ha content text hf hg d hl f hload,
    gnuplotData_text fmt _ _ _ hk, hc, e]
  exact ⟨_, rfl, readTable_numbers fmt hfmt _⟩

/-- **C90.**  With `--linear_error` (and without `--error`), when no value of the data is zero, the file has one line for each
    sample: its index, exactly, and the relative differences as they are printed. -/
theorem brdf2gnuplot_linear_file (val : Dbl → ℝ) (junk : ℝ) (fmt : ℝ → Decimal) (hfmt : ∀ v, (fmt v).ip ≠ [] ∨ (fmt v).fp ≠ [])
    (dir : Str) (env : Option Str)
    (ff : Str → Option (Symbols (Provider LobeObj))) (fs : Str → Option (Symbols (Str → SMap → Option DataObj)))
    (files : Str → Option Str) (writable : Str → Bool) (args : SMap) (ha : AsksPlot args writable) (content text : Str)
    (hf : files (args.get "data-file".toList) = some content) (hg : files (args.get "input".toList) = some text) (d : DataObj)
    (hl : loadDataStream val dir env fs (args.get "data".toList) content
      (args.update "filename".toList (args.get "data-file".toList)) = some (some d))
    (f : AnyFn) (hload : loadAny junk dir env ff text = some (some f)) (h : DistanceReady f.evaluable d.toData) (hne : d.rows ≠ [])
    (hc : args.isDefined "cos-plot".toList = false) (h1 : args.isDefined "error".toList = false)
    (h2 : args.isDefined "linear_error".toList = true)
    (hz : ∀ row ∈ d.rows, ∀ u < d.par.dimY, arr row (d.par.dimX + u) ≠ 0) :
    ∃ file, brdf2gnuplotMain val junk fmt dir env ff fs files writable args = some (0, some file) ∧
      readTable file = some (d.rows.zipIdx.map fun p => (p.2 : ℝ) :: (List.range d.par.dimY).map fun u =>
        ((fmt ((arr p.1 (d.par.dimX + u) - arr (f.evaluable.valueFor d.toData p.1) u) / arr p.1 (d.par.dimX + u))).value : ℝ)) := by
  have hk : plotKind (args.isDefined "error".toList) (args.isDefined "linear_error".toList) = .linear := by rw [h1, h2]; rfl
  have e := gnuplotData_linear fmt f.evaluable d.toData h hne false (fun _ => 1) (by
    intro row _ x _
    unfold cosTerm
    rw [if_neg (by simp)])
  rw [brdf2gnuplot_loaded val junk fmt dir env ff fs files writable args ha content text hf hg d hl f hload, hk, hc, e]
  refine ⟨_, rfl, ?_⟩
  have quo : ∀ p ∈ d.rows.zipIdx, ∀ u ∈ List.range d.par.dimY,
      quotientText fmt (arr p.1 (d.par.dimX + u) - 1 * arr (f.evaluable.valueFor d.toData p.1) u) (arr p.1 (d.par.dimX + u)) =
      (fmt ((arr p.1 (d.par.dimX + u) - arr (f.evaluable.valueFor d.toData p.1) u) / arr p.1 (d.par.dimX + u))).text := by
    intro p hp u hu
    unfold quotientText
    rw [if_pos (hz _ (List.fst_mem_of_mem_zipIdx hp) u (List.mem_range.1 hu)), one_mul]
  refine readTable_lines (d.rows.zipIdx) (fun p : List ℝ × ℕ => showNat p.2 :: (List.range d.par.dimY).map fun u =>
      quotientText fmt (arr p.1 (d.par.dimX + u) - 1 * arr (f.evaluable.valueFor d.toData p.1) u) (arr p.1 (d.par.dimX + u)))
    _ ?_ ?_
  · intro p hp
    rw [List.mapM_cons, wholeNumber_showNat, mapM_map_some _ _ _ _ fun u hu => by
      rw [quo p hp u hu]; exact (wholeNumber_text fmt hfmt _).1]
    rfl
  · intro p hp s hs
    rcases List.mem_cons.1 hs with rfl | hs
    · exact ⟨showNat_avoids _ _ (by decide), showNat_avoids _ _ (by decide)⟩
    · obtain ⟨u, hu, rfl⟩ := List.mem_map.1 hs
      rw [quo p hp u hu]
      exact ⟨(fmt _).text_avoids _ (by decide), (fmt _).text_avoids _ (by decide)⟩

/-- **C90.**  A polar plot: with neither `--data` nor `--data-file`, the file has a line for each elevation, `samples / 2` on each
    side, with the signed elevation and the values of the function for the light at the elevation `--inc-angle`. -/
theorem brdf2gnuplot_polar_file (val : Dbl → ℝ) (junk : ℝ) (fmt : ℝ → Decimal) (hfmt : ∀ v, (fmt v).ip ≠ [] ∨ (fmt v).fp ≠ [])
    (dir : Str) (env : Option Str)
    (ff : Str → Option (Symbols (Provider LobeObj))) (fs : Str → Option (Symbols (Str → SMap → Option DataObj)))
    (files : Str → Option Str) (writable : Str → Bool) (args : SMap) (ha : AsksPolar args writable) (text : Str)
    (hg : files (args.get "input".toList) = some text) (f : AnyFn) (hload : loadAny junk dir env ff text = some (some f))
    (hp : f.evaluable.par.input ≠ .SPHERICAL_TL_PL_TV_PV) (hn : f.evaluable.par.input.Named)
    (hd : (inputDim f.evaluable.par.input).toNat = f.evaluable.par.dimX)
    (hy : ∀ t ∈ polarAngles (args.getInt "samples".toList 100 / 2).toNat,
      f.evaluable.SeenAt (polarDirections ((args.getFloat "inc-angle".toList 0 : ℚ) : ℝ) t)) :
    ∃ file, brdf2gnuplotMain val junk fmt dir env ff fs files writable args = some (0, some file) ∧
      readTable file = some (printedTable fmt ((polarAngles (args.getInt "samples".toList 100 / 2).toNat).map fun t =>
        t :: (f.evaluable.reflect (polarDirections ((args.getFloat "inc-angle".toList 0 : ℚ) : ℝ) t)).getD [])) := by
  rw [brdf2gnuplot_function val junk fmt dir env ff fs files writable args ha.noHelp ha.input ha.output.1 text hg f hload]
  unfold gnuplotWrite
  rw [if_neg (by rw [ha.noData.1, ha.noData.2]; simp), if_pos ha.polar]
  unfold gnuplotPolar
  rw [polar_plot f.evaluable _ _ hp hn hd hy, Option.map_some, Option.map_some]
  unfold gnuplotOutput
  rw [if_pos ha.output.2]
  exact ⟨_, rfl, readTable_numbers fmt hfmt _⟩

/-- **C90.**  A run that ends normally ends with the code 0 or 1, and writes nothing with the code 1. -/
theorem brdf2gnuplot_exit (val : Dbl → ℝ) (junk : ℝ) (fmt : ℝ → Decimal) (dir : Str) (env : Option Str)
    (ff : Str → Option (Symbols (Provider LobeObj))) (fs : Str → Option (Symbols (Str → SMap → Option DataObj)))
    (files : Str → Option Str) (writable : Str → Bool) (args : SMap) (c : ℕ) (out : Option Str)
    (h : brdf2gnuplotMain val junk fmt dir env ff fs files writable args = some (c, out)) : c = 0 ∨ (c = 1 ∧ out = none) := by
  have done : ∀ {k : ℕ} {o : Option Str}, some (k, o) = some (c, out) → k = 0 ∨ (k = 1 ∧ o = none) → c = 0 ∨ (c = 1 ∧ out = none) := by
    intro k o e hk
    simp only [Option.some.injEq, Prod.mk.injEq] at e
    rw [← e.1, ← e.2]
    exact hk
  have made : ∀ {o : Option Str}, o.map (gnuplotOutput writable args) = some (c, out) → c = 0 ∨ (c = 1 ∧ out = none) := by
    intro o e
    obtain ⟨t, -, e⟩ := Option.map_eq_some_iff.1 e
    exact done (congrArg some e) (.inl rfl)
  unfold brdf2gnuplotMain at h
  split at h
  · exact done h (.inl rfl)
  split at h
  · exact done h (.inr ⟨rfl, rfl⟩)
  split at h
  · exact done h (.inr ⟨rfl, rfl⟩)
  split at h
  · exact done h (.inr ⟨rfl, rfl⟩)
  · cases h
  · exact done h (.inr ⟨rfl, rfl⟩)
  unfold gnuplotWrite at h
  split at h
  · split at h
    · exact done h (.inr ⟨rfl, rfl⟩)
    split at h
    · cases h
    · cases h
    · exact made h
  split at h
  · exact made h
  · exact done h (.inl rfl)

/-- **C90.**  Without a file of a function, without the name of the output, or without the file of the data that are asked for, the
    code is 1 and nothing is written. -/
theorem brdf2gnuplot_missing (val : Dbl → ℝ) (junk : ℝ) (fmt : ℝ → Decimal) (dir : Str) (env : Option Str)
    (ff : Str → Option (Symbols (Provider LobeObj))) (fs : Str → Option (Symbols (Str → SMap → Option DataObj)))
    (files : Str → Option Str) (writable : Str → Bool) (args : SMap) (h1 : args.isDefined "help".toList = false) :
    (args.isDefined "input".toList = false ∨ args.isDefined "output".toList = false ∨ files (args.get "input".toList) = none ∨
        (∃ text, files (args.get "input".toList) = some text ∧ loadAny junk dir env ff text = some none) →
      brdf2gnuplotMain val junk fmt dir env ff fs files writable args = some (1, none)) ∧
    ∀ (text : Str) (f : AnyFn), args.isDefined "input".toList = true → args.isDefined "output".toList = true →
      files (args.get "input".toList) = some text → loadAny junk dir env ff text = some (some f) →
      args.isDefined "data-file".toList = true → files (args.get "data-file".toList) = none →
      brdf2gnuplotMain val junk fmt dir env ff fs files writable args = some (1, none) := by
  constructor
  · intro h
    unfold brdf2gnuplotMain
    rw [if_neg (by rw [h1]; simp)]
    split
    · rfl
    split
    · rfl
    rename_i q1 q2
    rcases h with h | h | h | ⟨text, h, h'⟩
    · exact absurd h q1
    · exact absurd h q2
    · simp only [h, Option.map_none]
    · simp only [h, Option.map_some, h']
  · intro text f h2 h3 hg hload h4 hf
    rw [brdf2gnuplot_function val junk fmt dir env ff fs files writable args h1 h2 h3 text hg f hload]
    unfold gnuplotWrite
    rw [if_pos (.inr h4)]
    simp only [hf]

/-- **C90.**  Limit: `--data` without `--data-file`, which the help gives as the definition of the abscissae, always ends with the
    code 1 and without a file, since no file has an empty name. -/
theorem brdf2gnuplot_data_alone (val : Dbl → ℝ) (junk : ℝ) (fmt : ℝ → Decimal) (dir : Str) (env : Option Str)
    (ff : Str → Option (Symbols (Provider LobeObj))) (fs : Str → Option (Symbols (Str → SMap → Option DataObj)))
    (files : Str → Option Str) (hempty : files [] = none) (writable : Str → Bool) (args : SMap)
    (h1 : args.isDefined "help".toList = false) (h2 : args.isDefined "input".toList = true)
    (h3 : args.isDefined "output".toList = true) (text : Str) (hg : files (args.get "input".toList) = some text) (f : AnyFn)
    (hload : loadAny junk dir env ff text = some (some f)) (h4 : args.isDefined "data".toList = true)
    (h5 : args.isDefined "data-file".toList = false) :
    brdf2gnuplotMain val junk fmt dir env ff fs files writable args = some (1, none) := by
  have key : ∀ k, args.isDefined k = false → args.get k = [] := by
    intro k hk
    unfold SMap.isDefined at hk
    unfold SMap.get
    cases hfind : args.find k with
    | none => rfl
    | some v => rw [hfind] at hk; cases hk
  rw [brdf2gnuplot_function val junk fmt dir env ff fs files writable args h1 h2 h3 text hg f hload]
  unfold gnuplotWrite
  rw [if_pos (.inl h4), key _ h5, hempty]

/-- **C90.**  Limit: a loaded function with none of `--data`, `--data-file` and `--polar-plot` gives the code 0, but no file. -/
theorem brdf2gnuplot_nothing (val : Dbl → ℝ) (junk : ℝ) (fmt : ℝ → Decimal) (dir : Str) (env : Option Str)
    (ff : Str → Option (Symbols (Provider LobeObj))) (fs : Str → Option (Symbols (Str → SMap → Option DataObj)))
    (files : Str → Option Str) (writable : Str → Bool) (args : SMap)
    (h1 : args.isDefined "help".toList = false) (h2 : args.isDefined "input".toList = true)
    (h3 : args.isDefined "output".toList = true) (text : Str) (hg : files (args.get "input".toList) = some text) (f : AnyFn)
    (hload : loadAny junk dir env ff text = some (some f)) (h4 : args.isDefined "data".toList = false)
    (h5 : args.isDefined "data-file".toList = false) (h6 : args.isDefined "polar-plot".toList = false) :
    brdf2gnuplotMain val junk fmt dir env ff fs files writable args = some (0, none) := by
  rw [brdf2gnuplot_function val junk fmt dir env ff fs files writable args h1 h2 h3 text hg f hload]
  unfold gnuplotWrite
  rw [if_neg (by rw [h4, h5]; simp), if_neg (by rw [h6]; simp)]

/-- **C90.**  Limit: when the output file cannot be opened the run writes nothing, and never ends with another code than 0 once the
    function and the data are loaded. -/
theorem brdf2gnuplot_unwritable (val : Dbl → ℝ) (junk : ℝ) (fmt : ℝ → Decimal) (dir : Str) (env : Option Str)
    (ff : Str → Option (Symbols (Provider LobeObj))) (fs : Str → Option (Symbols (Str → SMap → Option DataObj)))
    (files : Str → Option Str) (writable : Str → Bool) (args : SMap) (hw : writable (args.get "output".toList) = false) :
    (∀ c out, brdf2gnuplotMain val junk fmt dir env ff fs files writable args = some (c, out) → out = none) ∧
    ∀ file, brdf2gnuplotMain val junk fmt dir env ff fs files (fun _ => true) args = some (0, some file) →
      brdf2gnuplotMain val junk fmt dir env ff fs files writable args = some (0, none) := by
  have hout : gnuplotOutput writable args = fun _ => (0, none) := by
    funext t
    unfold gnuplotOutput
    rw [hw]
    rfl
  have wr : ∀ g, gnuplotWrite val fmt dir env fs files writable args g =
      (gnuplotWrite val fmt dir env fs files (fun _ => true) args g).map fun r => (r.1, none) := by
    intro g
    unfold gnuplotWrite
    rw [hout]
    split
    · split
      · rfl
      split
      · rfl
      · rfl
      · rw [Option.map_map]; rfl
    split
    · rw [Option.map_map]; rfl
    · rfl
  have all : brdf2gnuplotMain val junk fmt dir env ff fs files writable args =
      (brdf2gnuplotMain val junk fmt dir env ff fs files (fun _ => true) args).map fun r => (r.1, none) := by
    unfold brdf2gnuplotMain
    split
    · rfl
    split
    · rfl
    split
    · rfl
    split
    · rfl
    · rfl
    · rfl
    · exact wr _
  constructor
  · intro c out h
    rw [all] at h
    obtain ⟨r, -, e⟩ := Option.map_eq_some_iff.1 h
    exact (congrArg Prod.snd e).symm
  · intro file h
    rw [all, h]
    rfl

/-- **C90.**  Limits: data of a plugin that is not there, data without samples, and the polar plot of a function without
    parametrization end the program abnormally. -/
theorem brdf2gnuplot_ends (val : Dbl → ℝ) (junk : ℝ) (fmt : ℝ → Decimal) (dir : Str) (env : Option Str)
    (ff : Str → Option (Symbols (Provider LobeObj))) (fs : Str → Option (Symbols (Str → SMap → Option DataObj)))
    (files : Str → Option Str) (writable : Str → Bool) (args : SMap) (text : Str)
    (hg : files (args.get "input".toList) = some text) (f : AnyFn) (hload : loadAny junk dir env ff text = some (some f)) :
    (∀ content, AsksPlot args writable → files (args.get "data-file".toList) = some content →
      ¬ AltaTemplate args → openLibrary dir env fs (args.get "data".toList) "load_data".toList = some none →
      brdf2gnuplotMain val junk fmt dir env ff fs files writable args = none) ∧
    (∀ content d, AsksPlot args writable → files (args.get "data-file".toList) = some content →
      loadDataStream val dir env fs (args.get "data".toList) content
        (args.update "filename".toList (args.get "data-file".toList)) = some (some d) → d.rows = [] →
      brdf2gnuplotMain val junk fmt dir env ff fs files writable args = none) ∧
    (AsksPolar args writable → f.evaluable.par.input = .UNKNOWN_INPUT → 2 ≤ args.getInt "samples".toList 100 →
      brdf2gnuplotMain val junk fmt dir env ff fs files writable args = none) := by
  refine ⟨?_, ?_, ?_⟩
  · intro content ha hf ht ho
    rw [brdf2gnuplot_function val junk fmt dir env ff fs files writable args ha.noHelp ha.input ha.output.1 text hg f hload]
    unfold gnuplotWrite
    rw [if_pos (.inr ha.file)]
    have : loadDataStream val dir env fs (args.get "data".toList) content
        (args.update "filename".toList (args.get "data-file".toList)) = some none := by
      unfold loadDataStream
      rw [if_neg (show ¬ (args.get "data".toList = [] ∨ args.get "data".toList = "vertical_segment".toList) from ht), ho]
    simp only [hf, this]
  · intro content d ha hf hl hne
    rw [brdf2gnuplot_loaded val junk fmt dir env ff fs files writable args ha content text hf hg d hl f hload]
    unfold gnuplotData l2Distance
    have : d.toData.rows = [] := hne
    rw [this]
    rfl
  · intro ha hu hs
    rw [brdf2gnuplot_function val junk fmt dir env ff fs files writable args ha.noHelp ha.input ha.output.1 text hg f hload]
    unfold gnuplotWrite
    rw [if_neg (by rw [ha.noData.1, ha.noData.2]; simp), if_pos ha.polar]
    unfold gnuplotPolar
    rw [polar_plot_unknown _ _ _ hu hs]
    rfl

end
end Alta
