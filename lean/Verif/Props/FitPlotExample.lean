import Verif.Props.FitPlot
import Verif.Props.FitStatExample
/-
C90: an example: the constant function 1 of the two directions, one sample, and the polar plot.
-/
namespace Alta
noncomputable section

/-- `--cos-plot --data-file d --error --input i --output o` -/
def cosPlotArgs : SMap :=
  [("cos-plot".toList, []), ("data-file".toList, ['d']), ("error".toList, []), ("input".toList, ['i']), ("output".toList, ['o'])]

/-- `--data-file d --input i --output o` -/
def plotArgs : SMap := [("data-file".toList, ['d']), ("input".toList, ['i']), ("output".toList, ['o'])]

/-- `--data-file d --error --input i --output o` -/
def errorPlotArgs : SMap :=
  [("data-file".toList, ['d']), ("error".toList, []), ("input".toList, ['i']), ("output".toList, ['o'])]

/-- `--data-file d --input i --linear_error --output o` -/
def linearPlotArgs : SMap :=
  [("data-file".toList, ['d']), ("input".toList, ['i']), ("linear_error".toList, []), ("output".toList, ['o'])]

/-- `--input i --output o --polar-plot --samples 2` -/
def polarPlotArgs : SMap :=
  [("input".toList, ['i']), ("output".toList, ['o']), ("polar-plot".toList, []), ("samples".toList, ['2'])]

/-- The value of the sample is 2, for a view along the surface; that of the function is 1.  The plots have the value 1, the
    difference 1 and, weighted by the cosines, the difference 2; the polar plot has twice the elevation 0 and the value 1. -/
example (val : Dbl → ℝ) (dir : Str) (env : Option Str) (ff : Str → Option (Symbols (Provider LobeObj)))
    (fs : Str → Option (Symbols (Str → SMap → Option DataObj))) (files : Str → Option Str)
    (hd : files ['d'] = some (saveText exampleFmt grazingData)) (hi : files ['i'] = some constantFile) :
    (∃ file, brdf2gnuplotMain val 0 exampleFmt dir env ff fs files (fun _ => true) plotArgs = some (0, some file) ∧
      readTable file = some [[1, 0, 0, 0, 0, 1, 1]]) ∧
    (∃ file, brdf2gnuplotMain val 0 exampleFmt dir env ff fs files (fun _ => true) errorPlotArgs = some (0, some file) ∧
      readTable file = some [[1, 0, 0, 0, 0, 1, 1]]) ∧
    (∃ file, brdf2gnuplotMain val 0 exampleFmt dir env ff fs files (fun _ => true) cosPlotArgs = some (0, some file) ∧
      readTable file = some [[1, 0, 0, 0, 0, 1, 2]]) ∧
    (∃ file, brdf2gnuplotMain val 0 exampleFmt dir env ff fs files (fun _ => true) linearPlotArgs = some (0, some file) ∧
      readTable file = some [[0, ((exampleFmt (1 / 2)).value : ℝ)]]) ∧
    (∃ file, brdf2gnuplotMain val 0 exampleFmt dir env ff fs files (fun _ => true) polarPlotArgs = some (0, some file) ∧
      readTable file = some [[0, 1], [0, 1]]) := by
  obtain ⟨e0, e1, e2, e3⟩ := exampleFmt_values
  obtain ⟨g, g1, g2⟩ := constant_function 0 dir env ff
  have hfmt : ∀ v, (exampleFmt v).ip ≠ [] ∨ (exampleFmt v).fp ≠ [] := exampleFmt_digits
  have hv : ∀ r ∈ grazingData.rows, ∀ v ∈ r, ((exampleFmt v).value : ℝ) = v ∧ 0 ≤ v ∧ v ≤ 3 := by
    intro r hr v hv
    simp only [grazingData, List.mem_cons, List.not_mem_nil, or_false] at hr
    subst hr
    simp only [List.mem_cons, List.not_mem_nil, or_false] at hv
    rcases hv with rfl | rfl | rfl | rfl | rfl | rfl | rfl
    · exact ⟨e1, by norm_num, by norm_num⟩
    · exact ⟨e0, by norm_num, by norm_num⟩
    · exact ⟨e0, by norm_num, by norm_num⟩
    · exact ⟨e0, by norm_num, by norm_num⟩
    · exact ⟨e0, by norm_num, by norm_num⟩
    · exact ⟨e1, by norm_num, by norm_num⟩
    · exact ⟨e2, by norm_num, by norm_num⟩
  have hs : grazingData.Sampled := by
    intro r hr
    simp only [grazingData, List.mem_cons, List.not_mem_nil, or_false] at hr
    subst hr; rfl
  have hpr : grazingData.printedBy exampleFmt = grazingData := by
    have key : ∀ r ∈ grazingData.rows, (r.map fun v => ((exampleFmt v).value : ℝ)) = r := by
      intro r hr
      conv_rhs => rw [← List.map_id r]
      exact List.map_congr_left fun v h => (hv r hr v h).1
    unfold Data.printedBy
    have : (grazingData.rows.map fun r => r.map fun v => ((exampleFmt v).value : ℝ)) = grazingData.rows := by
      conv_rhs => rw [← List.map_id grazingData.rows]
      exact List.map_congr_left key
    rw [this]
  have hfin : ∀ r ∈ grazingData.rows, ∀ v ∈ r, |((exampleFmt v).value : ℝ)| ≤ ((fltMax : ℚ) : ℝ) := by
    intro r hr v h
    obtain ⟨h1, h2, h3⟩ := hv r hr v h
    rw [h1, abs_of_nonneg h2]
    have hm : (3 : ℝ) ≤ ((fltMax : ℚ) : ℝ) := by
      have : (3 : ℚ) ≤ fltMax := by norm_num [fltMax]
      exact_mod_cast this
    linarith
  have hload : ∀ args : SMap, PlainArgs args → args.Ordered → args.get "data".toList = [] →
      loadDataStream val dir env fs (args.get "data".toList) (saveText exampleFmt grazingData)
        (args.update "filename".toList (args.get "data-file".toList)) = some (some (.ofData grazingData)) := by
    intro args p o hdata
    have l := loadDataStream_saved val exampleFmt hfmt dir env fs (args.get "data".toList) _
      (p.filename o (args.get "data-file".toList)) (.inl hdata) grazingData (by decide) hs hfin
      (.inl (by unfold Input.Named; decide))
    rw [hpr] at l
    exact l
  have habs : (g.evaluable ⟨6, 1, .CARTESIAN, .UNKNOWN_OUTPUT⟩).abscissa grazingData [1, 0, 0, 0, 0, 1, 2] =
      some [1, 0, 0, 0, 0, 1] := by
    unfold Evaluable.abscissa
    rw [if_neg (by show ¬ Input.CARTESIAN = _; decide)]
    show convertInput _ .CARTESIAN .CARTESIAN = _
    unfold convertInput
    rw [if_pos rfl, show (inputDim .CARTESIAN).toNat = 6 by decide]
    simp [arr, List.range_succ]
  have hready : DistanceReady (AnyFn.rational ⟨6, 1, .CARTESIAN, .UNKNOWN_OUTPUT⟩ g).evaluable grazingData := by
    refine ⟨rfl, hs, fun row hr => ?_⟩
    simp only [grazingData, List.mem_cons, List.not_mem_nil, or_false] at hr
    subst hr
    exact ⟨_, [1], habs, rfl, g2 _, rfl⟩
  have hval : (AnyFn.rational ⟨6, 1, .CARTESIAN, .UNKNOWN_OUTPUT⟩ g).evaluable.valueFor grazingData [1, 0, 0, 0, 0, 1, 2] = [1] := by
    show (g.evaluable ⟨6, 1, .CARTESIAN, .UNKNOWN_OUTPUT⟩).valueFor grazingData [1, 0, 0, 0, 0, 1, 2] = _
    unfold Evaluable.valueFor
    rw [habs, Option.bind_some]
    show (g.value _).getD [] = _
    rw [g2]
    rfl
  have hrow : ∀ (kind : PlotKind) (w : List ℝ → ℝ), printedTable exampleFmt (grazingData.rows.zipIdx.map fun p =>
      plotted (AnyFn.rational ⟨6, 1, .CARTESIAN, .UNKNOWN_OUTPUT⟩ g).evaluable grazingData kind (w p.1) p.2 p.1) =
      printedTable exampleFmt [plotted (AnyFn.rational ⟨6, 1, .CARTESIAN, .UNKNOWN_OUTPUT⟩ g).evaluable grazingData kind
        (w [1, 0, 0, 0, 0, 1, 2]) 0 [1, 0, 0, 0, 0, 1, 2]] := by
    intro kind w
    rfl
  have hY : List.range grazingData.dimY = [0] := rfl
  have hX : grazingData.dimX = 6 := rfl
  have pval : ∀ x : ℝ, printed exampleFmt x = x → ((exampleFmt x).value : ℝ) = x := fun x h => h
  refine ⟨?_, ?_, ?_, ?_, ?_⟩
  · have ha : AsksPlot plotArgs (fun _ => true) := ⟨by decide, by decide, ⟨by decide, rfl⟩, by decide⟩
    obtain ⟨file, k1, k2⟩ := brdf2gnuplot_file val 0 exampleFmt hfmt dir env ff fs files (fun _ => true) plotArgs ha
      (saveText exampleFmt grazingData) constantFile
      (by rw [show plotArgs.get "data-file".toList = ['d'] by decide]; exact hd)
      (by rw [show plotArgs.get "input".toList = ['i'] by decide]; exact hi) (.ofData grazingData)
      (hload plotArgs (by constructor <;> decide) (by simp [SMap.Ordered, plotArgs] <;> decide) (by decide)) _ g1 hready
      (by simp [DataObj.ofData, grazingData]) (.inl (by decide)) (by decide)
    refine ⟨file, k1, k2.trans (congrArg some ((hrow _ fun _ => 1).trans ?_))⟩
    rw [show plotKind (plotArgs.isDefined "error".toList) (plotArgs.isDefined "linear_error".toList) = .value by decide]
    simp only [plotted, hval, hX, hY, printedTable]
    simp [arr, pval 1 e1, pval 0 e0]
  · have ha : AsksPlot errorPlotArgs (fun _ => true) := ⟨by decide, by decide, ⟨by decide, rfl⟩, by decide⟩
    obtain ⟨file, k1, k2⟩ := brdf2gnuplot_file val 0 exampleFmt hfmt dir env ff fs files (fun _ => true) errorPlotArgs ha
      (saveText exampleFmt grazingData) constantFile
      (by rw [show errorPlotArgs.get "data-file".toList = ['d'] by decide]; exact hd)
      (by rw [show errorPlotArgs.get "input".toList = ['i'] by decide]; exact hi) (.ofData grazingData)
      (hload errorPlotArgs (by constructor <;> decide) (by simp [SMap.Ordered, errorPlotArgs] <;> decide) (by decide)) _ g1 hready
      (by simp [DataObj.ofData, grazingData]) (.inl (by decide)) (by decide)
    refine ⟨file, k1, k2.trans (congrArg some ((hrow _ fun _ => 1).trans ?_))⟩
    rw [show plotKind (errorPlotArgs.isDefined "error".toList) (errorPlotArgs.isDefined "linear_error".toList) = .error by decide]
    simp only [plotted, hval, hX, hY, printedTable]
    norm_num [arr, pval 1 e1, pval 0 e0]
  · have ha : AsksPlot cosPlotArgs (fun _ => true) := ⟨by decide, by decide, ⟨by decide, rfl⟩, by decide⟩
    obtain ⟨file, k1, k2⟩ := brdf2gnuplot_cos_file val 0 exampleFmt hfmt dir env ff fs files (fun _ => true) cosPlotArgs ha
      (saveText exampleFmt grazingData) constantFile
      (by rw [show cosPlotArgs.get "data-file".toList = ['d'] by decide]; exact hd)
      (by rw [show cosPlotArgs.get "input".toList = ['i'] by decide]; exact hi) (.ofData grazingData)
      (hload cosPlotArgs (by constructor <;> decide) (by simp [SMap.Ordered, cosPlotArgs] <;> decide) (by decide)) _ g1 hready
      (by simp [DataObj.ofData, grazingData]) (by decide) rfl (fun _ => ⟨⟨1, 0, 0⟩, ⟨0, 0, 1⟩⟩) (by
        intro row hr
        simp only [DataObj.ofData, grazingData, List.mem_cons, List.not_mem_nil, or_false] at hr
        subst hr
        show convertInput _ .CARTESIAN .CARTESIAN = _
        unfold convertInput
        rw [if_pos rfl, show (inputDim .CARTESIAN).toNat = 6 by decide]
        simp [arr, List.range_succ, Cart.toList]) (by decide)
    refine ⟨file, k1, k2.trans (congrArg some ((hrow _ fun _ => (0 : ℝ) * 1).trans ?_))⟩
    rw [show plotKind (cosPlotArgs.isDefined "error".toList) (cosPlotArgs.isDefined "linear_error".toList) = .error by decide]
    simp only [plotted, hval, hX, hY, printedTable]
    simp [arr, pval 1 e1, pval 0 e0, pval 2 e2]
  · have ha : AsksPlot linearPlotArgs (fun _ => true) := ⟨by decide, by decide, ⟨by decide, rfl⟩, by decide⟩
    obtain ⟨file, k1, k2⟩ := brdf2gnuplot_linear_file val 0 exampleFmt hfmt dir env ff fs files (fun _ => true) linearPlotArgs ha
      (saveText exampleFmt grazingData) constantFile
      (by rw [show linearPlotArgs.get "data-file".toList = ['d'] by decide]; exact hd)
      (by rw [show linearPlotArgs.get "input".toList = ['i'] by decide]; exact hi) (.ofData grazingData)
      (hload linearPlotArgs (by constructor <;> decide) (by simp [SMap.Ordered, linearPlotArgs] <;> decide) (by decide)) _ g1 hready
      (by simp [DataObj.ofData, grazingData]) (by decide) (by decide) (by decide) (by
        intro row hr u hu
        simp only [DataObj.ofData, grazingData, List.mem_cons, List.not_mem_nil, or_false] at hr
        have hu : u < 1 := hu
        obtain rfl : u = 0 := by omega
        subst hr
        norm_num [arr, DataObj.ofData, grazingData])
    refine ⟨file, k1, k2.trans (congrArg some ?_)⟩
    show [[((0 : ℕ) : ℝ), ((exampleFmt ((arr [1, 0, 0, 0, 0, 1, 2] 6 -
      arr ((AnyFn.rational ⟨6, 1, .CARTESIAN, .UNKNOWN_OUTPUT⟩ g).evaluable.valueFor grazingData [1, 0, 0, 0, 0, 1, 2]) 0) /
      arr [1, 0, 0, 0, 0, 1, 2] 6)).value : ℝ)]] = _
    rw [hval]
    norm_num [arr]
  · have ha : AsksPolar polarPlotArgs (fun _ => true) :=
      ⟨by decide, by decide, ⟨by decide, rfl⟩, ⟨by decide, by decide⟩, by decide⟩
    have hn : (polarPlotArgs.getInt "samples".toList 100 / 2).toNat = 1 := by decide +kernel
    have hinc : polarPlotArgs.getFloat "inc-angle".toList 0 = 0 := by decide +kernel
    have hrefl : ∀ c, (AnyFn.rational ⟨6, 1, .CARTESIAN, .UNKNOWN_OUTPUT⟩ g).evaluable.reflect c = some [1] := by
      intro c
      show (convertInput (arr c.toList) .CARTESIAN .CARTESIAN).bind g.value = _
      unfold convertInput
      rw [if_pos rfl, Option.bind_some, g2]
    obtain ⟨file, k1, k2⟩ := brdf2gnuplot_polar_file val 0 exampleFmt hfmt dir env ff fs files (fun _ => true) polarPlotArgs ha
      constantFile (by rw [show polarPlotArgs.get "input".toList = ['i'] by decide]; exact hi) _ g1
      (by show Input.CARTESIAN ≠ _; decide) (by show Input.CARTESIAN.Named; unfold Input.Named; decide)
      (by show (inputDim .CARTESIAN).toNat = 6; decide) (fun t _ => ⟨[1], hrefl _, rfl⟩)
    refine ⟨file, k1, k2.trans (congrArg some ?_)⟩
    rw [hn]
    simp only [hrefl]
    simp [polarAngles, printedTable, pval 1 e1, pval 0 e0]

end
end Alta
