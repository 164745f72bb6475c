import Verif.Props.PlotLines
import Verif.Props.StatsJoinedExample
/-
C98: an example: two files of one sample, joined, and the plot of the values of a function.
-/
namespace Alta
noncomputable section

/-- `--data-file i --input b --output o` -/
def plotFileArgs : SMap := [("data-file".toList, ['i']), ("input".toList, ['b']), ("output".toList, ['o'])]

theorem plotFileArgs_asks : AsksPlotFile plotFileArgs :=
  ⟨⟨by decide, by decide, ⟨by decide, rfl⟩, by decide⟩, .inl (by decide)⟩

theorem fitStatArgs_same (a : Str) : loadDataText a (plotFileArgs.update "filename".toList (plotFileArgs.get "data-file".toList)) =
    loadDataText a (fitStatArgs.update "filename".toList (fitStatArgs.get "input".toList)) := by
  unfold loadDataText loadText loadSetup
  rfl

/-- The plot of the joined file is made of the two plots. -/
example (val : Dbl → ℝ) (dir : Str) (env : Option Str) (ff : Str → Option (Symbols (Provider LobeObj)))
    (fs : Str → Option (Symbols (Str → SMap → Option DataObj))) :
    ∃ t u, PlotsTo val 0 exampleFmt dir env ff fs plotFileArgs constantFile (saveText exampleFmt (grazingValue 2)) t ∧
      PlotsTo val 0 exampleFmt dir env ff fs plotFileArgs constantFile (saveText exampleFmt (grazingValue 3)) u ∧
      PlotsTo val 0 exampleFmt dir env ff fs plotFileArgs constantFile
        (saveText exampleFmt (grazingValue 2) ++ saveText exampleFmt (grazingValue 3)) (t ++ u) := by
  obtain ⟨e0, e1, e2, e3⟩ := exampleFmt_values
  obtain ⟨g, g1, g2⟩ := constant_function 0 dir env ff
  obtain ⟨d, d1, d2, d3, d4⟩ := grazingValue_load 2 e2
  obtain ⟨e, e1, e2, e3, e4⟩ := grazingValue_load 3 e3
  obtain ⟨j, j1, j2, j3, -⟩ := joined_files _ _ _ d e d1 e1 (d4.trans e4.symm) d3
    (saved_last exampleFmt (grazingValue 2) (by simp [grazingValue]))
  have hl := loaded_layout _ _ _ d e d1 e1 (d4.trans e4.symm)
  rw [← fitStatArgs_same] at d1 e1 j1
  have run : ∀ (a : Str) (y : ℝ) (s : Segments), loadDataText a
      (plotFileArgs.update "filename".toList (plotFileArgs.get "data-file".toList)) = some s → s.store.toData = grazingValue y →
      ∃ t, PlotsTo val 0 exampleFmt dir env ff fs plotFileArgs constantFile a t := by
    intro a y s hs hy
    have h1 : (fun n : Str => if n = ['i'] then some a else some constantFile) (plotFileArgs.get "data-file".toList) = some a := by
      rw [show plotFileArgs.get "data-file".toList = ['i'] by decide]; rfl
    have h2 : (fun n : Str => if n = ['i'] then some a else some constantFile) (plotFileArgs.get "input".toList) =
        some constantFile := by
      rw [show plotFileArgs.get "input".toList = ['b'] by decide]; rfl
    obtain ⟨t, t1, -⟩ := brdf2gnuplot_file val 0 exampleFmt exampleFmt_digits dir env ff fs
      (fun n : Str => if n = ['i'] then some a else some constantFile) (fun _ => true) plotFileArgs plotFileArgs_asks.asks a constantFile h1 h2 _ (loadDataStream_text val dir env fs _ plotFileArgs_asks.format a _ s hs) _ g1
      (by show DistanceReady _ s.store.toData; rw [hy]; exact (grazingValue_comparable y g g2).ready)
      (by show s.store.toData.rows ≠ []; rw [hy]; simp [grazingValue]) (.inl (by decide)) (by decide)
    exact ⟨t, _, _, h1, h2, t1⟩
  obtain ⟨t, rt⟩ := run _ 2 d d1 d2
  obtain ⟨u, ru⟩ := run _ 3 e e1 e2
  obtain ⟨ls, ms, -, k1, k2, k3⟩ := brdf2gnuplot_joined val 0 exampleFmt dir env ff fs plotFileArgs plotFileArgs_asks (by decide) _ _ g1
    _ _ _ d e j d1 e1 j1 hl j2 j3 t u rt ru
  refine ⟨t, u, rt, ru, ?_⟩
  rw [k3, k1, k2]
  exact (brdf2gnuplot_joined_plain plotFileArgs (by unfold Numbered; decide) ls ms).symm

end
end Alta
