import Verif.Props.FitExport
import Verif.Props.RationalFile
import Verif.Props.Data2DataRun
import Verif.Props.Data2DataExample
/-
C88: an example: a rational function exported on two samples, and the differences.
-/
namespace Alta
noncomputable section

/-- (2 + 3 u) / (1 + 2 u) on [0, 1], in a file. -/
def exportedFile : Str :=
  saveHeader (SMap.getCmd []) ⟨1, 1, .COS_TH, .UNKNOWN_OUTPUT⟩ ++
    (RatFn.saveCall exampleFmt ⟨1, 1, 2, 2, [0], [1], [some exampleRat1]⟩ ++ ['\n'])

/-- Two samples at the cosine 0. -/
def exportTemplate : Data := ⟨1, 1, .COS_TH, .INV_STERADIAN, [[0, 3], [0, 2]]⟩

/-- `--data-file d --input i --output o` -/
def exportArgs : SMap := [("data-file".toList, ['d']), ("input".toList, ['i']), ("output".toList, ['o'])]

/-- `--data-file d --export-diff --input i --output o` -/
def exportDiffArgs : SMap :=
  [("data-file".toList, ['d']), ("export-diff".toList, []), ("input".toList, ['i']), ("output".toList, ['o'])]

theorem exported_function (junk : ℝ) (dir : Str) (env : Option Str) (ff : Str → Option (Symbols (Provider LobeObj))) :
    ∃ g, loadAny junk dir env ff exportedFile = some (some (.rational ⟨1, 1, .COS_TH, .UNKNOWN_OUTPUT⟩ g)) ∧
      g.value [0] = some [1] := by
  obtain ⟨e0, e1, e2, e3⟩ := exampleFmt_values
  obtain ⟨g', h1, h2⟩ := rational_file_same_value junk exampleFmt exampleFmt_digits ⟨1, 1, 2, 2, [0], [1], [some exampleRat1]⟩
    (newRational ⟨1, 1, .COS_TH, .UNKNOWN_OUTPUT⟩) [exampleRat1] rfl rfl
    (by
      intro r hr
      rw [List.mem_singleton.1 hr]
      refine ⟨rfl, by simp [exampleRat1], exampleRat1_standard, ?_⟩
      simp [inflate, exampleRat1])
    rfl rfl
    (by
      intro x hx
      simp at hx
      rcases hx with rfl | rfl
      · exact e0
      · exact e1)
    (by
      intro r hr c hc
      rw [List.mem_singleton.1 hr] at hc
      simp [exampleRat1] at hc
      rcases hc with rfl | rfl | rfl | rfl <;> assumption)
    (by norm_num) rfl rfl rfl ['\n']
  refine ⟨g', ?_, ?_⟩
  · unfold exportedFile
    have := loadAny_rational junk dir env ff [] SMap.ordered_nil (by intro e he; cases he) ⟨1, 1, .COS_TH, .UNKNOWN_OUTPUT⟩
      (by unfold Input.Named; decide) (RatFn.saveCall exampleFmt ⟨1, 1, 2, 2, [0], [1], [some exampleRat1]⟩ ++ ['\n'])
      (fun q => getFunction_none _ _ _ _ _ _ (by decide))
    have hsk := RatFn.load_skippable junk (newRational ⟨1, 1, .COS_TH, .UNKNOWN_OUTPUT⟩) newlines_one.skippable
      (RatFn.saveCall exampleFmt ⟨1, 1, 2, 2, [0], [1], [some exampleRat1]⟩ ++ ['\n'])
    rw [this, show '\n' :: (RatFn.saveCall exampleFmt ⟨1, 1, 2, 2, [0], [1], [some exampleRat1]⟩ ++ ['\n']) =
      ['\n'] ++ (RatFn.saveCall exampleFmt ⟨1, 1, 2, 2, [0], [1], [some exampleRat1]⟩ ++ ['\n']) from rfl, hsk, h1]
    rfl
  · rw [h2]
    have h0 : index2degree 1 0 = some [0] := by decide +kernel
    have h1 : index2degree 1 1 = some [1] := by decide +kernel
    have hpoly : ∀ lo hi a b z : ℝ, polynomial 1 [lo] [hi] [a, b] [z] = a + b * (2 * (z - lo) / (hi - lo) - 1) := by
      intro lo hi a b z
      simp [polynomial, basisFn, monomial, Finset.sum_range_succ, h0, h1, unitCoord, arr]
    have : exampleRat1.value [0] = some 1 := by
      rw [rational_value _ exampleRat1_standard]
      show some (polynomial 1 [0] [1] [2, 3] [0] / polynomial 1 [0] [1] [1, 2] [0]) = _
      rw [hpoly, hpoly]
      norm_num
    simp [RatFn.value, List.range_succ, this]

/-- The program writes the values of the function, and with `--export-diff` the differences 2 and 1, of which the largest is the
    L∞ distance. -/
example (val : Dbl → ℝ) (dir : Str) (env : Option Str) (ff : Str → Option (Symbols (Provider LobeObj)))
    (fs : Str → Option (Symbols (Str → SMap → Option OutPlugin))) (gs : Str → Option (Symbols (ℕ → Par → SMap → OutPlugin)))
    (files : Str → Option Str) (hd : files ['d'] = some (saveText exampleFmt exportTemplate))
    (hi : files ['i'] = some exportedFile) :
    brdf2dataMain val 0 exampleFmt dir env ff fs gs files (fun _ => true) exportArgs =
        some (0, some (saveText exampleFmt ⟨1, 1, .COS_TH, .INV_STERADIAN, [[0, 1], [0, 1]]⟩)) ∧
      brdf2dataMain val 0 exampleFmt dir env ff fs gs files (fun _ => true) exportDiffArgs =
        some (0, some (saveText exampleFmt ⟨1, 1, .COS_TH, .INV_STERADIAN, [[0, 2], [0, 1]]⟩)) ∧
      ∃ g mean var, loadAny 0 dir env ff exportedFile = some (some (.rational ⟨1, 1, .COS_TH, .UNKNOWN_OUTPUT⟩ g)) ∧
        linfDistance (g.evaluable ⟨1, 1, .COS_TH, .UNKNOWN_OUTPUT⟩) exportTemplate = some (2, mean, var) := by
  obtain ⟨e0, e1, e2, e3⟩ := exampleFmt_values
  obtain ⟨g, g1, g2⟩ := exported_function 0 dir env ff
  have hfmt : ∀ v, (exampleFmt v).ip ≠ [] ∨ (exampleFmt v).fp ≠ [] := by
    intro v
    left
    unfold exampleFmt
    split
    · simp
    · split
      · simp
      · split <;> simp
  have hv : ∀ r ∈ exportTemplate.rows, ∀ v ∈ r, ((exampleFmt v).value : ℝ) = v ∧ 0 ≤ v ∧ v ≤ 3 := by
    intro r hr v hv
    simp only [exportTemplate, List.mem_cons, List.not_mem_nil, or_false] at hr
    rcases hr with rfl | rfl <;> simp only [List.mem_cons, List.not_mem_nil, or_false] at hv <;>
      rcases hv with rfl | rfl
    · exact ⟨e0, by norm_num, by norm_num⟩
    · exact ⟨e3, by norm_num, by norm_num⟩
    · exact ⟨e0, by norm_num, by norm_num⟩
    · exact ⟨e2, by norm_num, by norm_num⟩
  have hs : exportTemplate.Sampled := by
    intro r hr
    simp only [exportTemplate, List.mem_cons, List.not_mem_nil, or_false] at hr
    rcases hr with rfl | rfl <;> rfl
  have hpr : exportTemplate.printedBy exampleFmt = exportTemplate := by
    have key : ∀ r ∈ exportTemplate.rows, (r.map fun v => ((exampleFmt v).value : ℝ)) = r := by
      intro r hr
      conv_rhs => rw [← List.map_id r]
      exact List.map_congr_left fun v h => (hv r hr v h).1
    unfold Data.printedBy
    have : (exportTemplate.rows.map fun r => r.map fun v => ((exampleFmt v).value : ℝ)) = exportTemplate.rows := by
      conv_rhs => rw [← List.map_id exportTemplate.rows]
      exact List.map_congr_left key
    rw [this]
  have hfin : ∀ r ∈ exportTemplate.rows, ∀ v ∈ r, |((exampleFmt v).value : ℝ)| ≤ ((fltMax : ℚ) : ℝ) := by
    intro r hr v h
    obtain ⟨h1, h2, h3⟩ := hv r hr v h
    rw [h1, abs_of_nonneg h2]
    have hm : (3 : ℝ) ≤ ((fltMax : ℚ) : ℝ) := by
      have : (3 : ℚ) ≤ fltMax := by norm_num [fltMax]
      exact_mod_cast this
    linarith
  have hn : exportTemplate.input.Named := by unfold Input.Named; decide
  have p1 : PlainArgs exportArgs := by constructor <;> decide
  have p2 : PlainArgs exportDiffArgs := by constructor <;> decide
  have o1 : exportArgs.Ordered := by simp [SMap.Ordered, exportArgs] <;> decide
  have o2 : exportDiffArgs.Ordered := by simp [SMap.Ordered, exportDiffArgs] <;> decide
  have l1 := loadDataStream_saved val exampleFmt hfmt dir env (fun _ => none) (exportArgs.get "data".toList) _
    (p1.filename o1 (exportArgs.get "data-file".toList)) (.inl (by decide)) exportTemplate (by decide) hs hfin (.inl hn)
  have l2 := loadDataStream_saved val exampleFmt hfmt dir env (fun _ => none) (exportDiffArgs.get "data".toList) _
    (p2.filename o2 (exportDiffArgs.get "data-file".toList)) (.inl (by decide)) exportTemplate (by decide) hs hfin (.inl hn)
  rw [hpr] at l1 l2
  have a1 : AsksExport exportArgs := by constructor <;> decide
  have a2 : AsksExport exportDiffArgs := by constructor <;> decide
  have t1 : AltaTemplate exportArgs := .inl (by decide)
  have t2 : AltaTemplate exportDiffArgs := .inl (by decide)
  have hf1 : files (exportArgs.get "data-file".toList) = some (saveText exampleFmt exportTemplate) := by
    rw [show exportArgs.get "data-file".toList = ['d'] by decide]; exact hd
  have hf2 : files (exportDiffArgs.get "data-file".toList) = some (saveText exampleFmt exportTemplate) := by
    rw [show exportDiffArgs.get "data-file".toList = ['d'] by decide]; exact hd
  have hi1 : files (exportArgs.get "input".toList) = some exportedFile := by
    rw [show exportArgs.get "input".toList = ['i'] by decide]; exact hi
  have hi2 : files (exportDiffArgs.get "input".toList) = some exportedFile := by
    rw [show exportDiffArgs.get "input".toList = ['i'] by decide]; exact hi
  have hev : ∀ a : ℝ, distancePoint (AnyFn.rational ⟨1, 1, .COS_TH, .UNKNOWN_OUTPUT⟩ g).evaluable exportTemplate [0, a] =
      some [0] := by
    intro a
    show distancePoint (g.evaluable ⟨1, 1, .COS_TH, .UNKNOWN_OUTPUT⟩) exportTemplate [0, a] = _
    have hdim : inputDim .COS_TH = 1 := by decide +kernel
    simp [distancePoint, RatFn.evaluable, exportTemplate, convertInput, hdim, arr]
  have hval : (AnyFn.rational ⟨1, 1, .COS_TH, .UNKNOWN_OUTPUT⟩ g).evaluable.value [0] = some [1] := g2
  have hends : ∀ x ∈ exportTemplate.rows, ∃ z v,
      distancePoint (AnyFn.rational ⟨1, 1, .COS_TH, .UNKNOWN_OUTPUT⟩ g).evaluable exportTemplate x = some z ∧
      (AnyFn.rational ⟨1, 1, .COS_TH, .UNKNOWN_OUTPUT⟩ g).evaluable.value z = some v ∧ v.length = exportTemplate.dimY := by
    intro x hx
    simp only [exportTemplate, List.mem_cons, List.not_mem_nil, or_false] at hx
    rcases hx with rfl | rfl
    · exact ⟨[0], [1], hev 3, hval, rfl⟩
    · exact ⟨[0], [1], hev 2, hval, rfl⟩
  have hsample : ∀ (args : SMap) (a : ℝ) (y : List ℝ),
      ExportedSample (AnyFn.rational ⟨1, 1, .COS_TH, .UNKNOWN_OUTPUT⟩ g).evaluable args exportTemplate [0, a] y →
      (args.isDefined "export-diff".toList = false → y = [0, 1]) ∧ (args.isDefined "export-diff".toList = true → y = [0, a - 1]) := by
    rintro args a y ⟨z, v, z1, z2, -, z4, z5⟩
    have hz : z = [0] := by
      have : (AnyFn.rational ⟨1, 1, .COS_TH, .UNKNOWN_OUTPUT⟩ g).evaluable.abscissa exportTemplate [0, a] = some [0] := by
        have hdim : inputDim .COS_TH = 1 := by decide +kernel
        show (g.evaluable ⟨1, 1, .COS_TH, .UNKNOWN_OUTPUT⟩).abscissa exportTemplate [0, a] = _
        simp [Evaluable.abscissa, RatFn.evaluable, exportTemplate, convertInput, hdim, arr]
      rw [this] at z1
      exact (Option.some.inj z1).symm
    subst hz
    rw [hval] at z2
    cases z2
    exact ⟨fun h => by rw [z4 h]; rfl, fun h => by rw [z5 h]; simp [exportTemplate, arr, List.range_succ]⟩
  have hdata : ∀ (args : SMap) (d : Data),
      ExportedData (AnyFn.rational ⟨1, 1, .COS_TH, .UNKNOWN_OUTPUT⟩ g).evaluable args exportTemplate d →
      (args.isDefined "export-diff".toList = false → d = ⟨1, 1, .COS_TH, .INV_STERADIAN, [[0, 1], [0, 1]]⟩) ∧
      (args.isDefined "export-diff".toList = true → d = ⟨1, 1, .COS_TH, .INV_STERADIAN, [[0, 2], [0, 1]]⟩) := by
    rintro args ⟨q1, q2, q3, q4, q5⟩ ⟨b1, b2, b3, b4, b5⟩
    simp only at b1 b2 b3 b4 b5
    subst b1 b2 b3 b4
    obtain ⟨r1, l, c1, c2, rfl⟩ := List.forall₂_cons_left_iff.1 b5
    obtain ⟨r2, l2, c3, c4, rfl⟩ := List.forall₂_cons_left_iff.1 c2
    cases c4
    obtain ⟨f1, f2⟩ := hsample args 3 r1 c1
    obtain ⟨f3, f4⟩ := hsample args 2 r2 c3
    refine ⟨fun h => ?_, fun h => ?_⟩
    · rw [f1 h, f3 h]; rfl
    · rw [f2 h, f4 h]
      norm_num [exportTemplate]
  obtain ⟨t, r1⟩ := (brdf2data_run val 0 exampleFmt dir env ff fs gs files (fun _ => true) exportArgs a1 t1 _ _ hf1 hi1 _ l1 _ g1).2
    ⟨rfl, hends⟩
  obtain ⟨t', r2⟩ := (brdf2data_run val 0 exampleFmt dir env ff fs gs files (fun _ => true) exportDiffArgs a2 t2 _ _ hf2 hi2 _ l2 _
    g1).2 ⟨rfl, hends⟩
  obtain ⟨-, d1, x1, -, x3, -⟩ := brdf2data_text_file val 0 exampleFmt hfmt dir env ff fs gs files (fun _ => true) exportArgs a1 t1
    _ _ hf1 hi1 _ l1 hs _ g1 _ _ r1
  obtain ⟨-, d2, y1, -, y3, -⟩ := brdf2data_text_file val 0 exampleFmt hfmt dir env ff fs gs files (fun _ => true) exportDiffArgs a2
    t2 _ _ hf2 hi2 _ l2 hs _ g1 _ _ r2
  have hd1 := (hdata _ _ x1).1 (by decide)
  have hd2 := (hdata _ _ y1).2 (by decide)
  rw [r1, r2, x3, y3]
  refine ⟨by rw [hd1], by rw [hd2], g, ?_⟩
  have hready : DistanceReady (g.evaluable ⟨1, 1, .COS_TH, .UNKNOWN_OUTPUT⟩) exportTemplate := by
    refine ⟨rfl, hs, fun row hr => ?_⟩
    have hdim : inputDim .COS_TH = 1 := by decide +kernel
    simp only [exportTemplate, List.mem_cons, List.not_mem_nil, or_false] at hr
    rcases hr with rfl | rfl
    all_goals exact ⟨[0], [1], by simp [Evaluable.abscissa, RatFn.evaluable, exportTemplate, convertInput, hdim, arr], rfl, g2, rfl⟩
  obtain ⟨m, mean, var, m1, -, -, -⟩ := linf_distance _ exportTemplate hready
  obtain ⟨l2, hl2⟩ : ∃ l2, l2Distance (g.evaluable ⟨1, 1, .COS_TH, .UNKNOWN_OUTPUT⟩) exportTemplate = some l2 :=
    ⟨_, l2_distance _ _ hready (by simp [exportTemplate])⟩
  obtain ⟨-, q2, q3⟩ := exported_distances _ exportDiffArgs exportTemplate d2 hs (by simp [exportTemplate]) (by decide) y1 l2 m
    mean var hl2 m1
  rw [hd2] at q2 q3
  refine ⟨mean, var, g1, ?_⟩
  rw [m1]
  have hm2 : (2 : ℝ) ≤ m := by
    have := q2 [0, 2] (by simp) 0 (by norm_num)
    simpa [arr] using this
  rcases q3 with h | ⟨row, hrow, c, hc, h⟩
  · linarith
  · have hc0 : c = 0 := by
      have : c < 1 := hc
      omega
    subst hc0
    simp only [List.mem_cons, List.not_mem_nil, or_false] at hrow
    rcases hrow with rfl | rfl
    · have : m = 2 := by simpa [arr] using h
      rw [this]
    · have : m = 1 := by simpa [arr] using h
      linarith

/-- An object of a plugin with one sample, of which the file tells whether its value is 1. -/
def oneCosine : OutPlugin := ⟨⟨1, 1, .COS_TH, .INV_STERADIAN⟩, [[0, 0]], fun rows => if rows.map (fun r => arr r 1) = [1] then ['1'] else []⟩

/-- `--data g.so --input i --output o` -/
def exportGridArgs : SMap := [("data".toList, "g.so".toList), ("input".toList, ['i']), ("output".toList, ['o'])]

/-- The object made by the plugin is filled with the values of the function. -/
example (val : Dbl → ℝ) (fmt : ℝ → Decimal) (ff : Str → Option (Symbols (Provider LobeObj)))
    (fs : Str → Option (Symbols (Str → SMap → Option OutPlugin))) (files : Str → Option Str)
    (hi : files ['i'] = some exportedFile) :
    brdf2dataMain val 0 fmt "/l".toList none ff fs
      (fun f => if f = "/l/".toList ++ "g.so".toList then
        some (fun s => if s = "provide_data".toList then some (fun _ _ _ => oneCosine) else none) else none)
      files (fun _ => true) exportGridArgs = some (0, some ['1']) := by
  obtain ⟨g, g1, g2⟩ := exported_function 0 "/l".toList none ff
  have hdim : inputDim .COS_TH = 1 := by decide +kernel
  have hi1 : files (exportGridArgs.get "input".toList) = some exportedFile := by
    rw [show exportGridArgs.get "input".toList = ['i'] by decide]; exact hi
  obtain ⟨d, d1, -, d3⟩ := brdf2data_plugin_file val 0 fmt "/l".toList none ff fs
    (fun f => if f = "/l/".toList ++ "g.so".toList then
      some (fun s => if s = "provide_data".toList then some (fun _ _ _ => oneCosine) else none) else none)
    files (fun _ => true) exportGridArgs (by decide) (by decide) (by decide) (by decide) (by unfold AltaTemplate; decide) _ hi1
    oneCosine (.inr ⟨_, by decide, grid_open _ "provide_data".toList "g.so".toList (exportGridArgs.get "data".toList)
      (by decide) (by decide), rfl⟩)
    (by intro r hr; simp only [OutPlugin.toData, oneCosine, List.mem_cons, List.not_mem_nil, or_false] at hr; rw [hr]; rfl) _ g1 rfl
    (by
      intro x hx
      simp only [oneCosine, List.mem_cons, List.not_mem_nil, or_false] at hx
      subst hx
      refine ⟨[0], [1], ?_, g2, rfl⟩
      show distancePoint (g.evaluable ⟨1, 1, .COS_TH, .UNKNOWN_OUTPUT⟩) oneCosine.toData [0, 0] = _
      simp [distancePoint, RatFn.evaluable, oneCosine, OutPlugin.toData, convertInput, hdim, arr])
  rw [d3]
  obtain ⟨r1, l, c1, c2, e⟩ := List.forall₂_cons_left_iff.1 (show List.Forall₂
      (ExportedSample (AnyFn.rational ⟨1, 1, .COS_TH, .UNKNOWN_OUTPUT⟩ g).evaluable exportGridArgs oneCosine.toData) [[0, 0]] d.rows
      from d1.rows)
  cases c2
  obtain ⟨z, v, z1, z2, -, z4, -⟩ := c1
  have hz : z = [0] := by
    have : (AnyFn.rational ⟨1, 1, .COS_TH, .UNKNOWN_OUTPUT⟩ g).evaluable.abscissa oneCosine.toData [0, 0] = some [0] := by
      show (g.evaluable ⟨1, 1, .COS_TH, .UNKNOWN_OUTPUT⟩).abscissa oneCosine.toData [0, 0] = _
      simp [Evaluable.abscissa, RatFn.evaluable, oneCosine, OutPlugin.toData, convertInput, hdim, arr]
    rw [this] at z1
    exact (Option.some.inj z1).symm
  subst hz
  have hval : (AnyFn.rational ⟨1, 1, .COS_TH, .UNKNOWN_OUTPUT⟩ g).evaluable.value [0] = some [1] := g2
  rw [hval] at z2
  cases z2
  rw [e, z4 (by decide)]
  simp [oneCosine, OutPlugin.toData, arr]

end
end Alta
