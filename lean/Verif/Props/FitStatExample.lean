import Verif.Props.FitStat
import Verif.Props.FitExportExample
/-
C89: an example: the constant function 1 of the two directions, and one sample.
-/
namespace Alta
noncomputable section

/-- The constant 1, as a rational function of six variables on [0, 1]. -/
def constantRat1 : Rat1 := ⟨6, [⟨1, [0, 0, 0, 0, 0, 0]⟩], [⟨1, [0, 0, 0, 0, 0, 0]⟩], [0, 0, 0, 0, 0, 0], [1, 1, 1, 1, 1, 1]⟩

/-- A file of that function. -/
def constantFile : Str :=
  saveHeader (SMap.getCmd []) ⟨6, 1, .CARTESIAN, .UNKNOWN_OUTPUT⟩ ++
    (RatFn.saveCall exampleFmt ⟨6, 1, 1, 1, [0, 0, 0, 0, 0, 0], [1, 1, 1, 1, 1, 1], [some constantRat1]⟩ ++ ['\n'])

/-- The value 2 for a view along the surface and a light along the normal. -/
def grazingData : Data := ⟨6, 1, .CARTESIAN, .INV_STERADIAN, [[1, 0, 0, 0, 0, 1, 2]]⟩

/-- `--brdf b --input i --output o` -/
def fitStatArgs : SMap := [("brdf".toList, ['b']), ("input".toList, ['i']), ("output".toList, ['o'])]

theorem constantRat1_standard : constantRat1.Standard := by
  have h0 : index2degree 6 0 = some [0, 0, 0, 0, 0, 0] := by decide +kernel
  refine ⟨by decide, fun i c hc => ?_, fun i c hc => ?_⟩
  · match i with
    | 0 => simp [constantRat1] at hc; rw [← hc]; simp [constantRat1, h0]
    | n + 1 => simp [constantRat1] at hc
  · match i with
    | 0 => simp [constantRat1] at hc; rw [← hc]; simp [constantRat1, h0]
    | n + 1 => simp [constantRat1] at hc

theorem constant_function (junk : ℝ) (dir : Str) (env : Option Str) (ff : Str → Option (Symbols (Provider LobeObj))) :
    ∃ g, loadAny junk dir env ff constantFile = some (some (.rational ⟨6, 1, .CARTESIAN, .UNKNOWN_OUTPUT⟩ g)) ∧
      ∀ x, g.value x = some [1] := by
  obtain ⟨e0, e1, e2, e3⟩ := exampleFmt_values
  obtain ⟨g', h1, h2⟩ := rational_file_same_value junk exampleFmt exampleFmt_digits
    ⟨6, 1, 1, 1, [0, 0, 0, 0, 0, 0], [1, 1, 1, 1, 1, 1], [some constantRat1]⟩
    (newRational ⟨6, 1, .CARTESIAN, .UNKNOWN_OUTPUT⟩) [constantRat1] rfl rfl
    (by
      intro r hr
      rw [List.mem_singleton.1 hr]
      refine ⟨rfl, by simp [constantRat1], constantRat1_standard, ?_⟩
      simp [inflate, constantRat1])
    rfl rfl
    (by
      intro x hx
      simp at hx
      rcases hx with rfl | rfl
      · exact e0
      · exact e1)
    (by
      intro r hr c hc
      rw [List.mem_singleton.1 hr] at hc
      simp [constantRat1] at hc
      rcases hc with rfl | rfl <;> assumption)
    (by norm_num) rfl rfl rfl ['\n']
  refine ⟨g', ?_, ?_⟩
  · unfold constantFile
    have := loadAny_rational junk dir env ff [] SMap.ordered_nil (by intro e he; cases he) ⟨6, 1, .CARTESIAN, .UNKNOWN_OUTPUT⟩
      (by unfold Input.Named; decide)
      (RatFn.saveCall exampleFmt ⟨6, 1, 1, 1, [0, 0, 0, 0, 0, 0], [1, 1, 1, 1, 1, 1], [some constantRat1]⟩ ++ ['\n'])
      (fun q => getFunction_none _ _ _ _ _ _ (by decide))
    have hsk := RatFn.load_skippable junk (newRational ⟨6, 1, .CARTESIAN, .UNKNOWN_OUTPUT⟩) newlines_one.skippable
      (RatFn.saveCall exampleFmt ⟨6, 1, 1, 1, [0, 0, 0, 0, 0, 0], [1, 1, 1, 1, 1, 1], [some constantRat1]⟩ ++ ['\n'])
    rw [this, show '\n' :: (RatFn.saveCall exampleFmt ⟨6, 1, 1, 1, [0, 0, 0, 0, 0, 0], [1, 1, 1, 1, 1, 1], [some constantRat1]⟩ ++ ['\n']) =
      ['\n'] ++ (RatFn.saveCall exampleFmt ⟨6, 1, 1, 1, [0, 0, 0, 0, 0, 0], [1, 1, 1, 1, 1, 1], [some constantRat1]⟩ ++ ['\n']) from rfl,
      hsk, h1]
    rfl
  · intro x
    rw [h2]
    have h0 : index2degree 6 0 = some [0, 0, 0, 0, 0, 0] := by decide +kernel
    have hpoly : ∀ lo hi z : List ℝ, polynomial 6 lo hi [1] z = 1 := by
      intro lo hi z
      simp [polynomial, basisFn, monomial, Finset.sum_range_succ, Finset.prod_range_succ, h0, arr]
    have : constantRat1.value x = some 1 := by
      rw [rational_value _ constantRat1_standard]
      show some (polynomial 6 _ _ [1] _ / polynomial 6 _ _ [1] _) = _
      rw [hpoly]
      norm_num
    simp [RatFn.value, List.range_succ, this]

/-- The program runs on these two files.  The error is 1, and so is the error weighted by the cosine of the light; the file
    says that the weighted one is 0. -/
example (val : Dbl → ℝ) (dir : Str) (env : Option Str) (ff : Str → Option (Symbols (Provider LobeObj)))
    (files : Str → Option Str) (hd : files ['i'] = some (saveText exampleFmt grazingData))
    (hi : files ['b'] = some constantFile) :
    ∃ file, fit2statMain val 0 exampleFmt dir env ff files (fun _ => true) fitStatArgs = (some 0, some file) ∧
      ("MSE".toList, [1]) ∈ readFitStats file ∧ ("MSE * cos(theta_light)".toList, [0]) ∈ readFitStats file ∧
      ∃ g : RatFn, loadAny 0 dir env ff constantFile = some (some (.rational ⟨6, 1, .CARTESIAN, .UNKNOWN_OUTPUT⟩ g)) ∧
        meanOver grazingData (fun row => (((g.evaluable ⟨6, 1, .CARTESIAN, .UNKNOWN_OUTPUT⟩).directions grazingData row).l.z *
          (g.evaluable ⟨6, 1, .CARTESIAN, .UNKNOWN_OUTPUT⟩).error grazingData row 0) ^ 2) = 1 := by
  obtain ⟨e0, e1, e2, e3⟩ := exampleFmt_values
  obtain ⟨g, g1, g2⟩ := constant_function 0 dir env ff
  have hfmt : ∀ v, (exampleFmt v).ip ≠ [] ∨ (exampleFmt v).fp ≠ [] := by
    intro v
    left
    unfold exampleFmt
    split
    · simp
    · split
      · simp
      · split <;> simp
  have hv : ∀ r ∈ grazingData.rows, ∀ v ∈ r, ((exampleFmt v).value : ℝ) = v ∧ 0 ≤ v ∧ v ≤ 3 := by
    intro r hr v hv
    simp only [grazingData, List.mem_cons, List.not_mem_nil, or_false] at hr
    subst hr
    simp only [List.mem_cons, List.not_mem_nil, or_false] at hv
    rcases hv with rfl | rfl | rfl | rfl | rfl | rfl | rfl
    · exact ⟨e1, by norm_num, by norm_num⟩
    · exact ⟨e0, by norm_num, by norm_num⟩
    · exact ⟨e0, by norm_num, by norm_num⟩
    · exact ⟨e0, by norm_num, by norm_num⟩
    · exact ⟨e0, by norm_num, by norm_num⟩
    · exact ⟨e1, by norm_num, by norm_num⟩
    · exact ⟨e2, by norm_num, by norm_num⟩
  have hs : grazingData.Sampled := by
    intro r hr
    simp only [grazingData, List.mem_cons, List.not_mem_nil, or_false] at hr
    subst hr; rfl
  have hpr : grazingData.printedBy exampleFmt = grazingData := by
    have key : ∀ r ∈ grazingData.rows, (r.map fun v => ((exampleFmt v).value : ℝ)) = r := by
      intro r hr
      conv_rhs => rw [← List.map_id r]
      exact List.map_congr_left fun v h => (hv r hr v h).1
    unfold Data.printedBy
    have : (grazingData.rows.map fun r => r.map fun v => ((exampleFmt v).value : ℝ)) = grazingData.rows := by
      conv_rhs => rw [← List.map_id grazingData.rows]
      exact List.map_congr_left key
    rw [this]
  have hfin : ∀ r ∈ grazingData.rows, ∀ v ∈ r, |((exampleFmt v).value : ℝ)| ≤ ((fltMax : ℚ) : ℝ) := by
    intro r hr v h
    obtain ⟨h1, h2, h3⟩ := hv r hr v h
    rw [h1, abs_of_nonneg h2]
    have hm : (3 : ℝ) ≤ ((fltMax : ℚ) : ℝ) := by
      have : (3 : ℚ) ≤ fltMax := by norm_num [fltMax]
      exact_mod_cast this
    linarith
  have p1 : PlainArgs fitStatArgs := by constructor <;> decide
  have o1 : fitStatArgs.Ordered := by simp [SMap.Ordered, fitStatArgs] <;> decide
  have l1 := loadDataStream_saved val exampleFmt hfmt dir env (fun _ => none) "vertical_segment".toList _
    (p1.filename o1 (fitStatArgs.get "input".toList)) (.inr rfl) grazingData (by decide) hs hfin
    (.inl (by unfold Input.Named; decide))
  rw [hpr] at l1
  have hcmd : '\n' ∉ fitStatArgs.getCmd := by decide +kernel
  have ha : AsksFitStats fitStatArgs (fun _ => true) :=
    ⟨⟨by decide, by decide⟩, by decide, by decide, ⟨by decide, by decide, rfl⟩, hcmd⟩
  have hf1 : files (fitStatArgs.get "input".toList) = some (saveText exampleFmt grazingData) := by
    rw [show fitStatArgs.get "input".toList = ['i'] by decide]; exact hd
  have hg1 : files (fitStatArgs.get "brdf".toList) = some constantFile := by
    rw [show fitStatArgs.get "brdf".toList = ['b'] by decide]; exact hi
  have habs : (g.evaluable ⟨6, 1, .CARTESIAN, .UNKNOWN_OUTPUT⟩).abscissa grazingData [1, 0, 0, 0, 0, 1, 2] =
      some [1, 0, 0, 0, 0, 1] := by
    unfold Evaluable.abscissa
    rw [if_neg (by show ¬ Input.CARTESIAN = _; decide)]
    show convertInput _ .CARTESIAN .CARTESIAN = _
    unfold convertInput
    rw [if_pos rfl, show (inputDim .CARTESIAN).toNat = 6 by decide]
    simp [arr, List.range_succ]
  have herr : (g.evaluable ⟨6, 1, .CARTESIAN, .UNKNOWN_OUTPUT⟩).error grazingData [1, 0, 0, 0, 0, 1, 2] 0 = 1 := by
    unfold Evaluable.error
    rw [habs, Option.bind_some]
    show _ - arr ((g.value _).getD []) 0 = _
    rw [g2]
    norm_num [arr, grazingData]
  have hdir : (g.evaluable ⟨6, 1, .CARTESIAN, .UNKNOWN_OUTPUT⟩).directions grazingData [1, 0, 0, 0, 0, 1, 2] =
      ⟨⟨1, 0, 0⟩, ⟨0, 0, 1⟩⟩ := by
    unfold Evaluable.directions
    rw [habs]
    rfl
  have hmean : ∀ q, meanOver grazingData q = q [1, 0, 0, 0, 0, 1, 2] := by
    intro q
    simp [meanOver, grazingData]
  have hcmp : StatComparable (AnyFn.rational ⟨6, 1, .CARTESIAN, .UNKNOWN_OUTPUT⟩ g).evaluable grazingData := by
    refine ⟨⟨rfl, hs, fun row hr => ?_⟩, .inl ⟨rfl, rfl⟩⟩
    simp only [grazingData, List.mem_cons, List.not_mem_nil, or_false] at hr
    subst hr
    exact ⟨_, [1], habs, rfl, g2 _, rfl⟩
  obtain ⟨file, k1, k2⟩ := fit2stat_file val 0 exampleFmt hfmt dir env ff files (fun _ => true) fitStatArgs ha _ _ hf1 hg1
    grazingData l1 _ g1 hcmp (by simp [grazingData]) (by decide) rfl rfl
  have k2' : readFitStats file = printedStats exampleFmt (fitStatsOf grazingData
      ((g.evaluable ⟨6, 1, .CARTESIAN, .UNKNOWN_OUTPUT⟩).error grazingData)
      (fun row => ((g.evaluable ⟨6, 1, .CARTESIAN, .UNKNOWN_OUTPUT⟩).directions grazingData row).v.z)
      (fun row => ((g.evaluable ⟨6, 1, .CARTESIAN, .UNKNOWN_OUTPUT⟩).directions grazingData row).v.z)) := k2
  have hr : grazingData.rows = [[1, 0, 0, 0, 0, 1, 2]] := rfl
  have hY : List.range grazingData.dimY = [0] := rfl
  refine ⟨file, k1, ?_, ?_, g, g1, ?_⟩
  · rw [k2']
    refine List.mem_map.2 ⟨("MSE".toList, [1]), ?_, ?_⟩
    · have : ("MSE".toList, [(1 : ℝ)]) ∈ statsOf grazingData.dimY grazingData.rows.length (fun c => grazingData.rows.map fun row =>
          (g.evaluable ⟨6, 1, .CARTESIAN, .UNKNOWN_OUTPUT⟩).error grazingData row c) := by
        unfold statsOf
        rw [hY, hr]
        simp only [List.map_cons, List.map_nil, herr]
        norm_num
      unfold fitStatsOf
      exact List.mem_append_left _ (List.mem_append_left _ this)
    · show ("MSE".toList, [printed exampleFmt 1]) = _
      rw [e1]
  · rw [k2']
    refine List.mem_map.2 ⟨("MSE * cos(theta_light)".toList, [0]), ?_, ?_⟩
    · have : ("MSE * cos(theta_light)".toList, [(0 : ℝ)]) ∈ weightedStats grazingData
          ((g.evaluable ⟨6, 1, .CARTESIAN, .UNKNOWN_OUTPUT⟩).error grazingData)
          (fun row => ((g.evaluable ⟨6, 1, .CARTESIAN, .UNKNOWN_OUTPUT⟩).directions grazingData row).v.z)
          "MSE * cos(theta_light)".toList "RMSE * cos(theta_light)".toList := by
        unfold weightedStats
        rw [hY]
        simp only [List.map_cons, List.map_nil, hmean, hdir, herr]
        norm_num
      unfold fitStatsOf
      exact List.mem_append_left _ (List.mem_append_right _ this)
    · show ("MSE * cos(theta_light)".toList, [printed exampleFmt 0]) = _
      rw [e0]
  · rw [hmean, hdir, herr]
    norm_num

end
end Alta
