import Verif.Props.StatsOrder
import Verif.Props.SamplewiseExample
import Verif.Props.FitStatExample
/-
C96: an example: the file of FitStatExample, and that file twice, joined.
-/
namespace Alta
noncomputable section

/-- Both runs write a file, with the same mean of the squared errors. -/
example (val : Dbl → ℝ) (dir : Str) (env : Option Str) (ff : Str → Option (Symbols (Provider LobeObj)))
    (files files' : Str → Option Str) (hd : files ['i'] = some (saveText exampleFmt grazingData))
    (hd' : files' ['i'] = some (saveText exampleFmt grazingData ++ saveText exampleFmt grazingData))
    (hi : files ['b'] = some constantFile) (hi' : files' ['b'] = some constantFile) :
    ∃ file file', fit2statMain val 0 exampleFmt dir env ff files (fun _ => true) fitStatArgs = (some 0, some file) ∧
      fit2statMain val 0 exampleFmt dir env ff files' (fun _ => true) fitStatArgs = (some 0, some file') ∧
      ∀ v, (("MSE".toList, v) ∈ readFitStats file' ↔ ("MSE".toList, v) ∈ readFitStats file) := by
  obtain ⟨e0, e1, e2, e3⟩ := exampleFmt_values
  obtain ⟨g, g1, g2⟩ := constant_function 0 dir env ff
  have hfmt : ∀ v, (exampleFmt v).ip ≠ [] ∨ (exampleFmt v).fp ≠ [] := by
    intro v
    left
    unfold exampleFmt
    split
    · simp
    · split
      · simp
      · split <;> simp
  have hv : ∀ r ∈ grazingData.rows, ∀ v ∈ r, ((exampleFmt v).value : ℝ) = v ∧ 0 ≤ v ∧ v ≤ 3 := by
    intro r hr v hv
    simp only [grazingData, List.mem_cons, List.not_mem_nil, or_false] at hr
    subst hr
    simp only [List.mem_cons, List.not_mem_nil, or_false] at hv
    rcases hv with rfl | rfl | rfl | rfl | rfl | rfl | rfl
    · exact ⟨e1, by norm_num, by norm_num⟩
    · exact ⟨e0, by norm_num, by norm_num⟩
    · exact ⟨e0, by norm_num, by norm_num⟩
    · exact ⟨e0, by norm_num, by norm_num⟩
    · exact ⟨e0, by norm_num, by norm_num⟩
    · exact ⟨e1, by norm_num, by norm_num⟩
    · exact ⟨e2, by norm_num, by norm_num⟩
  have hs : grazingData.Sampled := by
    intro r hr
    simp only [grazingData, List.mem_cons, List.not_mem_nil, or_false] at hr
    subst hr; rfl
  have hpr : grazingData.printedBy exampleFmt = grazingData := by
    have key : ∀ r ∈ grazingData.rows, (r.map fun v => ((exampleFmt v).value : ℝ)) = r := by
      intro r hr
      conv_rhs => rw [← List.map_id r]
      exact List.map_congr_left fun v h => (hv r hr v h).1
    unfold Data.printedBy
    have : (grazingData.rows.map fun r => r.map fun v => ((exampleFmt v).value : ℝ)) = grazingData.rows := by
      conv_rhs => rw [← List.map_id grazingData.rows]
      exact List.map_congr_left key
    rw [this]
  have hfin : ∀ r ∈ grazingData.rows, ∀ v ∈ r, |((exampleFmt v).value : ℝ)| ≤ ((fltMax : ℚ) : ℝ) := by
    intro r hr v h
    obtain ⟨h1, h2, h3⟩ := hv r hr v h
    rw [h1, abs_of_nonneg h2]
    have hm : (3 : ℝ) ≤ ((fltMax : ℚ) : ℝ) := by
      have : (3 : ℚ) ≤ fltMax := by norm_num [fltMax]
      exact_mod_cast this
    linarith
  have p1 : PlainArgs fitStatArgs := by constructor <;> decide
  have o1 : fitStatArgs.Ordered := by simp [SMap.Ordered, fitStatArgs] <;> decide
  have l1 := loadDataStream_saved val exampleFmt hfmt dir env (fun _ => none) "vertical_segment".toList _
    (p1.filename o1 (fitStatArgs.get "input".toList)) (.inr rfl) grazingData (by decide) hs hfin
    (.inl (by unfold Input.Named; decide))
  rw [hpr] at l1
  have hcmd : '\n' ∉ fitStatArgs.getCmd := by decide +kernel
  have ha : AsksFitStats fitStatArgs (fun _ => true) :=
    ⟨⟨by decide, by decide⟩, by decide, by decide, ⟨by decide, by decide, rfl⟩, hcmd⟩
  have habs : (g.evaluable ⟨6, 1, .CARTESIAN, .UNKNOWN_OUTPUT⟩).abscissa grazingData [1, 0, 0, 0, 0, 1, 2] =
      some [1, 0, 0, 0, 0, 1] := by
    unfold Evaluable.abscissa
    rw [if_neg (by show ¬ Input.CARTESIAN = _; decide)]
    show convertInput _ .CARTESIAN .CARTESIAN = _
    unfold convertInput
    rw [if_pos rfl, show (inputDim .CARTESIAN).toNat = 6 by decide]
    simp [arr, List.range_succ]
  have hcmp : StatComparable (AnyFn.rational ⟨6, 1, .CARTESIAN, .UNKNOWN_OUTPUT⟩ g).evaluable grazingData := by
    refine ⟨⟨rfl, hs, fun row hr => ?_⟩, .inl ⟨rfl, rfl⟩⟩
    simp only [grazingData, List.mem_cons, List.not_mem_nil, or_false] at hr
    subst hr
    exact ⟨_, [1], habs, rfl, g2 _, rfl⟩
  have pa := p1.filename o1 (fitStatArgs.get "input".toList)
  obtain ⟨d, d1, -⟩ := text_round_trip exampleFmt exampleFmt_digits grazingData (by decide) hs hfin
    (.inl (by unfold Input.Named; decide)) _ pa
  have dd : d.store.toData = grazingData := by
    have l2 := loadDataStream_text val dir env (fun _ => none) "vertical_segment".toList (.inr rfl) _ _ d d1
    rw [l1] at l2
    have h4 : DataObj.ofData grazingData = DataObj.ofData d.store.toData := by
      simpa only [Option.some.injEq] using l2
    have h5 : grazingData.rows = d.store.toData.rows := congrArg DataObj.rows h4
    have h6 := congrArg DataObj.par h4
    show (⟨d.store.toData.dimX, d.store.toData.dimY, d.store.toData.input, d.store.toData.output, d.store.toData.rows⟩ : Data) = _
    rw [← h5, show d.store.toData.dimX = grazingData.dimX from (congrArg Par.dimX h6).symm,
      show d.store.toData.dimY = grazingData.dimY from (congrArg Par.dimY h6).symm,
      show d.store.toData.input = grazingData.input from (congrArg Par.input h6).symm,
      show d.store.toData.output = grazingData.output from (congrArg Par.output h6).symm]
  obtain ⟨pp1, pp2, -⟩ := saved_parts exampleFmt exampleFmt_digits grazingData (by decide) hs
    (.inl (by unfold Input.Named; decide)) _ pa
  have hbody : (parseHeader (saveText exampleFmt grazingData)).2 ≠ [] := by
    rw [pp1]
    intro h
    have h0 := (List.flatten_eq_nil_iff.1 h) (saveRow exampleFmt [1, 0, 0, 0, 0, 1, 2])
      (List.mem_map_of_mem (List.mem_singleton.2 rfl))
    have := saveRow_last exampleFmt [1, 0, 0, 0, 0, 1, 2]
    rw [h0] at this
    cases this
  obtain ⟨j, j1, j2, j3, -⟩ := joined_files _ _ _ d d d1 d1 rfl hbody
    (saved_last exampleFmt grazingData (by simp [grazingData]))
  obtain ⟨t, u, t1, u1, hx⟩ := fit2stat_twice val 0 exampleFmt hfmt dir env ff files files' (fun _ => true) fitStatArgs ha
    _ _ constantFile (by rw [show fitStatArgs.get "input".toList = ['i'] by decide]; exact hd)
    (by rw [show fitStatArgs.get "input".toList = ['i'] by decide]; exact hd')
    (by rw [show fitStatArgs.get "brdf".toList = ['b'] by decide]; exact hi)
    (by rw [show fitStatArgs.get "brdf".toList = ['b'] by decide]; exact hi') d j d1 j1 j2 j3 _ g1
    (by rw [dd]; exact hcmp) (by rw [dd]; simp [grazingData])
    (by show 0 < d.store.toData.dimY; rw [dd]; decide) rfl rfl
  exact ⟨t, u, t1, u1, fun v => hx _ ⟨show "MSE".toList ≠ "L1".toList by decide, show "MSE".toList ≠ "L2".toList by decide, show "MSE".toList ≠ "L3".toList by decide⟩⟩

end
end Alta
