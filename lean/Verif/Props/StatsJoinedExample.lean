import Verif.Props.StatsJoined
import Verif.Props.SamplewiseExample
import Verif.Props.FitStatExample
/-
C97: an example: two files of one sample, with the values 2 and 3, and the two files joined.
-/
namespace Alta
noncomputable section

/-- Numbers are printed without what is after the point, from 0 to 3. -/
def floorFmt (x : ℝ) : Decimal :=
  if x < 1 then ⟨false, [0], [], none⟩ else if x < 2 then ⟨false, [1], [], none⟩
  else if x < 3 then ⟨false, [2], [], none⟩ else ⟨false, [3], [], none⟩

theorem floorFmt_digits (x : ℝ) : (floorFmt x).ip ≠ [] ∨ (floorFmt x).fp ≠ [] := by
  left
  unfold floorFmt
  split
  · simp
  · split
    · simp
    · split <;> simp

theorem floorFmt_value (x : ℝ) : (((floorFmt x).value : ℚ) : ℝ) = if x < 1 then 0 else if x < 2 then 1 else if x < 3 then 2 else 3 := by
  unfold floorFmt
  split_ifs <;> simp [Decimal.value, digitsNum]

theorem floorFmt_mono : Monotone fun v => (((floorFmt v).value : ℚ) : ℝ) := by
  intro a b h
  simp only [floorFmt_value]
  split_ifs <;> first | linarith | norm_num

/-- The value `y` for a view along the surface and a light along the normal. -/
def grazingValue (y : ℝ) : Data := ⟨6, 1, .CARTESIAN, .INV_STERADIAN, [[1, 0, 0, 0, 0, 1, y]]⟩

theorem fitStatArgs_plain : PlainArgs (fitStatArgs.update "filename".toList (fitStatArgs.get "input".toList)) :=
  PlainArgs.filename (by simp [SMap.Ordered, fitStatArgs] <;> decide) (by constructor <;> decide) _

/-- That file is loaded. -/
theorem grazingValue_load (y : ℝ) (hy : printed exampleFmt y = y) :
    ∃ d, loadDataText (saveText exampleFmt (grazingValue y)) (fitStatArgs.update "filename".toList (fitStatArgs.get "input".toList)) =
        some d ∧ d.store.toData = grazingValue y ∧
      (parseHeader (saveText exampleFmt (grazingValue y))).2 ≠ [] ∧
      loadSetup (parseHeader (saveText exampleFmt (grazingValue y))).1
        (fitStatArgs.update "filename".toList (fitStatArgs.get "input".toList)) =
          some (savedSetup 6 1 .CARTESIAN .INV_STERADIAN) := by
  obtain ⟨e0, e1, e2, e3⟩ := exampleFmt_values
  have hs : (grazingValue y).Sampled := by
    intro r hr
    rw [List.mem_singleton.1 hr]; rfl
  have hpr : (grazingValue y).printedBy exampleFmt = grazingValue y := by
    show (⟨6, 1, .CARTESIAN, .INV_STERADIAN, [[printed exampleFmt 1, printed exampleFmt 0, printed exampleFmt 0,
      printed exampleFmt 0, printed exampleFmt 0, printed exampleFmt 1, printed exampleFmt y]]⟩ : Data) = _
    rw [e0, e1, hy]
    rfl
  have hn : (grazingValue y).input.Named := by show Input.CARTESIAN.Named; unfold Input.Named; decide
  obtain ⟨d, d1, -⟩ := text_round_trip exampleFmt exampleFmt_digits (grazingValue y)
    (by show 0 < 6 + 1; decide) hs (fun _ _ _ _ => exampleFmt_small _) (.inl hn) _ fitStatArgs_plain
  have l1 := loadDataStream_saved (fun _ => 0) exampleFmt exampleFmt_digits [] none (fun _ => none) "vertical_segment".toList _
    fitStatArgs_plain (.inr rfl) (grazingValue y) (by show 0 < 6 + 1; decide) hs (fun _ _ _ _ => exampleFmt_small _) (.inl hn)
  rw [hpr] at l1
  obtain ⟨pp1, pp2, -⟩ := saved_parts exampleFmt exampleFmt_digits (grazingValue y) (by show 0 < 6 + 1; decide) hs (.inl hn) _
    fitStatArgs_plain
  refine ⟨d, d1, ?_, ?_, pp2⟩
  · have l2 := loadDataStream_text (fun _ => 0) [] none (fun _ => none) "vertical_segment".toList (.inr rfl) _ _ d d1
    rw [l1] at l2
    have h4 : DataObj.ofData (grazingValue y) = DataObj.ofData d.store.toData := by
      simpa only [Option.some.injEq] using l2
    have h5 : (grazingValue y).rows = d.store.toData.rows := congrArg DataObj.rows h4
    have h6 := congrArg DataObj.par h4
    show (⟨d.store.toData.dimX, d.store.toData.dimY, d.store.toData.input, d.store.toData.output, d.store.toData.rows⟩ : Data) = _
    rw [← h5, show d.store.toData.dimX = (grazingValue y).dimX from (congrArg Par.dimX h6).symm,
      show d.store.toData.dimY = (grazingValue y).dimY from (congrArg Par.dimY h6).symm,
      show d.store.toData.input = (grazingValue y).input from (congrArg Par.input h6).symm,
      show d.store.toData.output = (grazingValue y).output from (congrArg Par.output h6).symm]
  · rw [pp1]
    intro h
    have h0 := (List.flatten_eq_nil_iff.1 h) (saveRow exampleFmt [1, 0, 0, 0, 0, 1, y])
      (List.mem_map_of_mem (List.mem_singleton.2 rfl))
    have := saveRow_last exampleFmt [1, 0, 0, 0, 0, 1, y]
    rw [h0] at this
    cases this

/-- It can be compared with a function of value 1. -/
theorem grazingValue_comparable (y : ℝ) (g : RatFn) (g2 : ∀ x, g.value x = some [1]) :
    StatComparable (AnyFn.rational ⟨6, 1, .CARTESIAN, .UNKNOWN_OUTPUT⟩ g).evaluable (grazingValue y) := by
  refine ⟨⟨rfl, ?_, fun row hr => ?_⟩, .inl ⟨rfl, rfl⟩⟩
  · intro r hr
    rw [List.mem_singleton.1 hr]; rfl
  · rw [List.mem_singleton.1 hr]
    refine ⟨[1, 0, 0, 0, 0, 1], [1], ?_, rfl, g2 _, rfl⟩
    unfold Evaluable.abscissa
    rw [if_neg (by show ¬ Input.CARTESIAN = _; decide)]
    show convertInput _ .CARTESIAN .CARTESIAN = _
    unfold convertInput
    rw [if_pos rfl, show (inputDim .CARTESIAN).toNat = 6 by decide]
    simp [arr, List.range_succ]

/-- The three runs write files, related as stated. -/
example (val : Dbl → ℝ) (dir : Str) (env : Option Str) (ff : Str → Option (Symbols (Provider LobeObj)))
    (files files' files'' : Str → Option Str) (hd : files ['i'] = some (saveText exampleFmt (grazingValue 2)))
    (hd' : files' ['i'] = some (saveText exampleFmt (grazingValue 3)))
    (hd'' : files'' ['i'] = some (saveText exampleFmt (grazingValue 2) ++ saveText exampleFmt (grazingValue 3)))
    (hi : files ['b'] = some constantFile) (hi' : files' ['b'] = some constantFile)
    (hi'' : files'' ['b'] = some constantFile) :
    ∃ file file' file'', fit2statMain val 0 floorFmt dir env ff files (fun _ => true) fitStatArgs = (some 0, some file) ∧
      fit2statMain val 0 floorFmt dir env ff files' (fun _ => true) fitStatArgs = (some 0, some file') ∧
      fit2statMain val 0 floorFmt dir env ff files'' (fun _ => true) fitStatArgs = (some 0, some file'') ∧
      JoinedStats (readFitStats file) (readFitStats file') (readFitStats file'') := by
  obtain ⟨e0, e1, e2, e3⟩ := exampleFmt_values
  obtain ⟨g, g1, g2⟩ := constant_function 0 dir env ff
  obtain ⟨d, d1, d2, d3, d4⟩ := grazingValue_load 2 e2
  obtain ⟨e, e1, e2, e3, e4⟩ := grazingValue_load 3 e3
  obtain ⟨j, j1, j2, j3, -⟩ := joined_files _ _ _ d e d1 e1 (d4.trans e4.symm) d3
    (saved_last exampleFmt (grazingValue 2) (by simp [grazingValue]))
  have hcmd : '\n' ∉ fitStatArgs.getCmd := by decide +kernel
  have ha : AsksFitStats fitStatArgs (fun _ => true) :=
    ⟨⟨by decide, by decide⟩, by decide, by decide, ⟨by decide, by decide, rfl⟩, hcmd⟩
  have ki : fitStatArgs.get "input".toList = ['i'] := by decide
  have kb : fitStatArgs.get "brdf".toList = ['b'] := by decide
  exact fit2stat_joined val 0 floorFmt floorFmt_digits floorFmt_mono dir env ff files files' files'' (fun _ => true) fitStatArgs
    ha _ _ _ constantFile (by rw [ki]; exact hd) (by rw [ki]; exact hd') (by rw [ki]; exact hd'') (by rw [kb]; exact hi)
    (by rw [kb]; exact hi') (by rw [kb]; exact hi'') d e j d1 e1 j1 (loaded_layout _ _ _ d e d1 e1 (d4.trans e4.symm)) j2 j3 _ g1
    (by rw [d2]; exact grazingValue_comparable 2 g g2) (by rw [e2]; exact grazingValue_comparable 3 g g2)
    (by rw [d2]; simp [grazingValue]) (by rw [e2]; simp [grazingValue])
    (by show 0 < d.store.toData.dimY; rw [d2]; show 0 < 1; decide) rfl rfl

end
end Alta
