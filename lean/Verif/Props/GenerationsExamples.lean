import Verif.Props.GenerationsLimits
import Verif.Props.Data2DataExample
/-
C93: cases that meet the hypotheses: histories without end.
-/
namespace Alta
noncomputable section

theorem exampleFmt_stable : PrintsStably exampleFmt := by
  obtain ⟨e0, e1, e2, e3⟩ := exampleFmt_values
  intro v
  by_cases h1 : v = 1
  · subst h1; exact congrArg exampleFmt e1
  by_cases h2 : v = 2
  · subst h2; exact congrArg exampleFmt e2
  by_cases h3 : v = 3
  · subst h3; exact congrArg exampleFmt e3
  have : exampleFmt v = exampleFmt 0 := by
    unfold exampleFmt
    rw [if_neg h1, if_neg h2, if_neg h3, if_neg (by norm_num), if_neg (by norm_num), if_neg (by norm_num)]
  rw [this]
  exact congrArg exampleFmt e0

/-- The coefficients of a Ward lobe, written again without end. -/
example (junk : ℝ) (other : AnyFn → SMap → Option Str) (p : Par) :
    let l : LobeObj := .ward ⟨p.setInput 6 .CARTESIAN, fun _ => 2, fun _ => 1, fun _ => 3⟩
    0 < p.dimY → ∃ file : ℕ → Str, file 0 = savedText exampleFmt reArgs (.leaf l) ∧
      (∀ n, ReexportsTo exampleFmt exampleFmt other ['/', 'l'] none fsAlta reArgs (file n) (file (n + 1))) ∧
      ∀ n, file n = file 0 := by
  intro l hp
  have hv : '[' ∉ (['w', '.', 's', 'o'] : Str) := by decide
  have hcart : ((FT.leaf l).par LobeObj.par).input.Named := by
    show Input.CARTESIAN.Named
    unfold Input.Named; decide
  have hmake : getFunction ['/', 'l'] none fsAlta LobeObj.par reArgs
      (((FT.leaf l).par LobeObj.par).withOutput .UNKNOWN_OUTPUT) = some (.nonlinear (.leaf (.ward
        ⟨(((FT.leaf l).par LobeObj.par).withOutput .UNKNOWN_OUTPUT).setInput 6 .CARTESIAN, fun _ => 0, fun _ => 0, fun _ => 0⟩))) :=
    getFunction_leaf _ _ _ _ _ _ ['w', '.', 's', 'o'] rfl hv (by decide) _ rfl
  obtain ⟨f1, hload, hk, hl⟩ := loadFunction_leaves exampleFmt exampleFmt_digits ['/', 'l'] none fsAlta reArgs reArgs_ordered.1
    reArgs_cmd (.leaf l) _ hcart hmake rfl
  have hrun : ∃ t', ReexportsTo exampleFmt exampleFmt other ['/', 'l'] none fsAlta reArgs
      (savedText exampleFmt reArgs (.leaf l)) t' := by
    have hsv : f1.saves = true := by
      cases f1 with
      | compound _ _ => simp only [FT.Kept] at hk
      | product _ _ _ _ _ => simp only [FT.Kept] at hk
      | leaf l1 =>
        obtain ⟨hk, -⟩ := hk
        cases l1 <;> first | rfl | (simp only [LobeObj.ctorIdx] at hk; omega)
    have hrun := brdf2brdf_run junk exampleFmt exampleFmt other ['/', 'l'] none fsAlta
      (fun _ => some (savedText exampleFmt reArgs (.leaf l))) reArgs reArgs_reexports.1 _ rfl _
      (loadAny_nonlinear junk ['/', 'l'] none fsAlta _ _ hload)
    simp only [AnyFn.save, show reArgs.isDefined kExport = false by decide, if_true, AnyFn.altaText, hsv, Option.map_some] at hrun
    exact ⟨_, junk, _, rfl, hrun⟩
  obtain ⟨t', ht⟩ := hrun
  have hdim : FT.AllObjects (fun l => 0 < l.toFn.par.dimY) (.leaf l) := hp
  have e := reexport_function exampleFmt exampleFmt exampleFmt_digits exampleFmt_stable other ['/', 'l'] none fsAlta reArgs reArgs
    reArgs_reexports.1 (by decide) reArgs_ordered.1 reArgs_cmd (.leaf l) _ hcart hmake rfl hdim t' ht
  have hself : ReexportsTo exampleFmt exampleFmt other ['/', 'l'] none fsAlta reArgs
      (savedText exampleFmt reArgs (.leaf l)) (savedText exampleFmt reArgs (.leaf l)) := by
    conv in (occs := 2) savedText _ _ _ => rw [← e]
    exact ht
  refine ⟨fun _ => savedText exampleFmt reArgs (.leaf l), rfl, fun _ => hself, fun n => ?_⟩
  exact (function_generations exampleFmt exampleFmt exampleFmt_digits exampleFmt_stable other ['/', 'l'] none fsAlta (.leaf l) hcart
    hdim (fun _ => reArgs) (fun _ => reArgs_ordered.1) (fun _ => reArgs_cmd) (fun _ => reArgs_reexports.1) (fun _ => by decide)
    (fun _ => ⟨_, hmake, rfl⟩) (fun _ => savedText exampleFmt reArgs (.leaf l)) rfl (fun _ => hself) n).2 rfl

/-- (2 + 3 u) / (1 + 2 u), written again: the first run, and all the following ones, give the same file. -/
example (junk : ℝ) (other : AnyFn → SMap → Option Str) (dir : Str) (env : Option Str)
    (fs : Str → Option (Symbols (Provider LobeObj))) :
    let f : RatFn := ⟨1, 1, 2, 2, [0], [1], [some exampleRat1]⟩
    let p : Par := ⟨1, 1, .COS_TH, .UNKNOWN_OUTPUT⟩
    f.Allocated [exampleRat1] ∧ ∃ file : ℕ → Str, file 0 = rationalText exampleFmt reArgs0 p f ∧
      (∀ n, ReexportsTo exampleFmt exampleFmt other dir env fs reArgs0 (file n) (file (n + 1))) ∧ ∀ n, file n = file 0 := by
  intro f p
  obtain ⟨e0, e1, e2, e3⟩ := exampleFmt_values
  have hin : p.input.Named := by show Input.COS_TH.Named; unfold Input.Named; decide
  have hf : f.Allocated [exampleRat1] := by
    refine ⟨Nat.le_refl 1, rfl, rfl, ?_⟩
    intro r hr
    rw [List.mem_singleton.1 hr]
    exact ⟨rfl, by simp [exampleRat1], exampleRat1_standard⟩
  have hq : ∀ r ∈ [exampleRat1], printed exampleFmt (arr r.getQ 0) = 1 := by
    intro r hr
    rw [List.mem_singleton.1 hr]
    exact e1
  obtain ⟨g, ds, h1, h2, h3, h4, h5, h6⟩ := rational_load_again junk exampleFmt exampleFmt_digits exampleFmt_stable p f [exampleRat1]
    hf rfl rfl ['\n']
  have hnew : ((newRational p).load junk ('\n' :: (f.saveCall exampleFmt ++ ['\n']))) =
      (newRational p).load junk (f.saveCall exampleFmt ++ ['\n']) :=
    RatFn.load_skippable junk (newRational p) newlines_one.skippable (f.saveCall exampleFmt ++ ['\n'])
  have hload : loadAny junk dir env fs (rationalText exampleFmt reArgs0 p f) =
      some (some (.rational (p.withOutput .UNKNOWN_OUTPUT) g)) := by
    unfold rationalText
    rw [loadAny_saved junk dir env fs reArgs0 reArgs_ordered.2 reArgs0_cmd p hin _ (by decide), hnew, h1]
    rfl
  have hself : ReexportsTo exampleFmt exampleFmt other dir env fs reArgs0 (rationalText exampleFmt reArgs0 p f)
      (rationalText exampleFmt reArgs0 p f) := by
    refine ⟨junk, fun _ => some (rationalText exampleFmt reArgs0 p f), rfl, ?_⟩
    rw [brdf2brdf_run junk exampleFmt exampleFmt other dir env fs (fun _ => some (rationalText exampleFmt reArgs0 p f)) reArgs0
      reArgs_reexports.2 _ rfl _ hload]
    simp only [AnyFn.save, show reArgs0.isDefined kExport = false by decide, if_true, AnyFn.altaText, Option.map_some, AnyFn.par,
      h6 hq]
    rfl
  refine ⟨hf, fun _ => rationalText exampleFmt reArgs0 p f, rfl, fun _ => hself, fun n => ?_⟩
  have := rational_generations exampleFmt exampleFmt exampleFmt_digits exampleFmt_stable e1 other dir env fs reArgs0 reArgs0
    reArgs_ordered.2 reArgs0_cmd reArgs_reexports.2 (by decide) (by decide) reArgs_ordered.2 reArgs0_cmd (by decide) p hin f
    [exampleRat1] hf rfl rfl (fun r hr => by rw [hq r hr]; norm_num) (fun _ => rationalText exampleFmt reArgs0 p f) rfl
    (fun _ => hself)
  cases n with
  | zero => rfl
  | succ n => exact this.1 n

theorem convertedSamples_values : ∀ r ∈ convertedSamples.rows, ∀ v ∈ r, v = 1 ∨ v = 0 ∨ v = 2 ∨ v = 3 := by
  intro r hr v hv
  simp only [convertedSamples, List.mem_cons, List.not_mem_nil, or_false] at hr
  rcases hr with rfl | rfl <;> simp only [List.mem_cons, List.not_mem_nil, or_false] at hv <;>
    rcases hv with h | h | h <;> simp [h]

theorem convertedSamples_kept : convertedSamples.Kept valEx bitsEx exampleFmt := by
  obtain ⟨e0, e1, e2, e3⟩ := exampleFmt_values
  have hval : ∀ r ∈ convertedSamples.rows, ∀ v ∈ r, ((exampleFmt v).value : ℝ) = v := by
    intro r hr v h
    rcases convertedSamples_values r hr v h with rfl | rfl | rfl | rfl
    · exact e1
    · exact e0
    · exact e2
    · exact e3
  refine ⟨fun _ _ v _ => exampleFmt_stable v, ?_, ?_, ?_⟩
  · intro r hr v h
    rw [hval r hr v h]
    rcases convertedSamples_values r hr v h with rfl | rfl | rfl | rfl <;> norm_num [valEx, bitsEx]
  · intro r hr v h
    rw [hval r hr v h]
    have hm : (3 : ℝ) ≤ ((fltMax : ℚ) : ℝ) := by
      have : (3 : ℚ) ≤ fltMax := by norm_num [fltMax]
      exact_mod_cast this
    rcases convertedSamples_values r hr v h with rfl | rfl | rfl | rfl <;> rw [abs_of_nonneg (by norm_num)] <;> linarith
  · intro r hr v hv
    have : r = [1, 0, 2] := by simpa [convertedSamples] using hr.symm
    subst this
    have : v = 1 := by simpa using hv.symm
    subst this
    rw [show ((exampleFmt 1).value : ℝ) = 1 from e1]
    simp [bitsEx]

/-- Two samples, converted without end into text files and binary files, in any order. -/
example (dir : Str) (env : Option Str) (fs : Str → Option (Symbols (Str → SMap → Option DataObj)))
    (gs : Str → Option (Symbols (ℕ → Par → SMap → OutPlugin))) (binary : ℕ → Bool) :
    let args : ℕ → SMap := fun n => if binary n then toBinaryArgs else toTextArgs
    ∃ file : ℕ → Str, file 0 = saveText exampleFmt convertedSamples ∧
      (∀ n, ConvertsTo valEx bitsEx exampleFmt dir env fs gs (args n) (file n) (file (n + 1))) ∧
      ∀ n, binary n = false → file (n + 1) = file 0 := by
  intro args
  have hs : convertedSamples.Sampled := by
    intro r hr
    simp only [convertedSamples, List.mem_cons, List.not_mem_nil, or_false] at hr
    rcases hr with rfl | rfl <;> rfl
  have hn : convertedSamples.input.Named := by unfold Input.Named; decide
  have hord : ∀ n, (args n).Ordered := by
    intro n
    show (if binary n then toBinaryArgs else toTextArgs).Ordered
    split
    · simp [SMap.Ordered, toBinaryArgs] <;> decide
    · simp [SMap.Ordered, toTextArgs] <;> decide
  have hplain : ∀ n, PlainArgs (args n) := by
    intro n
    show PlainArgs (if binary n then toBinaryArgs else toTextArgs)
    split
    · exact toBinary_plain
    · constructor <;> decide
  have hrun : ∀ n, PlainRun (args n) convertedSamples := by
    intro n
    show PlainRun (if binary n then toBinaryArgs else toTextArgs) convertedSamples
    split
    · exact toBinary_run
    · exact toText_run
  have ho : ∀ n, TextOutput (args n) ∨ BinaryOutput (args n) := by
    intro n
    show TextOutput (if binary n then toBinaryArgs else toTextArgs) ∨ BinaryOutput (if binary n then toBinaryArgs else toTextArgs)
    split
    · right; unfold BinaryOutput; decide
    · left; unfold TextOutput; decide
  -- the next file, from a file that is loaded as the data
  let Good : Str → Prop := fun t => ∀ (type : Str) (args' : SMap), PlainArgs args' → type = [] ∨ type = "vertical_segment".toList →
    loadDataStream valEx dir env fs type t args' = some (some (.ofData (convertedSamples.printedBy exampleFmt)))
  have hpr : convertedSamples.printedBy exampleFmt = convertedSamples := by
    obtain ⟨e0, e1, e2, e3⟩ := exampleFmt_values
    have hval : ∀ r ∈ convertedSamples.rows, ∀ v ∈ r, ((exampleFmt v).value : ℝ) = v := by
      intro r hr v h
      rcases convertedSamples_values r hr v h with rfl | rfl | rfl | rfl
      · exact e1
      · exact e0
      · exact e2
      · exact e3
    have key : ∀ r ∈ convertedSamples.rows, (r.map fun v => ((exampleFmt v).value : ℝ)) = r := by
      intro r hr
      conv_rhs => rw [← List.map_id r]
      exact List.map_congr_left fun v h => hval r hr v h
    unfold Data.printedBy
    have : (convertedSamples.rows.map fun r => r.map fun v => ((exampleFmt v).value : ℝ)) = convertedSamples.rows := by
      conv_rhs => rw [← List.map_id convertedSamples.rows]
      exact List.map_congr_left key
    rw [this]
  have next : ∀ n t, Good t → ∃ t', ConvertsTo valEx bitsEx exampleFmt dir env fs gs (args n) t t' ∧ Good t' := by
    intro n t ht
    have hl := ht ((args n).get "in-data".toList) _ ((hplain n).filename (hord n) ((args n).get "input".toList)) (hrun n).class_
    have hl' := hl
    rw [hpr] at hl'
    obtain ⟨t', r⟩ := (data2data_run valEx bitsEx exampleFmt dir env fs gs (fun _ => some t) (fun _ => true) (fun _ => 0) []
      (args n) (hrun n).asks (ho n) t rfl _ hl' hs (by
        show (wantedParam (args n) convertedSamples).Named
        rw [(hrun n).param]; exact hn)).2 ⟨rfl, fun x _ => by
        show ∃ t above, convertInput (arr x) .RUSIN_TH_TD (wantedParam (args n) convertedSamples) = some t ∧
          isAboveHemisphere (arr t) (wantedParam (args n) convertedSamples) = some above
        rw [(hrun n).param]; exact samples_convert x⟩
    have hc : ConvertsTo valEx bitsEx exampleFmt dir env fs gs (args n) t t' :=
      ⟨fun _ => some t, fun _ => true, fun _ => 0, [], rfl, r⟩
    exact ⟨t', hc, (conversion_step valEx bitsEx exampleFmt exampleFmt_digits dir env fs gs convertedSamples hs hn (by decide)
      (by decide) convertedSamples_kept (args n) (hrun n) (ho n) t t' hl hc).2⟩
  have h0 : Good (saveText exampleFmt convertedSamples) := fun type args' hp ht =>
    loadDataStream_saved valEx exampleFmt exampleFmt_digits dir env fs type args' hp ht convertedSamples (by decide) hs
      convertedSamples_kept.finite (.inl hn)
  let hist : ℕ → { t : Str // Good t } := fun n => Nat.rec ⟨_, h0⟩ (fun k t => ⟨_, (next k t.1 t.2).choose_spec.2⟩) n
  have hruns : ∀ n, ConvertsTo valEx bitsEx exampleFmt dir env fs gs (args n) (hist n).1 (hist (n + 1)).1 :=
    fun n => (next n (hist n).1 (hist n).2).choose_spec.1
  refine ⟨fun n => (hist n).1, rfl, hruns, fun n hb => ?_⟩
  refine (data_generations valEx bitsEx exampleFmt exampleFmt_digits dir env fs gs convertedSamples hs hn (by decide) (by decide)
    convertedSamples_kept (fun n => (hist n).1) args rfl hord hplain hrun ho hruns n).1 ?_
  show TextOutput (if binary n then toBinaryArgs else toTextArgs)
  rw [if_neg (by rw [hb]; decide)]
  unfold TextOutput; decide

/-- A library with the retro-Beckmann lobe. -/
def fsRetro : Str → Option (Symbols (Provider LobeObj)) := fun f =>
  if f = ['/', 'l', '/', 'w', '.', 's', 'o'] then some (fun s => if s = "provide_function".toList then
    some ⟨true, fun p => .retrobeckmann ⟨p.setInput 6 .CARTESIAN, fun _ => 0, fun _ => 0, false⟩⟩ else none)
  else none

/-- The limit: a retro-Beckmann lobe is made by the options `reArgs`, and its file changes at each run. -/
example (other : AnyFn → SMap → Option Str) (p : Par) (file : ℕ → Str)
    (h0 : file 0 = savedText exampleFmt reArgs (.leaf (.retrobeckmann ⟨p.setInput 6 .CARTESIAN, fun _ => 2, fun _ => 1, false⟩)))
    (runs : ∀ n, ReexportsTo exampleFmt exampleFmt other ['/', 'l'] none fsRetro reArgs (file n) (file (n + 1))) :
    file 0 ≠ file 1 :=
  (retrobeckmann_generations exampleFmt exampleFmt exampleFmt_digits exampleFmt_stable other ['/', 'l'] none fsRetro reArgs
    reArgs_ordered.1 reArgs_cmd reArgs_reexports.1 (by decide) ⟨p.setInput 6 .CARTESIAN, fun _ => 2, fun _ => 1, false⟩
    (by show Input.CARTESIAN.Named; unfold Input.Named; decide)
    ⟨⟨(p.setInput 6 .CARTESIAN).withOutput .UNKNOWN_OUTPUT, fun _ => 0, fun _ => 0, false⟩,
      getFunction_leaf _ _ _ _ _ _ ['w', '.', 's', 'o'] rfl (by decide) (by decide) _ rfl, rfl⟩ file h0 runs 0).2.2

end
end Alta
