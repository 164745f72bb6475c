import Verif.Props.FunctionFileLimits
import Verif.Props.FunctionFileExamples
/-
Property C92 for the files of the functions.
-/
namespace Alta
noncomputable section

/-- C92 is false of the files of the functions: when the writing of a Beckmann function was interrupted just after the
    line that names it, the file is loaded without an error, and the function has the coefficients of a new object. -/
theorem interrupted_function_corrupts (fmt : ℝ → Decimal) (dir : Str) (env : Option Str)
    (fs : Str → Option (Symbols (Provider LobeObj))) (args : SMap) (ho : args.Ordered) (ha : CmdMap args)
    (name : Str) (hn : args.find kFunc = some name) (hv : '[' ∉ name) (hfr : args.find kFresnel = none)
    (make : Par → BeckmannS)
    (hpr : libraryOf dir env fs name = some ⟨true, fun p => .beckmann (make p)⟩) (hmake : ∀ p, (make p).par.dimY = p.dimY)
    (s : BeckmannS) (hin : s.par.input.Named) :
    ∃ t n s1, saveFunction fmt args (.leaf (.beckmann s)) = some t ∧ n < t.length ∧
      loadFunction dir env fs (t.take n) = some (some (.leaf (.beckmann s1))) ∧ s1.par.dimY = s.par.dimY ∧
      (∀ i < s.par.dimY, s1.ks i = (make (s.par.withOutput .UNKNOWN_OUTPUT)).ks i) ∧
      ∀ i < s.par.dimY, s1.a i = (make (s.par.withOutput .UNKNOWN_OUTPUT)).a i := by
  let nm : Str := "nonlinear_function_beckmann".toList
  obtain ⟨u, hu⟩ : ∃ u, u = saveHeader args.getCmd s.par ++ funcLine nm := ⟨_, rfl⟩
  have hpos : ∀ a : Str, 0 < (a ++ ['\n']).length := by intro a; simp
  have et : savedText fmt args (.leaf (.beckmann s)) = u ++ (channelLines s.par.dimY (fun i =>
      line fmt "Ks ".toList (s.ks i) ++ line fmt "a  ".toList (s.a i)) ++ ['\n']) := by
    simp only [savedText, FT.saveBody, FT.saveCall, LobeObj.saveBody, LobeObj.saveCall, FT.par, LobeObj.par, LobeObj.toFn,
      List.append_nil, hu, nm, List.append_assoc]
    rfl
  obtain ⟨l2, m, h1, h2, h3, h4, h5, h6⟩ := header_saved args ho ha s.par (funcLine nm) hin
  have hget : getFunction dir env fs LobeObj.par args (s.par.withOutput .UNKNOWN_OUTPUT) =
      some (.nonlinear (.leaf (.beckmann (make (s.par.withOutput .UNKNOWN_OUTPUT))))) := by
    apply getFunction_leaf dir env fs LobeObj.par args _ name hn hv hfr
    unfold leafOf; rw [hpr]; rfl
  have hp : (⟨(s.par.dimX : ℤ).toNat, (s.par.dimY : ℤ).toNat, s.par.input, .UNKNOWN_OUTPUT⟩ : Par) =
      s.par.withOutput .UNKNOWN_OUTPUT := by simp [Par.withOutput]
  have hhead : readHead nm (some ('\n' :: funcLine nm)) = (true, some ['\n']) := by decide +kernel
  set g := make (s.par.withOutput .UNKNOWN_OUTPUT) with hg
  have hdim : g.par.dimY = s.par.dimY := by rw [hg, hmake]; rfl
  have hf := readFields_blank (blocks g.par.dimY fun i => [g.ks i, g.a i]) ['\n'] (by unfold Spaces; decide)
  have key := fun old i (hi : i < g.par.dimY) => arr_two g.par.dimY g.par.dimY rfl g.ks g.a old i hi
  have hload : ∃ s1 : BeckmannS, (LobeObj.load (.beckmann g) (some ('\n' :: funcLine nm))).1 = true ∧
      (LobeObj.load (.beckmann g) (some ('\n' :: funcLine nm))).2.1 = .beckmann s1 ∧ s1.par = g.par ∧
      (∀ i < g.par.dimY, s1.ks i = g.ks i) ∧ ∀ i < g.par.dimY, s1.a i = g.a i := by
    simp only [LobeObj.load, wrap, readBlock, show readHead "nonlinear_function_beckmann".toList _ = _ from hhead,
      if_true, hf]
    exact ⟨_, trivial, rfl, rfl, fun i hi => (key g.ks i hi).1, fun i hi => (key g.a i hi).2⟩
  obtain ⟨s1, k1, k2, k3, k4, k5⟩ := hload
  refine ⟨_, u.length, s1, saveFunction_saves fmt _ _ rfl, ?_, ?_, by rw [k3, hdim], by rw [← hdim]; exact k4,
    by rw [← hdim]; exact k5⟩
  · rw [et, List.length_append]
    exact Nat.lt_add_of_pos_right (hpos _)
  · rw [et, List.take_left]
    unfold loadFunction
    simp only [hu, h1, h2, h3, h4, h5, h6, hp, hget, ne_eq, not_true_eq_false, if_false, FT.load, k1, k2, if_true]

/-- The hypotheses are met, and a coefficient that was not zero is lost. -/
example : ∃ t n s1, saveFunction exampleFmt [(kFunc, ['b', '.', 's', 'o'])]
      (.leaf (.beckmann ⟨⟨6, 1, .CARTESIAN, .UNKNOWN_OUTPUT⟩, fun _ => 2, fun _ => 1⟩)) = some t ∧ n < t.length ∧
    loadFunction ['/', 'l'] none fsAlta (t.take n) = some (some (.leaf (.beckmann s1))) ∧ s1.ks 0 = 0 := by
  obtain ⟨t, n, s1, h1, h2, h3, -, h4, -⟩ := interrupted_function_corrupts exampleFmt ['/', 'l'] none fsAlta
    [(kFunc, ['b', '.', 's', 'o'])] (by simp [SMap.Ordered])
    (by
      intro e he; rw [List.mem_singleton.1 he]
      exact ⟨⟨by decide, by decide⟩, .word _ ⟨by decide, by decide⟩ (by intro r h; cases h) (by rintro ⟨r, h⟩; cases h)⟩)
    ['b', '.', 's', 'o'] rfl (by decide) (by decide +kernel) _ lib_b (fun p => rfl)
    ⟨⟨6, 1, .CARTESIAN, .UNKNOWN_OUTPUT⟩, fun _ => 2, fun _ => 1⟩ (by unfold Input.Named; decide)
  exact ⟨t, n, s1, h1, h2, h3, h4 0 (by show (0 : ℕ) < 1; norm_num)⟩

end
end Alta
