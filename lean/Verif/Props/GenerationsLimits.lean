import Verif.Props.GenerationsFunction
import Verif.Props.GenerationsRational
import Verif.Props.GenerationsData
import Verif.Props.FunctionFileLimits
/-
C93: limit: the retro-Beckmann lobe; and cases that meet the hypotheses.
-/
namespace Alta
noncomputable section

/-- The lobe of the other kind, with the same coefficients. -/
def RetroBeckmannS.other (s : RetroBeckmannS) : RetroBeckmannS := { s with useBack := !s.useBack }

/-- One run of `brdf2brdf` on the file of a retro-Beckmann lobe writes the file of the lobe of the other kind. -/
theorem reexport_retrobeckmann (fmt10 fmt : ℝ → Decimal) (hp : PrintsDigits fmt10) (hs : PrintsStably fmt10)
    (other : AnyFn → SMap → Option Str) (dir : Str) (env : Option Str) (fs : Str → Option (Symbols (Provider LobeObj)))
    (args : SMap) (ho : args.Ordered) (ha : CmdMap args) (hr : Reexports args) (hx : args.isDefined kExport = false)
    (s s0 : RetroBeckmannS) (hin : s.par.input.Named)
    (hmake : getFunction dir env fs LobeObj.par args (s.par.withOutput .UNKNOWN_OUTPUT) =
      some (.nonlinear (.leaf (.retrobeckmann s0)))) (h0 : s0.par = s.par.withOutput .UNKNOWN_OUTPUT) (t' : Str)
    (run : ReexportsTo fmt10 fmt other dir env fs args (savedText fmt10 args (.leaf (.retrobeckmann s))) t') :
    t' = savedText fmt10 args (.leaf (.retrobeckmann s.other)) := by
  obtain ⟨junk, files, hfile, run⟩ := run
  obtain ⟨l2, m, h1, h2, h3, h4, h5, h6⟩ := header_saved args ho ha s.par
    (LobeObj.saveCall fmt10 (.retrobeckmann s) ++ ['\n']) hin
  have e : savedText fmt10 args (.leaf (.retrobeckmann s)) =
      saveHeader args.getCmd s.par ++ (LobeObj.saveCall fmt10 (.retrobeckmann s) ++ ['\n']) := by
    simp only [savedText, FT.saveBody, LobeObj.saveBody, FT.saveCall, List.append_assoc, List.nil_append]
    rfl
  obtain ⟨s1, ws', hl, hb, hsame⟩ := retrobeckmann_inverted fmt10 hp s0 { s with par := s.par.withOutput .UNKNOWN_OUTPUT } h0
    ['\n'] ['\n'] newlines_one.skippable
  have hl : LobeObj.load (.retrobeckmann s0) (some ('\n' :: (LobeObj.saveCall fmt10 (.retrobeckmann s) ++ ['\n']))) =
      (true, .retrobeckmann s1, some (ws' ++ ['\n'])) := hl
  have hpar : (⟨(s.par.dimX : ℤ).toNat, (s.par.dimY : ℤ).toNat, s.par.input, .UNKNOWN_OUTPUT⟩ : Par) =
      s.par.withOutput .UNKNOWN_OUTPUT := by
    simp [Par.withOutput]
  have hload : loadFunction dir env fs (savedText fmt10 args (.leaf (.retrobeckmann s))) =
      some (some (.leaf (.retrobeckmann s1))) := by
    unfold loadFunction
    rw [e]
    simp only [h1, h2, h3, h4, h5, h6, hpar, hmake, ne_eq, not_true_eq_false, if_false, FT.load, hl, if_true]
  rw [brdf2brdf_run junk fmt10 fmt other dir env fs files args hr _ hfile _ (loadAny_nonlinear junk dir env fs _ _ hload)] at run
  simp only [AnyFn.save, hx, if_true, AnyFn.altaText, AnyFn.par, FT.saves, LobeObj.saves] at run
  have := Option.some.inj (Prod.mk.inj (Option.some.inj run)).2
  rw [← this]
  obtain ⟨p1, ks1, a1, b1⟩ := s1
  obtain ⟨hp1, hn1, hg1, -⟩ := hsame
  obtain rfl : p1 = s.par.withOutput .UNKNOWN_OUTPUT := hp1
  obtain rfl : b1 = !s.useBack := hb
  have hc := channelLines_congr s.par.dimY _ _ (two_lines hs s.par.dimY "Ks ".toList "a  ".toList ks1 a1 s.ks s.a hg1)
  have hcall : LobeObj.saveCall fmt10 (.retrobeckmann ⟨s.par.withOutput .UNKNOWN_OUTPUT, ks1, a1, !s.useBack⟩) =
      LobeObj.saveCall fmt10 (.retrobeckmann s.other) := congrArg (_ ++ ·) hc
  simp only [savedText, FT.saveBody, LobeObj.saveBody, FT.saveCall, hcall, List.append_assoc, List.nil_append]
  rfl

/-- **C93, limit.**  The file of a retro-Beckmann lobe that is written again and again by `brdf2brdf` is never stable: the lobe
    changes its kind at each run. -/
theorem retrobeckmann_generations (fmt10 fmt : ℝ → Decimal) (hp : PrintsDigits fmt10) (hs : PrintsStably fmt10)
    (other : AnyFn → SMap → Option Str) (dir : Str) (env : Option Str) (fs : Str → Option (Symbols (Provider LobeObj)))
    (args : SMap) (ho : args.Ordered) (ha : CmdMap args) (hr : Reexports args) (hx : args.isDefined kExport = false)
    (s : RetroBeckmannS) (hin : s.par.input.Named)
    (hmake : ∃ s0 : RetroBeckmannS, getFunction dir env fs LobeObj.par args (s.par.withOutput .UNKNOWN_OUTPUT) =
      some (.nonlinear (.leaf (.retrobeckmann s0))) ∧ s0.par = s.par.withOutput .UNKNOWN_OUTPUT)
    (file : ℕ → Str) (h0 : file 0 = savedText fmt10 args (.leaf (.retrobeckmann s)))
    (runs : ∀ n, ReexportsTo fmt10 fmt other dir env fs args (file n) (file (n + 1))) (n : ℕ) :
    file (2 * n) = savedText fmt10 args (.leaf (.retrobeckmann s)) ∧
      file (2 * n + 1) = savedText fmt10 args (.leaf (.retrobeckmann s.other)) ∧ file (2 * n) ≠ file (2 * n + 1) := by
  obtain ⟨s0, h1, h2⟩ := hmake
  have so : s.other.other = s := by
    obtain ⟨p, k, a, b⟩ := s
    simp [RetroBeckmannS.other]
  have step1 : ∀ t', ReexportsTo fmt10 fmt other dir env fs args (savedText fmt10 args (.leaf (.retrobeckmann s))) t' → _ :=
    reexport_retrobeckmann fmt10 fmt hp hs other dir env fs args ho ha hr hx s s0 hin h1 h2
  have step2 : ∀ t', ReexportsTo fmt10 fmt other dir env fs args (savedText fmt10 args (.leaf (.retrobeckmann s.other))) t' → _ :=
    reexport_retrobeckmann fmt10 fmt hp hs other dir env fs args ho ha hr hx s.other s0 hin h1 h2
  rw [so] at step2
  have even : ∀ n, file (2 * n) = savedText fmt10 args (.leaf (.retrobeckmann s)) ∧
      file (2 * n + 1) = savedText fmt10 args (.leaf (.retrobeckmann s.other)) := by
    intro n
    induction n with
    | zero =>
      have r := runs 0
      rw [h0] at r
      exact ⟨h0, step1 _ r⟩
    | succ n ih =>
      have r := runs (2 * n + 1)
      rw [ih.2] at r
      have e := step2 _ r
      have r2 := runs (2 * n + 2)
      have e : file (2 * n + 2) = _ := e
      rw [e] at r2
      exact ⟨e, step1 _ r2⟩
  refine ⟨(even n).1, (even n).2, ?_⟩
  rw [(even n).1, (even n).2]
  intro h
  have hpar : s.other.par = s.par := rfl
  simp only [savedText, FT.saveBody, LobeObj.saveBody, FT.saveCall, LobeObj.saveCall, FT.par, LobeObj.par, LobeObj.toFn, Fn.par, retrobeckmannCls, hpar,
    List.append_assoc, List.append_cancel_left_eq] at h
  have : s.other.useBack = !s.useBack := rfl
  rw [this] at h
  cases hb : s.useBack <;> rw [hb] at h <;> simp at h

end
end Alta
