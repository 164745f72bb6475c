import Verif.Props.Data2Brdf
import Verif.Props.FunctionFileExamples
/-
C69: the file of the command `data2brdf`.
-/
namespace Alta
noncomputable section

theorem namedInput_ne {i : Input} (h : i.Named) : i ≠ .UNKNOWN_INPUT := h.2.2.2.2.2

/-- A function with a parametrization is fitted as it is, to the data as they are. -/
theorem checkCompatibility_same (args : SMap) (d d' : Data) (f f' : FT LobeObj) (hne : d.rows ≠ [])
    (hi : (f.par LobeObj.par).input ≠ .UNKNOWN_INPUT) (h : checkCompatibility args d f = some (f', d')) :
    f' = f ∧ d' = d := by
  refine ⟨?_, (checkCompatibility_data args d d' f f' hne h).1⟩
  unfold checkCompatibility at h
  simp only [] at h
  obtain ⟨r, h1, h2⟩ := Option.bind_eq_some_iff.1 h
  have hr : r = (f', d') := by
    split at h2
    · cases h2; rfl
    · cases h2
  subst hr
  rw [if_neg (fun h => hi h.2), if_neg hi] at h1
  split at h1
  · obtain ⟨_, _, h3⟩ := Option.map_eq_some_iff.1 h1
    cases h3; rfl
  · cases h1; rfl

/-- C69: the option `change-param` ends the program when the function has not the parametrization of the data. -/
theorem change_param_aborts (args : SMap) (d : Data) (f : FT LobeObj) (hne : d.rows ≠ [])
    (hi : (f.par LobeObj.par).input ≠ .UNKNOWN_INPUT) (hd : d.input ≠ (f.par LobeObj.par).input)
    (ha : args.isDefined kChangeParam = true) : checkCompatibility args d f = none := by
  unfold checkCompatibility dataParams
  simp only []
  rw [if_neg (fun h => hi h.2), if_neg hi, if_pos ⟨hd, ha⟩, if_neg (by simpa using hne)]
  rfl

/-- C69: so does a function with another number of channels than the data. -/
theorem channels_abort (args : SMap) (d : Data) (f : FT LobeObj) (hne : d.rows ≠ [])
    (hy : (f.par LobeObj.par).dimY ≠ d.dimY) : checkCompatibility args d f = none := by
  cases h : checkCompatibility args d f with
  | none => rfl
  | some r =>
    obtain ⟨f', d'⟩ := r
    have h2 := (checkCompatibility_data args d d' f f' hne h).2
    have : (f'.par LobeObj.par).dimY = (f.par LobeObj.par).dimY := by
      unfold checkCompatibility at h
      simp only [] at h
      obtain ⟨r, h1, h3⟩ := Option.bind_eq_some_iff.1 h
      have hr : r = (f', d') := by
        split at h3
        · cases h3; rfl
        · cases h3
      subst hr
      split at h1
      · cases h1; rfl
      · split at h1
        · cases h1
          cases f with
          | leaf l => cases l <;> rfl
          | compound p fs => rfl
          | product p f g a b => rfl
        · split at h1
          · obtain ⟨_, _, h4⟩ := Option.map_eq_some_iff.1 h1
            cases h4; rfl
          · cases h1; rfl
    exact absurd (this ▸ h2) hy

theorem NonlinearFitter.keeps {files : Str → Option Str} {fit : Data → SMap → FT LobeObj → Option (Bool × FT LobeObj)}
    (h : NonlinearFitter files fit) : KeepsFunctions fit := by
  intro d args f ok f' hw h'
  cases h with
  | eigen s => exact fit_keeps files d args f f' ok hw (Or.inl ⟨s, h'⟩)
  | ceres s => exact fit_keeps files d args f f' ok hw (Or.inr (Or.inl ⟨s, h'⟩))
  | nlopt s => exact fit_keeps files d args f f' ok hw (Or.inr (Or.inr (Or.inl ⟨s, h'⟩)))
  | ipopt s => exact fit_keeps files d args f f' ok hw (Or.inr (Or.inr (Or.inr ⟨s, h'⟩)))

theorem kFunc_ne : kFunc ≠ kL2 ∧ kFunc ≠ kLinf ∧ kFresnel ≠ kL2 ∧ kFresnel ≠ kLinf := by decide

/-- What the file gives back: the function that was fitted, with coefficients as they are printed; with the same
    distances to the data when the printing is exact. -/
def FittedFile.GivesBack (r : FittedFile) (fmt : ℝ → Decimal) (dir : Str) (env : Option Str)
    (fs : Str → Option (Symbols (Provider LobeObj))) (d : Data) : Prop :=
  ∃ f1, loadFunction dir env fs r.file = some (some f1) ∧
    Fn.Same f1.toFn ((r.function.withOutput .UNKNOWN_OUTPUT).rounded fmt).toFn ∧
    ((r.function.withOutput .UNKNOWN_OUTPUT).rounded fmt = r.function.withOutput .UNKNOWN_OUTPUT →
      f1.toFn.params = r.function.toFn.params ∧ (∀ x, f1.toFn.value x = r.function.toFn.value x) ∧
      l2Distance f1.toFn.evaluable d = some r.l2 ∧
      ∃ mean var, linfDistance f1.toFn.evaluable d = some (r.linf, mean, var))

theorem distance_congr (f g : Fn) (d : Data) (h1 : f.par.dimX = g.par.dimX) (h2 : f.par.dimY = g.par.dimY)
    (h3 : f.par.input = g.par.input) (h4 : ∀ x, f.value x = g.value x) :
    l2Distance f.evaluable d = l2Distance g.evaluable d ∧ linfDistance f.evaluable d = linfDistance g.evaluable d := by
  have e : g.evaluable = ⟨⟨f.par.dimX, f.par.dimY, f.par.input, g.par.output⟩, f.value⟩ := by
    unfold Fn.evaluable
    rw [h1, h2, h3, funext h4]
  rw [e]
  exact ⟨rfl, rfl⟩

theorem givesBack_of (r : FittedFile) (fmt : ℝ → Decimal) (dir : Str) (env : Option Str)
    (fs : Str → Option (Symbols (Provider LobeObj))) (d : Data)
    (h1 : l2Distance r.function.toFn.evaluable d = some r.l2)
    (h2 : ∃ mean var, linfDistance r.function.toFn.evaluable d = some (r.linf, mean, var))
    (h : ∃ f1, loadFunction dir env fs r.file = some (some f1) ∧
      Fn.Same f1.toFn ((r.function.withOutput .UNKNOWN_OUTPUT).rounded fmt).toFn) : r.GivesBack fmt dir env fs d := by
  obtain ⟨f1, h3, h4⟩ := h
  refine ⟨f1, h3, h4, fun hx => ?_⟩
  rw [hx] at h4
  obtain ⟨w1, w2, w3, w4⟩ := FT.withOutput_same .UNKNOWN_OUTPUT r.function
  have e := distance_congr f1.toFn r.function.toFn d (by rw [h4.1, w1]; rfl) (by rw [h4.1, w1]; rfl)
    (by rw [h4.1, w1]; rfl) (fun x => (h4.2.2.2 x).trans (w4 x))
  refine ⟨by rw [h4.2.2.1]; unfold Fn.params; rw [w2, w3], fun x => (h4.2.2.2 x).trans (w4 x), ?_, ?_⟩
  · rw [e.1]; exact h1
  · rw [e.2]; exact h2

theorem constructs_input (c : PluginClass) (p : Par) (l : LobeObj) (h : Constructs c p l) (hp : p.input ≠ .UNKNOWN_INPUT) :
    l.par.input ≠ .UNKNOWN_INPUT := by
  rw [h.1]
  cases c
  case retroblinn => exact hp
  case abc => exact hp
  case lafortune => exact hp
  case schlickFresnel => exact hp
  all_goals simp only [PluginClass.par, Par.setInput, ne_eq, reduceCtorEq, not_false_eq_true]

/-- C69: with one plugin and one of the four nonlinear fitters, when the command succeeds the file gives back the
    function that was fitted. -/
theorem data2brdf_plugin (files : Str → Option Str) (fit : Data → SMap → FT LobeObj → Option (Bool × FT LobeObj))
    (hfit : NonlinearFitter files fit) (fmt6 fmt : ℝ → Decimal) (h6 : PrintsNonneg fmt6) (hf : PrintsDigits fmt)
    (dir : Str) (env : Option Str) (fs : Str → Option (Symbols (Provider LobeObj))) (args : SMap) (ho : args.Ordered)
    (ha : CmdMap args) (n : Str) (hn : args.find kFunc = some n) (hv : '[' ∉ n) (hfr : args.find kFresnel = none)
    (pr : Provider LobeObj) (c : PluginClass) (hpr : libraryOf dir env fs n = some pr) (hc : pr.Of c) (d : Data)
    (hin : d.input.Named) (r : FittedFile) (h : data2brdf dir env fs fit fmt6 fmt args d = some (0, some r)) :
    ∃ l, r.function = .leaf l ∧ (pr.make d.par).Kept l ∧ fit d args (.leaf (pr.make d.par)) = some (true, .leaf l) ∧
      ((pr.make d.par).WrittenWhole l → r.GivesBack fmt dir env fs d) := by
  obtain ⟨-, h2⟩ := data2brdf_outcome dir env fs fit fmt6 fmt args d 0 (some r) h
  obtain ⟨hne, f, f1, g1, g2, g3, g4, g5, g6, g7⟩ := h2 r rfl
  have hleaf : leafOf (libraryOf dir env fs) d.par n = some (.leaf (pr.make d.par)) := by
    unfold leafOf; rw [hpr]; simp [hc.1]
  change getFunction dir env fs LobeObj.par args d.par = _ at g1
  rw [getFunction_leaf dir env fs LobeObj.par args d.par n hn hv hfr _ hleaf] at g1
  cases g1
  obtain ⟨rfl, -⟩ := checkCompatibility_same args d d (.leaf (pr.make d.par)) _ hne
    (constructs_input c _ _ (hc.2 d.par) (namedInput_ne hin)) g2
  have hk := hfit.keeps d args (.leaf (pr.make d.par)) _ _ (pr.make d.par).toFn_WF g3
  cases hl : r.function with
  | compound p gs => rw [hl] at hk; simp only [FT.Kept] at hk
  | product p f g a b => rw [hl] at hk; simp only [FT.Kept] at hk
  | leaf l =>
    rw [hl] at hk g3
    refine ⟨l, rfl, hk, g3, fun hw => ?_⟩
    refine givesBack_of r fmt dir env fs d g4 g5 ?_
    obtain ⟨mean, var, g5⟩ := g5
    obtain ⟨s1, s2, s3, s4, s5⟩ := args_saved args ho ha fmt6 h6 r.l2 r.linf (l2_nonneg _ _ _ g4) (linf_nonneg _ _ _ g5)
    rw [← g6] at s1 s2 s3
    obtain ⟨e1, e2, e3, e4⟩ := kFunc_ne
    rw [hl] at g7 ⊢
    obtain ⟨-, t, f2, t0, t1, t2⟩ := load_saved_plugin fmt hf dir env fs r.args s1 s2 n ((s3 _ e1 e2).trans hn) hv
      ((s3 _ e3 e4).trans hfr) pr c hpr hc d.par hin l (LobeObj.kept_canRead _ _ hk hw)
    rw [g7] at t0
    cases t0
    exact ⟨f2, t1, t2⟩

/-- C69: the same for a sum of plugins, each one with its Fresnel term or without. -/
theorem data2brdf_sum (files : Str → Option Str) (fit : Data → SMap → FT LobeObj → Option (Bool × FT LobeObj))
    (hfit : NonlinearFitter files fit) (fmt6 fmt : ℝ → Decimal) (h6 : PrintsNonneg fmt6) (hf : PrintsDigits fmt)
    (dir : Str) (env : Option Str) (fs : Str → Option (Symbols (Provider LobeObj))) (args : SMap) (ho : args.Ordered)
    (ha : CmdMap args) (t : Term) (ts : List Term) (hr : ∀ u ∈ t :: ts, u.Readable)
    (hargs : args.find kFunc = some (sumText (t :: ts))) (hfr : args.find kFresnel = none)
    (hk : ∀ u ∈ t :: ts, u.Known (libraryOf dir env fs)) (d : Data) (q : Par) (hin : q.input.Named) (gs0 : FTs LobeObj)
    (hmake : getFunction dir env fs LobeObj.par args d.par = some (.nonlinear (.compound q gs0)))
    (hwf : (FT.compound q gs0).toFn.WF)
    (hfun : ∀ u ∈ t :: ts, ∃ f, u.function (libraryOf dir env fs) LobeObj.par d.par = some f)
    (hu : ∀ u ∈ t :: ts, u.Uniform (libraryOf dir env fs) d.par (q.withOutput .UNKNOWN_OUTPUT))
    (r : FittedFile) (h : data2brdf dir env fs fit fmt6 fmt args d = some (0, some r)) :
    ∃ gs, r.function = .compound q gs ∧ gs0.Kept gs ∧
      fit d args (.compound q gs0) = some (true, .compound q gs) ∧
      ((FT.compound q gs0).WrittenWhole (.compound q gs) → r.GivesBack fmt dir env fs d) := by
  obtain ⟨-, h2⟩ := data2brdf_outcome dir env fs fit fmt6 fmt args d 0 (some r) h
  obtain ⟨hne, f, f1, g1, g2, g3, g4, g5, g6, g7⟩ := h2 r rfl
  change getFunction dir env fs LobeObj.par args d.par = _ at g1
  rw [hmake] at g1
  cases g1
  obtain ⟨rfl, -⟩ := checkCompatibility_same args d d (.compound q gs0) _ hne (namedInput_ne hin) g2
  have hkept := hfit.keeps d args _ _ _ hwf g3
  cases hl : r.function with
  | leaf p => rw [hl] at hkept; simp only [FT.Kept] at hkept
  | product p f g a b => rw [hl] at hkept; simp only [FT.Kept] at hkept
  | compound q' gs =>
    rw [hl] at hkept g3
    obtain ⟨rfl, hkept'⟩ := hkept
    refine ⟨gs, rfl, hkept', g3, fun hw => ?_⟩
    refine givesBack_of r fmt dir env fs d g4 g5 ?_
    obtain ⟨mean, var, g5⟩ := g5
    obtain ⟨s1, s2, s3, s4, s5⟩ := args_saved args ho ha fmt6 h6 r.l2 r.linf (l2_nonneg _ _ _ g4) (linf_nonneg _ _ _ g5)
    rw [← g6] at s1 s2 s3
    obtain ⟨e1, e2, e3, e4⟩ := kFunc_ne
    have hmake' := hmake
    rw [getFunction_congr dir env fs LobeObj.par args r.args d.par (s3 _ e1 e2).symm (s3 _ e3 e4).symm
      (s3 _ (by decide) (by decide)).symm (s3 _ (by decide) (by decide)).symm] at hmake'
    rw [hl] at g7 ⊢
    obtain ⟨u, f2, t0, t1, t2⟩ := load_saved_sum fmt hf dir env fs r.args s1 s2 t ts hr ((s3 _ e1 e2).trans hargs)
      ((s3 _ e3 e4).trans hfr) hk d.par q hin gs gs0 hmake' hfun hu (FT.kept_canRead _ _ ⟨rfl, hkept'⟩ hw)
    rw [g7] at t0
    cases t0
    exact ⟨f2, t1, t2⟩

/-- C69: with nlopt the distance that is printed is not more than that of the function the fit starts from. -/
theorem data2brdf_nlopt (files : Str → Option Str) (solver : NloptSolver) (hs : solver.Descends) (fmt6 fmt : ℝ → Decimal)
    (dir : Str) (env : Option Str) (fs : Str → Option (Symbols (Provider LobeObj))) (args : SMap) (d : Data)
    (f f0 : FT LobeObj) (hg : getFunction dir env fs LobeObj.par args d.par = some (.nonlinear f)) (hw : f.toFn.WF)
    (hi0 : (f.par LobeObj.par).input ≠ .UNKNOWN_INPUT)
    (h0 : f.bootstrap files d args = some f0) (hf : FitReady f0.toFn d) (hi : f0.toFn.par.input ≠ .UNKNOWN_INPUT)
    (hd : ∀ row ∈ d.rows, (d.pointFor f0.toFn row).length = f0.toFn.par.dimX) (r : FittedFile)
    (h : data2brdf dir env fs (nloptFit files solver) fmt6 fmt args d = some (0, some r)) :
    ∃ b, l2Distance f0.toFn.evaluable d = some b ∧ r.l2 ≤ b := by
  obtain ⟨-, h2⟩ := data2brdf_outcome dir env fs _ fmt6 fmt args d 0 (some r) h
  obtain ⟨hne, f', f1, g1, g2, g3, g4, g5, g6, g7⟩ := h2 r rfl
  change getFunction dir env fs LobeObj.par args d.par = _ at g1
  rw [hg] at g1
  cases g1
  obtain ⟨rfl, -⟩ := checkCompatibility_same args d d _ _ hne hi0 g2
  obtain ⟨a, b, k1, k2, k3⟩ := nlopt_fit_l2 files solver hs d args f1 f0 r.function hw h0 hf hi hd hne g3
  rw [g4] at k1
  cases k1
  exact ⟨b, k2, k3⟩

end
end Alta
