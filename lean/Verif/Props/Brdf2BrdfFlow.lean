import Verif.Props.Brdf2Brdf
import Verif.Props.Data2Brdf
import Verif.Props.FunctionFileExamples
/-
C78: brdf2brdf on the files of the plugins, and cases that meet the hypotheses of its theorems.
-/
namespace Alta
noncomputable section

/-- What `loadFunction` reads from the file of `f` is the function made for its header, with other coefficients. -/
theorem loadFunction_saved_kept (fmt : ℝ → Decimal) (dir : Str) (env : Option Str)
    (fs : Str → Option (Symbols (Provider LobeObj))) (args : SMap) (ho : args.Ordered) (ha : CmdMap args)
    (f f0 f1 : FT LobeObj) (hin : (f.par LobeObj.par).input.Named)
    (hmake : getFunction dir env fs LobeObj.par args ((f.par LobeObj.par).withOutput .UNKNOWN_OUTPUT) =
      some (.nonlinear f0))
    (hload : loadFunction dir env fs (savedText fmt args f) = some (some f1)) : f0.Kept f1 := by
  obtain ⟨l2, m, h1, h2, h3, h4, h5, h6⟩ := header_saved args ho ha (f.par LobeObj.par)
    (f.saveBody ++ (f.saveCall fmt ++ ['\n'])) hin
  have e : savedText fmt args f =
      saveHeader args.getCmd (f.par LobeObj.par) ++ (f.saveBody ++ (f.saveCall fmt ++ ['\n'])) := by
    simp only [savedText, List.append_assoc]
  have hp : (⟨((f.par LobeObj.par).dimX : ℤ).toNat, ((f.par LobeObj.par).dimY : ℤ).toNat,
      (f.par LobeObj.par).input, .UNKNOWN_OUTPUT⟩ : Par) = (f.par LobeObj.par).withOutput .UNKNOWN_OUTPUT := by
    simp [Par.withOutput]
  unfold loadFunction at hload
  rw [e] at hload
  simp only [h1, h2, h3, h4, h5, h6, hp, hmake, ne_eq, not_true_eq_false, if_false] at hload
  split at hload
  · cases hload; exact FT.load_kept f0 _
  · cases hload

theorem LobeObj.canRead_saved (l0 l : LobeObj) (h : l0.CanRead l) : (FT.leaf l).saves = true := by
  cases l0 <;> cases l <;> simp only [LobeObj.CanRead] at h <;> rfl

/-- C78: a function of one plugin: when the command line of brdf2brdf has the same `--func`, the new file is loaded, and
    gives the coefficients of the function that was loaded from the input file (rounded by the printing). -/
theorem brdf2brdf_plugin (junk : ℝ) (fmt10 fmt : ℝ → Decimal) (hp : PrintsDigits fmt10) (other : AnyFn → SMap → Option Str)
    (dir : Str) (env : Option Str) (fs : Str → Option (Symbols (Provider LobeObj))) (files : Str → Option Str) (args : SMap)
    (ho : args.Ordered) (ha : CmdMap args) (hr : Reexports args) (hx : args.isDefined kExport = false)
    (n : Str) (hn : args.find kFunc = some n) (hv : '[' ∉ n) (hfr : args.find kFresnel = none)
    (pr : Provider LobeObj) (c : PluginClass) (hpr : libraryOf dir env fs n = some pr) (hc : pr.Of c)
    (text : Str) (hfile : files (args.get "input".toList) = some text) (l : LobeObj)
    (hload : loadFunction dir env fs text = some (some (.leaf l)))
    (p : Par) (hin : p.input.Named) (hl : (pr.make p).CanRead l) :
    ∃ t f1, brdf2brdf junk fmt10 fmt other dir env fs files args = some (0, some t) ∧
      loadFunction dir env fs t = some (some f1) ∧
      Fn.Same f1.toFn ((l.withOutput .UNKNOWN_OUTPUT).rounded fmt10).toFn := by
  obtain ⟨-, t, f1, h1, h2, h3⟩ := load_saved_plugin fmt10 hp dir env fs args ho ha n hn hv hfr pr c hpr hc p hin l hl
  refine ⟨t, f1, ?_, h2, h3⟩
  rw [brdf2brdf_run junk fmt10 fmt other dir env fs files args hr text hfile _ (loadAny_nonlinear junk dir env fs text _ hload)]
  have hs : (FT.leaf l).saves = true := LobeObj.canRead_saved _ _ hl
  rw [saveFunction_saves fmt10 args _ hs] at h1
  cases h1
  simp only [AnyFn.save, hx, if_true, AnyFn.altaText, hs, Option.map_some, AnyFn.par, savedText, List.append_assoc]

/-- C78: when the printing keeps the coefficients of the function that was loaded, the new file gives the same parameters
    and the same values. -/
theorem brdf2brdf_exact (junk : ℝ) (fmt10 fmt : ℝ → Decimal) (hp : PrintsDigits fmt10) (other : AnyFn → SMap → Option Str)
    (dir : Str) (env : Option Str) (fs : Str → Option (Symbols (Provider LobeObj))) (files : Str → Option Str) (args : SMap)
    (ho : args.Ordered) (ha : CmdMap args) (hr : Reexports args) (hx : args.isDefined kExport = false)
    (text : Str) (hfile : files (args.get "input".toList) = some text) (f f0 : FT LobeObj)
    (hload : loadFunction dir env fs text = some (some f)) (hin : (f.par LobeObj.par).input.Named)
    (hmake : getFunction dir env fs LobeObj.par args ((f.par LobeObj.par).withOutput .UNKNOWN_OUTPUT) =
      some (.nonlinear f0))
    (hread : f0.CanRead (f.withOutput .UNKNOWN_OUTPUT))
    (he : (f.withOutput .UNKNOWN_OUTPUT).rounded fmt10 = f.withOutput .UNKNOWN_OUTPUT) :
    ∃ t f1, brdf2brdf junk fmt10 fmt other dir env fs files args = some (0, some t) ∧
      loadFunction dir env fs t = some (some f1) ∧ f1.toFn.params = f.toFn.params ∧ ∀ x, f1.toFn.value x = f.toFn.value x := by
  obtain ⟨t, f1, h0, h1, h2⟩ := brdf2brdf_same junk fmt10 fmt hp other dir env fs files args ho ha hr hx text hfile f f0 hload
    hin hmake hread
  rw [he] at h2
  obtain ⟨-, w2, w3, w4⟩ := FT.withOutput_same .UNKNOWN_OUTPUT f
  exact ⟨t, f1, h0, h1, by rw [h2.2.2.1]; unfold Fn.params; rw [w2, w3], fun x => (h2.2.2.2 x).trans (w4 x)⟩

theorem eq_map_some (l : List (Option Rat1)) (h : ∀ o ∈ l, ∃ r' : Rat1, o = some r') : l = (l.filterMap id).map some := by
  induction l with
  | nil => rfl
  | cons o l ih =>
    obtain ⟨r', rfl⟩ := h o (by simp)
    have := ih fun o ho => h o (by simp [ho])
    simp only [List.filterMap_cons, id_eq, List.map_cons]
    exact congrArg (some r' :: ·) this

/-- C78: a rational function saved without `--func` (denominators that start with 1, numbers that are printed exactly) and
    written again by brdf2brdf: the new file gives the same values. -/
theorem brdf2brdf_rational_chain (junk : ℝ) (fmt10 fmt : ℝ → Decimal) (hp : PrintsDigits fmt10)
    (other : AnyFn → SMap → Option Str) (dir : Str) (env : Option Str) (fs : Str → Option (Symbols (Provider LobeObj)))
    (files : Str → Option Str) (args args0 : SMap)
    (ho : args.Ordered) (ha : CmdMap args) (hr : Reexports args) (hx : args.isDefined kExport = false)
    (hfunc : args.isDefined kFunc = false)
    (ho0 : args0.Ordered) (ha0 : CmdMap args0) (hfunc0 : args0.isDefined kFunc = false)
    (p : Par) (f : RatFn) (hin : p.input.Named) (hpx : f.dimX = p.dimX) (hpy : f.dimY = p.dimY)
    (hfile : files (args.get "input".toList) = some (saveHeader args0.getCmd p ++ (f.saveCall fmt10 ++ ['\n'])))
    (cs : List Rat1) (hf : f.rs = cs.map some) (hl : cs.length = f.dimY)
    (hc : ∀ r ∈ cs, r.dimX = f.dimX ∧ arr r.getQ 0 = 1 ∧ r.Standard ∧ (r.lo, r.hi) = inflate f.lo f.hi)
    (hlo : f.lo.length = f.dimX) (hhi : f.hi.length = f.dimX)
    (hb : ∀ x ∈ f.lo ++ f.hi, printed fmt10 x = x) (he : ∀ r ∈ cs, ∀ c ∈ r.p ++ r.q, printed fmt10 c.a = c.a)
    (hd : 1 ≤ f.dimX) :
    ∃ t g, brdf2brdf junk fmt10 fmt other dir env fs files args = some (0, some t) ∧
      loadAny junk dir env fs t = some (some (.rational (p.withOutput .UNKNOWN_OUTPUT) g)) ∧ ∀ x, g.value x = f.value x := by
  have hq : ∀ r ∈ cs, r.q ≠ [] := by
    intro r hr h
    have := (hc r hr).2.1
    rw [Rat1.getQ, h] at this
    simp [arr] at this
  have hnew : ((newRational p).load junk ('\n' :: (f.saveCall fmt10 ++ ['\n']))) =
      (newRational p).load junk (f.saveCall fmt10 ++ ['\n']) :=
    RatFn.load_skippable junk (newRational p) newlines_one.skippable (f.saveCall fmt10 ++ ['\n'])
  have hnone : ∀ k : ℕ, ((newRational p).rs[k]?).join = Option.none := by
    intro k
    simp only [newRational, List.getElem?_replicate]
    split <;> rfl
  have hwf : (newRational p).WellFormed := by
    refine ⟨by rw [show (newRational p).dimX = p.dimX from rfl, ← hpx]; exact hd, by simp [newRational], ?_⟩
    intro k r hk
    have := hnone k
    rw [hk] at this
    cases this
  obtain ⟨g, h1, h2, h3, h4, h5, h6, h7⟩ := rational_file_round_trip junk fmt10 hp f (newRational p) cs hf hl
    (fun r hr => ⟨(hc r hr).1, hq r hr⟩) hwf hpx.symm hpy.symm ['\n']
  have hv : ∀ x, g.value x = f.value x := by
    obtain ⟨g2, e1, e2⟩ := rational_file_same_value junk fmt10 hp f (newRational p) cs hf hl
      (fun r hr => ⟨(hc r hr).1, hq r hr, (hc r hr).2.2⟩) hlo hhi hb he hd hpx.symm hpy.symm (by rw [hpy]; rfl) ['\n']
    rw [h1] at e1
    cases e1
    exact e2
  have elo : g.lo = f.lo := by
    rw [h5]
    conv_rhs => rw [← range_map_arr f.lo, hlo]
    apply List.map_congr_left
    intro k hk
    apply hb
    rw [List.mem_append]; left
    rw [List.mem_range] at hk
    have e : arr f.lo k = f.lo[k]'(by omega) := by
      unfold arr; rw [List.getD_eq_getElem?_getD, List.getElem?_eq_getElem (by omega)]; rfl
    rw [e]
    exact List.getElem_mem _
  have ehi : g.hi = f.hi := by
    rw [h6]
    conv_rhs => rw [← range_map_arr f.hi, hhi]
    apply List.map_congr_left
    intro k hk
    apply hb
    rw [List.mem_append]; right
    rw [List.mem_range] at hk
    have e : arr f.hi k = f.hi[k]'(by omega) := by
      unfold arr; rw [List.getD_eq_getElem?_getD, List.getElem?_eq_getElem (by omega)]; rfl
    rw [e]
    exact List.getElem_mem _
  have hall : ∀ k, k < g.dimY → ∃ r r', cs[k]? = some r ∧ g.rs[k]? = some (some r') ∧ r'.q.length = r.q.length ∧
      ReadFrom fmt10 r r' (inflate g.lo g.hi) := by
    intro k hk
    have hk' : k < cs.length := by omega
    obtain ⟨r', j1, j2, j3, j4⟩ := h7 k cs[k] (List.getElem?_eq_getElem hk')
    simp only [hnone k] at j4
    exact ⟨cs[k], r', List.getElem?_eq_getElem hk', j1, j3, j4⟩
  have hgl : g.rs.length = g.dimY := h2.len
  have hsome : ∀ o ∈ g.rs, ∃ r' : Rat1, o = some r' := by
    intro o ho
    obtain ⟨k, hk, rfl⟩ := List.getElem_of_mem ho
    obtain ⟨r, r', -, e, -⟩ := hall k (by omega)
    rw [List.getElem?_eq_getElem hk] at e
    exact ⟨r', Option.some.inj e⟩
  have hcs : g.rs = (g.rs.filterMap id).map some := by
    exact eq_map_some g.rs hsome
  have hmem : ∀ r' ∈ g.rs.filterMap id, ∃ r ∈ cs, r'.q.length = r.q.length ∧ ReadFrom fmt10 r r' (inflate g.lo g.hi) := by
    intro r' hr'
    have hm : some r' ∈ g.rs := by rw [hcs]; exact List.mem_map_of_mem hr'
    obtain ⟨k, hk, e⟩ := List.getElem_of_mem hm
    obtain ⟨r, r2, c1, c2, c3, c4⟩ := hall k (by omega)
    rw [List.getElem?_eq_getElem hk, e] at c2
    cases c2
    exact ⟨r, List.mem_of_getElem? c1, c3, c4⟩
  have hload : loadAny junk dir env fs (saveHeader args0.getCmd p ++ (f.saveCall fmt10 ++ ['\n'])) =
      some (some (.rational (p.withOutput .UNKNOWN_OUTPUT) g)) := by
    rw [loadAny_saved junk dir env fs args0 ho0 ha0 p hin _ hfunc0, hnew, h1]
    rfl
  obtain ⟨t, g2, k1, k2, k3⟩ := brdf2brdf_rational junk fmt10 fmt hp other dir env fs files args ho ha hr hx hfunc _ hfile
    (p.withOutput .UNKNOWN_OUTPUT) g hload hin (h3.trans hpx) (h4.trans hpy) (g.rs.filterMap id) hcs
    (by rw [← hgl]; conv_rhs => rw [hcs, List.length_map])
    (by
      intro r' hr'
      obtain ⟨r, hr0, e1, e2⟩ := hmem r' hr'
      refine ⟨by rw [e2.dimX, (hc r hr0).1, h3], ?_, e2.standard, by rw [e2.lo, e2.hi]⟩
      intro h
      rw [h] at e1
      exact hq r hr0 (List.length_eq_zero_iff.1 e1.symm))
    (by rw [elo, hlo, h3]) (by rw [ehi, hhi, h3]) (by rw [elo, ehi]; exact hb)
    (by
      intro r' hr' c hcm
      obtain ⟨r, hr0, e1, e2⟩ := hmem r' hr'
      obtain ⟨q1, q2⟩ := readFrom_same_coefficients fmt10 r r' _ e2 (he r hr0) (hc r hr0).2.1
      have : c.a ∈ r.getP ++ r.getQ := by
        rw [← q1, ← q2]
        rcases List.mem_append.1 hcm with h | h
        · exact List.mem_append_left _ (List.mem_map_of_mem h)
        · exact List.mem_append_right _ (List.mem_map_of_mem h)
      rcases List.mem_append.1 this with h | h
      · obtain ⟨d, hd1, hd2⟩ := List.mem_map.1 h
        rw [← hd2]; exact he r hr0 d (List.mem_append_left _ hd1)
      · obtain ⟨d, hd1, hd2⟩ := List.mem_map.1 h
        rw [← hd2]; exact he r hr0 d (List.mem_append_right _ hd1))
    (by rw [h3]; exact hd)
  exact ⟨t, g2, k1, k2, fun x => (k3 x).trans (hv x)⟩

/-! ### Cases that meet the hypotheses -/

/-- `--func w.so --input i --output o` -/
def reArgs : SMap := [(kFunc, ['w', '.', 's', 'o']), ("input".toList, ['i']), ("output".toList, ['o'])]
/-- `--input i --output o` -/
def reArgs0 : SMap := [("input".toList, ['i']), ("output".toList, ['o'])]

theorem reArgs_ordered : reArgs.Ordered ∧ reArgs0.Ordered := by
  constructor <;> simp [reArgs, reArgs0, SMap.Ordered, kFunc] <;> decide

theorem reArgs0_cmd : CmdMap reArgs0 := by
  intro e he
  simp only [reArgs0, List.mem_cons, List.not_mem_nil, or_false] at he
  rcases he with rfl | rfl
  · exact ⟨⟨by decide, by decide⟩, .word _ ⟨by decide, by decide⟩ (by intro r h; cases h) (by rintro ⟨r, h⟩; cases h)⟩
  · exact ⟨⟨by decide, by decide⟩, .word _ ⟨by decide, by decide⟩ (by intro r h; cases h) (by rintro ⟨r, h⟩; cases h)⟩

theorem reArgs_cmd : CmdMap reArgs := by
  intro e he
  simp only [reArgs, List.mem_cons, List.not_mem_nil, or_false] at he
  rcases he with rfl | rfl | rfl
  · exact ⟨⟨by decide, by decide⟩, .word _ ⟨by decide, by decide⟩ (by intro r h; cases h) (by rintro ⟨r, h⟩; cases h)⟩
  · exact ⟨⟨by decide, by decide⟩, .word _ ⟨by decide, by decide⟩ (by intro r h; cases h) (by rintro ⟨r, h⟩; cases h)⟩
  · exact ⟨⟨by decide, by decide⟩, .word _ ⟨by decide, by decide⟩ (by intro r h; cases h) (by rintro ⟨r, h⟩; cases h)⟩

theorem reArgs_reexports : Reexports reArgs ∧ Reexports reArgs0 :=
  ⟨⟨by decide, by decide, by decide⟩, ⟨by decide, by decide, by decide⟩⟩

theorem reArgs_get : reArgs.get "input".toList = ['i'] ∧ reArgs0.get "input".toList = ['i'] := by
  constructor <;> decide

/-- A Ward lobe saved by data2brdf with `--func w.so` can be loaded; brdf2brdf with the same option writes a file that can be
    loaded, and without the option a file that cannot. -/
example (junk : ℝ) (other : AnyFn → SMap → Option Str) (p : Par) (hin : p.input.Named) :
    let l : LobeObj := .ward ⟨p.setInput 6 .CARTESIAN, fun _ => 2, fun _ => 1, fun _ => 3⟩
    ∃ text, saveFunction exampleFmt [(kFunc, ['w', '.', 's', 'o'])] (.leaf l) = some text ∧
      (∃ t f1, brdf2brdf junk exampleFmt exampleFmt other ['/', 'l'] none fsAlta (fun _ => some text) reArgs = some (0, some t) ∧
        loadFunction ['/', 'l'] none fsAlta t = some (some f1)) ∧
      (∃ t, brdf2brdf junk exampleFmt exampleFmt other ['/', 'l'] none fsAlta (fun _ => some text) reArgs0 = some (0, some t) ∧
        loadAny junk ['/', 'l'] none fsAlta t = some none) := by
  intro l
  have ho : SMap.Ordered [(kFunc, ['w', '.', 's', 'o'])] := by simp [SMap.Ordered]
  have ha : CmdMap [(kFunc, ['w', '.', 's', 'o'])] := by
    intro e he; rw [List.mem_singleton.1 he]
    exact ⟨⟨by decide, by decide⟩, .word _ ⟨by decide, by decide⟩ (by intro r h; cases h) (by rintro ⟨r, h⟩; cases h)⟩
  have hv : '[' ∉ (['w', '.', 's', 'o'] : Str) := by decide
  have hof : Provider.Of ⟨true, fun p => .ward ⟨p.setInput 6 .CARTESIAN, fun _ => 0, fun _ => 0, fun _ => 0⟩⟩ .ward :=
    ⟨rfl, fun p => ⟨rfl, trivial⟩⟩
  obtain ⟨-, t, f1, h0, h1, h2⟩ := load_saved_plugin exampleFmt exampleFmt_digits ['/', 'l'] none fsAlta
    [(kFunc, ['w', '.', 's', 'o'])] ho ha ['w', '.', 's', 'o'] rfl hv (by decide +kernel) _ .ward lib_w hof p hin l rfl
  have hcart : Input.CARTESIAN.Named := by unfold Input.Named; decide
  have ht : t = savedText exampleFmt [(kFunc, ['w', '.', 's', 'o'])] (.leaf l) := by
    rw [saveFunction_saves exampleFmt _ _ rfl] at h0; exact (Option.some.inj h0).symm
  have hmake : getFunction ['/', 'l'] none fsAlta LobeObj.par [(kFunc, ['w', '.', 's', 'o'])]
      (((FT.leaf l).par LobeObj.par).withOutput .UNKNOWN_OUTPUT) = some (.nonlinear (.leaf (.ward
        ⟨(((FT.leaf l).par LobeObj.par).withOutput .UNKNOWN_OUTPUT).setInput 6 .CARTESIAN, fun _ => 0, fun _ => 0, fun _ => 0⟩))) :=
    getFunction_leaf _ _ _ _ _ _ ['w', '.', 's', 'o'] rfl hv (by decide +kernel) _ rfl
  have hk := loadFunction_saved_kept exampleFmt ['/', 'l'] none fsAlta [(kFunc, ['w', '.', 's', 'o'])] ho ha (.leaf l) _ f1 hcart
    hmake (ht ▸ h1)
  cases f1 with
  | compound _ _ => simp only [FT.Kept] at hk
  | product _ _ _ _ _ => simp only [FT.Kept] at hk
  | leaf l1 =>
    have hcr := LobeObj.kept_canRead _ l1 hk (by cases l1 <;> simp [FT.Kept, LobeObj.Kept, LobeObj.ctorIdx] at hk <;> trivial)
    refine ⟨t, h0, ?_, ?_⟩
    · obtain ⟨t', f2, g1, g2, -⟩ := brdf2brdf_plugin junk exampleFmt exampleFmt exampleFmt_digits other ['/', 'l'] none fsAlta
        (fun _ => some t) reArgs reArgs_ordered.1 reArgs_cmd reArgs_reexports.1 (by decide) ['w', '.', 's', 'o'] rfl hv
        (by decide) _ .ward lib_w hof t rfl l1 h1 (((FT.leaf l).par LobeObj.par).withOutput .UNKNOWN_OUTPUT) hcart hcr
      exact ⟨t', f2, g1, g2⟩
    · refine brdf2brdf_func_needed junk exampleFmt exampleFmt other ['/', 'l'] none fsAlta
        (fun _ => some t) reArgs0 reArgs_ordered.2 reArgs0_cmd reArgs_reexports.2 (by decide) (by decide) t rfl (.leaf l1) h1 ?_
        (LobeObj.canRead_saved _ _ hcr)
      have : l1.toFn.par.input = .CARTESIAN := hk.2.2.2.2 (fun h => h)
      show l1.par.input.Named
      have e : l1.par = l1.toFn.par := by cases l1 <;> rfl
      rw [e, this]
      exact hcart

/-- (2 + 3 u) / (1 + 2 u) on [0, 1]: the file, then the one written by brdf2brdf. -/
example (junk : ℝ) (other : AnyFn → SMap → Option Str) (dir : Str) (env : Option Str)
    (fs : Str → Option (Symbols (Provider LobeObj))) :
    ∃ t g, brdf2brdf junk exampleFmt exampleFmt other dir env fs
        (fun _ => some (saveHeader (SMap.getCmd []) ⟨1, 1, .COS_TH, .UNKNOWN_OUTPUT⟩ ++
          (RatFn.saveCall exampleFmt ⟨1, 1, 2, 2, [0], [1], [some exampleRat1]⟩ ++ ['\n']))) reArgs0 = some (0, some t) ∧
      loadAny junk dir env fs t = some (some (.rational ⟨1, 1, .COS_TH, .UNKNOWN_OUTPUT⟩ g)) ∧
      ∀ x, g.value x = RatFn.value ⟨1, 1, 2, 2, [0], [1], [some exampleRat1]⟩ x := by
  obtain ⟨e0, e1, e2, e3⟩ := exampleFmt_values
  refine brdf2brdf_rational_chain junk exampleFmt exampleFmt exampleFmt_digits other dir env fs _ reArgs0 []
    reArgs_ordered.2 reArgs0_cmd reArgs_reexports.2 (by decide) (by decide) SMap.ordered_nil (by intro e he; cases he) (by decide)
    ⟨1, 1, .COS_TH, .UNKNOWN_OUTPUT⟩ ⟨1, 1, 2, 2, [0], [1], [some exampleRat1]⟩ (by unfold Input.Named; decide) rfl rfl rfl
    [exampleRat1] rfl rfl ?_ rfl rfl ?_ ?_ (by norm_num)
  · intro r hr
    rw [List.mem_singleton.1 hr]
    refine ⟨rfl, by simp [exampleRat1, Rat1.getQ, arr], exampleRat1_standard, ?_⟩
    simp [inflate, exampleRat1]
  · intro x hx
    simp at hx
    rcases hx with rfl | rfl
    · exact e0
    · exact e1
  · intro r hr c hc
    rw [List.mem_singleton.1 hr] at hc
    simp [exampleRat1] at hc
    rcases hc with rfl | rfl | rfl | rfl <;> assumption

end
end Alta
