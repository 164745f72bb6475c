import Verif.Props.FunctionFileLimits
/-
Property C56: cases that meet the hypotheses, and a sum that its file does not keep.
-/
namespace Alta
noncomputable section

/-- The libraries of the examples: Ward (`w.so`), Beckmann (`b.so`), a Fresnel term (`n.so`), retro-Blinn
    (`r.so`) and diffuse (`d.so`). -/
def fsAlta : Str → Option (Symbols (Provider LobeObj)) := fun f =>
  if f = ['/', 'l', '/', 'w', '.', 's', 'o'] then some (fun s => if s = "provide_function".toList then
    some ⟨true, fun p => .ward ⟨p.setInput 6 .CARTESIAN, fun _ => 0, fun _ => 0, fun _ => 0⟩⟩ else none)
  else if f = ['/', 'l', '/', 'b', '.', 's', 'o'] then some (fun s => if s = "provide_function".toList then
    some ⟨true, fun p => .beckmann ⟨p.setInput 6 .CARTESIAN, fun _ => 0, fun _ => 0⟩⟩ else none)
  else if f = ['/', 'l', '/', 'n', '.', 's', 'o'] then some (fun s => if s = "provide_function".toList then
    some ⟨true, fun p => .retroSchlick ⟨p.setInput 6 .CARTESIAN, fun _ => 0⟩⟩ else none)
  else if f = ['/', 'l', '/', 'r', '.', 's', 'o'] then some (fun s => if s = "provide_function".toList then
    some ⟨true, fun p => .retroblinn ⟨p, fun _ => 0, fun _ => 0⟩⟩ else none)
  else if f = ['/', 'l', '/', 'd', '.', 's', 'o'] then some (fun s => if s = "provide_function".toList then
    some ⟨true, fun p => .diffuse ⟨p.setInput 6 .CARTESIAN, fun _ => 0, 0⟩⟩ else none)
  else none

theorem lib_w : libraryOf ['/', 'l'] none fsAlta ['w', '.', 's', 'o'] =
    some ⟨true, fun p => .ward ⟨p.setInput 6 .CARTESIAN, fun _ => 0, fun _ => 0, fun _ => 0⟩⟩ := rfl
theorem lib_b : libraryOf ['/', 'l'] none fsAlta ['b', '.', 's', 'o'] =
    some ⟨true, fun p => .beckmann ⟨p.setInput 6 .CARTESIAN, fun _ => 0, fun _ => 0⟩⟩ := rfl
theorem lib_n : libraryOf ['/', 'l'] none fsAlta ['n', '.', 's', 'o'] =
    some ⟨true, fun p => .retroSchlick ⟨p.setInput 6 .CARTESIAN, fun _ => 0⟩⟩ := rfl
theorem lib_r : libraryOf ['/', 'l'] none fsAlta ['r', '.', 's', 'o'] =
    some ⟨true, fun p => .retroblinn ⟨p, fun _ => 0, fun _ => 0⟩⟩ := rfl
theorem lib_d : libraryOf ['/', 'l'] none fsAlta ['d', '.', 's', 'o'] =
    some ⟨true, fun p => .diffuse ⟨p.setInput 6 .CARTESIAN, fun _ => 0, 0⟩⟩ := rfl

/-- `w.so` -/
def termW : Term := ⟨['w', '.', 's', 'o'], []⟩
/-- `b.so --fresnel n.so` -/
def termBN : Term := ⟨['b', '.', 's', 'o'], [.word kFresnel ['n', '.', 's', 'o']]⟩
/-- `r.so` -/
def termR : Term := ⟨['r', '.', 's', 'o'], []⟩
/-- `d.so` -/
def termD : Term := ⟨['d', '.', 's', 'o'], []⟩

theorem termW_readable : termW.Readable := by
  refine ⟨?_, ?_, trivial⟩
  · unfold IsWord; decide
  · intro r h; cases h
theorem termR_readable : termR.Readable := by
  refine ⟨?_, ?_, trivial⟩
  · unfold IsWord; decide
  · intro r h; cases h
theorem termD_readable : termD.Readable := by
  refine ⟨?_, ?_, trivial⟩
  · unfold IsWord; decide
  · intro r h; cases h
theorem termBN_readable : termBN.Readable := by
  refine ⟨?_, ?_, ?_⟩
  · unfold IsWord; decide
  · intro r h; cases h
  · refine ⟨⟨?_, ?_⟩, trivial⟩
    · intro r h; cases h
    · rintro ⟨r, h⟩; cases h

/-- One plugin, `--func w.so`, with the printing of the example: the Ward lobe with coefficients 2, 1, 3 is
    read back exactly. -/
example (p : Par) (hin : p.input.Named) :
    let l : LobeObj := .ward ⟨p.setInput 6 .CARTESIAN, fun _ => 2, fun _ => 1, fun _ => 3⟩
    ∃ t f1, saveFunction exampleFmt [(kFunc, ['w', '.', 's', 'o'])] (.leaf l) = some t ∧
      loadFunction ['/', 'l'] none fsAlta t = some (some f1) ∧ ∀ x, f1.toFn.value x = l.toFn.value x := by
  intro l
  obtain ⟨e0, e1, e2, e3⟩ := exampleFmt_values
  obtain ⟨-, t, f1, h0, h1, h2⟩ := load_saved_plugin exampleFmt exampleFmt_digits ['/', 'l'] none fsAlta
    [(kFunc, ['w', '.', 's', 'o'])] (by simp [SMap.Ordered])
    (by intro e he; rw [List.mem_singleton.1 he]
        exact ⟨⟨by decide, by decide⟩, .word _ ⟨by decide, by decide⟩ (by intro r h; cases h) (by rintro ⟨r, h⟩; cases h)⟩)
    ['w', '.', 's', 'o'] rfl (by decide) (by decide +kernel) _ .ward lib_w ⟨rfl, fun p => ⟨rfl, trivial⟩⟩ p hin l rfl
  refine ⟨t, f1, h0, h1, fun x => ?_⟩
  rw [h2.2.2.2 x]
  have : (l.withOutput .UNKNOWN_OUTPUT).rounded exampleFmt = l.withOutput .UNKNOWN_OUTPUT := by
    simp only [l, LobeObj.withOutput, LobeObj.rounded, e1, e2, e3]
  rw [this]
  exact LobeObj.withOutput_value _ _ _

/-- With a printing that keeps the coefficients of the object, the values are kept. -/
theorem load_saved_exact (fmt : ℝ → Decimal) (hf : PrintsDigits fmt) (dir : Str) (env : Option Str)
    (fs : Str → Option (Symbols (Provider LobeObj))) (args : SMap) (ho : args.Ordered) (ha : CmdMap args)
    (f f0 : FT LobeObj) (hin : (f.par LobeObj.par).input.Named)
    (hmake : getFunction dir env fs LobeObj.par args ((f.par LobeObj.par).withOutput .UNKNOWN_OUTPUT) =
      some (.nonlinear f0))
    (hread : f0.CanRead (f.withOutput .UNKNOWN_OUTPUT))
    (hx : (f.withOutput .UNKNOWN_OUTPUT).rounded fmt = f.withOutput .UNKNOWN_OUTPUT) :
    ∃ t f1, saveFunction fmt args f = some t ∧ loadFunction dir env fs t = some (some f1) ∧
      f1.toFn.params = f.toFn.params ∧ ∀ x, f1.toFn.value x = f.toFn.value x := by
  obtain ⟨t, f1, h0, h1, h2⟩ := loadFunction_saveFunction fmt hf dir env fs args ho ha f f0 hin hmake hread
  rw [hx] at h2
  obtain ⟨-, w2, w3, w4⟩ := FT.withOutput_same .UNKNOWN_OUTPUT f
  exact ⟨t, f1, h0, h1, by rw [h2.2.2.1]; unfold Fn.params; rw [w2, w3], fun x => (h2.2.2.2 x).trans (w4 x)⟩

/-- The parametrization of the sum of `w.so` and `b.so --fresnel n.so`. -/
theorem sum_par (q : Par) (h : q.input = .CARTESIAN) : compoundPar [q, productPar q q] = some q := by
  have h1 : q.input ≠ .UNKNOWN_INPUT := by rw [h]; decide
  obtain ⟨x, y, i, o⟩ := q
  simp only at h1
  by_cases h2 : o = .UNKNOWN_OUTPUT <;> simp [compoundPar, productPar, compoundParLoop, h1, h2]

/-- `--func [w.so, b.so --fresnel n.so]`: whatever the parametrization of the data and the coefficients,
    the fitted sum is read back, rounded by the printing. -/
example (fmt : ℝ → Decimal) (hf : PrintsDigits fmt) (p : Par) (kw ax ay ab kb R : ℕ → ℝ) :
    let q := p.setInput 6 .CARTESIAN
    let args : SMap := [(kFunc, sumText [termW, termBN])]
    ∃ x y, ∀ g, g = FT.compound q (.cons x (.leaf (.ward ⟨q, kw, ax, ay⟩))
        (.cons y (.product q (.leaf (.beckmann ⟨q, ab, kb⟩)) (.leaf (.retroSchlick ⟨q, R⟩)) false false) .nil)) →
      ∃ t f1, saveFunction fmt args g = some t ∧ loadFunction ['/', 'l'] none fsAlta t = some (some f1) ∧
        Fn.Same f1.toFn ((g.withOutput .UNKNOWN_OUTPUT).rounded fmt).toFn := by
  intro q args
  have hW : termW.function (libraryOf ['/', 'l'] none fsAlta) LobeObj.par p =
      some (.leaf (.ward ⟨q, fun _ => 0, fun _ => 0, fun _ => 0⟩)) := by
    have : termW.binding kFresnel = none := by decide
    unfold Term.function
    rw [this]
    rfl
  have hpp : productPar q q = q := by simp [productPar]
  have hB : termBN.function (libraryOf ['/', 'l'] none fsAlta) LobeObj.par p =
      some (.product q (.leaf (.beckmann ⟨q, fun _ => 0, fun _ => 0⟩)) (.leaf (.retroSchlick ⟨q, fun _ => 0⟩)) false false) := by
    have h1 : termBN.binding kFresnel = some ['n', '.', 's', 'o'] := by decide
    have h2 : (termBN.binding kFixedLobe).isSome = false := by decide
    have h3 : (termBN.binding kFixedFresnel).isSome = false := by decide
    unfold Term.function
    rw [h1, h2, h3]
    have : productPar q q = q := hpp
    nth_rewrite 1 [← this]
    rfl
  have hr : ∀ u ∈ [termW, termBN], u.Readable := by
    intro u hu
    simp only [List.mem_cons, List.not_mem_nil, or_false] at hu
    rcases hu with rfl | rfl
    · exact termW_readable
    · exact termBN_readable
  have hfun : ∀ u ∈ [termW, termBN], ∃ f, u.function (libraryOf ['/', 'l'] none fsAlta) LobeObj.par p = some f := by
    intro u hu
    simp only [List.mem_cons, List.not_mem_nil, or_false] at hu
    rcases hu with rfl | rfl
    · exact ⟨_, hW⟩
    · exact ⟨_, hB⟩
  obtain ⟨ms, h2, h3⟩ := getFunction_sum ['/', 'l'] none fsAlta LobeObj.par p termW [termBN] hr hfun args
    (by rfl) (by decide +kernel)
  cases h2 with
  | @cons _ m _ ms' ha hrest =>
    cases hrest with
    | @cons _ m' _ ms'' hb hnil =>
      cases hnil
      obtain ⟨xa, fa⟩ := m
      obtain ⟨xb, fb⟩ := m'
      have e1 : fa = .leaf (.ward ⟨q, fun _ => 0, fun _ => 0, fun _ => 0⟩) := by
        have := ha.2; rw [hW] at this; exact (Option.some.inj this).symm
      have e2 : fb = .product q (.leaf (.beckmann ⟨q, fun _ => 0, fun _ => 0⟩)) (.leaf (.retroSchlick ⟨q, fun _ => 0⟩)) false false := by
        have := hb.2; rw [hB] at this; exact (Option.some.inj this).symm
      subst e1 e2
      have hc : compoundPar [q, q] = some q := by
        have := sum_par q rfl
        rwa [hpp] at this
      refine ⟨xa, xb, ?_⟩
      rintro g rfl
      refine load_saved_sum fmt hf ['/', 'l'] none fsAlta args (by simp [args, SMap.Ordered])
        ?_ termW [termBN] hr rfl (by decide +kernel) ?_ p q (show Input.CARTESIAN.Named by unfold Input.Named; decide) _
        (.cons xa (.leaf (.ward ⟨q, fun _ => 0, fun _ => 0, fun _ => 0⟩))
        (.cons xb (.product q (.leaf (.beckmann ⟨q, fun _ => 0, fun _ => 0⟩)) (.leaf (.retroSchlick ⟨q, fun _ => 0⟩)) false false) .nil))
        ?_ hfun ?_ ?_
      · intro e he
        rw [List.mem_singleton.1 he]
        refine ⟨⟨by decide, by decide⟩, ?_⟩
        exact sumText_cmdValue _ _ hr
      · intro u hu n pr hpr hn
        simp only [List.mem_cons, List.not_mem_nil, or_false] at hu
        rcases hu with rfl | rfl
        · rcases hn with rfl | hn
          · cases lib_w.symm.trans hpr
            exact ⟨.ward, rfl, fun p => ⟨rfl, trivial⟩⟩
          · have h1 : termW.binding kFresnel = none := by decide
            rw [h1] at hn; cases hn
        · rcases hn with rfl | hn
          · cases lib_b.symm.trans hpr
            exact ⟨.beckmann, rfl, fun p => ⟨rfl, trivial⟩⟩
          · have h1 : termBN.binding kFresnel = some ['n', '.', 's', 'o'] := by decide
            rw [h1] at hn
            cases hn
            cases lib_n.symm.trans hpr
            exact ⟨.retroSchlick, rfl, fun p => ⟨rfl, trivial⟩⟩
      · rw [h3]
        simp only [List.map_cons, List.map_nil, FT.par]
        change Option.map _ (compoundPar [q, q]) = _
        rw [hc]
        rfl
      · intro u hu n pr c hpr hn hof hkeep
        exfalso
        have key : (pr.make ⟨1, 1, .COS_TH, .UNKNOWN_OUTPUT⟩).par = ⟨1, 1, .COS_TH, .UNKNOWN_OUTPUT⟩ := by
          rw [(hof.2 _).1]
          cases c <;> first | rfl | exact absurd hkeep (by simp [PluginClass.Keeps])
        simp only [List.mem_cons, List.not_mem_nil, or_false] at hu
        have : pr.make = (fun p => .ward ⟨p.setInput 6 .CARTESIAN, fun _ => 0, fun _ => 0, fun _ => 0⟩) ∨
            pr.make = (fun p => .beckmann ⟨p.setInput 6 .CARTESIAN, fun _ => 0, fun _ => 0⟩) ∨
            pr.make = (fun p => .retroSchlick ⟨p.setInput 6 .CARTESIAN, fun _ => 0⟩) := by
          rcases hu with rfl | rfl
          · rcases hn with rfl | hn
            · cases lib_w.symm.trans hpr; exact Or.inl rfl
            · have h1 : termW.binding kFresnel = none := by decide
              rw [h1] at hn; cases hn
          · rcases hn with rfl | hn
            · cases lib_b.symm.trans hpr; exact Or.inr (Or.inl rfl)
            · have h1 : termBN.binding kFresnel = some ['n', '.', 's', 'o'] := by decide
              rw [h1] at hn
              cases hn
              cases lib_n.symm.trans hpr
              exact Or.inr (Or.inr rfl)
        have k2 := congrArg Par.dimX key
        rcases this with h | h | h <;> rw [h] at k2 <;> cases (show (6 : ℕ) = 1 from k2)
      · simp [FT.CanRead, FTs.CanRead, LobeObj.CanRead]

/-- Limit: a sum of a plugin that keeps the parametrization of the data (retro-Blinn) and of one that sets
    its own (diffuse) is not kept.  The header has the parametrization of the sum (CARTESIAN); the
    retro-Blinn lobe made from it takes the first coordinate of the view direction for the cosine.
    `--func [r.so, d.so]`, data in the parametrization COS_TLV, both directions along the normal: the value
    2 is read back as 0. -/
theorem mixed_sum_not_kept (o : Output) :
    let p : Par := ⟨1, 1, .COS_TLV, o⟩
    let q : Par := ⟨6, 1, .CARTESIAN, o⟩
    let args : SMap := [(kFunc, sumText [termR, termD])]
    let x : List ℝ := [0, 0, 1, 0, 0, 1]
    ∃ a b g0 t f1, getFunction ['/', 'l'] none fsAlta LobeObj.par args p = some (.nonlinear g0) ∧
      g0.CanRead (.compound q (.cons a (.leaf (.retroblinn ⟨p, fun _ => 2, fun _ => 1⟩))
        (.cons b (.leaf (.diffuse ⟨q, fun _ => 0, 0⟩)) .nil))) ∧
      saveFunction exampleFmt args
        (.compound q (.cons a (.leaf (.retroblinn ⟨p, fun _ => 2, fun _ => 1⟩))
        (.cons b (.leaf (.diffuse ⟨q, fun _ => 0, 0⟩)) .nil))) = some t ∧
      loadFunction ['/', 'l'] none fsAlta t = some (some f1) ∧
      (FT.compound q (.cons a (.leaf (.retroblinn ⟨p, fun _ => 2, fun _ => 1⟩))
        (.cons b (.leaf (.diffuse ⟨q, fun _ => 0, 0⟩)) .nil))).toFn.value x = some [2] ∧
      f1.toFn.value x = some [0] := by
  intro p q args x
  obtain ⟨e0, e1, e2, e3⟩ := exampleFmt_values
  have hr : ∀ u ∈ [termR, termD], u.Readable := by
    intro u hu
    simp only [List.mem_cons, List.not_mem_nil, or_false] at hu
    rcases hu with rfl | rfl
    · exact termR_readable
    · exact termD_readable
  have hR : ∀ p, termR.function (libraryOf ['/', 'l'] none fsAlta) LobeObj.par p =
      some (.leaf (.retroblinn ⟨p, fun _ => 0, fun _ => 0⟩)) := by
    intro p
    have : termR.binding kFresnel = none := by decide
    unfold Term.function
    rw [this]
    rfl
  have hD : ∀ p, termD.function (libraryOf ['/', 'l'] none fsAlta) LobeObj.par p =
      some (.leaf (.diffuse ⟨p.setInput 6 .CARTESIAN, fun _ => 0, 0⟩)) := by
    intro p
    have : termD.binding kFresnel = none := by decide
    unfold Term.function
    rw [this]
    rfl
  have hfun : ∀ p, ∀ u ∈ [termR, termD], ∃ f, u.function (libraryOf ['/', 'l'] none fsAlta) LobeObj.par p = some f := by
    intro p u hu
    simp only [List.mem_cons, List.not_mem_nil, or_false] at hu
    rcases hu with rfl | rfl
    · exact ⟨_, hR p⟩
    · exact ⟨_, hD p⟩
  have made : ∀ p q : Par, compoundPar [p, p.setInput 6 .CARTESIAN] = some q →
      ∃ a b, (∀ k, a.find k = termR.binding k) ∧ (∀ k, b.find k = termD.binding k) ∧
        getFunction ['/', 'l'] none fsAlta LobeObj.par args p =
        some (.nonlinear (.compound q (.cons a (.leaf (.retroblinn ⟨p, fun _ => 0, fun _ => 0⟩))
        (.cons b (.leaf (.diffuse ⟨p.setInput 6 .CARTESIAN, fun _ => 0, 0⟩)) .nil)))) := by
    intro p q hc
    obtain ⟨ms, h2, h3⟩ := getFunction_sum ['/', 'l'] none fsAlta LobeObj.par p termR [termD] hr (hfun p) args
      (by rfl) (by decide +kernel)
    cases h2 with
    | @cons _ m _ ms' ha hrest =>
      cases hrest with
      | @cons _ m' _ ms'' hb hnil =>
        cases hnil
        obtain ⟨xa, fa⟩ := m
        obtain ⟨xb, fb⟩ := m'
        have e1 := (Option.some.inj ((hR p).symm.trans ha.2))
        have e2 := (Option.some.inj ((hD p).symm.trans hb.2))
        simp only at e1 e2
        subst e1 e2
        refine ⟨xa, xb, ha.1, hb.1, ?_⟩
        rw [h3]
        simp only [List.map_cons, List.map_nil, FT.par]
        change Option.map _ (compoundPar [p, p.setInput 6 .CARTESIAN]) = _
        rw [hc]
        rfl
  have hpq : compoundPar [p, p.setInput 6 .CARTESIAN] = some q := by
    by_cases h : o = .UNKNOWN_OUTPUT <;> simp [p, q, compoundPar, compoundParLoop, Par.setInput, h]
  obtain ⟨a, b, ha, hb, hm⟩ := made p q hpq
  have hqq : compoundPar [q.withOutput .UNKNOWN_OUTPUT, (q.withOutput .UNKNOWN_OUTPUT).setInput 6 .CARTESIAN] =
      some (q.withOutput .UNKNOWN_OUTPUT) := by
    simp [q, compoundPar, compoundParLoop, Par.setInput, Par.withOutput]
  obtain ⟨a', b', ha', hb', hm'⟩ := made (q.withOutput .UNKNOWN_OUTPUT) _ hqq
  have hargs : CmdMap args := by
    intro e he
    rw [List.mem_singleton.1 he]
    exact ⟨⟨by decide, by decide⟩, sumText_cmdValue _ _ hr⟩
  have hdef : ∀ m n : SMap, (∀ k, m.find k = n.find k) → ∀ k, m.isDefined k = n.isDefined k := by
    intro m n h k; unfold SMap.isDefined; rw [h k]
  obtain ⟨t, f1, h0, h1, h2⟩ := loadFunction_saveFunction exampleFmt exampleFmt_digits ['/', 'l'] none fsAlta args
    (by simp [args, SMap.Ordered]) hargs
    (.compound q (.cons a (.leaf (.retroblinn ⟨q, fun _ => 2, fun _ => 1⟩))
        (.cons b (.leaf (.diffuse ⟨q, fun _ => 0, 0⟩)) .nil))) _
    (show Input.CARTESIAN.Named by unfold Input.Named; decide) hm'
    (by simp only [FT.withOutput, FTs.withOutput, LobeObj.withOutput, FT.CanRead, FTs.CanRead, LobeObj.CanRead]
        refine ⟨trivial, by simp, ?_, ?_, ?_, ?_, trivial⟩
        · exact hdef _ _ (fun k => (ha' k).trans (ha k).symm) _
        · exact trivial
        · exact hdef _ _ (fun k => (hb' k).trans (hb k).symm) _
        · rfl)
  refine ⟨a, b, _, t, f1, hm, ?_, h0, h1, ?_, ?_⟩
  · simp [FT.CanRead, FTs.CanRead, LobeObj.CanRead, Par.setInput, p, q]
  · have c1 : convertInput (arr x) .CARTESIAN .COS_TLV = some [1] := by
      unfold convertInput
      rw [if_neg (by decide), if_pos rfl, fromCartesian_eq _ _ (by simp [x, Cart.ofFun, arr])]
      simp [fromCartesianSwitch, x, Cart.ofFun, arr]
    have c2 : convertInput (arr x) .CARTESIAN .CARTESIAN = some x := by
      unfold convertInput
      rw [if_pos rfl]
      have : (inputDim .CARTESIAN).toNat = 6 := by decide
      rw [this]
      simp [List.range_succ, x, arr]
    simp [FT.toFn, FTs.toFns, LobeObj.toFn, Fn.value, Fns.valueLoop, Fn.par, retroblinnCls, diffuseCls, p, q, c1, c2,
      vecAdd, arr, List.range_succ]
  · rw [h2.2.2.2 x]
    have c2 : convertInput (arr x) .CARTESIAN .CARTESIAN = some x := by
      unfold convertInput
      rw [if_pos rfl]
      have : (inputDim .CARTESIAN).toNat = 6 := by decide
      rw [this]
      simp [List.range_succ, x, arr]
    simp [FT.toFn, FTs.toFns, LobeObj.toFn, Fn.value, Fns.valueLoop, Fn.par, retroblinnCls, diffuseCls, q, c2,
      vecAdd, arr, List.range_succ, FT.withOutput, FTs.withOutput, LobeObj.withOutput, Par.withOutput, FT.rounded, FTs.rounded,
      LobeObj.rounded, e0, e1, e2, x]

end
end Alta
