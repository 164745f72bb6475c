import Verif.Props.PythonFit
import Verif.Props.FitterOptions
import Verif.Props.NonlinearFitRunLimits
/-
C83: the options of a fitter with Ceres that is used several times.
-/
namespace Alta
noncomputable section

/-- the options that set the tolerance on the function -/
def toleranceNames : List Str :=
  ["ceres-function-tolerance".toList, "ceres-gradient-tolerance".toList, "ceres-parameter-tolerance".toList]

/-- The texts of the options on the tolerances, in the order in which they are read. -/
def toleranceTexts (m : SMap) : List Str := toleranceNames.filterMap m.find

/-- The tolerances are numbers. -/
def GoodTolerances (m : SMap) : Prop := ∀ t ∈ toleranceTexts m, strtod t ≠ none

theorem reset_spec (args : SMap) (k : Str) (dflt : ℚ) (o : CeresOptions × Bool) :
    (resetFunctionTolerance args k dflt o).1.maxIterations = o.1.maxIterations ∧
    (resetFunctionTolerance args k dflt o).1.choleskyFactorization = o.1.choleskyFactorization ∧
    (resetFunctionTolerance args k dflt o).1.progress = o.1.progress ∧
    (resetFunctionTolerance args k dflt o).1.gradientTolerance = o.1.gradientTolerance ∧
    (resetFunctionTolerance args k dflt o).1.parameterTolerance = o.1.parameterTolerance ∧
    (o.2 = true → (∀ t, args.find k = some t → strtod t ≠ none) →
      (resetFunctionTolerance args k dflt o).2 = true ∧
      (resetFunctionTolerance args k dflt o).1.functionTolerance = ((args.find k).map atof).or o.1.functionTolerance) := by
  unfold resetFunctionTolerance
  split
  · rename_i hc
    cases hd : args.getDouble k dflt with
    | none =>
      refine ⟨rfl, rfl, rfl, rfl, rfl, fun _ hg => ?_⟩
      exfalso
      unfold SMap.getDouble at hd
      have hdef := hc.2
      unfold SMap.isDefined at hdef
      cases hf : args.find k with
      | none => rw [hf] at hdef; cases hdef
      | some t =>
        rw [hf] at hd
        have := hg t hf
        cases hs : strtod t with
        | none => exact this hs
        | some v => simp [hs] at hd
    | some v =>
      refine ⟨rfl, rfl, rfl, rfl, rfl, fun _ hg => ⟨rfl, ?_⟩⟩
      unfold SMap.getDouble at hd
      have hdef := hc.2
      unfold SMap.isDefined at hdef
      cases hf : args.find k with
      | none => rw [hf] at hdef; cases hdef
      | some t =>
        rw [hf] at hd
        cases hs : strtod t with
        | none => simp [hs] at hd
        | some w =>
          simp only [hs, Option.map_some, Option.some.injEq] at hd
          simp only [Option.map_some, Option.some_or, atof, hs]
          rw [hd]
  · rename_i hc
    refine ⟨rfl, rfl, rfl, rfl, rfl, fun ho hg => ⟨ho, ?_⟩⟩
    have : args.isDefined k = false := by
      cases h : args.isDefined k with
      | false => rfl
      | true => exact absurd ⟨ho, h⟩ hc
    unfold SMap.isDefined at this
    cases hf : args.find k with
    | none => rfl
    | some t => rw [hf] at this; cases this

theorem getLast_append_or {α : Type} (l l' : List α) : (l ++ l').getLast? = l'.getLast?.or l.getLast? := by
  rw [List.getLast?_append]

theorem getInt_or (args : SMap) (k : Str) (d : ℤ) (x : Option ℤ) :
    (if args.isDefined k = true then some (args.getInt k d) else x) = ((args.find k).map atoi).or x := by
  unfold SMap.isDefined SMap.getInt
  cases h : args.find k <;> simp

theorem lastValue_append (k : Str) (l : List SMap) (m : SMap) : lastValue k (l ++ [m]) = (m.find k).or (lastValue k l) := by
  unfold lastValue
  rw [List.filterMap_append, getLast_append_or]
  cases h : m.find k <;> simp [h]

theorem map_or_map {α β : Type} (a b : Option α) (g : α → β) : (a.map g).or (b.map g) = (a.or b).map g := by
  cases a <;> rfl

theorem ceresSet_spec (args : SMap) (o : CeresOptions) :
    (ceresSet args o).1.maxIterations = ((args.find "ceres-max-num-iterations".toList).map atoi).or o.maxIterations ∧
    ((ceresSet args o).1.choleskyFactorization = true ↔ args.find "ceres-factorization".toList = some "normal-cholesky".toList) ∧
    (ceresSet args o).1.progress = (args.isDefined "ceres-debug".toList || o.progress) ∧
    (ceresSet args o).1.gradientTolerance = o.gradientTolerance ∧ (ceresSet args o).1.parameterTolerance = o.parameterTolerance ∧
    (GoodTolerances args → (ceresSet args o).2 = true ∧
      (ceresSet args o).1.functionTolerance = ((toleranceTexts args).getLast?.map atof).or o.functionTolerance) := by
  unfold ceresSet
  obtain ⟨a1, a2, a3, a4, a5, a6⟩ := reset_spec args "ceres-parameter-tolerance".toList (1 / 10 ^ 8)
    (resetFunctionTolerance args "ceres-gradient-tolerance".toList (1 / 10 ^ 10)
      (resetFunctionTolerance args "ceres-function-tolerance".toList (1 / 10 ^ 6)
        ({ o with
            maxIterations := if args.isDefined "ceres-max-num-iterations".toList then
                some (args.getInt "ceres-max-num-iterations".toList 50) else o.maxIterations
            choleskyFactorization := args.get "ceres-factorization".toList = "normal-cholesky".toList
            progress := if args.isDefined "ceres-debug".toList then true else o.progress }, true)))
  obtain ⟨b1, b2, b3, b4, b5, b6⟩ := reset_spec args "ceres-gradient-tolerance".toList (1 / 10 ^ 10)
      (resetFunctionTolerance args "ceres-function-tolerance".toList (1 / 10 ^ 6)
        ({ o with
            maxIterations := if args.isDefined "ceres-max-num-iterations".toList then
                some (args.getInt "ceres-max-num-iterations".toList 50) else o.maxIterations
            choleskyFactorization := args.get "ceres-factorization".toList = "normal-cholesky".toList
            progress := if args.isDefined "ceres-debug".toList then true else o.progress }, true))
  obtain ⟨c1, c2, c3, c4, c5, c6⟩ := reset_spec args "ceres-function-tolerance".toList (1 / 10 ^ 6)
        (({ o with
            maxIterations := if args.isDefined "ceres-max-num-iterations".toList then
                some (args.getInt "ceres-max-num-iterations".toList 50) else o.maxIterations
            choleskyFactorization := args.get "ceres-factorization".toList = "normal-cholesky".toList
            progress := if args.isDefined "ceres-debug".toList then true else o.progress } : CeresOptions), true)
  refine ⟨?_, ?_, ?_, ?_, ?_, ?_⟩
  · refine (a1.trans (b1.trans c1)).trans ?_
    exact getInt_or args _ _ _
  · rw [a2, b2, c2]
    simp only [decide_eq_true_eq]
    unfold SMap.get
    cases args.find "ceres-factorization".toList with
    | none => simp
    | some v => simp
  · refine (a3.trans (b3.trans c3)).trans ?_
    simp only []
    cases args.isDefined "ceres-debug".toList <;> simp
  · exact a4.trans (b4.trans c4)
  · exact a5.trans (b5.trans c5)
  · intro hg
    have hmem : ∀ k ∈ toleranceNames, ∀ t, args.find k = some t → strtod t ≠ none := fun k hk t ht =>
      hg t (List.mem_filterMap.2 ⟨k, hk, ht⟩)
    obtain ⟨c7, c8⟩ := c6 rfl (hmem _ (by decide))
    obtain ⟨b7, b8⟩ := b6 c7 (hmem _ (by decide))
    obtain ⟨a7, a8⟩ := a6 b7 (hmem _ (by decide))
    refine ⟨a7, ?_⟩
    rw [a8, b8, c8]
    unfold toleranceTexts toleranceNames
    generalize "ceres-function-tolerance".toList = k1
    generalize "ceres-gradient-tolerance".toList = k2
    generalize "ceres-parameter-tolerance".toList = k3
    cases h1 : args.find k1 <;> cases h2 : args.find k2 <;> cases h3 : args.find k3 <;> simp [h1, h2, h3]

/-- C83: on a new fitter, the options are those of the command `data2brdf`. -/
theorem ceres_first_options (args : SMap) (o : CeresOptions) (h : ceresOptions args = some o) :
    ceresSet args newCeres.1 = (o, true) := by
  have key : ∀ (k : Str) (q : ℚ) (o o' : CeresOptions), setFunctionTolerance args k q o = some o' →
      resetFunctionTolerance args k q (o, true) = (o', true) := by
    intro k q o o' ho
    unfold setFunctionTolerance at ho
    unfold resetFunctionTolerance
    split at ho
    · rename_i hd
      obtain ⟨v, h1, rfl⟩ := Option.map_eq_some_iff.1 ho
      rw [if_pos ⟨rfl, hd⟩, h1]
    · rename_i hd
      cases ho
      rw [if_neg (fun hc => hd hc.2)]
  unfold ceresOptions at h
  simp only at h
  rw [Option.bind_eq_some_iff] at h
  obtain ⟨o1, h1, h⟩ := h
  rw [Option.bind_eq_some_iff] at h
  obtain ⟨o2, h2, h3⟩ := h
  have e : (if args.isDefined "ceres-debug".toList = true then true else false) = args.isDefined "ceres-debug".toList := by
    cases args.isDefined "ceres-debug".toList <;> rfl
  unfold ceresSet newCeres
  simp only [e]
  rw [key _ _ _ _ h1, key _ _ _ _ h2, key _ _ _ _ h3]

variable (files : Str → Option Str) (solver : CeresOptions → Bool → CeresSolver)

/-- The options of a fitter with Ceres after some calls. -/
def CeresAfter (l : List SMap) (o : CeresOptions) : Prop :=
  o.maxIterations = (lastValue "ceres-max-num-iterations".toList l).map atoi ∧
  (o.choleskyFactorization = true ↔ ∃ m, l.getLast? = some m ∧ m.find "ceres-factorization".toList = some "normal-cholesky".toList) ∧
  (o.progress = true ↔ ∃ m ∈ l, m.isDefined "ceres-debug".toList = true) ∧
  o.gradientTolerance = none ∧ o.parameterTolerance = none ∧
  ((∀ m ∈ l, GoodTolerances m) → o.functionTolerance = ((l.flatMap toleranceTexts).getLast?).map atof)

theorem ceresAfter_new : CeresAfter [] newCeres.1 := by
  refine ⟨rfl, ?_, ?_, rfl, rfl, fun _ => rfl⟩ <;> simp [newCeres]

theorem CeresAfter.set {l : List SMap} {o : CeresOptions} (h : CeresAfter l o) (args : SMap) :
    CeresAfter (l ++ [args]) (ceresSet args o).1 := by
  obtain ⟨h1, h2, h3, h4, h5, h6⟩ := h
  obtain ⟨s1, s2, s3, s4, s5, s6⟩ := ceresSet_spec args o
  refine ⟨?_, ?_, ?_, s4.trans h4, s5.trans h5, ?_⟩
  · rw [s1, h1, lastValue_append, map_or_map]
  · rw [s2, List.getLast?_concat]
    constructor
    · exact fun h => ⟨args, rfl, h⟩
    · rintro ⟨m, hm, h⟩
      cases hm
      exact h
  · rw [s3, Bool.or_eq_true, h3]
    simp only [List.mem_append, List.mem_singleton]
    constructor
    · rintro (h | ⟨m, hm, h⟩)
      · exact ⟨args, Or.inr rfl, h⟩
      · exact ⟨m, Or.inl hm, h⟩
    · rintro ⟨m, hm | rfl, h⟩
      · exact Or.inr ⟨m, hm, h⟩
      · exact Or.inl h
  · intro hg
    rw [(s6 (hg args (List.mem_append_right _ List.mem_cons_self))).2, h6 (fun m hm => hg m (List.mem_append_left _ hm)),
      List.flatMap_append, getLast_append_or, map_or_map, List.flatMap_cons, List.flatMap_nil, List.append_nil]

/-- C83: the options of a fitter with Ceres after some calls: the number of iterations and the tolerance are the last ones
    that were given, by any call; the factorization is the one of the last call with options; the progress is printed as
    soon as a call asked for it. -/
theorem ceres_after (h : List (FitCall Data (FT LobeObj))) (s : CeresOptions × Bool)
    (ha : (ceresCls files solver).after newCeres h = some s) :
    CeresAfter (optionsGiven h) s.1 ∧ (s.2 = true ↔ optionsGiven h ≠ []) := by
  induction h using List.reverseRecOn generalizing s with
  | nil =>
    simp only [FitterCls.after] at ha
    cases ha
    exact ⟨ceresAfter_new, by simp [optionsGiven, newCeres]⟩
  | append_singleton h k ih =>
    obtain ⟨s1, h1, h2⟩ := Option.bind_eq_some_iff.1 ((after_append (ceresCls files solver) newCeres h [k]).symm.trans ha)
    obtain ⟨i1, i2⟩ := ih s1 h1
    obtain ⟨r, h3, h4⟩ := Option.bind_eq_some_iff.1 h2
    have h5 : r.2 = s := Option.some.inj h4
    subst h5
    unfold FitterCls.call at h3
    cases hk : k.options with
    | none =>
      rw [hk] at h3
      have : r.2 = s1 := fitWithout_keeps (ceresCls files solver) (fun d f s r hr => map_keeps hr) s1 k.data k.function r h3
      rw [this]
      simp only [optionsGiven, List.filterMap_append, List.filterMap_cons, hk, List.filterMap_nil, List.append_nil]
      exact ⟨i1, i2⟩
    | some args =>
      rw [hk] at h3
      have e : r.2 = ((ceresSet args s1.1).1, true) := by
        unfold FitterCls.fitWith at h3
        simp only [] at h3
        split at h3
        · obtain ⟨a, h5, rfl⟩ := Option.map_eq_some_iff.1 h3
          have h6 : a.2 = ((ceresSet args s1.1).1, true) := map_keeps h5
          exact h6
        · cases h3; rfl
      rw [e]
      simp only [optionsGiven, List.filterMap_append, List.filterMap_cons, hk, List.filterMap_nil]
      exact ⟨i1.set args, by simp⟩

/-- C83: a fit with Ceres, after other calls: the solver is given the options of the calls up to this one; `log-fit` and the
    options of the starting point are those of this call only. -/
theorem ceres_fit_history (h : List (FitCall Data (FT LobeObj))) (hend : (ceresCls files solver).Ends newCeres h)
    (d : Data) (f : FT LobeObj) (args : SMap) (hg : GoodTolerances args) :
    ∃ o, CeresAfter (optionsGiven h ++ [args]) o ∧
      (ceresCls files solver).outcome newCeres h ⟨d, f, some args⟩ = (ceresFit files (solver o true) d args f).map some := by
  unfold FitterCls.outcome
  cases ha : (ceresCls files solver).after newCeres h with
  | none => exact absurd ha hend
  | some s =>
    obtain ⟨i1, -⟩ := ceres_after files solver h s ha
    refine ⟨(ceresSet args s.1).1, i1.set args, ?_⟩
    have e : ((ceresCls files solver).setParameters args s).2 = true := ((ceresSet_spec args s.1).2.2.2.2.2 hg).1
    show ((ceresCls files solver).fitWith s d f args).map (·.1) = _
    unfold FitterCls.fitWith
    rw [if_pos e]
    simp only [ceresCls, Option.map_map]
    rfl

/-- C83: without options, the fit is made with those of the calls before. -/
theorem ceres_fit_without (h : List (FitCall Data (FT LobeObj))) (hend : (ceresCls files solver).Ends newCeres h)
    (d : Data) (f : FT LobeObj) :
    ∃ o b, CeresAfter (optionsGiven h) o ∧ (b = true ↔ optionsGiven h ≠ []) ∧
      (ceresCls files solver).outcome newCeres h ⟨d, f, none⟩ = (ceresFit files (solver o b) d [] f).map some := by
  unfold FitterCls.outcome
  cases ha : (ceresCls files solver).after newCeres h with
  | none => exact absurd ha hend
  | some s =>
    obtain ⟨i1, i2⟩ := ceres_after files solver h s ha
    refine ⟨s.1, s.2, i1, i2, ?_⟩
    simp only [Option.bind_some, FitterCls.call, FitterCls.fitWithout, ceresCls, Option.map_map]
    rfl

/-! ### Limit -/

/-- `{'ceres-max-num-iterations' : 5}` -/
def fiveArgs : SMap := [("ceres-max-num-iterations".toList, "5".toList)]

/-- A Ceres whose result depends on the number of iterations. -/
def countingCeres : CeresOptions → Bool → CeresSolver := fun o _ _ _ _ =>
  .stop (true, fun _ => if o.maxIterations = some 5 then 4 else 3)

theorem blinn_counted (files : Str → Option Str) (o : CeresOptions) (b : Bool) (args : SMap) :
    ∃ f', ceresFit files (countingCeres o b) blinnData args blinnFT = some (true, f') ∧
      f'.toFn.params = if o.maxIterations = some 5 then [4, 4] else [3, 3] := by
  have hs : ∃ s, blinnData.rows.mapM (ceresSample blinnStart.toFn blinnData) = some s := by
    refine ⟨_, mapM_total _ _ (fun row => ((ceresSample blinnStart.toFn blinnData row).getD [])) ?_⟩
    intro row hr
    obtain ⟨xi, h1, -⟩ := ceres_residuals blinnStart.toFn blinnData blinnStart_fit.1 blinnStart_fit.2.1 row hr []
      (blinnStart_bounds _ (by simp))
    rw [h1]; rfl
  obtain ⟨s, hs⟩ := hs
  unfold ceresFit
  rw [blinnFT_start, if_neg (by decide +kernel)]
  simp only [hs, countingCeres, CallingSolver.run]
  refine ⟨_, rfl, ?_⟩
  have hl : blinnStart.toFn.get.length = 2 := by
    simp [blinnStart, FT.toFn, LobeObj.toFn, Fn.get, blinnCls, blinnLobe, blocks, List.range_succ, fillTo]
  have e : ∀ v : ℝ, overwrite blinnStart.toFn.get blinnStart.nb (fun _ => v) = firstOf 2 fun _ => v := by
    intro v
    simp [overwrite, firstOf, hl, blinnStart_nb, List.range_succ]
  rw [e, blinnStart_set]
  split <;> rfl

/-- C83, limit: a fit with Ceres depends on the options of the calls before: after a call that gave a number of iterations,
    a fit with other options is not the one of a new fitter with these options, with a solver that takes this number
    into account. -/
theorem ceres_options_stay (files : Str → Option Str) :
    ∃ (solver : CeresOptions → Bool → CeresSolver) (h : List (FitCall Data (FT LobeObj))) (d : Data) (f : FT LobeObj)
      (f1 f2 : FT LobeObj), (ceresCls files solver).Ends newCeres h ∧
      (ceresCls files solver).outcome newCeres [] ⟨d, f, some []⟩ = some (some (true, f1)) ∧
      (ceresCls files solver).outcome newCeres h ⟨d, f, some []⟩ = some (some (true, f2)) ∧
      f1.toFn.params = [3, 3] ∧ f2.toFn.params = [4, 4] := by
  have hn : ∀ (o : CeresOptions) (l : List SMap), CeresAfter l o →
      o.maxIterations = (lastValue "ceres-max-num-iterations".toList l).map atoi := fun o l h => h.1
  have hg : GoodTolerances [] := by
    intro t ht
    simp [toleranceTexts, SMap.find, toleranceNames] at ht
  have hend0 : (ceresCls files countingCeres).Ends newCeres [] := by intro h; cases h
  have hg5 : GoodTolerances fiveArgs := by
    have : toleranceTexts fiveArgs = [] := by decide +kernel
    intro t ht
    rw [this] at ht
    cases ht
  have hend : (ceresCls files countingCeres).Ends newCeres [⟨blinnData, blinnFT, some fiveArgs⟩] := by
    obtain ⟨o, -, h2⟩ := ceres_fit_history files countingCeres [] hend0 blinnData blinnFT fiveArgs hg5
    obtain ⟨g, hg, -⟩ := blinn_counted files o true fiveArgs
    rw [hg] at h2
    exact ends_single _ _ _ _ h2
  obtain ⟨o1, a1, a2⟩ := ceres_fit_history files countingCeres [] hend0 blinnData blinnFT [] hg
  obtain ⟨o2, b1, b2⟩ := ceres_fit_history files countingCeres _ hend blinnData blinnFT [] hg
  obtain ⟨f1, c1, c2⟩ := blinn_counted files o1 true []
  obtain ⟨f2, d1, d2⟩ := blinn_counted files o2 true []
  refine ⟨countingCeres, _, blinnData, blinnFT, f1, f2, hend, ?_, ?_, ?_, ?_⟩
  · rw [a2, c1]; rfl
  · rw [b2, d1]; rfl
  · rw [c2, if_neg]
    rw [hn _ _ a1]
    decide +kernel
  · rw [d2, if_pos]
    rw [hn _ _ b1]
    decide +kernel

end
end Alta
