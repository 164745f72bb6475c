import Verif.Spec.FitterOptions
import Verif.Props.ArgsAccess
import Verif.Proofs.SMap
import Mathlib.Tactic.NormNum
/-
Property C61: the options of the nonlinear fitters.
-/
namespace Alta
noncomputable section

theorem SameOptions.mono {ks ls : List Str} {a b : SMap} (h : SameOptions ls a b) (hs : ∀ k ∈ ks, k ∈ ls) :
    SameOptions ks a b := fun k hk => h k (hs k hk)

section find
variable {a b : SMap} {k : Str} (h : a.find k = b.find k)
include h
theorem isDefined_congr : a.isDefined k = b.isDefined k := by unfold SMap.isDefined; rw [h]
theorem get_congr : a.get k = b.get k := by unfold SMap.get; rw [h]
theorem isVec_congr : a.isVec k = b.isVec k := by unfold SMap.isVec; rw [h]
theorem getString_congr (d : Str) : a.getString k d = b.getString k d := by unfold SMap.getString; rw [h]
theorem getInt_congr (d : ℤ) : a.getInt k d = b.getInt k d := by unfold SMap.getInt; rw [h]
theorem getDouble_congr (d : ℚ) : a.getDouble k d = b.getDouble k d := by unfold SMap.getDouble; rw [h]
theorem getVec_congr (n : ℕ) (d : ℚ) : a.getVec k n d = b.getVec k n d := by
  unfold SMap.getVec SMap.getFloat; rw [h]
end find

section start
variable {a b : SMap} (h : SameOptions startOptions a b)
include h

theorem boot_congr : a.find kBoot = b.find kBoot := h _ (by decide)

theorem LobeObj.bootstrap_options (files : Str → Option Str) (d : Data) (l : LobeObj) :
    l.bootstrap files d a = l.bootstrap files d b := by
  have hb := boot_congr h
  have hc := h "cos-fit".toList (by decide)
  have hsg := h "sg-type".toList (by decide)
  have hp := h "param".toList (by decide)
  have hl := h "lobes".toList (by decide)
  have hr := h "retro".toList (by decide)
  have h1 := isDefined_congr hb
  have h2 := isVec_congr hb
  have h3 := get_congr hb
  have hn : ∀ l : LobeObj, l.nlBootstrap files a = l.nlBootstrap files b := fun l => by
    unfold LobeObj.nlBootstrap LobeObj.baseBootstrap bootVec
    rw [h1, h2, h3, getVec_congr hb]
  have ha : askedLobes a = askedLobes b := by unfold askedLobes; rw [getInt_congr hl]
  cases l with
  | beckmann s => simp only [LobeObj.bootstrap, h1, hn]
  | retrobeckmann s => simp only [LobeObj.bootstrap, isDefined_congr hr]
  | sgd s => simp only [LobeObj.bootstrap, hn]
  | abc s => simp only [LobeObj.bootstrap, AbcS.bootstrap, abcInput, isDefined_congr hp, get_congr hp]
  | diffuse s => simp only [LobeObj.bootstrap, DiffuseS.bootstrap, h1, isDefined_congr hc]
  | sg s => simp only [LobeObj.bootstrap, SgS.bootstrap, isDefined_congr hsg, getString_congr hsg]
  | isoLafortune s => simp only [LobeObj.bootstrap, IsoLafortuneS.bootstrap, ha, h1]
  | lafortune s => simp only [LobeObj.bootstrap, LafortuneS.bootstrap, ha]
  | _ => rfl

mutual
theorem FT.bootstrap_options (files : Str → Option Str) (d : Data) : ∀ f : FT LobeObj,
    f.bootstrap files d a = f.bootstrap files d b
  | .leaf l => by rw [FT.bootstrap, FT.bootstrap, LobeObj.bootstrap_options h]
  | .compound p fs => by
    have hb := boot_congr h
    have hv : bootVec a fs.nb = bootVec b fs.nb := by unfold bootVec; rw [getVec_congr hb]
    have hf : ∀ st, fs.bootFile files d a st = fs.bootFile files d b st := fun st => FTs.bootFile_options files d fs st
    rw [FT.bootstrap, FT.bootstrap, isDefined_congr hb, isVec_congr hb, get_congr hb, hv]
    simp only [hf]
  | .product p f g i j => by
    have hb := boot_congr h
    have hv : ∀ n, bootVec a n = bootVec b n := fun n => by unfold bootVec; rw [getVec_congr hb]
    rw [FT.bootstrap, FT.bootstrap, isDefined_congr hb, isVec_congr hb, get_congr hb, hv,
      FT.bootstrap_options files d f, FT.bootstrap_options files d g]
theorem FTs.bootFile_options (files : Str → Option Str) (d : Data) : ∀ (fs : FTs LobeObj) (st : Stream),
    fs.bootFile files d a st = fs.bootFile files d b st
  | .nil, st => by rw [FTs.bootFile, FTs.bootFile]
  | .cons c (.product p f g i j) rest, st => by
    rw [FTs.bootFile, FTs.bootFile, FT.bootstrap_options files d f, FT.bootstrap_options files d g]
    simp only [FTs.bootFile_options files d rest]
  | .cons c (.leaf l) rest, st => by
    rw [FTs.bootFile, FTs.bootFile] <;> simp [FTs.bootFile_options files d rest]
  | .cons c (.compound p fs) rest, st => by
    rw [FTs.bootFile, FTs.bootFile] <;> simp [FTs.bootFile_options files d rest]
end

end start

/-- C61: the starting point of a fit depends on the options of the list only. -/
theorem start_options (files : Str → Option Str) (d : Data) (a b : SMap) (h : SameOptions startOptions a b)
    (f : FT LobeObj) : f.bootstrap files d a = f.bootstrap files d b := FT.bootstrap_options h files d f

/-- C61, Eigen: a fit depends on the options of the starting point and on `fit-with-cosine`. -/
theorem eigen_options (files : Str → Option Str) (solver : EigenSolver) (d : Data) (a b : SMap) (f : FT LobeObj)
    (h : SameOptions ("fit-with-cosine".toList :: startOptions) a b) :
    eigenFit files solver d a f = eigenFit files solver d b f := by
  unfold eigenFit
  rw [start_options files d a b (h.mono fun k hk => List.mem_cons_of_mem _ hk) f,
    isDefined_congr (h "fit-with-cosine".toList List.mem_cons_self)]

/-- C61, Ceres: a fit depends on the options of the starting point and on `log-fit`; the options of the solver are
    those of the list. -/
theorem ceres_options (files : Str → Option Str) (solver : CeresSolver) (d : Data) (a b : SMap) (f : FT LobeObj)
    (h : SameOptions ("log-fit".toList :: startOptions) a b) :
    ceresFit files solver d a f = ceresFit files solver d b f ∧
      (SameOptions ceresOptionNames a b → ceresOptions a = ceresOptions b) := by
  constructor
  · unfold ceresFit
    rw [start_options files d a b (h.mono fun k hk => List.mem_cons_of_mem _ hk) f,
      isDefined_congr (h "log-fit".toList List.mem_cons_self)]
  · intro h
    have h1 := h "ceres-max-num-iterations".toList (by decide)
    have h2 := h "ceres-factorization".toList (by decide)
    have h3 := h "ceres-debug".toList (by decide)
    have h4 := h "ceres-function-tolerance".toList (by decide)
    have h5 := h "ceres-gradient-tolerance".toList (by decide)
    have h6 := h "ceres-parameter-tolerance".toList (by decide)
    unfold ceresOptions setFunctionTolerance
    rw [isDefined_congr h1, getInt_congr h1, get_congr h2, isDefined_congr h3, isDefined_congr h4, getDouble_congr h4,
      isDefined_congr h5, getDouble_congr h5, isDefined_congr h6, getDouble_congr h6]

theorem nloptCriteria_options {a b : SMap} (h : SameOptions nloptOptionNames a b) : nloptCriteria a = nloptCriteria b := by
  have h2 := h "nlop-max-num-iterations".toList (by decide)
  have h3 := h "nlop-relative-function-tolerance".toList (by decide)
  have h4 := h "nlop-abs-function-tolerance".toList (by decide)
  unfold nloptCriteria optionDouble
  rw [isDefined_congr h2, getInt_congr h2, isDefined_congr h3, getDouble_congr h3, isDefined_congr h4, getDouble_congr h4]

/-- C61, NLopt: a fit depends on the options of the starting point and on those of the list. -/
theorem nlopt_options (files : Str → Option Str) (solver : NloptSolver) (d : Data) (a b : SMap) (f : FT LobeObj)
    (h : SameOptions (nloptOptionNames ++ startOptions) a b) :
    nloptFit files solver d a f = nloptFit files solver d b f := by
  have h' : SameOptions nloptOptionNames a b := h.mono fun k hk => List.mem_append_left _ hk
  unfold nloptFit
  rw [start_options files d a b (h.mono fun k hk => List.mem_append_right _ hk) f, nloptCriteria_options h',
    get_congr (h' "nlopt-optimizer".toList (by decide))]

/-- C61, Ipopt: a fit depends on the options of the starting point and on those of the list. -/
theorem ipopt_options (files : Str → Option Str) (solver : IpoptSolver) (d : Data) (a b : SMap) (f : FT LobeObj)
    (h : SameOptions (ipoptOptionNames ++ startOptions) a b) :
    ipoptFit files solver d a f = ipoptFit files solver d b f := by
  have h' : SameOptions ipoptOptionNames a b := h.mono fun k hk => List.mem_append_left _ hk
  have e : ipoptOptions a = ipoptOptions b := by
    unfold ipoptOptions
    rw [getInt_congr (h' "ipopt-max-iter".toList (by decide)), getString_congr (h' "ipopt-solver".toList (by decide))]
  unfold ipoptFit
  rw [start_options files d a b (h.mono fun k hk => List.mem_append_right _ hk) f, e]

/-! ### Values -/

/-- C61, NLopt: the optimizer is the one of the name, and sequential quadratic programming for another name or
    without the option. -/
theorem nlopt_optimizer (name : Str) :
    (∀ alg, (name, alg) ∈ nloptNames → nloptAlgorithm name = alg) ∧
      ((∀ alg, (name, alg) ∉ nloptNames) → nloptAlgorithm name = .LD_SLSQP) := by
  constructor
  · intro alg h
    simp only [nloptNames, List.mem_cons, Prod.mk.injEq, List.not_mem_nil, or_false] at h
    rcases h with h | h | h | h | h | h | h | h | h | h | h <;> obtain ⟨rfl, rfl⟩ := h <;> decide +kernel
  · intro h
    unfold nloptAlgorithm
    have n : ∀ s alg, (s, alg) ∈ nloptNames → name ≠ s := by
      rintro s alg hs rfl
      exact h alg hs
    rw [if_neg (n _ .LN_COBYLA (by decide)), if_neg (n _ .LN_BOBYQA (by decide)), if_neg (n _ .LN_NEWUOA_BOUND (by decide)),
      if_neg (n _ .LN_PRAXIS (by decide)), if_neg (n _ .LN_NELDERMEAD (by decide)), if_neg (n _ .LN_SBPLX (by decide)),
      if_neg (n _ .GN_CRS2_LM (by decide)), if_neg (n _ .GD_STOGO (by decide)), if_neg (n _ .GN_ISRES (by decide)),
      if_neg (n _ .LD_MMA (by decide)), if_neg (n _ .LD_SLSQP (by decide))]

theorem NumberIs.defined {args : SMap} {k : Str} {q : ℚ} (h : NumberIs args k q) (d : ℚ) :
    args.isDefined k = true ∧ args.getDouble k d = some q := by
  obtain ⟨t, r, h1, h2⟩ := h
  simp [SMap.isDefined, SMap.getDouble, h1, h2]

/-- C61, NLopt: the stopping criteria. -/
theorem nlopt_criteria (args : SMap) :
    (args.isDefined "nlop-relative-function-tolerance".toList = false →
      args.isDefined "nlop-abs-function-tolerance".toList = false →
      ∃ c, nloptCriteria args = some c ∧ c.xtolRel = 1 / 10 ^ 4 ∧ c.ftolAbs = none) ∧
    (∀ q, NumberIs args "nlop-relative-function-tolerance".toList q →
      args.isDefined "nlop-abs-function-tolerance".toList = false →
      ∃ c, nloptCriteria args = some c ∧ c.xtolRel = q ∧ c.ftolAbs = none) ∧
    (∀ q, NumberIs args "nlop-abs-function-tolerance".toList q →
      args.isDefined "nlop-relative-function-tolerance".toList = false →
      ∃ c, nloptCriteria args = some c ∧ c.xtolRel = 1 / 10 ^ 4 ∧ c.ftolAbs = some q) ∧
    (∀ c, nloptCriteria args = some c →
      c.maxeval = if args.isDefined "nlop-max-num-iterations".toList then
        some (args.getInt "nlop-max-num-iterations".toList 0) else none) := by
  refine ⟨fun h1 h2 => ?_, fun q h1 h2 => ?_, fun q h1 h2 => ?_, fun c h => ?_⟩
  · refine ⟨_, by simp only [nloptCriteria, optionDouble, h1, h2, Bool.false_eq_true, if_false]; rfl, rfl, rfl⟩
  · obtain ⟨h3, h4⟩ := h1.defined (1 / 10 ^ 4)
    refine ⟨_, by simp only [nloptCriteria, optionDouble, h2, h3, h4, Bool.false_eq_true, if_false, if_true, Option.map_some]; rfl,
      rfl, rfl⟩
  · obtain ⟨h3, h4⟩ := h1.defined (1 / 10 ^ 6)
    refine ⟨_, by simp only [nloptCriteria, optionDouble, h2, h3, h4, Bool.false_eq_true, if_false, if_true, Option.map_some]; rfl,
      rfl, rfl⟩
  · unfold nloptCriteria at h
    split at h
    · cases h
      simp only
      split
      · rename_i hd
        unfold SMap.isDefined at hd
        unfold SMap.getInt
        cases hf : args.find "nlop-max-num-iterations".toList with
        | none => rw [hf] at hd; cases hd
        | some v => rfl
      · rfl
    · cases h

/-- C61, Ipopt: at most 10 iterations and the linear solver `mumps` without options; else the values of the options. -/
theorem ipopt_criteria (args : SMap) :
    (args.isDefined "ipopt-max-iter".toList = false → (ipoptOptions args).maxIter = 10) ∧
    (args.isDefined "ipopt-solver".toList = false → (ipoptOptions args).linearSolver = "mumps".toList) ∧
    (∀ t, args.find "ipopt-max-iter".toList = some t → (ipoptOptions args).maxIter = atoi t) ∧
    (∀ t, args.find "ipopt-solver".toList = some t → (ipoptOptions args).linearSolver = t) := by
  refine ⟨fun h => (get_default args _ h [] 10 0).2.1, fun h => (get_default args _ h "mumps".toList 10 0).1, ?_, ?_⟩
  · intro t h
    simp only [ipoptOptions, SMap.getInt, h]
  · intro t h
    simp only [ipoptOptions, SMap.getString, h]

/-- C61, Ceres: the number of iterations, the factorization, the progress, and the tolerance on the function when the
    other tolerances are not given. -/
theorem ceres_criteria (args : SMap) (o : CeresOptions) (h : ceresOptions args = some o) :
    (∀ t, args.find "ceres-max-num-iterations".toList = some t → o.maxIterations = some (atoi t)) ∧
    (args.isDefined "ceres-max-num-iterations".toList = false → o.maxIterations = none) ∧
    (o.choleskyFactorization = true ↔ args.find "ceres-factorization".toList = some "normal-cholesky".toList) ∧
    (o.progress = true ↔ args.isDefined "ceres-debug".toList = true) ∧
    (args.isDefined "ceres-gradient-tolerance".toList = false → args.isDefined "ceres-parameter-tolerance".toList = false →
      (∀ q, NumberIs args "ceres-function-tolerance".toList q → o.functionTolerance = some q) ∧
      (args.isDefined "ceres-function-tolerance".toList = false → o.functionTolerance = none)) := by
  have key : ∀ (k : Str) (q : ℚ) (o o' : CeresOptions), setFunctionTolerance args k q o = some o' →
      o'.maxIterations = o.maxIterations ∧ o'.choleskyFactorization = o.choleskyFactorization ∧ o'.progress = o.progress ∧
      (args.isDefined k = false → o'.functionTolerance = o.functionTolerance) ∧
      (∀ v, NumberIs args k v → o'.functionTolerance = some v) := by
    intro k q o o' ho
    unfold setFunctionTolerance at ho
    split at ho
    · rename_i hd
      rw [Option.map_eq_some_iff] at ho
      obtain ⟨v, h1, rfl⟩ := ho
      refine ⟨rfl, rfl, rfl, ?_, ?_⟩
      · intro h; rw [hd] at h; cases h
      · intro w hw
        rw [(hw.defined q).2] at h1
        cases h1
        rfl
    · rename_i hd
      cases ho
      refine ⟨rfl, rfl, rfl, fun _ => rfl, ?_⟩
      intro w hw
      exact absurd (hw.defined q).1 hd
  unfold ceresOptions at h
  simp only at h
  rw [Option.bind_eq_some_iff] at h
  obtain ⟨o1, h1, h⟩ := h
  rw [Option.bind_eq_some_iff] at h
  obtain ⟨o2, h2, h3⟩ := h
  obtain ⟨a1, a2, a3, a4, a5⟩ := key _ _ _ _ h1
  obtain ⟨b1, b2, b3, b4, -⟩ := key _ _ _ _ h2
  obtain ⟨c1, c2, c3, c4, -⟩ := key _ _ _ _ h3
  rw [c1, b1, a1, c2, b2, a2, c3, b3, a3]
  refine ⟨?_, ?_, ?_, Iff.rfl, ?_⟩
  · intro t ht
    simp only [SMap.isDefined, SMap.getInt, ht, Option.isSome_some, if_true]
  · intro ht
    rw [if_neg (by rw [ht]; decide)]
  · simp only [decide_eq_true_eq]
    unfold SMap.get
    cases args.find "ceres-factorization".toList with
    | none => simp
    | some v => simp
  · intro hg hp
    rw [c4 hp, b4 hg]
    exact ⟨a5, a4⟩

/-! ### Limits: options of the documentation -/

theorem sameOptions_update {ks : List Str} {k : Str} (hk : k ∉ ks) (args : SMap) (ho : args.Ordered) (v : Str) :
    SameOptions ks (args.update k v) args := by
  intro l hl
  rw [SMap.find_update ho, if_neg]
  rintro rfl
  exact hk hl

/-- C61, limit: three options of the documentation have no effect: `fit-compound` of the Eigen fitter,
    `ceres-factorizer` and, for Ipopt, `solver`. -/
theorem documented_without_effect (files : Str → Option Str) (d : Data) (args : SMap) (ho : args.Ordered) (v : Str)
    (f : FT LobeObj) :
    (∀ s, eigenFit files s d (args.update "fit-compound".toList v) f = eigenFit files s d args f) ∧
    (∀ s, ceresFit files s d (args.update "ceres-factorizer".toList v) f = ceresFit files s d args f) ∧
    ceresOptions (args.update "ceres-factorizer".toList v) = ceresOptions args ∧
    (∀ s, ipoptFit files s d (args.update "solver".toList v) f = ipoptFit files s d args f) := by
  refine ⟨fun s => eigen_options files s d _ _ f (sameOptions_update (by decide) args ho v),
    fun s => (ceres_options files s d _ _ f (sameOptions_update (by decide) args ho v)).1,
    (ceres_options files (fun _ _ st => .stop (true, st)) d _ _ f (sameOptions_update (by decide) args ho v)).2
      (sameOptions_update (by decide) args ho v),
    fun s => ipopt_options files s d _ _ f (sameOptions_update (by decide) args ho v)⟩

/-- C61, limit: the number of evaluations of NLopt has no default value (the documentation says 10), no relative tolerance
    on the function is ever set: the option of this name sets the one on the parameters; the default value of the
    absolute tolerance (1e-6 in the documentation) is not set. -/
theorem nlopt_documented_defaults :
    (∃ c, nloptCriteria [] = some c ∧ c.maxeval = none ∧ c.ftolAbs = none) ∧
      ∀ args c, nloptCriteria args = some c → c.ftolRel = none := by
  refine ⟨⟨_, rfl, rfl, rfl⟩, fun args c h => ?_⟩
  unfold nloptCriteria at h
  split at h
  · cases h; rfl
  · cases h

/-- C61, limit: the tolerances of Ceres on the gradient and the parameters are never set; the options of their names
    replace the one on the function. -/
theorem ceres_documented_tolerances :
    (∀ args o, ceresOptions args = some o → o.gradientTolerance = none ∧ o.parameterTolerance = none) ∧
      ∃ args o, ceresOptions args = some o ∧ NumberIs args "ceres-function-tolerance".toList 1 ∧
        o.functionTolerance = some 2 := by
  have key : ∀ (args : SMap) (k : Str) (q : ℚ) (o o' : CeresOptions), setFunctionTolerance args k q o = some o' →
      o'.gradientTolerance = o.gradientTolerance ∧ o'.parameterTolerance = o.parameterTolerance := by
    intro args k q o o' ho
    unfold setFunctionTolerance at ho
    split at ho
    · rw [Option.map_eq_some_iff] at ho
      obtain ⟨v, h1, rfl⟩ := ho
      exact ⟨rfl, rfl⟩
    · cases ho
      exact ⟨rfl, rfl⟩
  constructor
  · intro args o h
    unfold ceresOptions at h
    simp only at h
    rw [Option.bind_eq_some_iff] at h
    obtain ⟨o1, h1, h⟩ := h
    rw [Option.bind_eq_some_iff] at h
    obtain ⟨o2, h2, h3⟩ := h
    obtain ⟨a1, a2⟩ := key _ _ _ _ _ h1
    obtain ⟨b1, b2⟩ := key _ _ _ _ _ h2
    obtain ⟨c1, c2⟩ := key _ _ _ _ _ h3
    rw [c1, b1, a1, c2, b2, a2]
    exact ⟨rfl, rfl⟩
  · have e1 : strtod ['1'] = some (1, []) := by decide +kernel
    have e2 : strtod ['2'] = some (2, []) := by decide +kernel
    obtain ⟨args, rfl⟩ : ∃ args : SMap, args = [("ceres-function-tolerance".toList, ['1']), ("ceres-gradient-tolerance".toList, ['2'])] :=
      ⟨_, rfl⟩
    have f1 : SMap.find [("ceres-function-tolerance".toList, ['1']), ("ceres-gradient-tolerance".toList, ['2'])]
      "ceres-function-tolerance".toList = some ['1'] := by decide
    have f2 : SMap.find [("ceres-function-tolerance".toList, ['1']), ("ceres-gradient-tolerance".toList, ['2'])]
      "ceres-gradient-tolerance".toList = some ['2'] := by decide
    have f3 : SMap.find [("ceres-function-tolerance".toList, ['1']), ("ceres-gradient-tolerance".toList, ['2'])]
      "ceres-parameter-tolerance".toList = none := by decide
    generalize [("ceres-function-tolerance".toList, ['1']), ("ceres-gradient-tolerance".toList, ['2'])] = args at *
    refine ⟨args, ?_⟩
    unfold ceresOptions setFunctionTolerance
    simp only [SMap.isDefined, SMap.getDouble, f1, f2, f3, e1, e2, Option.isSome_some, if_true, Option.map_some,
      Option.bind_some, Option.isSome_none, Bool.false_eq_true, if_false]
    exact ⟨_, rfl, ⟨_, _, f1, e1⟩, rfl⟩

/-- Command lines that meet the hypotheses: with `--ceres-function-tolerance 1`, and two that give the same values. -/
example : NumberIs [("ceres-function-tolerance".toList, ['1'])] "ceres-function-tolerance".toList 1 ∧
    SameOptions startOptions [("ceres-function-tolerance".toList, ['1']), ("lobes".toList, ['2'])] [("lobes".toList, ['2'])] ∧
    nloptAlgorithm "local-mma".toList = .LD_MMA ∧ nloptAlgorithm "LD_MMA".toList = .LD_SLSQP := by
  refine ⟨⟨['1'], [], by decide, by decide +kernel⟩, ?_, by decide, by decide⟩
  intro k hk
  revert k hk
  decide

end
end Alta
