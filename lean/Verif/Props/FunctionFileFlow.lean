import Verif.Model.PluginObjects
import Verif.Props.FunctionFileLoad
/-
Property C56, from the command line to the file and back.
-/
namespace Alta
noncomputable section

/-- The class keeps the parametrization it is given. -/
def PluginClass.Keeps : PluginClass → Prop
  | .retroblinn | .abc | .lafortune | .schlickFresnel => True
  | _ => False

/-- The class `c` gives to the objects made with `p` and `p'` the same parametrization, but for the
    output. -/
theorem PluginClass.par_withOutput (c : PluginClass) (p p' : Par) (h1 : p'.dimY = p.dimY)
    (h2 : p'.output = .UNKNOWN_OUTPUT) (h3 : c.Keeps → p'.dimX = p.dimX ∧ p'.input = p.input) :
    c.par p' = (c.par p).withOutput .UNKNOWN_OUTPUT := by
  obtain ⟨x, y, i, o⟩ := p
  obtain ⟨x', y', i', o'⟩ := p'
  simp only at h1 h2 h3
  subst h1 h2
  cases c <;> simp only [PluginClass.Keeps, PluginClass.par, Par.setInput, Par.withOutput, forall_true_left] at * <;>
    rw [h3.1, h3.2]

/-- An object of a class read in another object of this class. -/
theorem canRead_transfer (c : PluginClass) (p p' : Par) (l0 l0' l : LobeObj) (h0 : Constructs c p l0)
    (h0' : Constructs c p' l0') (hp : l0'.par = l0.par.withOutput .UNKNOWN_OUTPUT) (h : l0.CanRead l) :
    l0'.CanRead (l.withOutput .UNKNOWN_OUTPUT) := by
  obtain ⟨-, h0⟩ := h0
  obtain ⟨-, h0'⟩ := h0'
  cases c <;> cases l0 <;> simp only at h0 <;> cases l0' <;> simp only at h0' <;>
    cases l <;> simp only [LobeObj.CanRead, LobeObj.withOutput] at h ⊢
  case abc.abc.abc.abc s0 s0' s =>
    refine ⟨?_, h.2⟩
    have hp' : s0'.par = s0.par.withOutput .UNKNOWN_OUTPUT := hp
    rw [hp', ← h.1]
    rfl
  case sg.sg.sg.sg =>
    exact ⟨hp.trans (congrArg (fun q => Par.withOutput q .UNKNOWN_OUTPUT) h.1), h0'.2.trans (h0.2.symm.trans h.2)⟩
  case lafortune.lafortune.lafortune.lafortune =>
    exact ⟨hp.trans (congrArg (fun q => Par.withOutput q .UNKNOWN_OUTPUT) h.1), h0'.trans (h0.symm.trans h.2.1), h.2.2⟩
  all_goals exact hp.trans (congrArg (fun q => Par.withOutput q .UNKNOWN_OUTPUT) h)

/-- The parametrization of the object read. -/
theorem canRead_par (l0 l : LobeObj) (h : l0.CanRead l) :
    l.par.dimX = l0.par.dimX ∧ l.par.dimY = l0.par.dimY ∧ l.par.output = l0.par.output ∧
    (l.par.input = l0.par.input ∨ l.par.input.Named) := by
  cases l0 <;> cases l <;> simp only [LobeObj.CanRead] at h
  case abc.abc s0 s =>
    have e : s.par = { s0.par with input := s.par.input } := h.1.symm
    refine ⟨?_, ?_, ?_, Or.inr h.2⟩
    · have := congrArg Par.dimX e; exact this
    · have := congrArg Par.dimY e; exact this
    · have := congrArg Par.output e; exact this
  case sg.sg s0 s =>
    have e : s.par = s0.par := h.1.symm
    exact ⟨congrArg Par.dimX e, congrArg Par.dimY e, congrArg Par.output e, Or.inl (congrArg Par.input e)⟩
  case lafortune.lafortune s0 s =>
    have e : s.par = s0.par := h.1.symm
    exact ⟨congrArg Par.dimX e, congrArg Par.dimY e, congrArg Par.output e, Or.inl (congrArg Par.input e)⟩
  all_goals
    exact ⟨congrArg Par.dimX h.symm, congrArg Par.dimY h.symm, congrArg Par.output h.symm, Or.inl (congrArg Par.input h.symm)⟩

/-- only the class abc has its input in the file -/
theorem canRead_input (c : PluginClass) (p : Par) (l0 l : LobeObj) (h0 : Constructs c p l0) (h : l0.CanRead l)
    (hc : c ≠ .abc) : l.par = l0.par := by
  obtain ⟨-, h0⟩ := h0
  cases c <;> cases l0 <;> simp only at h0 <;> cases l <;> simp only [LobeObj.CanRead] at h
  case abc.abc.abc => exact absurd rfl hc
  case sg.sg.sg => exact h.1.symm
  case lafortune.lafortune.lafortune => exact h.1.symm
  all_goals exact h.symm

theorem PluginClass.dimY_par (c : PluginClass) (p : Par) : (c.par p).dimY = p.dimY := by cases c <;> rfl

theorem canRead_abc (p p' : Par) (l0 l0' l : LobeObj) (h0 : Constructs .abc p l0) (h0' : Constructs .abc p' l0')
    (h : l0.CanRead l) (hx : p'.dimX = p.dimX) (hy : p'.dimY = p.dimY) (ho : p'.output = .UNKNOWN_OUTPUT) :
    l0'.CanRead (l.withOutput .UNKNOWN_OUTPUT) := by
  obtain ⟨e0, h0⟩ := h0
  obtain ⟨e0', h0'⟩ := h0'
  cases l0 <;> simp only at h0
  cases l0' <;> simp only at h0'
  cases l <;> simp only [LobeObj.CanRead, LobeObj.withOutput] at h ⊢
  rename_i s0 s0' s
  refine ⟨?_, h.2⟩
  have e1 : s0.par = p := e0
  have e2 : s0'.par = p' := e0'
  rw [← h.1, e1, e2]
  simp only [Par.withOutput, hx, hy, ho]

/-- C56, one plugin: the object `l` that the arguments make, whatever its coefficients (as a fit leaves
    it), is saved with these arguments and loaded with the same plugins: the same function, but for the
    output parametrization. -/
theorem load_saved_plugin (fmt : ℝ → Decimal) (hf : PrintsDigits fmt) (dir : Str) (env : Option Str)
    (fs : Str → Option (Symbols (Provider LobeObj))) (args : SMap) (ho : args.Ordered) (ha : CmdMap args)
    (n : Str) (hn : args.find kFunc = some n) (hv : '[' ∉ n) (hfr : args.find kFresnel = none)
    (pr : Provider LobeObj) (c : PluginClass) (hpr : libraryOf dir env fs n = some pr) (hc : pr.Of c)
    (p : Par) (hin : p.input.Named) (l : LobeObj) (hl : (pr.make p).CanRead l) :
    getFunction dir env fs LobeObj.par args p = some (.nonlinear (.leaf (pr.make p))) ∧
    ∃ t f1, saveFunction fmt args (.leaf l) = some t ∧ loadFunction dir env fs t = some (some f1) ∧
      Fn.Same f1.toFn (((l.withOutput .UNKNOWN_OUTPUT).rounded fmt)).toFn := by
  have hleaf : ∀ q, leafOf (libraryOf dir env fs) q n = some (.leaf (pr.make q)) := by
    intro q; unfold leafOf; rw [hpr]; simp [hc.1]
  refine ⟨getFunction_leaf dir env fs LobeObj.par args p n hn hv hfr _ (hleaf p), ?_⟩
  obtain ⟨d1, d2, -, d4⟩ := canRead_par _ _ hl
  have hpar := (hc.2 p).1
  have hnamed : l.par.input.Named := by
    rcases d4 with h | h
    · rw [h, hpar]
      cases c
      case retroblinn => exact hin
      case abc => exact hin
      case lafortune => exact hin
      case schlickFresnel => exact hin
      all_goals simp only [PluginClass.par, Par.setInput, Input.Named]; decide
    · exact h
  have hread : (pr.make (l.par.withOutput .UNKNOWN_OUTPUT)).CanRead (l.withOutput .UNKNOWN_OUTPUT) := by
    by_cases h : c = .abc
    · subst h
      refine canRead_abc p _ _ _ l (hc.2 p) (hc.2 _) hl ?_ ?_ rfl
      · exact d1.trans (congrArg Par.dimX hpar)
      · exact d2.trans (congrArg Par.dimY hpar)
    · refine canRead_transfer c p _ _ _ l (hc.2 p) (hc.2 _) ?_ hl
      have e := canRead_input c p _ _ (hc.2 p) hl h
      rw [(hc.2 _).1, e, hpar]
      cases c <;> rfl
  obtain ⟨t, f1, h0, h1, h2⟩ := loadFunction_saveFunction fmt hf dir env fs args ho ha (.leaf l)
    (.leaf (pr.make (l.par.withOutput .UNKNOWN_OUTPUT))) hnamed
    (getFunction_leaf dir env fs LobeObj.par args _ n hn hv hfr _ (hleaf _))
    (by simpa only [FT.CanRead, FT.withOutput] using hread)
  exact ⟨t, f1, h0, h1, h2⟩

/-! ### Sums -/

/-- Every plugin of the term is a class of the model. -/
def Term.Known (lib : Str → Option (Provider LobeObj)) (t : Term) : Prop :=
  ∀ n pr, lib n = some pr → (n = t.name ∨ t.binding kFresnel = some n) → ∃ c, pr.Of c

/-- Each plugin of the term sets its own parametrization, or is given one that differs only by the
    output. -/
def Term.Uniform (lib : Str → Option (Provider LobeObj)) (p p' : Par) (t : Term) : Prop :=
  ∀ n pr c, lib n = some pr → (n = t.name ∨ t.binding kFresnel = some n) → pr.Of c → c.Keeps →
    p'.dimX = p.dimX ∧ p'.input = p.input

theorem leafOf_transfer (lib : Str → Option (Provider LobeObj)) (p p' : Par) (t : Term) (n : Str)
    (hnt : n = t.name ∨ t.binding kFresnel = some n)
    (hk : t.Known lib) (hu : t.Uniform lib p p') (h1 : p'.dimY = p.dimY) (h2 : p'.output = .UNKNOWN_OUTPUT)
    (f0 : FT LobeObj) (h : leafOf lib p n = some f0) :
    ∃ f0', leafOf lib p' n = some f0' ∧ f0'.par LobeObj.par = (f0.par LobeObj.par).withOutput .UNKNOWN_OUTPUT ∧
      ∀ f, f0.CanRead f → f0'.CanRead (f.withOutput .UNKNOWN_OUTPUT) := by
  obtain ⟨pr, hpr, hnl, rfl⟩ := leafOf_some lib p n f0 h
  obtain ⟨c, hc⟩ := hk n pr hpr hnt
  have hpar : (pr.make p').par = (pr.make p).par.withOutput .UNKNOWN_OUTPUT := by
    rw [(hc.2 p').1, (hc.2 p).1]
    exact c.par_withOutput p p' h1 h2 (hu n pr c hpr hnt hc)
  refine ⟨.leaf (pr.make p'), ?_, hpar, ?_⟩
  · unfold leafOf; rw [hpr]; simp [hnl]
  · intro f hf
    cases f with
    | leaf l =>
      simp only [FT.CanRead, FT.withOutput] at hf ⊢
      exact canRead_transfer c p p' _ _ l (hc.2 p) (hc.2 p') hpar hf
    | compound => simp only [FT.CanRead] at hf
    | product => simp only [FT.CanRead] at hf

theorem productPar_withOutput (a b : Par) (o : Output) :
    productPar (a.withOutput o) (b.withOutput o) = (productPar a b).withOutput o := by
  unfold productPar Par.withOutput
  split <;> simp_all

theorem term_transfer (lib : Str → Option (Provider LobeObj)) (p p' : Par) (t : Term)
    (hk : t.Known lib) (hu : t.Uniform lib p p') (h1 : p'.dimY = p.dimY) (h2 : p'.output = .UNKNOWN_OUTPUT)
    (f0 : FT LobeObj) (h : t.function lib LobeObj.par p = some f0) :
    ∃ f0', t.function lib LobeObj.par p' = some f0' ∧
      f0'.par LobeObj.par = (f0.par LobeObj.par).withOutput .UNKNOWN_OUTPUT ∧
      ∀ f, f0.CanRead f → f0'.CanRead (f.withOutput .UNKNOWN_OUTPUT) := by
  unfold Term.function at h ⊢
  split at h
  · rename_i hb
    exact leafOf_transfer lib p p' t t.name (Or.inl rfl) hk hu h1 h2 f0 h
  · rename_i hb
    exact leafOf_transfer lib p p' t t.name (Or.inl rfl) hk hu h1 h2 f0 h
  · rename_i v _ hb
    split at h
    · rename_i f g hf hg
      obtain ⟨f', a1, a2, a3⟩ := leafOf_transfer lib p p' t t.name (Or.inl rfl) hk hu h1 h2 f hf
      obtain ⟨g', b1, b2, b3⟩ := leafOf_transfer lib p p' t v (Or.inr hb) hk hu h1 h2 g hg
      rw [Option.some.injEq] at h
      subst h
      rw [a1, b1]
      refine ⟨_, rfl, ?_, ?_⟩
      · change productPar (f'.par LobeObj.par) (g'.par LobeObj.par) =
          (productPar (f.par LobeObj.par) (g.par LobeObj.par)).withOutput _
        rw [a2, b2, productPar_withOutput]
      · intro u hu
        cases u with
        | leaf => simp only [FT.CanRead] at hu
        | compound => simp only [FT.CanRead] at hu
        | product q u v a b =>
          simp only [FT.CanRead, FT.withOutput] at hu ⊢
          obtain ⟨e1, e2, e3, e4, e5⟩ := hu
          refine ⟨?_, e2, e3, a3 _ e4, b3 _ e5⟩
          rw [a2, b2, productPar_withOutput, e1]
    · cases h

theorem compoundParLoop_withOutput (ps : List Par) : ∀ r q : Par, compoundParLoop ps r = some q →
    compoundParLoop (ps.map fun p => p.withOutput .UNKNOWN_OUTPUT) (r.withOutput .UNKNOWN_OUTPUT) =
      some (q.withOutput .UNKNOWN_OUTPUT) := by
  induction ps with
  | nil => intro r q h; simp only [compoundParLoop, Option.some.injEq] at h; rw [h]; rfl
  | cons f ps ih =>
    intro r q h
    simp only [compoundParLoop] at h
    simp only [List.map_cons, compoundParLoop]
    have e : (if (r.withOutput .UNKNOWN_OUTPUT).input = .UNKNOWN_INPUT then
          { r.withOutput .UNKNOWN_OUTPUT with input := (f.withOutput .UNKNOWN_OUTPUT).input }
        else if (r.withOutput .UNKNOWN_OUTPUT).input ≠ (f.withOutput .UNKNOWN_OUTPUT).input then
          { r.withOutput .UNKNOWN_OUTPUT with dimX := 6, input := .CARTESIAN }
        else r.withOutput .UNKNOWN_OUTPUT) =
        (if r.input = .UNKNOWN_INPUT then { r with input := f.input }
          else if r.input ≠ f.input then { r with dimX := 6, input := .CARTESIAN } else r).withOutput .UNKNOWN_OUTPUT := by
      simp only [Par.withOutput]
      by_cases c1 : r.input = .UNKNOWN_INPUT
      · simp only [c1, if_true]
      · by_cases c2 : r.input = f.input
        · have c3 : (r.input ≠ f.input) = False := by simp [c2]
          simp only [if_neg c1, c3, if_false]
        · have c3 : (r.input ≠ f.input) = True := by simp [c2]
          simp only [if_neg c1, c3, if_true]
    rw [e]
    generalize (if r.input = .UNKNOWN_INPUT then { r with input := f.input }
          else if r.input ≠ f.input then { r with dimX := 6, input := .CARTESIAN } else r : Par) = r1 at h ⊢
    have e2 : (r1.withOutput .UNKNOWN_OUTPUT).output = .UNKNOWN_OUTPUT := rfl
    rw [if_pos e2]
    split at h
    · exact ih { r1 with output := f.output } q h
    · split at h
      · cases h
      · exact ih r1 q h

theorem compoundPar_withOutput (ps : List Par) (q : Par) (h : compoundPar ps = some q) :
    compoundPar (ps.map fun p => p.withOutput .UNKNOWN_OUTPUT) = some (q.withOutput .UNKNOWN_OUTPUT) := by
  cases ps with
  | nil => cases h
  | cons f ps => exact compoundParLoop_withOutput (f :: ps) f q h

theorem compoundParLoop_dimY (ps : List Par) : ∀ r q : Par, compoundParLoop ps r = some q → q.dimY = r.dimY := by
  induction ps with
  | nil => intro r q h; simp only [compoundParLoop, Option.some.injEq] at h; rw [h]
  | cons f ps ih =>
    intro r q h
    simp only [compoundParLoop] at h
    have e : (if r.input = .UNKNOWN_INPUT then { r with input := f.input }
          else if r.input ≠ f.input then { r with dimX := 6, input := .CARTESIAN } else r : Par).dimY = r.dimY := by
      split
      · rfl
      · split <;> rfl
    generalize (if r.input = .UNKNOWN_INPUT then { r with input := f.input }
          else if r.input ≠ f.input then { r with dimX := 6, input := .CARTESIAN } else r : Par) = r1 at h e
    split at h
    · exact (ih _ _ h).trans e
    · split at h
      · cases h
      · exact (ih _ _ h).trans e

theorem compoundPar_dimY (ps : List Par) (n : ℕ) (hn : ∀ p ∈ ps, p.dimY = n) (q : Par) (h : compoundPar ps = some q) :
    q.dimY = n := by
  cases ps with
  | nil => cases h
  | cons f ps => exact (compoundParLoop_dimY _ _ _ h).trans (hn f (by simp))

theorem leafOf_dimY (lib : Str → Option (Provider LobeObj)) (p : Par) (t : Term) (n : Str)
    (hnt : n = t.name ∨ t.binding kFresnel = some n) (hk : t.Known lib) (f0 : FT LobeObj)
    (h : leafOf lib p n = some f0) : (f0.par LobeObj.par).dimY = p.dimY := by
  obtain ⟨pr, hpr, hnl, rfl⟩ := leafOf_some lib p n f0 h
  obtain ⟨c, hc⟩ := hk n pr hpr hnt
  have : (FT.leaf (pr.make p)).par LobeObj.par = c.par p := (hc.2 p).1
  rw [this, c.dimY_par]

theorem productPar_dimY (a b : Par) : (productPar a b).dimY = a.dimY := by
  unfold productPar; split <;> rfl

theorem term_dimY (lib : Str → Option (Provider LobeObj)) (p : Par) (t : Term) (hk : t.Known lib)
    (f0 : FT LobeObj) (h : t.function lib LobeObj.par p = some f0) : (f0.par LobeObj.par).dimY = p.dimY := by
  unfold Term.function at h
  split at h
  · exact leafOf_dimY lib p t t.name (Or.inl rfl) hk f0 h
  · exact leafOf_dimY lib p t t.name (Or.inl rfl) hk f0 h
  · split at h
    · rename_i f g hf hg
      rw [Option.some.injEq] at h
      subst h
      exact (productPar_dimY _ _).trans (leafOf_dimY lib p t t.name (Or.inl rfl) hk f hf)
    · cases h

theorem members_transfer (lib : Str → Option (Provider LobeObj)) (p p' : Par)
    (h1 : p'.dimY = p.dimY) (h2 : p'.output = .UNKNOWN_OUTPUT) (ts : List Term)
    (hk : ∀ t ∈ ts, t.Known lib) (hu : ∀ t ∈ ts, t.Uniform lib p p') :
    ∀ ms ms' : List (SMap × FT LobeObj), AreMembers lib LobeObj.par p ts ms → AreMembers lib LobeObj.par p' ts ms' →
    (ms'.map fun m => m.2.par LobeObj.par) =
      (ms.map fun m => m.2.par LobeObj.par).map (fun q => q.withOutput .UNKNOWN_OUTPUT) ∧
    (∀ m ∈ ms, (m.2.par LobeObj.par).dimY = p.dimY) ∧
    ∀ fs, (FTs.ofList ms).CanRead fs → (FTs.ofList ms').CanRead (fs.withOutput .UNKNOWN_OUTPUT) := by
  induction ts with
  | nil =>
    intro ms ms' hm hm'
    cases hm
    cases hm'
    refine ⟨rfl, by simp, ?_⟩
    intro fs h
    cases fs with
    | nil => exact h
    | cons => simp only [FTs.ofList, FTs.CanRead] at h
  | cons t ts ih =>
    intro ms ms' hm hm'
    cases hm with
    | @cons _ m _ ms ha hr =>
      cases hm' with
      | @cons _ m' _ ms' ha' hr' =>
        obtain ⟨i1, i2, i3⟩ := ih (fun t ht => hk t (by simp [ht])) (fun t ht => hu t (by simp [ht])) ms ms' hr hr'
        obtain ⟨f', b1, b2, b3⟩ := term_transfer lib p p' t (hk t (by simp)) (hu t (by simp)) h1 h2 m.2 ha.2
        have e : m'.2 = f' := by
          have := ha'.2; rw [b1] at this; exact (Option.some.inj this).symm
        refine ⟨?_, ?_, ?_⟩
        · simp only [List.map_cons]
          rw [i1, e, b2]
        · intro u hu
          rcases List.mem_cons.1 hu with rfl | hu
          · exact term_dimY lib p t (hk t (by simp)) _ ha.2
          · exact i2 u hu
        · intro fs h
          cases fs with
          | nil => simp only [FTs.ofList, FTs.CanRead] at h
          | cons a f rest =>
            obtain ⟨c1, c2, c3⟩ : m.1.isDefined "fixed".toList = a.isDefined "fixed".toList ∧ m.2.CanRead f ∧
                (FTs.ofList ms).CanRead rest := by
              simpa only [FTs.ofList, FTs.CanRead] using h
            simp only [FTs.ofList, FTs.withOutput, FTs.CanRead]
            refine ⟨?_, ?_, i3 _ c3⟩
            · rw [← c1]
              unfold SMap.isDefined
              rw [ha.1, ha'.1]
            · rw [e]; exact b3 _ c2

/-- C56, a sum of terms `--func [t1, t2, ...]`: the function `f` that the arguments make with the
    parametrization `p`, whatever its coefficients, is saved with these arguments and loaded with the same
    plugins: the same function, but for the output parametrization.  The plugins that do not set their own
    parametrization (retroblinn, abc, lafortune, fresnel schlick) must not be mixed with others that lead to
    another input: the file has only the parametrization of the sum. -/
theorem load_saved_sum (fmt : ℝ → Decimal) (hf : PrintsDigits fmt) (dir : Str) (env : Option Str)
    (fs : Str → Option (Symbols (Provider LobeObj))) (args : SMap) (ho : args.Ordered) (ha : CmdMap args)
    (t : Term) (ts : List Term) (hr : ∀ u ∈ t :: ts, u.Readable)
    (hargs : args.find kFunc = some (sumText (t :: ts))) (hfr : args.find kFresnel = none)
    (hk : ∀ u ∈ t :: ts, u.Known (libraryOf dir env fs)) (p q : Par) (hin : q.input.Named) (gs gs0 : FTs LobeObj)
    (hmake : getFunction dir env fs LobeObj.par args p = some (.nonlinear (.compound q gs0)))
    (hfun : ∀ u ∈ t :: ts, ∃ f, u.function (libraryOf dir env fs) LobeObj.par p = some f)
    (hu : ∀ u ∈ t :: ts, u.Uniform (libraryOf dir env fs) p (q.withOutput .UNKNOWN_OUTPUT))
    (hgs : FT.CanRead (.compound q gs0) (.compound q gs)) :
    ∃ t f1, saveFunction fmt args (.compound q gs) = some t ∧ loadFunction dir env fs t = some (some f1) ∧
      Fn.Same f1.toFn (((FT.compound q gs).withOutput .UNKNOWN_OUTPUT).rounded fmt).toFn := by
  obtain ⟨ms, hm, e⟩ := getFunction_sum dir env fs LobeObj.par p t ts hr hfun args hargs hfr
  rw [e] at hmake
  cases hq : compoundPar (ms.map fun m => m.2.par LobeObj.par) with
  | none => rw [hq] at hmake; cases hmake
  | some q' =>
    rw [hq, Option.map_some, Option.some.injEq, Made.nonlinear.injEq, FT.compound.injEq] at hmake
    obtain ⟨rfl, rfl⟩ := hmake
    have hdim : (q'.withOutput .UNKNOWN_OUTPUT).dimY = p.dimY := by
      refine compoundPar_dimY _ p.dimY ?_ q' hq
      intro a ha'
      obtain ⟨m, hm', rfl⟩ := List.mem_map.1 ha'
      have : ∀ (ts : List Term) ms, (∀ u ∈ ts, u.Known (libraryOf dir env fs)) →
          AreMembers (libraryOf dir env fs) LobeObj.par p ts ms → ∀ m ∈ ms, (m.2.par LobeObj.par).dimY = p.dimY := by
        intro ts ms hk hm
        induction hm with
        | nil => intro m hm; cases hm
        | @cons u m us ms h1 _ ih =>
          intro m' hm'
          rcases List.mem_cons.1 hm' with rfl | hm'
          · exact term_dimY _ p u (hk u (by simp)) _ h1.2
          · exact ih (fun u hu => hk u (by simp [hu])) m' hm'
      exact this _ _ hk hm m hm'
    have hfun' : ∀ u ∈ t :: ts, ∃ f, u.function (libraryOf dir env fs) LobeObj.par (q'.withOutput .UNKNOWN_OUTPUT) = some f := by
      intro u hu'
      obtain ⟨f, hf'⟩ := hfun u hu'
      obtain ⟨f', h, -⟩ := term_transfer _ p _ u (hk u hu') (hu u hu') hdim rfl f hf'
      exact ⟨f', h⟩
    obtain ⟨ms', hm', e'⟩ := getFunction_sum dir env fs LobeObj.par (q'.withOutput .UNKNOWN_OUTPUT) t ts hr hfun' args
      hargs hfr
    obtain ⟨i1, -, i3⟩ := members_transfer _ p _ hdim rfl (t :: ts) hk hu ms ms' hm hm'
    rw [i1, compoundPar_withOutput _ _ hq, Option.map_some] at e'
    simp only [FT.CanRead, true_and] at hgs
    refine loadFunction_saveFunction fmt hf dir env fs args ho ha (.compound q' gs)
      (.compound (q'.withOutput .UNKNOWN_OUTPUT) (FTs.ofList ms')) hin e' ?_
    simp only [FT.withOutput, FT.CanRead, true_and]
    refine ⟨?_, i3 _ hgs.2⟩
    cases gs with
    | nil => exact absurd rfl hgs.1
    | cons => simp [FTs.withOutput]

end
end Alta
