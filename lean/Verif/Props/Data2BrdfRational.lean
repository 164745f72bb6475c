import Verif.Model.Data2BrdfRational
import Verif.Proofs.FittedRational
import Verif.Props.Data2BrdfFile
import Verif.Props.Brdf2Brdf
/-
C81: rational functions fitted by data2brdf.
-/
namespace Alta
noncomputable section

/-! ### When a rational function is fitted -/

theorem fresnelStage_rational (dir : Str) (env : Option Str) (fs : Str → Option (Symbols (Provider LobeObj)))
    (args : SMap) (p : Par) (func : Made LobeObj) (hf : func ≠ .rational) :
    fresnelStage dir env fs LobeObj.par args p func ≠ some .rational := by
  unfold fresnelStage
  intro h
  split at h
  · exact hf (Option.some.inj h)
  · split at h
    · exact hf (Option.some.inj h)
    · split at h
      · cases h
      · obtain ⟨g, -, hg⟩ := Option.map_eq_some_iff.1 h
        split at hg
        · exact hf hg
        · cases hg

/-- C81: a rational function is made when there is no `--func`, or when the library that it names cannot be opened (or has not
    the symbol of the plugins): this does not depend on the data. -/
theorem getFunction_rational (dir : Str) (env : Option Str) (fs : Str → Option (Symbols (Provider LobeObj)))
    (args : SMap) (p : Par) (h : getFunction dir env fs LobeObj.par args p = some .rational) :
    (args.isDefined kFunc = false ∨
      ∃ n, args.find kFunc = some n ∧ openLibrary dir env fs n "provide_function".toList = some none) ∧
    ∀ q, getFunction dir env fs LobeObj.par args q = some .rational := by
  cases hn : args.find kFunc with
  | none =>
    have h0 : args.isDefined kFunc = false := by unfold SMap.isDefined; rw [hn]; rfl
    exact ⟨Or.inl h0, fun q => getFunction_none dir env fs _ args q h0⟩
  | some n =>
    by_cases hv : ∃ r, n = '[' :: r
    · have hvt : args.isVec kFunc = true := by
        obtain ⟨r, rfl⟩ := hv
        unfold SMap.isVec
        rw [hn]
        rfl
      by_cases hne : args.getVecStr kFunc = []
      · exfalso
        have d1 : args.isDefined kFunc = true := by unfold SMap.isDefined; rw [hn]; rfl
        have g1 : args.get kFunc ≠ [] := by
          obtain ⟨r, rfl⟩ := hv
          unfold SMap.get; rw [hn]; simp
        rw [getFunction.eq_def] at h
        simp only [d1, g1, hvt, hne, if_true, dif_neg, Bool.true_eq_false, if_false, not_false_eq_true, Bool.true_or] at h
        cases h
      · exfalso
        rw [getFunction_vec _ _ _ _ args _ hvt hne] at h
        obtain ⟨ts, -, h⟩ := Option.bind_eq_some_iff.1 h
        obtain ⟨t, -, h⟩ := Option.bind_eq_some_iff.1 h
        split at h
        · exact fresnelStage_rational _ _ _ _ _ _ (by simp) h
        · cases h
    · have hv' : ∀ r, n ≠ '[' :: r := fun r hr => hv ⟨r, hr⟩
      have key : openLibrary dir env fs n "provide_function".toList = some none := by
        rw [getFunction_name _ _ _ _ args _ n hn hv'] at h
        obtain ⟨o, h1, h⟩ := Option.bind_eq_some_iff.1 h
        cases o with
        | none => exact h1
        | some pr =>
          exfalso
          have hne : (if pr.nonlinear then Made.nonlinear (.leaf (pr.make p)) else .linear (pr.make p)) ≠ Made.rational := by
            split <;> simp
          simp only [] at h
          split at h
          · exact fresnelStage_rational _ _ _ _ _ _ hne h
          · exact hne (Option.some.inj h)
      refine ⟨Or.inr ⟨n, rfl, key⟩, fun q => ?_⟩
      rw [getFunction_name _ _ _ _ args _ n hn hv', key]
      rfl

/-- What is loaded from a file of which the header is `args` and `p`, and for which a rational function is made. -/
theorem loadAny_rational (junk : ℝ) (dir : Str) (env : Option Str) (fs : Str → Option (Symbols (Provider LobeObj)))
    (args : SMap) (ho : args.Ordered) (ha : CmdMap args) (p : Par) (hin : p.input.Named) (body : Str)
    (hg : ∀ q, getFunction dir env fs LobeObj.par args q = some .rational) :
    loadAny junk dir env fs (saveHeader args.getCmd p ++ body) =
      some (((newRational p).load junk ('\n' :: body)).map (AnyFn.rational (p.withOutput .UNKNOWN_OUTPUT))) := by
  obtain ⟨l2, m, h1, h2, h3, h4, h5, h6⟩ := header_saved args ho ha p body hin
  unfold loadAny
  simp only [h1, h2, h3, h4, h5, h6, hg, ne_eq, not_true_eq_false, if_false]
  have hp : (⟨(p.dimX : ℤ).toNat, (p.dimY : ℤ).toNat, p.input, .UNKNOWN_OUTPUT⟩ : Par) =
      p.withOutput .UNKNOWN_OUTPUT := by simp [Par.withOutput]
  rw [hp]
  rfl

/-! ### The run -/

/-- C81: the exit code is 0 exactly when a file is written, and else 1; a file is written when there are samples, no plugin of
    functions is found and the fit succeeds: it is the function that the fitter left, with its distances to the data. -/
theorem data2brdf_rational_outcome (dir : Str) (env : Option Str) (fs : Str → Option (Symbols (Provider LobeObj)))
    (fit : Segments → SMap → RatFn → Option (Bool × RatFn)) (fmt6 fmt10 fmt : ℝ → Decimal)
    (other : AnyFn → SMap → Option Str) (args : SMap) (d : Segments) (code : ℕ) (out : Option FittedRational)
    (h : data2brdfRational dir env fs fit fmt6 fmt10 fmt other args d = some (code, out)) :
    (code = if out.isSome then 0 else 1) ∧
    ∀ r, out = some r → d.store.toData.rows ≠ [] ∧
      getFunction dir env fs LobeObj.par args d.store.toData.par = some .rational ∧
      fit d args (newRational d.store.toData.par) = some (true, r.function) ∧
      l2Distance (r.function.evaluable d.store.toData.par) d.store.toData = some r.l2 ∧
      (∃ mean var, linfDistance (r.function.evaluable d.store.toData.par) d.store.toData = some (r.linf, mean, var)) ∧
      r.args = (args.update kL2 (fmt6 r.l2).text).update kLinf (fmt6 r.linf).text ∧
      (AnyFn.rational d.store.toData.par r.function).save fmt10 fmt other r.args = some r.file := by
  unfold data2brdfRational at h
  simp only [] at h
  obtain ⟨m, h1, h2⟩ := Option.bind_eq_some_iff.1 h
  cases m with
  | null => simp only [Option.some.injEq, Prod.mk.injEq] at h2; obtain ⟨rfl, rfl⟩ := h2; simp
  | linear l =>
    simp only [] at h2
    split at h2
    · simp only [Option.some.injEq, Prod.mk.injEq] at h2; obtain ⟨rfl, rfl⟩ := h2; simp
    · obtain ⟨-, -, h3⟩ := Option.map_eq_some_iff.1 h2
      simp only [Prod.mk.injEq] at h3; obtain ⟨rfl, rfl⟩ := h3; simp
  | nonlinear f =>
    simp only [] at h2
    split at h2
    · simp only [Option.some.injEq, Prod.mk.injEq] at h2; obtain ⟨rfl, rfl⟩ := h2; simp
    · obtain ⟨-, -, h3⟩ := Option.map_eq_some_iff.1 h2
      simp only [Prod.mk.injEq] at h3; obtain ⟨rfl, rfl⟩ := h3; simp
  | rational =>
    simp only [] at h2
    split at h2
    · simp only [Option.some.injEq, Prod.mk.injEq] at h2; obtain ⟨rfl, rfl⟩ := h2; simp
    · rename_i hne
      obtain ⟨⟨ok, f2⟩, h5, h6⟩ := Option.bind_eq_some_iff.1 h2
      cases ok with
      | false => simp at h6; obtain ⟨rfl, rfl⟩ := h6; simp
      | true =>
        simp only [if_true] at h6
        obtain ⟨l2, h7, h8⟩ := Option.bind_eq_some_iff.1 h6
        obtain ⟨⟨li, mean, var⟩, h9, h11⟩ := Option.bind_eq_some_iff.1 h8
        obtain ⟨file, h12, h10⟩ := Option.map_eq_some_iff.1 h11
        simp only [Prod.mk.injEq] at h10
        obtain ⟨rfl, rfl⟩ := h10
        refine ⟨rfl, ?_⟩
        intro r hr
        cases hr
        exact ⟨hne, h1, h5, h7, ⟨mean, var, h9⟩, rfl, h12⟩

/-- The fitter leaves, when it succeeds, a function on the domain of the data, with all of its channels. -/
def FitsOnData (fit : Segments → SMap → RatFn → Option (Bool × RatFn)) : Prop :=
  ∀ d args f f', RationalReady d f → fit d args f = some (true, f') → f'.FittedOn d

/-- The fitters of rational functions. -/
inductive RationalFitter (junk : ℝ) : (Segments → SMap → RatFn → Option (Bool × RatFn)) → Prop
  | eigen (s : EigenSystem) (hs : s.Sound) : RationalFitter junk (eigenFitter s junk)
  | least (s : LeastSquares) (hs : s.Sound) : RationalFitter junk (leastFitter s junk)
  | quadprog (s : Solver) (hs : s.Sound) : RationalFitter junk (quadprogFitter s junk)

theorem RationalFitter.onData {junk : ℝ} {fit : Segments → SMap → RatFn → Option (Bool × RatFn)}
    (h : RationalFitter junk fit) : FitsOnData fit := by
  intro d args f f' hf hfit
  cases h with
  | eigen s hs => exact eigenFit_fitted s hs junk d _ _ f f' hf hfit
  | least s hs => exact leastFit_fitted s hs junk d _ _ _ f f' hf hfit
  | quadprog s hs => exact quadprogFit_fitted s hs junk _ d _ _ _ _ f f' hf hfit

theorem newRational_ready (d : Segments) (hx : 1 ≤ d.store.dimX) : RationalReady d (newRational d.store.toData.par) :=
  ⟨hx, rfl, rfl⟩

/-- A fitted function has a value everywhere. -/
theorem RatFn.FittedOn.value {f : RatFn} {d : Segments} (h : f.FittedOn d) (x : List ℝ) :
    ∃ v, f.value x = some v ∧ v.length = f.dimY := by
  have key : ∀ l : List ℕ, (∀ m ∈ l, m < f.dimY) →
      ∃ v, l.mapM (fun k => ((f.rs[k]?).join).bind fun r => r.value x) = some v ∧ v.length = l.length := by
    intro l
    induction l with
    | nil => intro _; exact ⟨[], rfl, rfl⟩
    | cons m l ih =>
      intro hl
      obtain ⟨v, h1, h2⟩ := ih fun m hm => hl m (List.mem_cons_of_mem _ hm)
      obtain ⟨r, c1, -, -, c4, -⟩ := h.chan m (hl m List.mem_cons_self)
      refine ⟨(polynomial r.dimX r.lo r.hi r.getP x / polynomial r.dimX r.lo r.hi r.getQ x) :: v, ?_, by simp [h2]⟩
      rw [List.mapM_cons, c1, h1]
      simp only [Option.join_some, Option.bind_some, rational_value r c4 x, Option.bind_eq_bind, Option.pure_def]
  obtain ⟨v, h1, h2⟩ := key (List.range f.dimY) (by simp)
  exact ⟨v, h1, by simpa using h2⟩

theorem store_row_length (s : Store ℝ) (hwf : s.WF) (row : List ℝ) (h : row ∈ s.toData.rows) : row.length = s.dimX + s.dimY := by
  obtain ⟨i, hi, rfl⟩ := List.mem_map.1 h
  have hi : i < s.size := List.mem_range.1 hi
  rw [Store.get, if_pos hi, Option.getD_some, List.length_take, List.length_drop, hwf]
  have : s.dimX + s.dimY ≤ s.columns := by unfold Store.columns; omega
  have h2 : s.columns ≤ s.size * s.columns - i * s.columns := by
    rw [← Nat.sub_mul]
    exact Nat.le_mul_of_pos_left _ (by omega)
  omega

/-- A fitted function can be compared with the data. -/
theorem fitted_distanceReady (d : Segments) (hwf : d.store.WF) (f : RatFn) (h : f.FittedOn d) (hin : d.store.input.Named)
    (hdim : inputDim d.store.input = d.store.dimX) :
    DistanceReady (f.evaluable d.store.toData.par) d.store.toData ∧
    ∀ row, (f.evaluable d.store.toData.par).abscissa d.store.toData row = some ((List.range d.store.dimX).map (arr row)) := by
  have habs : ∀ row, (f.evaluable d.store.toData.par).abscissa d.store.toData row =
      some ((List.range d.store.dimX).map (arr row)) := by
    intro row
    show (if d.store.input = .UNKNOWN_INPUT then _ else convertInput (arr row) d.store.input d.store.input) = _
    rw [if_neg (namedInput_ne hin)]
    simp only [convertInput, if_true, hdim, Int.toNat_natCast]
  refine ⟨⟨rfl, store_row_length d.store hwf, fun row _ => ?_⟩, habs⟩
  obtain ⟨v, h1, h2⟩ := h.value ((List.range d.store.dimX).map (arr row))
  exact ⟨_, v, habs row, by simp; rfl, h1, h2.trans h.dimY⟩

/-- C81: when there are samples, no plugin of functions is found and the fit succeeds, the command ends with 0 (without
    `--export`), and the distances that it prints are the root of the mean of the squares and the largest of the absolute
    values of the differences of the samples and the function. -/
theorem data2brdf_rational_ends (dir : Str) (env : Option Str) (fs : Str → Option (Symbols (Provider LobeObj)))
    (fit : Segments → SMap → RatFn → Option (Bool × RatFn)) (hfit : FitsOnData fit) (fmt6 fmt10 fmt : ℝ → Decimal)
    (other : AnyFn → SMap → Option Str) (args : SMap) (ho : args.Ordered) (hx : args.find kExport = none) (d : Segments)
    (hwf : d.store.WF) (hdx : 1 ≤ d.store.dimX) (hin : d.store.input.Named) (hdim : inputDim d.store.input = d.store.dimX)
    (hne : 0 < d.store.size)
    (hg : getFunction dir env fs LobeObj.par args d.store.toData.par = some .rational) (f : RatFn)
    (hf : fit d args (newRational d.store.toData.par) = some (true, f)) :
    ∃ r, data2brdfRational dir env fs fit fmt6 fmt10 fmt other args d = some (0, some r) ∧ r.function = f ∧
      r.l2 = Real.sqrt (meanOver d.store.toData fun row =>
        ∑ i ∈ Finset.range d.store.dimY, (f.evaluable d.store.toData.par).error d.store.toData row i ^ 2) ∧
      (∀ row ∈ d.store.toData.rows, ∀ i < d.store.dimY,
        |(f.evaluable d.store.toData.par).error d.store.toData row i| ≤ r.linf) ∧
      (r.linf = 0 ∨ ∃ row ∈ d.store.toData.rows, ∃ i < d.store.dimY,
        r.linf = |(f.evaluable d.store.toData.par).error d.store.toData row i|) ∧
      r.args = (args.update kL2 (fmt6 r.l2).text).update kLinf (fmt6 r.linf).text ∧
      r.file = saveHeader r.args.getCmd d.store.toData.par ++ (f.saveCall fmt10 ++ ['\n']) := by
  have hfo := hfit d args _ f (newRational_ready d hdx) hf
  obtain ⟨hr, -⟩ := fitted_distanceReady d hwf f hfo hin hdim
  have hrows : d.store.toData.rows ≠ [] := by
    intro h
    have := congrArg List.length h
    simp [Store.toData] at this
    omega
  have e1 := l2_distance _ _ hr hrows
  obtain ⟨li, mean, var, e2, -, e4, e5⟩ := linf_distance _ _ hr
  obtain ⟨l2, hl2⟩ : ∃ l2, l2 = Real.sqrt (meanOver d.store.toData fun row =>
        ∑ i ∈ Finset.range d.store.dimY, (f.evaluable d.store.toData.par).error d.store.toData row i ^ 2) := ⟨_, rfl⟩
  have hk : ((args.update kL2 (fmt6 l2).text).update kLinf (fmt6 li).text).isDefined kExport = false := by
    unfold SMap.isDefined
    rw [SMap.find_update (SMap.Ordered.update ho _ _), if_neg (by decide), SMap.find_update ho, if_neg (by decide), hx]
    rfl
  refine ⟨⟨f, l2, li, (args.update kL2 (fmt6 l2).text).update kLinf (fmt6 li).text,
    saveHeader ((args.update kL2 (fmt6 l2).text).update kLinf (fmt6 li).text).getCmd d.store.toData.par ++
      (f.saveCall fmt10 ++ ['\n'])⟩, ?_, rfl, hl2, e4, e5, rfl, rfl⟩
  unfold data2brdfRational
  simp only [hg, Option.bind_some, if_neg hrows, hf, if_true]
  have e1' : l2Distance (f.evaluable d.store.toData.par) d.store.toData = some l2 := by rw [hl2]; exact e1
  rw [e1', Option.bind_some, e2, Option.bind_some]
  simp only [AnyFn.save, hk, if_true, AnyFn.altaText, Option.map_some, AnyFn.par]

/-! ### The file -/

/-- What the file gives back: a rational function with the parametrization of the data (but for the output), the bounds and
    the coefficients of the fitted function as they are printed (divided by a common factor); with the same values and
    the same distances to the data when the printing is exact. -/
def FittedRational.GivesBack (r : FittedRational) (junk : ℝ) (fmt10 : ℝ → Decimal) (dir : Str) (env : Option Str)
    (fs : Str → Option (Symbols (Provider LobeObj))) (d : Segments) : Prop :=
  ∃ g, loadAny junk dir env fs r.file =
      some (some (.rational (d.store.toData.par.withOutput .UNKNOWN_OUTPUT) g)) ∧
    g.dimX = d.store.dimX ∧ g.dimY = d.store.dimY ∧ g.lo = (List.range d.store.dimX).map (fun k => printed fmt10 (arr d.min k)) ∧
    g.hi = (List.range d.store.dimX).map (fun k => printed fmt10 (arr d.max k)) ∧
    (∀ m < d.store.dimY, ∃ c c', r.function.rs[m]? = some (some c) ∧ g.rs[m]? = some (some c') ∧
      ReadFrom fmt10 c c' (inflate g.lo g.hi)) ∧
    ((∀ x ∈ d.min ++ d.max, printed fmt10 x = x) →
      (∀ (m : ℕ) (c : Rat1), r.function.rs[m]? = some (some c) → ∀ a ∈ c.getP ++ c.getQ, printed fmt10 a = a) →
      (∀ x, g.value x = r.function.value x) ∧
      l2Distance (g.evaluable (d.store.toData.par.withOutput .UNKNOWN_OUTPUT)) d.store.toData = some r.l2 ∧
      ∃ mean var, linfDistance (g.evaluable (d.store.toData.par.withOutput .UNKNOWN_OUTPUT)) d.store.toData =
        some (r.linf, mean, var))

/-- C81: with one of the fitters of rational functions, when the command succeeds (without `--export`) the file gives back
    the function that was fitted. -/
theorem data2brdf_rational_file (junk : ℝ) (dir : Str) (env : Option Str) (fs : Str → Option (Symbols (Provider LobeObj)))
    (fit : Segments → SMap → RatFn → Option (Bool × RatFn)) (hfit : FitsOnData fit) (fmt6 fmt10 fmt : ℝ → Decimal)
    (h6 : PrintsNonneg fmt6) (h10 : PrintsDigits fmt10)
    (other : AnyFn → SMap → Option Str) (args : SMap) (ho : args.Ordered) (ha : CmdMap args) (hx : args.find kExport = none)
    (d : Segments) (hdx : 1 ≤ d.store.dimX) (hin : d.store.input.Named) (hlo : d.min.length = d.store.dimX)
    (hhi : d.max.length = d.store.dimX) (r : FittedRational)
    (h : data2brdfRational dir env fs fit fmt6 fmt10 fmt other args d = some (0, some r)) :
    r.GivesBack junk fmt10 dir env fs d := by
  obtain ⟨-, h2⟩ := data2brdf_rational_outcome dir env fs fit fmt6 fmt10 fmt other args d 0 (some r) h
  obtain ⟨hne, g1, g2, g3, ⟨mean, var, g4⟩, g5, g6⟩ := h2 r rfl
  have hf := hfit d args _ _ (newRational_ready d hdx) g2
  obtain ⟨cs, c1, c2, c3⟩ := hf.channels
  obtain ⟨-, hall⟩ := getFunction_rational dir env fs args _ g1
  obtain ⟨a1, a2, a3, -, -⟩ := args_saved args ho ha fmt6 h6 r.l2 r.linf (l2_nonneg _ _ _ g3) (linf_nonneg _ _ _ g4)
  rw [← g5] at a1 a2 a3
  have hexp : r.args.isDefined kExport = false := by
    unfold SMap.isDefined
    rw [a3 _ (by decide) (by decide), hx]
    rfl
  have hall' : ∀ q, getFunction dir env fs LobeObj.par r.args q = some .rational := by
    intro q
    rw [← hall q]
    exact getFunction_congr dir env fs LobeObj.par r.args args q (a3 _ (by decide) (by decide)) (a3 _ (by decide) (by decide))
      (a3 _ (by decide) (by decide)) (a3 _ (by decide) (by decide))
  have hfile : r.file = saveHeader r.args.getCmd d.store.toData.par ++ (r.function.saveCall fmt10 ++ ['\n']) := by
    simp only [AnyFn.save, hexp, if_true, AnyFn.altaText, Option.map_some, AnyFn.par, Option.some.injEq] at g6
    exact g6.symm
  have hload : ∀ g, (newRational d.store.toData.par).load junk (r.function.saveCall fmt10 ++ ['\n']) = some g →
      loadAny junk dir env fs r.file = some (some (.rational (d.store.toData.par.withOutput .UNKNOWN_OUTPUT) g)) := by
    intro g hg
    rw [hfile, loadAny_rational junk dir env fs r.args a1 a2 _ hin _ hall']
    have := RatFn.load_skippable junk (newRational d.store.toData.par) newlines_one.skippable
      (r.function.saveCall fmt10 ++ ['\n'])
    rw [show '\n' :: (r.function.saveCall fmt10 ++ ['\n']) = ['\n'] ++ (r.function.saveCall fmt10 ++ ['\n']) from rfl, this,
      hg]
    rfl
  have hnone : ∀ k : ℕ, ((newRational d.store.toData.par).rs[k]?).join = none := by
    intro k
    show ((List.replicate d.store.toData.par.dimY none)[k]?).join = none
    rw [List.getElem?_replicate]
    split <;> rfl
  obtain ⟨g, l1, l2, l3, l4, l5, l6, l7⟩ := rational_file_round_trip junk fmt10 h10 r.function (newRational d.store.toData.par) cs
    c1 c2 (fun r hr => ⟨(c3 r hr).1, (c3 r hr).2.1⟩)
    ⟨hdx, by simp [newRational], fun k r hk => by have := hnone k; rw [hk] at this; cases this⟩ hf.dimX.symm hf.dimY.symm ['\n']
  refine ⟨g, hload g l1, l3.trans hf.dimX, l4.trans hf.dimY, by rw [l5, hf.lo, hf.dimX], by rw [l6, hf.hi, hf.dimX], ?_, ?_⟩
  · intro m hm
    have hm' : m < cs.length := by rw [c2, hf.dimY]; exact hm
    obtain ⟨c', k1, -, -, k2⟩ := l7 m cs[m] (List.getElem?_eq_getElem hm')
    refine ⟨cs[m], c', ?_, k1, ?_⟩
    · rw [c1, List.getElem?_map, List.getElem?_eq_getElem hm']
      rfl
    · rw [hnone m] at k2
      exact k2
  · intro hb he
    obtain ⟨g', k1, k2⟩ := rational_file_same_value junk fmt10 h10 r.function (newRational d.store.toData.par) cs c1 c2 c3
      (by rw [hf.lo, hf.dimX]; exact hlo) (by rw [hf.hi, hf.dimX]; exact hhi) (by rw [hf.lo, hf.hi]; exact hb)
      (by
        intro c hc a haa
        obtain ⟨m, hm, rfl⟩ := List.getElem_of_mem hc
        refine he m cs[m] (by rw [c1, List.getElem?_map, List.getElem?_eq_getElem hm]; rfl) a.a ?_
        rcases List.mem_append.1 haa with h | h
        · exact List.mem_append_left _ (List.mem_map_of_mem h)
        · exact List.mem_append_right _ (List.mem_map_of_mem h))
      (by rw [hf.dimX]; exact hdx) hf.dimX.symm hf.dimY.symm (by rw [hf.dimY]; rfl) ['\n']
    rw [l1] at k1
    cases k1
    have e : g.evaluable (d.store.toData.par.withOutput .UNKNOWN_OUTPUT) =
        ⟨d.store.toData.par.withOutput .UNKNOWN_OUTPUT, r.function.value⟩ := by
      unfold RatFn.evaluable
      rw [funext k2]
    refine ⟨k2, ?_, mean, var, ?_⟩
    · rw [e]; exact g3
    · rw [e]; exact g4

/-! ### Refusals -/

/-- C81: a nonlinear function, or data without samples, is refused with the exit code 1 (when the program ends), whatever the
    fitter. -/
theorem data2brdf_rational_refuses (dir : Str) (env : Option Str) (fs : Str → Option (Symbols (Provider LobeObj)))
    (fit : Segments → SMap → RatFn → Option (Bool × RatFn)) (fmt6 fmt10 fmt : ℝ → Decimal)
    (other : AnyFn → SMap → Option Str) (args : SMap) (d : Segments) (code : ℕ) (out : Option FittedRational)
    (h : data2brdfRational dir env fs fit fmt6 fmt10 fmt other args d = some (code, out))
    (hbad : d.store.size = 0 ∨ getFunction dir env fs LobeObj.par args d.store.toData.par ≠ some .rational) :
    code = 1 ∧ out = none := by
  obtain ⟨h1, h2⟩ := data2brdf_rational_outcome dir env fs fit fmt6 fmt10 fmt other args d code out h
  cases out with
  | none => exact ⟨h1, rfl⟩
  | some r =>
    exfalso
    obtain ⟨g1, g2, -⟩ := h2 r rfl
    rcases hbad with h | h
    · exact g1 (by simp [Store.toData, h])
    · exact h g2

/-- C81: the three fitters refuse data without intervals, or with symmetrical ones: the exit code is 1, and nothing is
    written. -/
theorem data2brdf_intervals_needed (dir : Str) (env : Option Str) (fs : Str → Option (Symbols (Provider LobeObj))) (junk : ℝ)
    (fit : Segments → SMap → RatFn → Option (Bool × RatFn)) (hfit : RationalFitter junk fit) (fmt6 fmt10 fmt : ℝ → Decimal)
    (other : AnyFn → SMap → Option Str) (args : SMap) (d : Segments) (hk : d.store.kind ≠ .asymmetrical)
    (hg : getFunction dir env fs LobeObj.par args d.store.toData.par = some .rational) :
    data2brdfRational dir env fs fit fmt6 fmt10 fmt other args d = some (1, none) := by
  have hno : ∃ f, fit d args (newRational d.store.toData.par) = some (false, f) := by
    cases hfit with
    | eigen s hs => unfold eigenFitter eigenRationalFit; rw [if_pos hk]; exact ⟨_, rfl⟩
    | least s hs => unfold leastFitter leastSquareFit; rw [if_pos hk]; exact ⟨_, rfl⟩
    | quadprog s hs => unfold quadprogFitter quadprogFit; rw [if_pos hk]; exact ⟨_, rfl⟩
  obtain ⟨f, hf⟩ := hno
  unfold data2brdfRational
  simp only [hg, Option.bind_some, hf]
  split <;> rfl

end
end Alta
