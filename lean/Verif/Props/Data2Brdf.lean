import Verif.Spec.Data2Brdf
import Verif.Props.FunctionFileFlow
import Verif.Props.FitterOptions
import Verif.Props.NonlinearFitRunLimits
import Verif.Props.Distance
/-
C69: the command `data2brdf`.
-/
namespace Alta
noncomputable section

variable {L : Type}
theorem fresnelStage_congr (dir : Str) (env : Option Str) (fs : Str → Option (Symbols (Provider L)))
    (parOf : L → Par) (args args' : SMap) (p : Par) (func : Made L)
    (h2 : args.find kFresnel = args'.find kFresnel)
    (h3 : args.find kFixedLobe = args'.find kFixedLobe) (h4 : args.find kFixedFresnel = args'.find kFixedFresnel) :
    fresnelStage dir env fs parOf args p func = fresnelStage dir env fs parOf args' p func := by
  unfold fresnelStage fresnelText SMap.isVec SMap.get SMap.isDefined
  rw [h2, h3, h4]

theorem getFunction_congr (dir : Str) (env : Option Str) (fs : Str → Option (Symbols (Provider L)))
    (parOf : L → Par) (args args' : SMap) (p : Par)
    (h1 : args.find kFunc = args'.find kFunc) (h2 : args.find kFresnel = args'.find kFresnel)
    (h3 : args.find kFixedLobe = args'.find kFixedLobe) (h4 : args.find kFixedFresnel = args'.find kFixedFresnel) :
    getFunction dir env fs parOf args p = getFunction dir env fs parOf args' p := by
  have hd : args.isDefined kFresnel = args'.isDefined kFresnel := by unfold SMap.isDefined; rw [h2]
  have hf := fun func => fresnelStage_congr dir env fs parOf args args' p func h2 h3 h4
  have hv : args.isVec kFunc = args'.isVec kFunc := by unfold SMap.isVec; rw [h1]
  have hs : args.getVecStr kFunc = args'.getVecStr kFunc := by unfold SMap.getVecStr; rw [h1]
  have hg : args.get kFunc = args'.get kFunc := by unfold SMap.get; rw [h1]
  cases e : args.find kFunc with
  | none =>
    rw [getFunction_none _ _ _ _ args _ (by unfold SMap.isDefined; rw [e]; rfl),
      getFunction_none _ _ _ _ args' _ (by unfold SMap.isDefined; rw [← h1, e]; rfl)]
  | some n =>
    by_cases hn : ∃ r, n = '[' :: r
    · have hvt : args.isVec kFunc = true := by
        obtain ⟨r, rfl⟩ := hn
        unfold SMap.isVec
        rw [e]
        rfl
      by_cases hne : args.getVecStr kFunc = []
      · rw [getFunction.eq_def dir env fs parOf args p, getFunction.eq_def dir env fs parOf args' p]
        have d1 : args.isDefined kFunc = true := by unfold SMap.isDefined; rw [e]; rfl
        have d2 : args'.isDefined kFunc = true := by unfold SMap.isDefined; rw [← h1, e]; rfl
        have g1 : args.get kFunc ≠ [] := by
          obtain ⟨r, rfl⟩ := hn
          unfold SMap.get; rw [e]; simp
        simp only [d1, d2, g1, hg ▸ g1, hvt, hv ▸ hvt, hne, hs ▸ hne, if_true, dif_neg, Bool.true_eq_false, if_false,
          not_false_eq_true, Bool.true_or]
      · rw [getFunction_vec _ _ _ _ args _ hvt hne, getFunction_vec _ _ _ _ args' _ (hv ▸ hvt) (hs ▸ hne), ← hs, ← hd]
        simp only [hf]
    · rw [getFunction_name _ _ _ _ args _ n e (fun r hr => hn ⟨r, hr⟩),
        getFunction_name _ _ _ _ args' _ n (h1 ▸ e) (fun r hr => hn ⟨r, hr⟩), ← hd]
      simp only [hf]

/-! ### The arguments saved -/

theorem showInt_nospace (z : ℤ) : ∀ c ∈ showInt z, isSpace c = false := by
  intro c hc
  unfold showInt at hc
  split at hc
  · rcases List.mem_cons.1 hc with rfl | hc
    · decide
    · obtain ⟨d, hd, rfl⟩ := showNat_digits _ c hc
      exact (digitChar_spec d hd).2.2.1
  · obtain ⟨d, hd, rfl⟩ := showNat_digits _ c hc
    exact (digitChar_spec d hd).2.2.1

/-- The text of a number that is not negative is a value of a command line. -/
theorem text_cmdValue (d : Decimal) (h1 : d.neg = false) (h2 : d.ip ≠ []) : CmdValue d.text := by
  have hdig : ∀ (l : List (Fin 10)), ∀ c ∈ showDigits l, ∃ k : ℕ, k < 10 ∧ c = digitChar k := by
    intro l c hc
    unfold showDigits at hc
    obtain ⟨k, -, rfl⟩ := List.mem_map.1 hc
    exact ⟨k.val, k.isLt, rfl⟩
  have hip : ∃ c r, showDigits d.ip = c :: r := by
    cases e : showDigits d.ip with
    | nil => exact absurd (by simpa [showDigits] using e) h2
    | cons c r => exact ⟨c, r, rfl⟩
  obtain ⟨c, r, hcr⟩ := hip
  obtain ⟨k, hk, hck⟩ := hdig d.ip c (by rw [hcr]; simp)
  have hd := digitChar_spec k hk
  have htext : d.text = c :: (r ++ ((if d.fp = [] then [] else '.' :: showDigits d.fp) ++
      expText d.exp)) := by
    unfold Decimal.text expText
    rw [h1, hcr]
    simp only [Bool.false_eq_true, if_false, List.nil_append, List.cons_append, List.append_assoc]
    rfl
  have hbr : digitChar k ≠ '[' := by
    intro h
    rw [h] at hd
    have := hd.1
    revert this
    decide
  refine CmdValue.word _ ⟨by rw [htext]; simp, ?_⟩ ?_ ?_
  · intro x hx
    have hx' : x ∈ showDigits d.ip ∨ x ∈ (if d.fp = [] then [] else '.' :: showDigits d.fp) ∨
        x ∈ expText d.exp := by
      rw [htext, ← List.cons_append, ← hcr, List.mem_append, List.mem_append] at hx
      exact hx
    rcases hx' with hx | hx | hx
    · obtain ⟨k, hk, rfl⟩ := hdig _ x hx
      exact (digitChar_spec k hk).2.2.1
    · split at hx
      · cases hx
      · rcases List.mem_cons.1 hx with rfl | hx
        · decide
        · obtain ⟨k, hk, rfl⟩ := hdig _ x hx
          exact (digitChar_spec k hk).2.2.1
    · unfold expText at hx
      split at hx
      · cases hx
      · rcases List.mem_cons.1 hx with rfl | hx
        · decide
        · exact showInt_nospace _ x hx
  · intro s hs
    rw [htext, hck] at hs
    exact hd.2.2.2.1 (List.cons.inj hs).1
  · rintro ⟨s, hs⟩
    rw [htext, hck] at hs
    exact absurd (List.cons.inj hs).1 hbr

theorem cmdMap_update (args : SMap) (ha : CmdMap args) (k v : Str) (hk : IsWord k) (hv : CmdValue v) :
    CmdMap (args.update k v) := by
  intro e he
  rcases SMap.mem_update he with rfl | he
  · exact ⟨hk, hv⟩
  · exact ha e he

theorem l2_nonneg (g : Evaluable) (d : Data) (l2 : ℝ) (h : l2Distance g d = some l2) : 0 ≤ l2 := by
  unfold l2Distance at h
  split at h
  · cases h
  · split at h
    · cases h
    · cases h; exact Real.sqrt_nonneg _

theorem maxErrors_nonneg (es : List (List ℝ)) (m : ℝ) (h : 0 ≤ m) : 0 ≤ es.foldl maxError m := by
  induction es generalizing m with
  | nil => exact h
  | cons e es ih =>
    refine ih _ ?_
    unfold maxError
    clear ih
    induction e generalizing m with
    | nil => exact h
    | cons x e ih => exact ih _ (le_max_of_le_left h)

theorem linf_nonneg (g : Evaluable) (d : Data) (r : ℝ × List ℝ × List ℝ) (h : linfDistance g d = some r) : 0 ≤ r.1 := by
  unfold linfDistance at h
  split at h
  · cases h
  · split at h
    · cases h
    · cases h
      exact maxErrors_nonneg _ 0 le_rfl

/-- The arguments that are saved: those of the command, and the two distances. -/
theorem args_saved (args : SMap) (ho : args.Ordered) (ha : CmdMap args) (fmt6 : ℝ → Decimal) (h6 : PrintsNonneg fmt6)
    (a b : ℝ) (h1 : 0 ≤ a) (h2 : 0 ≤ b) :
    ((args.update kL2 (fmt6 a).text).update kLinf (fmt6 b).text).Ordered ∧
    CmdMap ((args.update kL2 (fmt6 a).text).update kLinf (fmt6 b).text) ∧
    (∀ k, k ≠ kL2 → k ≠ kLinf →
      ((args.update kL2 (fmt6 a).text).update kLinf (fmt6 b).text).find k = args.find k) ∧
    ((args.update kL2 (fmt6 a).text).update kLinf (fmt6 b).text).find kL2 = some (fmt6 a).text ∧
    ((args.update kL2 (fmt6 a).text).update kLinf (fmt6 b).text).find kLinf = some (fmt6 b).text := by
  have o1 := SMap.Ordered.update ho kL2 (fmt6 a).text
  have w1 : IsWord kL2 := ⟨by decide, by unfold kL2; decide⟩
  have w2 : IsWord kLinf := ⟨by decide, by unfold kLinf; decide⟩
  have hne : kL2 ≠ kLinf := by decide
  refine ⟨SMap.Ordered.update o1 _ _, cmdMap_update _ (cmdMap_update _ ha _ _ w1
    (text_cmdValue _ (h6 a h1).1 (h6 a h1).2)) _ _ w2 (text_cmdValue _ (h6 b h2).1 (h6 b h2).2), ?_, ?_, ?_⟩
  · intro k k1 k2
    rw [SMap.find_update o1, SMap.find_update ho]
    rw [if_neg (by tauto), if_neg (by tauto)]
  · rw [SMap.find_update o1, SMap.find_update ho]
    simp [hne, hne.symm]
  · rw [SMap.find_update o1]
    simp

/-! ### The run -/

/-- The data are not changed when there are samples. -/
theorem checkCompatibility_data (args : SMap) (d d' : Data) (f f' : FT LobeObj) (hne : d.rows ≠ [])
    (h : checkCompatibility args d f = some (f', d')) : d' = d ∧ (f'.par LobeObj.par).dimY = d.dimY := by
  unfold checkCompatibility at h
  simp only [] at h
  obtain ⟨r, h1, h2⟩ := Option.bind_eq_some_iff.1 h
  have hr : r = (f', d') ∧ (r.1.par LobeObj.par).dimY = r.2.dimY := by
    split at h2
    · cases h2; exact ⟨rfl, by assumption⟩
    · cases h2
  obtain ⟨rfl, h3⟩ := hr
  have : d' = d := by
    split at h1
    · cases h1; rfl
    · split at h1
      · cases h1; rfl
      · split at h1
        · unfold dataParams at h1
          rw [if_neg (by simpa using hne)] at h1
          cases h1
        · cases h1; rfl
  rw [this] at h3
  exact ⟨this, h3⟩

/-- C69: the exit code is 0 exactly when a file is written, and else 1; a file is written when there are samples, the
    function asked for is a nonlinear function and the fit succeeds: it is the function that the fitter left, with the
    distances to the data in its arguments. -/
theorem data2brdf_outcome (dir : Str) (env : Option Str) (fs : Str → Option (Symbols (Provider LobeObj)))
    (fit : Data → SMap → FT LobeObj → Option (Bool × FT LobeObj)) (fmt6 fmt : ℝ → Decimal) (args : SMap) (d : Data)
    (code : ℕ) (out : Option FittedFile) (h : data2brdf dir env fs fit fmt6 fmt args d = some (code, out)) :
    (code = if out.isSome then 0 else 1) ∧
    ∀ r, out = some r → d.rows ≠ [] ∧
      ∃ f f1, getFunction dir env fs LobeObj.par args ⟨d.dimX, d.dimY, d.input, d.output⟩ = some (.nonlinear f) ∧
        checkCompatibility args d f = some (f1, d) ∧ fit d args f1 = some (true, r.function) ∧
        l2Distance r.function.toFn.evaluable d = some r.l2 ∧
        (∃ mean var, linfDistance r.function.toFn.evaluable d = some (r.linf, mean, var)) ∧
        r.args = (args.update kL2 (fmt6 r.l2).text).update kLinf (fmt6 r.linf).text ∧
        saveFunction fmt r.args r.function = some r.file := by
  unfold data2brdf at h
  obtain ⟨m, h1, h2⟩ := Option.bind_eq_some_iff.1 h
  cases m with
  | null => simp only [Option.some.injEq, Prod.mk.injEq] at h2; obtain ⟨rfl, rfl⟩ := h2; simp
  | rational => simp only [Option.some.injEq, Prod.mk.injEq] at h2; obtain ⟨rfl, rfl⟩ := h2; simp
  | linear l =>
    simp only [] at h2
    split at h2
    · simp only [Option.some.injEq, Prod.mk.injEq] at h2; obtain ⟨rfl, rfl⟩ := h2; simp
    · obtain ⟨-, -, h3⟩ := Option.map_eq_some_iff.1 h2
      simp only [Prod.mk.injEq] at h3; obtain ⟨rfl, rfl⟩ := h3; simp
  | nonlinear f =>
    simp only [] at h2
    split at h2
    · simp only [Option.some.injEq, Prod.mk.injEq] at h2; obtain ⟨rfl, rfl⟩ := h2; simp
    · rename_i hne
      obtain ⟨⟨f1, d'⟩, h3, h4⟩ := Option.bind_eq_some_iff.1 h2
      obtain ⟨rfl, -⟩ := checkCompatibility_data args d d' f f1 hne h3
      obtain ⟨⟨ok, f2⟩, h5, h6⟩ := Option.bind_eq_some_iff.1 h4
      cases ok with
      | false => simp at h6; obtain ⟨rfl, rfl⟩ := h6; simp
      | true =>
        simp only [if_true] at h6
        obtain ⟨l2, h7, h8⟩ := Option.bind_eq_some_iff.1 h6
        obtain ⟨⟨li, mean, var⟩, h9, h11⟩ := Option.bind_eq_some_iff.1 h8
        obtain ⟨file, h12, h10⟩ := Option.map_eq_some_iff.1 h11
        simp only [Prod.mk.injEq] at h10
        obtain ⟨rfl, rfl⟩ := h10
        refine ⟨rfl, ?_⟩
        intro r hr
        cases hr
        exact ⟨hne, f, f1, h1, h3, h5, h7, ⟨mean, var, h9⟩, rfl, h12⟩

/-! ### The file -/

theorem LobeObj.kept_canRead (l0 l : LobeObj) (hk : l0.Kept l) (hw : l0.WrittenWhole l) : l0.CanRead l := by
  obtain ⟨hi, h1, h2, h3, h4⟩ := hk
  have hpar : ¬ l0.IsAbc → l0.toFn.par = l.toFn.par := by
    intro h
    have e := h4 h
    cases hp : l0.toFn.par
    cases hq : l.toFn.par
    rw [hp, hq] at h1 h2 h3 e
    simp only at h1 h2 h3 e
    rw [h1, h2, h3, e]
  cases l0 <;> cases l <;> simp only [LobeObj.ctorIdx, reduceCtorEq, Nat.reduceEqDiff] at hi <;>
    simp only [LobeObj.WrittenWhole, LobeObj.CanRead] at hw ⊢
  case abc.abc s0 s =>
    refine ⟨?_, hw⟩
    have e1 : s.par.dimX = s0.par.dimX := h1
    have e2 : s.par.dimY = s0.par.dimY := h2
    have e3 : s.par.output = s0.par.output := h3
    cases hp : s0.par
    cases hq : s.par
    rw [hp, hq] at e1 e2 e3
    simp only at e1 e2 e3
    rw [e1, e2, e3]
  case sg.sg s0 s => exact ⟨hpar (fun h => h), hw⟩
  case lafortune.lafortune s0 s => exact ⟨hpar (fun h => h), hw⟩
  all_goals exact hpar (fun h => h)

mutual
theorem FT.kept_canRead : ∀ f0 f : FT LobeObj, f0.Kept f → f0.WrittenWhole f → f0.CanRead f
  | .leaf l0, .leaf l, hk, hw => LobeObj.kept_canRead l0 l hk hw
  | .compound _ fs0, .compound _ fs, hk, hw => ⟨hk.1, hw.1, FTs.kept_canRead fs0 fs hk.2 hw.2⟩
  | .product _ f0 g0 _ _, .product _ f g _ _, hk, hw =>
    ⟨hk.1, hk.2.1, hk.2.2.1, FT.kept_canRead f0 f hk.2.2.2.1 hw.1, FT.kept_canRead g0 g hk.2.2.2.2 hw.2⟩
  | .leaf _, .compound _ _, hk, _ => by simp only [FT.Kept] at hk
  | .leaf _, .product _ _ _ _ _, hk, _ => by simp only [FT.Kept] at hk
  | .compound _ _, .leaf _, hk, _ => by simp only [FT.Kept] at hk
  | .compound _ _, .product _ _ _ _ _, hk, _ => by simp only [FT.Kept] at hk
  | .product _ _ _ _ _, .leaf _, hk, _ => by simp only [FT.Kept] at hk
  | .product _ _ _ _ _, .compound _ _, hk, _ => by simp only [FT.Kept] at hk
theorem FTs.kept_canRead : ∀ fs0 fs : FTs LobeObj, fs0.Kept fs → fs0.WrittenWhole fs → fs0.CanRead fs
  | .nil, .nil, _, _ => trivial
  | .cons a f0 r0, .cons b f r, hk, hw =>
    ⟨by rw [hk.1], FT.kept_canRead f0 f hk.2.1 hw.1, FTs.kept_canRead r0 r hk.2.2 hw.2⟩
  | .nil, .cons _ _ _, hk, _ => by simp only [FTs.Kept] at hk
  | .cons _ _ _, .nil, hk, _ => by simp only [FTs.Kept] at hk
end

end
end Alta
