import Verif.Model.Brdf2Brdf
import Verif.Props.FunctionFileFlow
import Verif.Props.RationalFile
/-
C78: the program brdf2brdf.
-/
namespace Alta
noncomputable section

/-! ### Loading -/

/-- `loadAny` and `loadFunction` (C56) agree on nonlinear functions. -/
theorem loadAny_nonlinear (junk : ℝ) (dir : Str) (env : Option Str) (fs : Str → Option (Symbols (Provider LobeObj)))
    (file : Str) (f : FT LobeObj) (h : loadFunction dir env fs file = some (some f)) :
    loadAny junk dir env fs file = some (some (.nonlinear f)) := by
  unfold loadFunction at h
  unfold loadAny
  simp only at h ⊢
  split at h
  · cases h
  · rename_i h0
    rw [if_neg h0]
    split at h
    · cases h
    · rename_i dim hd
      simp only [hd]
      split at h
      · cases h
      · rename_i a hargs
        simp only [hargs]
        split at h
        · rename_i g hg
          simp only [hg]
          split at h
          · rename_i hl
            rw [if_pos hl]
            simp only [Option.some.injEq] at h ⊢
            rw [h]
          · cases h
        · cases h

/-- What is loaded from a file of which the header is `args` and `p`, and of which the rest is `body`. -/
theorem loadAny_saved (junk : ℝ) (dir : Str) (env : Option Str) (fs : Str → Option (Symbols (Provider LobeObj)))
    (args : SMap) (ho : args.Ordered) (ha : CmdMap args) (p : Par) (hin : p.input.Named) (body : Str) :
    (args.isDefined kFunc = false → loadAny junk dir env fs (saveHeader args.getCmd p ++ body) =
      some (((newRational p).load junk ('\n' :: body)).map (AnyFn.rational (p.withOutput .UNKNOWN_OUTPUT)))) := by
  intro hfunc
  obtain ⟨l2, m, h1, h2, h3, h4, h5, h6⟩ := header_saved args ho ha p body hin
  have hg : ∀ q, getFunction dir env fs LobeObj.par args q = some .rational := by
    intro q
    rw [getFunction.eq_def, if_pos hfunc]
  unfold loadAny
  simp only [h1, h2, h3, h4, h5, h6, hg, ne_eq, not_true_eq_false, if_false]
  have hp : (⟨(p.dimX : ℤ).toNat, (p.dimY : ℤ).toNat, p.input, .UNKNOWN_OUTPUT⟩ : Par) =
      p.withOutput .UNKNOWN_OUTPUT := by simp [Par.withOutput]
  rw [hp]
  rfl

/-! ### The text of a nonlinear function is not the one of a rational function -/

/-- The text is empty, or starts with the name of a class that is not the rational function. -/
def Foreign (t : Str) : Prop :=
  t = [] ∨ ∃ name rest, IsWord name ∧ name ≠ "rational_function".toList ∧ t = funcLine name ++ rest

theorem Foreign.append {a b : Str} (ha : Foreign a) (hb : Foreign b) : Foreign (a ++ b) := by
  rcases ha with rfl | ⟨n, r, h1, h2, rfl⟩
  · exact hb
  · exact Or.inr ⟨n, r ++ b, h1, h2, by rw [List.append_assoc]⟩

theorem foreign_line (n r : Str) (h : IsWord n ∧ n ≠ "rational_function".toList) : Foreign (funcLine n ++ r) :=
  Or.inr ⟨n, r, h.1, h.2, rfl⟩

theorem LobeObj.saveCall_foreign (fmt : ℝ → Decimal) (l : LobeObj) : Foreign (l.saveCall fmt) := by
  cases l
  case sgd => exact Or.inl rfl
  all_goals
    simp only [LobeObj.saveCall, List.append_assoc]
    exact foreign_line _ _ ⟨⟨by decide, by decide⟩, by decide⟩

mutual
theorem FT.saveCall_foreign (fmt : ℝ → Decimal) : ∀ f : FT LobeObj, Foreign (f.saveCall fmt)
  | .leaf l => by simp only [FT.saveCall]; exact l.saveCall_foreign fmt
  | .compound _ fs => by simp only [FT.saveCall]; exact fs.saveCall_foreign fmt
  | .product _ f g _ _ => by
    simp only [FT.saveCall]; exact (f.saveCall_foreign fmt).append (g.saveCall_foreign fmt)
theorem FTs.saveCall_foreign (fmt : ℝ → Decimal) : ∀ fs : FTs LobeObj, Foreign (fs.saveCall fmt)
  | .nil => by simp only [FTs.saveCall]; exact Or.inl rfl
  | .cons _ f rest => by
    simp only [FTs.saveCall]; exact (f.saveCall_foreign fmt).append (rest.saveCall_foreign fmt)
end

theorem skipToHash_line (l rest : Str) (h1 : ∀ r, l ≠ '#' :: r) (h2 : '\n' ∉ l) (h3 : l.length ≤ 255) :
    skipToHash (l ++ '\n' :: rest) = skipToHash rest := by
  obtain ⟨e1, e2⟩ := takeWhile_line l rest h2
  rw [skipToHash.eq_def]
  split
  · rename_i r heq
    cases l with
    | nil => simp at heq
    | cons c l => simp only [List.cons_append, List.cons.injEq] at heq; exact absurd (by rw [heq.1]) (h1 l)
  · rename_i heq; simp at heq
  · rename_i c r _ heq
    rw [heq] at e1 e2
    simp only [e1]
    rw [if_neg (by omega)]
    split
    · rename_i h; rw [e2] at h; cases h
    · rename_i h; rw [e2] at h; cases h; rfl

theorem skipToHash_long (l rest : Str) (h1 : ∀ r, l ≠ '#' :: r) (h2 : '\n' ∉ l) (h3 : 255 < l.length) :
    skipToHash (l ++ '\n' :: rest) = none := by
  obtain ⟨e1, -⟩ := takeWhile_line l rest h2
  rw [skipToHash.eq_def]
  split
  · rename_i r heq
    cases l with
    | nil => simp at h3
    | cons c l => simp only [List.cons_append, List.cons.injEq] at heq; exact absurd (by rw [heq.1]) (h1 l)
  · rename_i heq; simp at heq
  · rename_i c r _ heq
    rw [heq] at e1
    simp only [e1]
    rw [if_pos h3]

theorem skipToHash_skippable {pre : Str} (h : Skippable pre) (rest : Str) :
    skipToHash (pre ++ rest) = skipToHash rest := by
  induction h with
  | nil => rfl
  | line l r h1 h2 h3 _ ih =>
    have : l ++ '\n' :: r ++ rest = l ++ '\n' :: (r ++ rest) := by simp
    rw [this, skipToHash_line l _ h1 h2 h3, ih]

/-- C78 (limit).  A rational function is not read when one of the lines before it (comments, header) has more than 255
    characters. -/
theorem rational_long_line (junk : ℝ) (f : RatFn) {pre : Str} (h : Skippable pre) (l rest : Str) (h1 : ∀ r, l ≠ '#' :: r)
    (h2 : '\n' ∉ l) (h3 : 255 < l.length) : f.load junk (pre ++ (l ++ '\n' :: rest)) = none := by
  unfold RatFn.load loadHead
  rw [skipToHash_skippable h, skipToHash_long l rest h1 h2 h3]

/-- a line of more than 255 characters after a comment -/
example (junk : ℝ) (f : RatFn) (n : ℕ) (hn : 255 < n) (rest : Str) :
    f.load junk ((['x'] ++ '\n' :: []) ++ (List.replicate n 'a' ++ '\n' :: rest)) = none :=
  rational_long_line junk f (.line ['x'] [] (by simp) (by decide) (by decide) .nil) _ rest
    (by
      intro r h
      have : '#' ∈ List.replicate n 'a' := by rw [h]; simp
      exact absurd (List.eq_of_mem_replicate this) (by decide))
    (fun h => absurd (List.eq_of_mem_replicate h) (by decide)) (by rw [List.length_replicate]; exact hn)

theorem RatFn.load_skippable (junk : ℝ) (f : RatFn) {pre : Str} (h : Skippable pre) (rest : Str) :
    f.load junk (pre ++ rest) = f.load junk rest := by
  unfold RatFn.load loadHead
  rw [skipToHash_skippable h]

/-- A rational function refuses the text of a nonlinear function. -/
theorem RatFn.load_foreign (junk : ℝ) (g : RatFn) (t : Str) (h : Foreign t) : g.load junk (t ++ ['\n']) = none := by
  rcases h with rfl | ⟨n, r, h1, h2, rfl⟩
  · have : skipToHash (([] : Str) ++ ['\n']) = none := by
      rw [show (([] : Str) ++ ['\n']) = [] ++ '\n' :: [] from rfl, skipToHash_line [] [] (by simp) (by simp) (by simp)]
      rw [skipToHash.eq_def]
    unfold RatFn.load loadHead
    rw [this]
  · have e : funcLine n ++ r ++ ['\n'] = "#FUNC".toList ++ (' ' :: (n ++ ('\n' :: (r ++ ['\n'])))) := by
      unfold funcLine
      simp
    have w1 : IsWord "#FUNC".toList := ⟨by decide, by decide⟩
    have q0 : skipToHash (funcLine n ++ r ++ ['\n']) = some (funcLine n ++ r ++ ['\n']) := by
      rw [e]; exact skipToHash_hash _
    have q1 := readWord_word [] "#FUNC".toList (' ' :: (n ++ ('\n' :: (r ++ ['\n'])))) (by simp) w1
      (spaceAhead_cons _ _ (by decide))
    have sp : Spaces [' '] := by unfold Spaces; decide
    have q2 := readWord_word [' '] n ('\n' :: (r ++ ['\n'])) sp h1 (spaceAhead_cons _ _ (by decide))
    rw [List.nil_append] at q1
    rw [show [' '] ++ (n ++ '\n' :: (r ++ ['\n'])) = ' ' :: (n ++ ('\n' :: (r ++ ['\n']))) from rfl] at q2
    unfold RatFn.load loadHead
    rw [q0]
    simp only [e, q1, q2, ne_eq, not_true_eq_false, if_false, h2, not_false_eq_true, if_true]

/-! ### The program -/

/-- C78, the exit codes: without the help, 1 when `--input` or `--output` is missing and else 0, and the file
    is written in the last case only. -/
theorem brdf2brdf_code (junk : ℝ) (fmt10 fmt : ℝ → Decimal) (other : AnyFn → SMap → Option Str) (dir : Str) (env : Option Str)
    (fs : Str → Option (Symbols (Provider LobeObj))) (files : Str → Option Str) (args : SMap) (r : ℕ × Option Str)
    (h : brdf2brdf junk fmt10 fmt other dir env fs files args = some r) :
    (args.isDefined "help".toList = true ∧ r = (0, none)) ∨
    (args.isDefined "help".toList = false ∧
      (args.isDefined "input".toList = false ∨ args.isDefined "output".toList = false) ∧ r = (1, none)) ∨
    (args.isDefined "help".toList = false ∧ args.isDefined "input".toList = true ∧ args.isDefined "output".toList = true ∧
      ∃ text f t, files (args.get "input".toList) = some text ∧ loadAny junk dir env fs text = some (some f) ∧
        f.save fmt10 fmt other args = some t ∧ r = (0, some t)) := by
  unfold brdf2brdf at h
  generalize args.isDefined "help".toList = b0 at h ⊢
  generalize args.isDefined "input".toList = b1 at h ⊢
  generalize args.isDefined "output".toList = b2 at h ⊢
  generalize args.get "input".toList = name at h ⊢
  cases b0
  case true => left; simp only [if_true, Option.some.injEq] at h; exact ⟨rfl, h.symm⟩
  cases b1
  case false => right; left; simp only [if_true, Bool.false_eq_true, if_false, Option.some.injEq] at h; exact ⟨rfl, Or.inl rfl, h.symm⟩
  cases b2
  case false => right; left; simp at h; exact ⟨rfl, Or.inr rfl, h.symm⟩
  right; right
  simp only [Bool.false_eq_true, if_false, reduceCtorEq] at h
  refine ⟨rfl, rfl, rfl, ?_⟩
  split at h
  · rename_i f hf
    obtain ⟨text, h1, h2⟩ := Option.map_eq_some_iff.1 hf
    obtain ⟨t, h3, h4⟩ := Option.map_eq_some_iff.1 h
    exact ⟨text, f, t, h1, h2, h3, h4.symm⟩
  · cases h

/-- What is asked of the command line by the theorems that follow. -/
structure Reexports (args : SMap) : Prop where
  help : args.isDefined "help".toList = false
  input : args.isDefined "input".toList = true
  output : args.isDefined "output".toList = true

theorem brdf2brdf_run (junk : ℝ) (fmt10 fmt : ℝ → Decimal) (other : AnyFn → SMap → Option Str) (dir : Str) (env : Option Str)
    (fs : Str → Option (Symbols (Provider LobeObj))) (files : Str → Option Str) (args : SMap) (hr : Reexports args)
    (text : Str) (hfile : files (args.get "input".toList) = some text) (f : AnyFn)
    (hload : loadAny junk dir env fs text = some (some f)) :
    brdf2brdf junk fmt10 fmt other dir env fs files args = (f.save fmt10 fmt other args).map fun t => (0, some t) := by
  unfold brdf2brdf
  rw [hr.help, hr.input, hr.output, hfile, Option.map_some, hload]
  rfl

/-- C78: the function of the input file is written again, and what is read from the new file is the same function, but for
    the printing and the output parametrization, if the command line has the description `--func` of the function. -/
theorem brdf2brdf_same (junk : ℝ) (fmt10 fmt : ℝ → Decimal) (hp : PrintsDigits fmt10) (other : AnyFn → SMap → Option Str)
    (dir : Str) (env : Option Str) (fs : Str → Option (Symbols (Provider LobeObj))) (files : Str → Option Str) (args : SMap)
    (ho : args.Ordered) (ha : CmdMap args) (hr : Reexports args) (hx : args.isDefined kExport = false)
    (text : Str) (hfile : files (args.get "input".toList) = some text) (f f0 : FT LobeObj)
    (hload : loadFunction dir env fs text = some (some f)) (hin : (f.par LobeObj.par).input.Named)
    (hmake : getFunction dir env fs LobeObj.par args ((f.par LobeObj.par).withOutput .UNKNOWN_OUTPUT) =
      some (.nonlinear f0))
    (hread : f0.CanRead (f.withOutput .UNKNOWN_OUTPUT)) :
    ∃ t f1, brdf2brdf junk fmt10 fmt other dir env fs files args = some (0, some t) ∧
      loadFunction dir env fs t = some (some f1) ∧
      Fn.Same f1.toFn ((f.withOutput .UNKNOWN_OUTPUT).rounded fmt10).toFn := by
  obtain ⟨t, f1, h1, h2, h3⟩ := loadFunction_saveFunction fmt10 hp dir env fs args ho ha f f0 hin hmake hread
  refine ⟨t, f1, ?_, h2, h3⟩
  rw [brdf2brdf_run junk fmt10 fmt other dir env fs files args hr text hfile _ (loadAny_nonlinear junk dir env fs text f hload)]
  have hs := FT.canRead_saves _ _ _ hread
  rw [saveFunction_saves fmt10 args f hs] at h1
  cases h1
  simp only [AnyFn.save, hx, if_true, AnyFn.altaText, hs, Option.map_some, AnyFn.par, savedText, List.append_assoc]

/-- C78, limit: without `--func` on the command line of brdf2brdf the new file has a description without a function, for
    which a rational function is made: it cannot be loaded, whatever the function. -/
theorem brdf2brdf_func_needed (junk : ℝ) (fmt10 fmt : ℝ → Decimal) (other : AnyFn → SMap → Option Str)
    (dir : Str) (env : Option Str) (fs : Str → Option (Symbols (Provider LobeObj))) (files : Str → Option Str) (args : SMap)
    (ho : args.Ordered) (ha : CmdMap args) (hr : Reexports args) (hx : args.isDefined kExport = false)
    (hfunc : args.isDefined kFunc = false)
    (text : Str) (hfile : files (args.get "input".toList) = some text) (f : FT LobeObj)
    (hload : loadFunction dir env fs text = some (some f)) (hin : (f.par LobeObj.par).input.Named) (hs : f.saves = true) :
    ∃ t, brdf2brdf junk fmt10 fmt other dir env fs files args = some (0, some t) ∧
      loadAny junk dir env fs t = some none := by
  refine ⟨savedText fmt10 args f, ?_, ?_⟩
  · rw [brdf2brdf_run junk fmt10 fmt other dir env fs files args hr text hfile _ (loadAny_nonlinear junk dir env fs text f hload)]
    simp only [AnyFn.save, hx, if_true, AnyFn.altaText, hs, Option.map_some, AnyFn.par, savedText, List.append_assoc]
  · have e : savedText fmt10 args f = saveHeader args.getCmd (f.par LobeObj.par) ++ (f.saveBody ++ (f.saveCall fmt10 ++ ['\n'])) := by
      simp only [savedText, List.append_assoc]
    rw [e, loadAny_saved junk dir env fs args ho ha _ hin _ hfunc]
    have hpre : Skippable ('\n' :: f.saveBody) := newlines_one.skippable.append f.saveBody_skippable
    rw [← List.cons_append, RatFn.load_skippable junk _ hpre, RatFn.load_foreign junk _ _ (f.saveCall_foreign fmt10)]
    rfl

/-- C78: a rational function (whose file has no `--func`) is written again without `--func`: with numbers that are printed
    exactly, what is read from the new file has the same values. -/
theorem brdf2brdf_rational (junk : ℝ) (fmt10 fmt : ℝ → Decimal) (hp : PrintsDigits fmt10) (other : AnyFn → SMap → Option Str)
    (dir : Str) (env : Option Str) (fs : Str → Option (Symbols (Provider LobeObj))) (files : Str → Option Str) (args : SMap)
    (ho : args.Ordered) (ha : CmdMap args) (hr : Reexports args) (hx : args.isDefined kExport = false)
    (hfunc : args.isDefined kFunc = false)
    (text : Str) (hfile : files (args.get "input".toList) = some text) (p : Par) (f : RatFn)
    (hload : loadAny junk dir env fs text = some (some (.rational p f))) (hin : p.input.Named)
    (hpx : f.dimX = p.dimX) (hpy : f.dimY = p.dimY)
    (cs : List Rat1) (hf : f.rs = cs.map some) (hl : cs.length = f.dimY)
    (hc : ∀ r ∈ cs, r.dimX = f.dimX ∧ r.q ≠ [] ∧ r.Standard ∧ (r.lo, r.hi) = inflate f.lo f.hi)
    (hlo : f.lo.length = f.dimX) (hhi : f.hi.length = f.dimX)
    (hb : ∀ x ∈ f.lo ++ f.hi, printed fmt10 x = x) (he : ∀ r ∈ cs, ∀ c ∈ r.p ++ r.q, printed fmt10 c.a = c.a)
    (hd : 1 ≤ f.dimX) :
    ∃ t g, brdf2brdf junk fmt10 fmt other dir env fs files args = some (0, some t) ∧
      loadAny junk dir env fs t = some (some (.rational (p.withOutput .UNKNOWN_OUTPUT) g)) ∧ ∀ x, g.value x = f.value x := by
  obtain ⟨g, h1, h2⟩ := rational_file_same_value junk fmt10 hp f (newRational p) cs hf hl hc hlo hhi hb he hd hpx.symm
    hpy.symm (by rw [hpy]; rfl) ['\n']
  refine ⟨saveHeader args.getCmd p ++ (f.saveCall fmt10 ++ ['\n']), g, ?_, ?_, h2⟩
  · rw [brdf2brdf_run junk fmt10 fmt other dir env fs files args hr text hfile _ hload]
    simp only [AnyFn.save, hx, if_true, AnyFn.altaText, Option.map_some, AnyFn.par]
  · rw [loadAny_saved junk dir env fs args ho ha _ hin _ hfunc]
    have := RatFn.load_skippable junk (newRational p) newlines_one.skippable (f.saveCall fmt10 ++ ['\n'])
    rw [show '\n' :: (f.saveCall fmt10 ++ ['\n']) = ['\n'] ++ (f.saveCall fmt10 ++ ['\n']) from rfl, this, h1]
    rfl

/-- The first line of a text that starts with lines without `#` and goes on with a text of functions is not the one of a
    function file. -/
theorem first_line (pre t : Str) (hp : Skippable pre) (ht : t = [] ∨ ∃ r, t = "#FUNC ".toList ++ r) :
    (getLine (pre ++ (t ++ ['\n']))).1 ≠ "#ALTA FUNC HEADER".toList := by
  have e0 : "#ALTA FUNC HEADER".toList = '#' :: "ALTA FUNC HEADER".toList := by decide
  cases hp with
  | line l rest h1 h2 _ _ =>
    have e : l ++ '\n' :: rest ++ (t ++ ['\n']) = l ++ '\n' :: (rest ++ (t ++ ['\n'])) := by simp
    rw [e, getLine_append l _ h2]
    simp only
    rw [e0]
    exact h1 _
  | nil =>
    rcases ht with rfl | ⟨r, rfl⟩
    · simp only [getLine]
      decide
    · have e2 : "#FUNC ".toList ++ r = '#' :: 'F' :: ("UNC ".toList ++ r) := by
        rw [show "#FUNC ".toList = '#' :: 'F' :: "UNC ".toList by decide]; rfl
      rw [List.nil_append, e2]
      intro h
      simp only [getLine] at h
      rw [List.cons_append, List.cons_append, List.takeWhile_cons_of_pos (by decide), List.takeWhile_cons_of_pos (by decide)] at h
      rw [show "#ALTA FUNC HEADER".toList = '#' :: 'A' :: "LTA FUNC HEADER".toList by decide] at h
      injection h with _ h
      injection h with h _
      revert h
      decide

theorem Foreign.start {t : Str} (h : Foreign t) : t = [] ∨ ∃ r, t = "#FUNC ".toList ++ r := by
  rcases h with h | ⟨n, r, -, -, rfl⟩
  · exact Or.inl h
  · exact Or.inr ⟨n ++ ['\n'] ++ r, by unfold funcLine; simp only [List.append_assoc]⟩

theorem loadAny_no_header (junk : ℝ) (dir : Str) (env : Option Str) (fs : Str → Option (Symbols (Provider LobeObj))) (t : Str)
    (h : (getLine t).1 ≠ "#ALTA FUNC HEADER".toList) : loadAny junk dir env fs t = some none := by
  unfold loadAny
  simp only [if_pos h]

/-- C78, limit: with `--export alta`, the format that the help gives as the one of ALTA, the file has no header, and cannot be
    loaded, whatever the function. -/
theorem brdf2brdf_export_alta (junk : ℝ) (fmt10 fmt : ℝ → Decimal) (other : AnyFn → SMap → Option Str)
    (dir : Str) (env : Option Str) (fs : Str → Option (Symbols (Provider LobeObj))) (files : Str → Option Str) (args : SMap)
    (hx : args.find kExport = some "alta".toList) (r : ℕ × Option Str) (t : Str)
    (h : brdf2brdf junk fmt10 fmt other dir env fs files args = some r) (ht : r.2 = some t) :
    loadAny junk dir env fs t = some none := by
  rcases brdf2brdf_code junk fmt10 fmt other dir env fs files args r h with ⟨-, rfl⟩ | ⟨-, -, rfl⟩ | ⟨-, -, -, text, f, u, -, -, h3, rfl⟩
  · cases ht
  · cases ht
  cases ht
  have d1 : args.isDefined kExport = true := by unfold SMap.isDefined; rw [hx]; rfl
  have d2 : args.get kExport = "alta".toList := by unfold SMap.get; rw [hx]; rfl
  apply loadAny_no_header
  simp only [AnyFn.save, d1, d2, if_true, Bool.true_eq_false, if_false] at h3
  cases f with
  | nonlinear f =>
    simp only [AnyFn.altaText] at h3
    split at h3
    · cases h3
      rw [List.append_assoc]
      exact first_line _ _ f.saveBody_skippable (f.saveCall_foreign fmt10).start
    · cases h3
  | rational p f =>
    simp only [AnyFn.altaText, Option.some.injEq] at h3
    rw [← h3]
    have key : ∃ r, f.saveCall fmt10 = "#FUNC ".toList ++ r := by
      unfold RatFn.saveCall
      rw [show "#FUNC rational_function\n".toList = "#FUNC ".toList ++ "rational_function\n".toList by decide]
      simp only [List.append_assoc]
      exact ⟨_, rfl⟩
    have := first_line [] _ .nil (Or.inr key)
    rwa [List.nil_append] at this

/-- C78, limit: when the input file is missing, or is not a function file, or cannot be loaded, the program does not end with
    an error: it uses a null pointer. -/
theorem brdf2brdf_bad_input (junk : ℝ) (fmt10 fmt : ℝ → Decimal) (other : AnyFn → SMap → Option Str)
    (dir : Str) (env : Option Str) (fs : Str → Option (Symbols (Provider LobeObj))) (files : Str → Option Str) (args : SMap)
    (hr : Reexports args) (hbad : ∀ text, files (args.get "input".toList) = some text → loadAny junk dir env fs text = some none) :
    brdf2brdf junk fmt10 fmt other dir env fs files args = none := by
  cases hb : brdf2brdf junk fmt10 fmt other dir env fs files args with
  | none => rfl
  | some r =>
    rcases brdf2brdf_code junk fmt10 fmt other dir env fs files args r hb with ⟨h, -⟩ | ⟨-, h, -⟩ | ⟨-, -, -, text, f, t, h1, h2, -, -⟩
    · rw [hr.help] at h; cases h
    · rw [hr.input, hr.output] at h
      rcases h with h | h <;> cases h
    · rw [hbad text h1] at h2; cases h2

/-- C78: with `--export shader` (or `explorer`) the file is the shader of the function that was loaded (the one of C72). -/
theorem brdf2brdf_shader (junk : ℝ) (fmt10 fmt : ℝ → Decimal) (other : AnyFn → SMap → Option Str)
    (dir : Str) (env : Option Str) (fs : Str → Option (Symbols (Provider LobeObj))) (files : Str → Option Str) (args : SMap)
    (hr : Reexports args) (text : Str) (hfile : files (args.get "input".toList) = some text) (f : FT LobeObj)
    (hload : loadFunction dir env fs text = some (some f)) :
    (args.find kExport = some "shader".toList →
      brdf2brdf junk fmt10 fmt other dir env fs files args = (exportShader fmt f).map fun t => (0, some t)) ∧
    (args.find kExport = some "explorer".toList →
      brdf2brdf junk fmt10 fmt other dir env fs files args = (exportExplorer fmt f).map fun t => (0, some t)) := by
  rw [brdf2brdf_run junk fmt10 fmt other dir env fs files args hr text hfile _ (loadAny_nonlinear junk dir env fs text f hload)]
  constructor <;> intro hx
  · have d1 : args.isDefined kExport = true := by unfold SMap.isDefined; rw [hx]; rfl
    have d2 : args.get kExport = "shader".toList := by unfold SMap.get; rw [hx]; rfl
    have e : ("shader".toList : Str) ≠ "alta".toList := by decide
    simp only [AnyFn.save, d1, d2, Bool.true_eq_false, if_false, if_neg e, if_true]
  · have d1 : args.isDefined kExport = true := by unfold SMap.isDefined; rw [hx]; rfl
    have d2 : args.get kExport = "explorer".toList := by unfold SMap.get; rw [hx]; rfl
    have e : ("explorer".toList : Str) ≠ "alta".toList := by decide
    have e2 : ("explorer".toList : Str) ≠ "shader".toList := by decide
    simp only [AnyFn.save, d1, d2, Bool.true_eq_false, if_false, if_neg e, if_neg e2, if_true]

end
end Alta
