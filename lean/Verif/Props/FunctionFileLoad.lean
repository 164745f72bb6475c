import Verif.Proofs.FunctionFileLobes
import Verif.Props.FunctionTreeText
import Verif.Props.Header
import Verif.Props.Binary
/-
Property C56: the file of a nonlinear function, read back, gives the function that was saved.
-/
namespace Alta
noncomputable section

/-! ### The output parametrization is not in the files -/

theorem LobeObj.withOutput_saveCall (fmt : ℝ → Decimal) (o : Output) (l : LobeObj) :
    (l.withOutput o).saveCall fmt = l.saveCall fmt := by cases l <;> rfl
theorem LobeObj.withOutput_saveBody (o : Output) (l : LobeObj) :
    (l.withOutput o).saveBody = l.saveBody := by cases l <;> rfl
theorem LobeObj.withOutput_par (o : Output) (l : LobeObj) : (l.withOutput o).par = l.par.withOutput o := by
  cases l <;> rfl
theorem LobeObj.withOutput_toFn_par (o : Output) (l : LobeObj) :
    (l.withOutput o).toFn.par = l.toFn.par.withOutput o := by
  cases l <;> rfl
theorem LobeObj.withOutput_nb (o : Output) (l : LobeObj) : (l.withOutput o).toFn.nb = l.toFn.nb := by
  cases l <;> rfl
theorem LobeObj.withOutput_get (o : Output) (l : LobeObj) : (l.withOutput o).toFn.get = l.toFn.get := by
  cases l <;> rfl
theorem LobeObj.withOutput_value (o : Output) (l : LobeObj) (x : List ℝ) :
    (l.withOutput o).toFn.value x = l.toFn.value x := by
  cases l <;> rfl

mutual
theorem FT.withOutput_saveCall (fmt : ℝ → Decimal) (o : Output) : ∀ f : FT LobeObj,
    (f.withOutput o).saveCall fmt = f.saveCall fmt
  | .leaf l => by simp only [FT.withOutput, FT.saveCall, LobeObj.withOutput_saveCall]
  | .compound p fs => by simp only [FT.withOutput, FT.saveCall, FTs.withOutput_saveCall fmt o fs]
  | .product p f g a b => by
    simp only [FT.withOutput, FT.saveCall, FT.withOutput_saveCall fmt o f, FT.withOutput_saveCall fmt o g]
theorem FTs.withOutput_saveCall (fmt : ℝ → Decimal) (o : Output) : ∀ f : FTs LobeObj,
    (f.withOutput o).saveCall fmt = f.saveCall fmt
  | .nil => rfl
  | .cons a f r => by
    simp only [FTs.withOutput, FTs.saveCall, FT.withOutput_saveCall fmt o f, FTs.withOutput_saveCall fmt o r]
end

mutual
theorem FT.withOutput_same (o : Output) : ∀ f : FT LobeObj,
    (f.withOutput o).toFn.par = f.toFn.par.withOutput o ∧ (f.withOutput o).toFn.nb = f.toFn.nb ∧
    (f.withOutput o).toFn.get = f.toFn.get ∧ ∀ x, (f.withOutput o).toFn.value x = f.toFn.value x
  | .leaf l => by
    simp only [FT.withOutput, FT.toFn]
    exact ⟨l.withOutput_toFn_par o, l.withOutput_nb o, l.withOutput_get o, l.withOutput_value o⟩
  | .compound p fs => by
    simp only [FT.withOutput, FT.toFn]
    obtain ⟨h1, h2, h3⟩ := FTs.withOutput_same o fs
    exact ⟨rfl, h1, h2, fun x => h3 _ _ _⟩
  | .product p f g a b => by
    simp only [FT.withOutput, FT.toFn]
    obtain ⟨f1, f2, f3, f4⟩ := FT.withOutput_same o f
    obtain ⟨g1, g2, g3, g4⟩ := FT.withOutput_same o g
    refine ⟨rfl, ?_, ?_, fun x => ?_⟩
    · simp only [Fn.nb, f2, g2]
    · simp only [Fn.get, f2, g2, f3, g3]
    · simp only [Fn.value, f1, g1, f4, g4]
      rfl
theorem FTs.withOutput_same (o : Output) : ∀ fs : FTs LobeObj,
    (fs.withOutput o).toFns.nb = fs.toFns.nb ∧ (fs.withOutput o).toFns.get = fs.toFns.get ∧
    ∀ i x r, (fs.withOutput o).toFns.valueLoop i x r = fs.toFns.valueLoop i x r
  | .nil => ⟨rfl, rfl, fun _ _ _ => rfl⟩
  | .cons a f rest => by
    simp only [FTs.withOutput, FTs.toFns]
    obtain ⟨f1, f2, f3, f4⟩ := FT.withOutput_same o f
    obtain ⟨g2, g3, g4⟩ := FTs.withOutput_same o rest
    refine ⟨?_, ?_, fun i x r => ?_⟩
    · simp only [Fns.nb, f2, g2]
    · simp only [Fns.get, f2, f3, g3]
    · simp only [Fns.valueLoop, f1, f4, g4]
      rfl
end

/-! ### What `save_body` writes is skipped -/

theorem skippable_line (l : Str) (h1 : l.head? ≠ some '#') (h2 : '\n' ∉ l) (h3 : l.length ≤ 255) :
    Skippable (l ++ ['\n']) := by
  refine .line l [] ?_ h2 h3 .nil
  rintro r rfl; exact h1 rfl

theorem skippable_lines (ls : List Str) (h : ∀ l ∈ ls, l.head? ≠ some '#' ∧ '\n' ∉ l ∧ l.length ≤ 255) :
    Skippable (ls.flatMap fun l => l ++ ['\n']) := by
  induction ls with
  | nil => exact .nil
  | cons l ls ih =>
    rw [List.flatMap_cons]
    obtain ⟨h1, h2, h3⟩ := h l (by simp)
    exact (skippable_line l h1 h2 h3).append (ih fun l hl => h l (by simp [hl]))

theorem LobeObj.saveBody_skippable (l : LobeObj) : Skippable l.saveBody := by
  cases l
  case lafortune s => exact skippable_lines lafortuneBody (by decide +kernel)
  all_goals exact .nil

mutual
theorem FT.saveBody_skippable : ∀ f : FT LobeObj, Skippable f.saveBody
  | .leaf l => l.saveBody_skippable
  | .compound _ fs => by simp only [FT.saveBody]; exact FTs.saveBody_skippable fs
  | .product _ f g _ _ => by
    simp only [FT.saveBody]
    exact ((f.saveBody_skippable.append newlines_one.skippable).append g.saveBody_skippable).append
      newlines_one.skippable
theorem FTs.saveBody_skippable : ∀ fs : FTs LobeObj, Skippable fs.saveBody
  | .nil => by simp only [FTs.saveBody]; exact .nil
  | .cons _ f rest => by
    simp only [FTs.saveBody]
    exact (f.saveBody_skippable.append newlines_one.skippable).append rest.saveBody_skippable
end

/-! ### The header -/

theorem cmdValue_chars (v : Str) (h : CmdValue v) : ∀ c ∈ v, isSpace c = false ∨ c = ' ' := by
  cases h with
  | empty => intro c hc; cases hc
  | word w h1 _ _ => intro c hc; exact Or.inl (h1.2 c hc)
  | vec w ws h0 h1 _ _ _ =>
    have : ∀ us : List Str, (∀ u ∈ us, IsWord u) → ∀ c ∈ joinWords us, isSpace c = false ∨ c = ' ' := by
      intro us
      induction us with
      | nil => intro _ c hc; simp [joinWords] at hc
      | cons u us ih =>
        intro hu c hc
        cases us with
        | nil => simp only [joinWords] at hc; exact Or.inl ((hu u (by simp)).2 c hc)
        | cons v us =>
          simp only [joinWords, List.mem_append, List.mem_cons] at hc
          rcases hc with h | h | h
          · exact Or.inl ((hu u (by simp)).2 c h)
          · exact Or.inr h
          · exact ih (fun u hu' => hu u (by simp [hu'])) c h
    exact this _ h1

theorem getCmd_chars (m : SMap) (h : CmdMap m) : ∀ c ∈ m.getCmd, isSpace c = false ∨ c = ' ' := by
  induction m with
  | nil => intro c hc; cases hc
  | cons e m ih =>
    obtain ⟨hk, hv⟩ := h e (by simp)
    intro c hc
    have e1 : SMap.getCmd (e :: m) = [' ', '-', '-'] ++ (e.1 ++ ([' '] ++ (e.2 ++ SMap.getCmd m))) := by
      simp [SMap.getCmd, hk.1]
    rw [e1] at hc
    rcases List.mem_append.1 hc with h1 | hc
    · have : ∀ d ∈ [' ', '-', '-'], isSpace d = false ∨ d = ' ' := by decide
      exact this c h1
    rcases List.mem_append.1 hc with h1 | hc
    · exact Or.inl (hk.2 c h1)
    rcases List.mem_append.1 hc with h1 | hc
    · exact Or.inr (by simpa using h1)
    rcases List.mem_append.1 hc with h1 | hc
    · exact cmdValue_chars _ hv c h1
    · exact ih (fun e he => h e (by simp [he])) c hc

/-- the command line, without its leading space -/
theorem getCmd_split (m : SMap) (h : CmdMap m) : ∃ sp v, m.getCmd = sp ++ v ∧ (∀ c ∈ sp, c = ' ') ∧
    (∀ c r, v = c :: r → isSpace c = false) ∧ '\n' ∉ v ∧ '\r' ∉ v ∧ createArguments v = createArguments m.getCmd := by
  cases m with
  | nil => exact ⟨[], [], rfl, by simp, by simp, by simp, by simp, rfl⟩
  | cons e m =>
    obtain ⟨hk, hv⟩ := h e (by simp)
    have e1 : SMap.getCmd (e :: m) = [' '] ++ ('-' :: '-' :: (e.1 ++ ([' '] ++ (e.2 ++ SMap.getCmd m)))) := by
      simp [SMap.getCmd, hk.1]
    have hch := getCmd_chars _ h
    rw [e1] at hch
    refine ⟨[' '], _, e1, by simp, ?_, ?_, ?_, ?_⟩
    · intro c r hc
      rw [List.cons.injEq] at hc
      rw [← hc.1]; decide
    · intro hc
      rcases hch '\n' (List.mem_append.2 (Or.inr hc)) with h | h
      · exact absurd h (by decide)
      · exact absurd h (by decide)
    · intro hc
      rcases hch '\r' (List.mem_append.2 (Or.inr hc)) with h | h
      · exact absurd h (by decide)
      · exact absurd h (by decide)
    · rw [e1]
      exact congrArg (fun t => parseArgs t []) (streamWords_space ' ' _ (by decide)).symm

/-- What `load_function` finds in the header of a saved function. -/
theorem header_saved (args : SMap) (ho : args.Ordered) (ha : CmdMap args) (p : Par) (rest : Str)
    (hn : p.input.Named) :
    ∃ l2 m, getLine (saveHeader args.getCmd p ++ rest) = ("#ALTA FUNC HEADER".toList, l2) ∧
      parseHeader l2 = (m, '\n' :: rest) ∧
      m.getPairInt "DIM".toList = some ((p.dimX : ℤ), (p.dimY : ℤ)) ∧
      parseInput (String.ofList (m.getString "PARAM_IN".toList "UNKNOWN_INPUT".toList)) = p.input ∧
      parseOutput (String.ofList (m.getString "PARAM_OUT".toList "UNKNOWN_OUTPUT".toList)) = .UNKNOWN_OUTPUT ∧
      createArguments (m.get "CMD".toList) = some args := by
  obtain ⟨sp, v, h1, h2, h3, h4, h5, h6⟩ := getCmd_split args ha
  let ls : List HLine := [.bind "CMD".toList (' ' :: sp) v false,
    .bind "DIM".toList [' '] (showNat p.dimX ++ ' ' :: showNat p.dimY) false,
    .bind "PARAM_IN".toList [' ', ' '] (inputName p.input).toList false, .alta "HEADER".toList "END".toList]
  have e : saveHeader args.getCmd p ++ rest =
      "#ALTA FUNC HEADER".toList ++ '\n' :: (headerText ls ++ '\n' :: rest) := by
    have e1 : "#ALTA FUNC HEADER\n".toList = "#ALTA FUNC HEADER".toList ++ ['\n'] := by decide
    have e2 : "#CMD ".toList = '#' :: ("CMD".toList ++ [' ']) := by decide
    have e3 : "#DIM ".toList = '#' :: ("DIM".toList ++ [' ']) := by decide
    have e4 : "#PARAM_IN  ".toList = '#' :: ("PARAM_IN".toList ++ [' ', ' ']) := by decide
    have e5 : "#ALTA HEADER END\n".toList = '#' :: ("ALTA ".toList ++ ("HEADER".toList ++ ' ' :: "END".toList)) ++ ['\n'] := by
      decide
    unfold saveHeader
    rw [e1, e2, e3, e4, e5, h1]
    simp only [ls, headerText, HLine.text, List.append_assoc, List.cons_append, List.nil_append, List.append_nil,
      Bool.false_eq_true, if_false]
  have hw := parseHeader_spec ls (by
    intro l hl
    simp only [ls, List.mem_cons, List.not_mem_nil, or_false] at hl
    rcases hl with rfl | rfl | rfl | rfl
    · refine ⟨⟨by decide, by decide⟩, by decide, ?_, by simp, h3, h4, h5⟩
      intro c hc
      rcases List.mem_cons.1 hc with rfl | hc
      · decide
      · rw [h2 c hc]; decide
    · refine ⟨⟨by decide, by decide⟩, by decide, by decide, by simp, ?_, ?_, ?_⟩
      · intro c r h
        obtain ⟨d', hd', r', hr'⟩ := showNat_head p.dimX
        rw [hr'] at h
        simp only [List.cons_append, List.cons.injEq] at h
        rw [← h.1]; exact (digitChar_spec d' hd').2.2.1
      · have h1 := (showNat_isWord p.dimX).newline
        have h2 := (showNat_isWord p.dimY).newline
        simp [h1, h2]
      · have h1 := (showNat_isWord p.dimX).cr
        have h2 := (showNat_isWord p.dimY).cr
        simp [h1, h2]
    · refine ⟨⟨by decide, by decide⟩, by decide, by decide, by simp, ?_, ?_, ?_⟩
      · intro c r hc
        exact (isWord_inputName p.input).2 c (by rw [hc]; simp)
      · intro hc
        exact absurd ((isWord_inputName p.input).2 _ hc) (by decide)
      · intro hc
        exact absurd ((isWord_inputName p.input).2 _ hc) (by decide)
    · exact ⟨⟨by decide, by decide⟩, ⟨by decide, by decide⟩, by decide⟩) ('\n' :: rest) (by simp)
  obtain ⟨hr, hf, _⟩ := hw
  refine ⟨_, _, ?_, Prod.ext rfl hr, ?_, ?_, ?_, ?_⟩
  · rw [e, getLine_append _ _ (by decide)]
  · exact getPairInt_dim _ _ _ ((hf _).trans (by simp [ls, lastBinding]))
  · have : lastBinding "PARAM_IN".toList ls = some (inputName p.input).toList := by
      simp [ls, lastBinding]
    unfold SMap.getString
    rw [hf, this]
    simp only [String.ofList_toList]
    exact parseInput_inputName _ hn
  · have : lastBinding "PARAM_OUT".toList ls = none := by
      simp [ls, lastBinding]
    unfold SMap.getString
    rw [hf, this]
    decide +kernel
  · have : lastBinding "CMD".toList ls = some v := by
      simp [ls, lastBinding]
    unfold SMap.get
    rw [hf, this, Option.getD_some, h6, createArguments_getCmd args ho ha]

theorem FT.toFn_par (f : FT LobeObj) : f.toFn.par = f.par LobeObj.par := by
  cases f <;> rfl

theorem saveFunction_saves (fmt : ℝ → Decimal) (args : SMap) (f : FT LobeObj) (h : f.saves = true) :
    saveFunction fmt args f = some (savedText fmt args f) := by
  unfold saveFunction; rw [if_pos h]

mutual
theorem FT.canRead_saves (o : Output) : ∀ f0 f : FT LobeObj, f0.CanRead (f.withOutput o) → f.saves = true
  | .leaf l0, .leaf l, h => by
    simp only [FT.CanRead, FT.withOutput] at h
    cases l0 <;> cases l <;> simp only [LobeObj.CanRead, LobeObj.withOutput] at h <;> rfl
  | .compound _ fs0, .compound _ fs, h => by
    simp only [FT.CanRead, FT.withOutput] at h
    exact FTs.canRead_saves o fs0 fs h.2.2
  | .product _ f0 g0 _ _, .product _ f g _ _, h => by
    simp only [FT.CanRead, FT.withOutput] at h
    simp only [FT.saves, FT.canRead_saves o f0 f h.2.2.2.1, FT.canRead_saves o g0 g h.2.2.2.2, Bool.and_self]
  | .leaf _, .compound _ _, h => by simp only [FT.CanRead, FT.withOutput] at h
  | .leaf _, .product _ _ _ _ _, h => by simp only [FT.CanRead, FT.withOutput] at h
  | .compound _ _, .leaf _, h => by simp only [FT.CanRead, FT.withOutput] at h
  | .compound _ _, .product _ _ _ _ _, h => by simp only [FT.CanRead, FT.withOutput] at h
  | .product _ _ _ _ _, .leaf _, h => by simp only [FT.CanRead, FT.withOutput] at h
  | .product _ _ _ _ _, .compound _ _, h => by simp only [FT.CanRead, FT.withOutput] at h
theorem FTs.canRead_saves (o : Output) : ∀ fs0 fs : FTs LobeObj, fs0.CanRead (fs.withOutput o) → fs.saves = true
  | _, .nil, _ => rfl
  | .cons _ f0 r0, .cons _ f r, h => by
    simp only [FTs.CanRead, FTs.withOutput] at h
    simp only [FTs.saves, FT.canRead_saves o f0 f h.2.1, FTs.canRead_saves o r0 r h.2.2, Bool.and_self]
  | .nil, .cons _ _ _, h => by simp only [FTs.CanRead, FTs.withOutput] at h
end

/-- C56: the file of a nonlinear function is read back as the same function.  `f` is the function
    saved with the arguments `args`; `f0` is the function that these arguments make (C55) with the
    parametrization of the header, in which the file is read: a function built in the same way, whatever
    its coefficients.  The function returned has the parametrization of `f`, but for the output, which is
    not in the file, the parameters of `f` rounded by the printing, and the values of this rounded
    function everywhere. -/
theorem loadFunction_saveFunction (fmt : ℝ → Decimal) (hf : PrintsDigits fmt) (dir : Str) (env : Option Str)
    (fs : Str → Option (Symbols (Provider LobeObj))) (args : SMap) (ho : args.Ordered) (ha : CmdMap args)
    (f f0 : FT LobeObj) (hin : (f.par LobeObj.par).input.Named)
    (hmake : getFunction dir env fs LobeObj.par args ((f.par LobeObj.par).withOutput .UNKNOWN_OUTPUT) =
      some (.nonlinear f0))
    (hread : f0.CanRead (f.withOutput .UNKNOWN_OUTPUT)) :
    ∃ t f1, saveFunction fmt args f = some t ∧ loadFunction dir env fs t = some (some f1) ∧
      Fn.Same f1.toFn ((f.withOutput .UNKNOWN_OUTPUT).rounded fmt).toFn := by
  obtain ⟨l2, m, h1, h2, h3, h4, h5, h6⟩ := header_saved args ho ha (f.par LobeObj.par)
    (f.saveBody ++ (f.saveCall fmt ++ ['\n'])) hin
  have e : savedText fmt args f =
      saveHeader args.getCmd (f.par LobeObj.par) ++ (f.saveBody ++ (f.saveCall fmt ++ ['\n'])) := by
    simp only [savedText, List.append_assoc]
  obtain ⟨f1, ws', _, hl, hs⟩ := FT.load_saved fmt hf f0 (f.withOutput .UNKNOWN_OUTPUT) hread
    ('\n' :: f.saveBody) ['\n'] (newlines_one.skippable.append f.saveBody_skippable)
  refine ⟨_, f1, saveFunction_saves fmt args f (FT.canRead_saves _ _ _ hread), ?_, FT.same_of_leaves _ _ hs⟩
  rw [FT.withOutput_saveCall] at hl
  have hp : (⟨((f.par LobeObj.par).dimX : ℤ).toNat, ((f.par LobeObj.par).dimY : ℤ).toNat,
      (f.par LobeObj.par).input, .UNKNOWN_OUTPUT⟩ : Par) = (f.par LobeObj.par).withOutput .UNKNOWN_OUTPUT := by
    simp [Par.withOutput]
  unfold loadFunction
  rw [e]
  simp only [h1, h2, h3, h4, h5, h6, hp, hmake, ne_eq, not_true_eq_false, if_false]
  rw [List.cons_append] at hl
  simp only [hl, if_true]

/-- The output parametrization changes neither the parameters nor the values. -/
theorem withOutput_value (o : Output) (f : FT LobeObj) : (f.withOutput o).toFn.nb = f.toFn.nb ∧
    (f.withOutput o).toFn.get = f.toFn.get ∧ ∀ x, (f.withOutput o).toFn.value x = f.toFn.value x :=
  (FT.withOutput_same o f).2

end
end Alta
