import Verif.Model.PythonFile
import Verif.Props.FunctionFileExamples
import Verif.Props.Brdf2BrdfFlow
/-
C85: functions saved and loaded from Python.
-/
namespace Alta
noncomputable section

/-! ### The header is skipped -/

theorem headerLine_isSome (l : Str) (m m' : SMap) : (headerLine l m).isSome = (headerLine l m').isSome := by
  unfold headerLine
  simp only
  split_ifs <;> rfl

theorem parseHeaderFrom_rest (n : ℕ) : ∀ (s : Str) (m m' : SMap), s.length ≤ n →
    (parseHeaderFrom s m).2 = (parseHeaderFrom s m').2 := by
  induction n with
  | zero =>
    intro s m m' h
    cases s with
    | nil => rw [parseHeaderFrom.eq_def, parseHeaderFrom.eq_def []]
    | cons c s => simp at h
  | succ n ih =>
    intro s m m' h
    rw [parseHeaderFrom.eq_def, parseHeaderFrom.eq_def s]
    split
    · rename_i r
      have hl : (getLine r).2.length ≤ n := by
        simp only [getLine, List.length_cons, List.length_drop] at h ⊢
        have := (List.dropWhile_sublist (l := r) (· ≠ '\n')).length_le
        omega
      have hs := headerLine_isSome (getLine r).1 m m'
      cases h1 : headerLine (getLine r).1 m with
      | none =>
        rw [h1] at hs
        cases h2 : headerLine (getLine r).1 m' with
        | none => rfl
        | some b => rw [h2] at hs; cases hs
      | some a =>
        rw [h1] at hs
        cases h2 : headerLine (getLine r).1 m' with
        | none => rw [h2] at hs; cases hs
        | some b => exact ih _ a b hl
    · rfl

theorem parseHeader_second (t l2 : Str) (h : getLine t = ("#ALTA FUNC HEADER".toList, l2)) :
    (parseHeader t).2 = (parseHeader l2).2 := by
  have hc : "#ALTA FUNC HEADER".toList = '#' :: "ALTA FUNC HEADER".toList := by decide
  rw [hc] at h
  have hl : headerLine "ALTA FUNC HEADER".toList [] = some [("TYPE".toList, "HEADER".toList)] := by decide +kernel
  revert hl
  generalize "ALTA FUNC HEADER".toList = w at h
  generalize [("TYPE".toList, "HEADER".toList)] = m1
  intro hl
  cases t with
  | nil => simp [getLine] at h
  | cons c r =>
    have hc : c = '#' ∧ getLine r = (w, l2) := by
      by_cases hn : c = '\n'
      · subst hn
        simp [getLine] at h
      · simp only [getLine, List.takeWhile_cons, List.dropWhile_cons, hn, ne_eq, not_false_eq_true, decide_true, if_true] at h
        obtain ⟨h1, h2⟩ := Prod.mk.inj h
        rw [List.cons.injEq] at h1
        exact ⟨h1.1, Prod.ext h1.2 h2⟩
    obtain ⟨rfl, hr⟩ := hc
    unfold parseHeader
    rw [parseHeaderFrom.eq_def]
    simp only [hr, hl]
    exact parseHeaderFrom_rest l2.length l2 _ _ le_rfl

/-- The text after the header of a function file. -/
theorem parseHeader_savedText (fmt : ℝ → Decimal) (f : FT LobeObj) (hin : (f.par LobeObj.par).input.Named) :
    (parseHeader (savedText fmt [] f)).2 = '\n' :: (f.saveBody ++ (f.saveCall fmt ++ ['\n'])) := by
  obtain ⟨l2, m, h1, h2, -⟩ := header_saved [] SMap.ordered_nil (by intro e he; cases he) (f.par LobeObj.par)
    (f.saveBody ++ (f.saveCall fmt ++ ['\n'])) hin
  have e : savedText fmt [] f = saveHeader (SMap.getCmd []) (f.par LobeObj.par) ++ (f.saveBody ++ (f.saveCall fmt ++ ['\n'])) := by
    simp only [savedText, List.append_assoc]
  rw [← e] at h1
  rw [parseHeader_second _ _ h1, h2]

/-! ### Loading -/

/-- C85: what `f.save(file)` wrote, `g.load(file)` reads in a function made in the same way: `g` is then the function `f`
    with its parameters as they are printed. -/
theorem python_load_saved (fmt : ℝ → Decimal) (hf : PrintsDigits fmt) (f g : FT LobeObj)
    (hin : (f.par LobeObj.par).input.Named) (hr : g.CanRead f) (t : Str) (ht : pySave fmt f = some t) :
    Fn.Same (pyLoad (some t) g).toFn (f.rounded fmt).toFn := by
  have e : t = savedText fmt [] f := by
    unfold pySave saveFunction at ht
    split_ifs at ht
    exact (Option.some.inj ht).symm
  subst e
  obtain ⟨f1, ws', _, hl, hs⟩ := FT.load_saved fmt hf g f hr ('\n' :: f.saveBody) ['\n']
    (newlines_one.skippable.append f.saveBody_skippable)
  unfold pyLoad
  simp only
  rw [parseHeader_savedText fmt f hin]
  rw [List.cons_append] at hl
  rw [hl]
  exact FT.same_of_leaves _ _ hs

mutual
theorem FT.saves_of_canRead : ∀ f0 f : FT LobeObj, f0.CanRead f → f.saves = true
  | .leaf l0, .leaf l, h => by
    simp only [FT.CanRead] at h
    cases l0 <;> cases l <;> simp only [LobeObj.CanRead] at h <;> rfl
  | .compound _ fs0, .compound _ fs, h => by
    simp only [FT.CanRead] at h
    exact FTs.saves_of_canRead fs0 fs h.2.2
  | .product _ f0 g0 _ _, .product _ f g _ _, h => by
    simp only [FT.CanRead] at h
    simp only [FT.saves, FT.saves_of_canRead f0 f h.2.2.2.1, FT.saves_of_canRead g0 g h.2.2.2.2, Bool.and_self]
  | .leaf _, .compound _ _, h => by simp only [FT.CanRead] at h
  | .leaf _, .product _ _ _ _ _, h => by simp only [FT.CanRead] at h
  | .compound _ _, .leaf _, h => by simp only [FT.CanRead] at h
  | .compound _ _, .product _ _ _ _ _, h => by simp only [FT.CanRead] at h
  | .product _ _ _ _ _, .leaf _, h => by simp only [FT.CanRead] at h
  | .product _ _ _ _ _, .compound _ _, h => by simp only [FT.CanRead] at h
theorem FTs.saves_of_canRead : ∀ fs0 fs : FTs LobeObj, fs0.CanRead fs → fs.saves = true
  | _, .nil, _ => rfl
  | .cons _ f0 r0, .cons _ f r, h => by
    simp only [FTs.CanRead] at h
    simp only [FTs.saves, FT.saves_of_canRead f0 f h.2.1, FTs.saves_of_canRead r0 r h.2.2, Bool.and_self]
  | .nil, .cons _ _ _, h => by simp only [FTs.CanRead] at h
end

/-- C85: such a function is always saved. -/
theorem python_saves (fmt : ℝ → Decimal) (f g : FT LobeObj) (hr : g.CanRead f) : (pySave fmt f).isSome := by
  unfold pySave
  rw [saveFunction_saves fmt [] f (FT.saves_of_canRead g f hr)]
  rfl

/-! ### Scripts -/

/-- A command that writes the file `name`. -/
def PyFileCmd.Writes (name : Str) : PyFileCmd → Prop
  | .save _ n => n = name
  | _ => False

/-- A command that changes object `i`. -/
def PyFileCmd.Changes (i : ℕ) : PyFileCmd → Prop
  | .change j _ => j = i
  | .load j _ => j = i
  | _ => False

/-- C85: a command changes no other object than its own (`save` changes none), and no other file. -/
theorem python_files_frame (fmt : ℝ → Decimal) {s s' : PyFiles} {c : PyFileCmd} (h : s.step fmt c = some s') :
    (∀ i, i < s.objects.length → ¬ c.Changes i → s'.objects[i]? = s.objects[i]?) ∧
    (∀ name, ¬ c.Writes name → s'.files name = s.files name) ∧ s.objects.length ≤ s'.objects.length := by
  cases c with
  | make f =>
    cases h
    exact ⟨fun i hi _ => List.getElem?_append_left hi, fun _ _ => rfl, by simp⟩
  | change j f =>
    simp only [PyFiles.step] at h
    split_ifs at h
    cases h
    exact ⟨fun i _ hc => List.getElem?_set_ne hc, fun _ _ => rfl, by simp⟩
  | save j n =>
    obtain ⟨f, -, h⟩ := Option.bind_eq_some_iff.1 h
    obtain ⟨t, -, rfl⟩ := Option.map_eq_some_iff.1 h
    exact ⟨fun i _ _ => rfl, fun name hn => if_neg fun e => hn e.symm, le_rfl⟩
  | load j n =>
    obtain ⟨f, -, rfl⟩ := Option.map_eq_some_iff.1 h
    exact ⟨fun i _ hc => List.getElem?_set_ne hc, fun _ _ => rfl, by simp⟩

theorem PyFiles.run_cons (fmt : ℝ → Decimal) (s : PyFiles) (c : PyFileCmd) (cs : List PyFileCmd) :
    s.run fmt (c :: cs) = (s.step fmt c).bind fun t => t.run fmt cs := by
  unfold PyFiles.run
  rw [List.foldlM_cons]
  rfl

theorem PyFiles.run_append (fmt : ℝ → Decimal) (s : PyFiles) (cs cs' : List PyFileCmd) :
    s.run fmt (cs ++ cs') = (s.run fmt cs).bind fun t => t.run fmt cs' := by
  unfold PyFiles.run
  rw [List.foldlM_append]
  rfl

/-- C85: the same along a script. -/
theorem python_files_script (fmt : ℝ → Decimal) (cs : List PyFileCmd) {s s' : PyFiles} (h : s.run fmt cs = some s') :
    (∀ i, i < s.objects.length → (∀ c ∈ cs, ¬ c.Changes i) → s'.objects[i]? = s.objects[i]?) ∧
    (∀ name, (∀ c ∈ cs, ¬ c.Writes name) → s'.files name = s.files name) := by
  induction cs generalizing s with
  | nil => cases h; exact ⟨fun _ _ _ => rfl, fun _ _ => rfl⟩
  | cons c cs ih =>
    rw [PyFiles.run_cons] at h
    obtain ⟨t, ht, h⟩ := Option.bind_eq_some_iff.1 h
    obtain ⟨f1, f2, f3⟩ := python_files_frame fmt ht
    obtain ⟨g1, g2⟩ := ih h
    refine ⟨fun i hi hc => ?_, fun name hc => ?_⟩
    · rw [g1 i (lt_of_lt_of_le hi f3) fun c hc' => hc c (List.mem_cons_of_mem _ hc')]
      exact f1 i hi (hc c List.mem_cons_self)
    · rw [g2 name fun c hc' => hc c (List.mem_cons_of_mem _ hc')]
      exact f2 name (hc c List.mem_cons_self)

/-- C85: a script saves object `i`, does anything but save to the same file again, and loads the file in object `j`, made in
    the same way: object `j` is then what object `i` was when it was saved, with its parameters as they are printed, even if
    object `i` was changed since. -/
theorem python_save_then_load (fmt : ℝ → Decimal) (hf : PrintsDigits fmt) (s s1 s' : PyFiles) (i j : ℕ) (name : Str)
    (cs : List PyFileCmd) (hcs : ∀ c ∈ cs, ¬ c.Writes name) (f g : FT LobeObj) (hi : s.objects[i]? = some f)
    (hin : (f.par LobeObj.par).input.Named)
    (h1 : s.run fmt (.save i name :: cs) = some s1) (hj : s1.objects[j]? = some g) (hr : g.CanRead f)
    (h : s1.step fmt (.load j name) = some s') :
    ∃ g', s'.objects[j]? = some g' ∧ Fn.Same g'.toFn (f.rounded fmt).toFn := by
  rw [PyFiles.run_cons] at h1
  obtain ⟨s0, h0, h1⟩ := Option.bind_eq_some_iff.1 h1
  have hfile : s1.files name = s0.files name := (python_files_script fmt cs h1).2 name hcs
  simp only [PyFiles.step, hi, Option.bind_some, Option.map_eq_some_iff] at h0
  obtain ⟨t, ht, rfl⟩ := h0
  simp only [if_true] at hfile
  simp only [PyFiles.step, hj, Option.map_some, Option.some.injEq] at h
  subst h
  have hlt : j < s1.objects.length := by
    by_contra hc
    rw [List.getElem?_eq_none (by omega)] at hj
    cases hj
  refine ⟨_, List.getElem?_set_self hlt, ?_⟩
  rw [hfile]
  exact python_load_saved fmt hf f g hin hr t ht

/-- C85: exactly the function that was saved, when its numbers are printed exactly. -/
theorem python_save_then_load_exact (fmt : ℝ → Decimal) (hf : PrintsDigits fmt) (s s1 s' : PyFiles) (i j : ℕ) (name : Str)
    (cs : List PyFileCmd) (hcs : ∀ c ∈ cs, ¬ c.Writes name) (f g : FT LobeObj) (hi : s.objects[i]? = some f)
    (hin : (f.par LobeObj.par).input.Named) (hx : f.rounded fmt = f)
    (h1 : s.run fmt (.save i name :: cs) = some s1) (hj : s1.objects[j]? = some g) (hr : g.CanRead f)
    (h : s1.step fmt (.load j name) = some s') :
    ∃ g', s'.objects[j]? = some g' ∧ Fn.Same g'.toFn f.toFn := by
  obtain ⟨g', h2, h3⟩ := python_save_then_load fmt hf s s1 s' i j name cs hcs f g hi hin h1 hj hr h
  rw [hx] at h3
  exact ⟨g', h2, h3⟩

/-- C85: a file that is not there changes nothing, and a file in which nothing is found changes nothing. -/
theorem python_load_nothing (f : FT LobeObj) :
    pyLoad none f = f ∧ ∀ t, (f.load (some (parseHeader t).2)).1 = false → pyLoad (some t) f = f := by
  refine ⟨rfl, fun t h => ?_⟩
  unfold pyLoad
  exact f.load_false _ h

/-! ### Limits -/

/-- C85, limit: `alta.load_function(file)` does not give back what `f.save(file)` wrote, whatever the nonlinear function:
    the name of its plugin is not in the file, and the result is `None`. -/
theorem python_load_function_none (junk : ℝ) (fmt : ℝ → Decimal) (dir : Str) (env : Option Str)
    (fs : Str → Option (Symbols (Provider LobeObj))) (f : FT LobeObj) (hin : (f.par LobeObj.par).input.Named) (t : Str)
    (ht : pySave fmt f = some t) : pyLoadFunction junk dir env fs (some t) = some none := by
  have e : t = savedText fmt [] f := by
    unfold pySave saveFunction at ht
    split_ifs at ht
    exact (Option.some.inj ht).symm
  subst e
  have e : savedText fmt [] f = saveHeader (SMap.getCmd []) (f.par LobeObj.par) ++ (f.saveBody ++ (f.saveCall fmt ++ ['\n'])) := by
    simp only [savedText, List.append_assoc]
  unfold pyLoadFunction
  simp only
  rw [e, loadAny_saved junk dir env fs [] SMap.ordered_nil (by intro e he; cases he) _ hin _ rfl]
  have hpre : Skippable ('\n' :: f.saveBody) := newlines_one.skippable.append f.saveBody_skippable
  rw [← List.cons_append, RatFn.load_skippable junk _ hpre, RatFn.load_foreign junk _ _ (f.saveCall_foreign fmt)]
  rfl

/-- C85, limit: a file of which only a part is found changes only a part of the function, without an error: the sum of a
    Blinn lobe and of a diffuse one, loaded from the file of a Blinn lobe. -/
theorem python_partly_loaded (fmt : ℝ → Decimal) (hf : PrintsDigits fmt) (p : Par) (a b : SMap) (s0 s : BlinnS)
    (d : DiffuseS) (h : s0.par = s.par) (hin : s.par.input.Named) (t : Str) (ht : pySave fmt (.leaf (.blinn s)) = some t) :
    ∃ l1, pyLoad (some t) (.compound p (.cons a (.leaf (.blinn s0)) (.cons b (.leaf (.diffuse d)) .nil))) =
      .compound p (.cons a (.leaf l1) (.cons b (.leaf (.diffuse d)) .nil)) ∧
      Fn.Same l1.toFn (LobeObj.rounded fmt (.blinn s)).toFn := by
  have e : t = savedText fmt [] (.leaf (.blinn s)) := by
    unfold pySave saveFunction at ht
    split_ifs at ht
    exact (Option.some.inj ht).symm
  subst e
  unfold pyLoad
  simp only
  rw [parseHeader_savedText fmt (.leaf (.blinn s)) hin]
  obtain ⟨l1, ws', h1, h2, h3⟩ := blinn_readsBack fmt hf s0 s h ['\n'] ['\n'] newlines_one.skippable
  have hd : ((LobeObj.diffuse d).load (some (ws' ++ ['\n']))).1 = false := by
    have hs : skipLines (ws' ++ ['\n']) = .failed := by
      have : Skippable (ws' ++ ['\n']) := h1.skippable.append newlines_one.skippable
      rw [← List.append_nil (ws' ++ ['\n']), skipLines_skippable this, skipLines.eq_def]
    simp only [LobeObj.load, readBlock, readHead, hs, wrap, Bool.false_eq_true, if_false]
  refine ⟨l1, ?_, h3⟩
  have e2 : '\n' :: ((FT.leaf (LobeObj.blinn s)).saveBody ++ ((FT.leaf (LobeObj.blinn s)).saveCall fmt ++ ['\n'])) =
      ['\n'] ++ (LobeObj.saveCall fmt (.blinn s) ++ ['\n']) := rfl
  rw [e2]
  simp only [FT.load, FTs.load, h2, if_true, hd, Bool.false_eq_true, if_false, (LobeObj.diffuse d).load_false _ hd]

/-! ### An example -/

/-- A Ward lobe with coefficients 2, 1, 3 is saved, then reset, then loaded in another lobe, which had coefficients 0. -/
example (p : Par) (files : Str → Option Str) :
    let f : FT LobeObj := .leaf (.ward ⟨p.setInput 6 .CARTESIAN, fun _ => 2, fun _ => 1, fun _ => 3⟩)
    let g : FT LobeObj := .leaf (.ward ⟨p.setInput 6 .CARTESIAN, fun _ => 0, fun _ => 0, fun _ => 0⟩)
    ∃ s', PyFiles.run exampleFmt ⟨[f, g], files⟩ [.save 0 "w".toList, .change 0 g, .load 1 "w".toList] = some s' ∧
      ∃ g', s'.objects[1]? = some g' ∧ Fn.Same g'.toFn f.toFn := by
  intro f g
  obtain ⟨e0, e1, e2, e3⟩ := exampleFmt_values
  have hr : g.CanRead f := rfl
  obtain ⟨t, ht⟩ := Option.isSome_iff_exists.1 (python_saves exampleFmt f g hr)
  have hx : f.rounded exampleFmt = f := by
    simp only [f, FT.rounded, LobeObj.rounded, e1, e2, e3]
  have h1 : PyFiles.run exampleFmt ⟨[f, g], files⟩ [.save 0 "w".toList, .change 0 g] =
      some ⟨[g, g], fun n => if n = "w".toList then some t else files n⟩ := by
    simp [PyFiles.run, PyFiles.step, ht]
  refine ⟨⟨[g, pyLoad (some t) g], fun n => if n = "w".toList then some t else files n⟩, ?_, ?_⟩
  · have : [PyFileCmd.save 0 "w".toList, .change 0 g, .load 1 "w".toList] =
        [PyFileCmd.save 0 "w".toList, .change 0 g] ++ [.load 1 "w".toList] := rfl
    rw [this, PyFiles.run_append, h1]
    simp [PyFiles.run, PyFiles.step]
  · refine python_save_then_load_exact exampleFmt exampleFmt_digits ⟨[f, g], files⟩ _ _ 0 1 "w".toList [.change 0 g] ?_ f g rfl ?_ hx
      h1 rfl hr ?_
    · intro c hc
      rw [List.mem_singleton.1 hc]
      exact id
    · show Input.Named .CARTESIAN
      unfold Input.Named
      decide
    · simp [PyFiles.step]

end
end Alta
