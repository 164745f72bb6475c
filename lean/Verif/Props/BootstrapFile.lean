import Verif.Props.FunctionFileExamples
import Verif.Props.BootstrapStart
/-
Property C58: the starting point read in a file, and what a starting point keeps.
-/
namespace Alta
noncomputable section

/-! ### The header -/

theorem skipHeader_line (l rest : Str) (h1 : '\n' ∉ l) (h2 : l ≠ "#ALTA HEADER END".toList) :
    skipHeader (l ++ '\n' :: rest) = skipHeader rest := by
  rw [skipHeader.eq_def, getLine_append _ _ h1, if_neg h2]
  split
  · rename_i h; rw [(takeWhile_line l rest h1).2] at h; cases h
  · rename_i h; rw [(takeWhile_line l rest h1).2] at h; cases h; rfl

theorem skipHeader_end (l rest : Str) (h1 : '\n' ∉ l) (h2 : l = "#ALTA HEADER END".toList) :
    skipHeader (l ++ '\n' :: rest) = some (some rest) := by
  rw [skipHeader.eq_def, getLine_append _ _ h1, if_pos h2, (takeWhile_line _ _ h1).2]
  rfl

/-- The header of a saved function is passed. -/
theorem skipHeader_saved (args : SMap) (ha : CmdMap args) (p : Par) (rest : Str) :
    skipHeader (saveHeader args.getCmd p ++ rest) = some (some ('\n' :: rest)) := by
  have e1 : "#ALTA FUNC HEADER\n".toList = "#ALTA FUNC HEADER".toList ++ ['\n'] := by decide
  have e5 : "#ALTA HEADER END\n".toList = "#ALTA HEADER END".toList ++ ['\n'] := by decide
  have e : saveHeader args.getCmd p ++ rest =
      "#ALTA FUNC HEADER".toList ++ '\n' :: (("#CMD ".toList ++ args.getCmd) ++ '\n' ::
        (("#DIM ".toList ++ showNat p.dimX ++ [' '] ++ showNat p.dimY) ++ '\n' ::
          (("#PARAM_IN  ".toList ++ (inputName p.input).toList) ++ '\n' ::
            ("#ALTA HEADER END".toList ++ '\n' :: ('\n' :: rest))))) := by
    unfold saveHeader
    rw [e1, e5]
    simp only [List.append_assoc, List.cons_append, List.nil_append]
  have hcmd : '\n' ∉ args.getCmd := fun hc => by
    rcases getCmd_chars args ha _ hc with h | h <;> exact absurd h (by decide)
  rw [e, skipHeader_line _ _ (by decide) (by decide), skipHeader_line, skipHeader_line, skipHeader_line,
    skipHeader_end _ _ (by decide) rfl]
  · have := (isWord_inputName p.input).newline
    simp [this]
  · intro h
    have := congrArg (fun s => s.getD 1 ' ') h
    simp at this
  · have h1 := (showNat_isWord p.dimX).newline
    have h2 := (showNat_isWord p.dimY).newline
    simp [h1, h2]
  · intro h
    have := congrArg (fun s => s.getD 1 ' ') h
    simp at this
  · simp [hcmd]
  · intro h
    have := congrArg (fun s => s.getD 1 ' ') h
    simp at this

/-! ### The members -/

theorem bootFile_saved (fmt : ℝ → Decimal) (hf : PrintsDigits fmt) (files : Str → Option Str) (d : Data) (args : SMap) :
    ∀ (fs0 fs : FTs LobeObj), fs0.CanRead fs → ∀ pre rest : Str, Skippable pre →
      ∃ fs1, fs0.bootFile files d args (some (pre ++ (fs.saveCall fmt ++ rest))) = some fs1 ∧
        fs1.LeafSame (fs.rounded fmt)
  | .nil, .nil, _, pre, rest, hp => by
    refine ⟨.nil, ?_, ?_⟩
    · simp only [FTs.bootFile]
    · simp only [FTs.rounded, FTs.LeafSame]
  | .cons a0 f0 r0, .cons a f r, h, pre, rest, hp => by
    simp only [FTs.CanRead] at h
    obtain ⟨ha, hF, hR⟩ := h
    by_cases hprod : ∃ p0 x0 y0 b0 c0, f0 = .product p0 x0 y0 b0 c0
    · obtain ⟨p0, x0, y0, b0, c0, rfl⟩ := hprod
      cases f with
      | leaf => simp only [FT.CanRead] at hF
      | compound => simp only [FT.CanRead] at hF
      | product p x y b c =>
        simp only [FT.CanRead] at hF
        obtain ⟨rfl, rfl, rfl, hX, hY⟩ := hF
        obtain ⟨x1, w1, h1, e1, s1⟩ := FT.load_saved fmt hf x0 x hX pre (y.saveCall fmt ++ (r.saveCall fmt ++ rest)) hp
        obtain ⟨y1, w2, h2, e2, s2⟩ := FT.load_saved fmt hf y0 y hY w1 (r.saveCall fmt ++ rest) h1
        obtain ⟨r1, e3, s3⟩ := bootFile_saved fmt hf files d args r0 r hR w2 rest h2
        refine ⟨.cons a0 (.product p0 x1 y1 b0 c0) r1, ?_, ?_⟩
        · simp only [FTs.bootFile, FTs.saveCall, FT.saveCall, List.append_assoc, e1, if_true, afterLoad, e2, e3,
            Option.map_some]
        · simp only [FTs.rounded, FTs.LeafSame, FT.rounded, FT.LeafSame]
          exact ⟨ha, ⟨trivial, trivial, trivial, s1, s2⟩, s3⟩
    · obtain ⟨f1, w1, h1, e1, s1⟩ := FT.load_saved fmt hf f0 f hF pre (r.saveCall fmt ++ rest) hp
      obtain ⟨r1, e3, s3⟩ := bootFile_saved fmt hf files d args r0 r hR w1 rest h1
      refine ⟨.cons a0 f1 r1, ?_, ?_⟩
      · rw [FTs.bootFile]
        · simp only [FTs.saveCall, List.append_assoc, e1, if_true, afterLoad, e3, Option.map_some]
        · intro p0 x0 y0 b0 c0 e
          exact hprod ⟨p0, x0, y0, b0, c0, e⟩
      · simp only [FTs.rounded, FTs.LeafSame]
        exact ⟨ha, s1, s3⟩
  | .nil, .cons _ _ _, h, _, _, _ => by simp only [FTs.CanRead] at h
  | .cons _ _ _, .nil, h, _, _, _ => by simp only [FTs.CanRead] at h

/-- C58: a sum or a product started from the file of a function built in the same way starts from this
    function, rounded by the printing: same parameters and same value everywhere, whatever it was before. -/
theorem bootstrap_file (fmt : ℝ → Decimal) (hf : PrintsDigits fmt) (files : Str → Option Str) (d : Data) (args a : SMap)
    (ha : CmdMap a) (f0 f : FT LobeObj) (o : Output) (hl : ∀ l, f0 ≠ .leaf l) (hd : args.isDefined kBoot = true)
    (hv : args.isVec kBoot = false) (hfile : files (args.get kBoot) = saveFunction fmt a f)
    (hread : f0.CanRead (f.withOutput o)) :
    ∃ f1, f0.bootstrap files d args = some f1 ∧ Fn.Same f1.toFn ((f.withOutput o).rounded fmt).toFn := by
  rw [saveFunction_saves fmt a f (FT.canRead_saves _ _ _ hread)] at hfile
  have hsk : skipHeader (savedText fmt a f) =
      some (some (('\n' :: f.saveBody) ++ (f.saveCall fmt ++ ['\n']))) := by
    have : savedText fmt a f =
        saveHeader a.getCmd (f.par LobeObj.par) ++ (f.saveBody ++ (f.saveCall fmt ++ ['\n'])) := by
      simp only [savedText, List.append_assoc]
    rw [this, skipHeader_saved a ha]
    rfl
  have hpre : Skippable ('\n' :: f.saveBody) := newlines_one.skippable.append f.saveBody_skippable
  rw [← FT.withOutput_saveCall fmt o f] at hsk
  generalize f.withOutput o = f2 at *
  cases f0 with
  | leaf l => exact absurd rfl (hl l)
  | compound p0 fs0 =>
    cases f2 with
    | leaf => simp only [FT.CanRead] at hread
    | product => simp only [FT.CanRead] at hread
    | compound p fs =>
      simp only [FT.CanRead] at hread
      obtain ⟨rfl, -, hr⟩ := hread
      obtain ⟨fs1, h1, h2⟩ := bootFile_saved fmt hf files d args fs0 fs hr _ ['\n'] hpre
      refine ⟨.compound p0 fs1, ?_, FT.same_of_leaves _ _ ?_⟩
      · simp only [FT.bootstrap, hd, hv, hfile, hsk, if_true, Bool.false_eq_true, if_false, FT.saveCall, h1,
          Option.map_some]
      · simp only [FT.rounded, FT.LeafSame]
        exact ⟨trivial, h2⟩
  | product p0 x0 y0 b0 c0 =>
    cases f2 with
    | leaf => simp only [FT.CanRead] at hread
    | compound => simp only [FT.CanRead] at hread
    | product p x y b c =>
      simp only [FT.CanRead] at hread
      obtain ⟨rfl, rfl, rfl, hX, hY⟩ := hread
      obtain ⟨x1, w1, h1, e1, s1⟩ := FT.load_saved fmt hf x0 x hX _ (y.saveCall fmt ++ ['\n']) hpre
      obtain ⟨y1, w2, h2, e2, s2⟩ := FT.load_saved fmt hf y0 y hY w1 ['\n'] h1
      refine ⟨.product p0 x1 y1 b0 c0, ?_, FT.same_of_leaves _ _ ?_⟩
      · simp only [FT.bootstrap, hd, hv, hfile, hsk, if_true, Bool.false_eq_true, if_false, FT.saveCall,
          List.append_assoc, e1, afterLoad, e2, Option.map_some]
      · simp only [FT.rounded, FT.LeafSame]
        exact ⟨trivial, trivial, trivial, s1, s2⟩

/-! ### Limits -/

/-- A single lobe cannot be read from the beginning of a file: its first line is not a block, the header
    is not passed. -/
theorem load_header_false (l : LobeObj) (r : Str) :
    (l.load (some (['#', 'A', 'L', 'T', 'A', ' '] ++ r))).1 = false := by
  have hd : ∀ name : Str, (readHead name (some (['#', 'A', 'L', 'T', 'A', ' '] ++ r))).1 = false := by
    intro name
    have e : ['#', 'A', 'L', 'T', 'A', ' '] ++ r = '#' :: (['A', 'L', 'T', 'A', ' '] ++ r) := rfl
    have hw : readWord ('#' :: (['A', 'L', 'T', 'A', ' '] ++ r)) = (['#', 'A', 'L', 'T', 'A'], ' ' :: r) :=
      readWord_word [] ['#', 'A', 'L', 'T', 'A'] (' ' :: r) (by simp) ⟨by decide, by decide⟩
        (by intro c r' h; cases h; decide)
    have hf : (['#', 'A', 'L', 'T', 'A'] : Str) ≠ "#FUNC".toList := by decide
    rw [e]
    simp only [readHead, skipLines_hash, readToken, hw, hf, decide_false, Bool.false_eq_true, if_false,
      List.cons_ne_nil]
  have hb : ∀ {σ : Type} (name : Str) (olds : List ℝ) (store : List ℝ → σ) (s : σ),
      (readBlock name olds store s (some (['#', 'A', 'L', 'T', 'A', ' '] ++ r))).1 = false := by
    intro σ name olds store s
    simp only [readBlock, hd, Bool.false_eq_true, if_false]
  cases l <;> simp only [LobeObj.load, wrap, OneS.load, SgdS.load, hb]
  case retrobeckmann s => simp only [RetroBeckmannS.load, hd, Bool.false_eq_true, if_false]
  case abc s => simp only [AbcS.load, hd, Bool.false_eq_true, if_false]
  case isoLafortune s => simp only [IsoLafortuneS.load, hd, Bool.false_eq_true, if_false]
  case lafortune s => simp only [LafortuneS.load, hd, Bool.false_eq_true, if_false]

/-- Limit: a Beckmann or SGD lobe alone is not started from a file saved by ALTA: it stays as it was. -/
theorem lobe_file_ignored (files : Str → Option Str) (d : Data) (args : SMap) (l : LobeObj) (text : Str)
    (hl : (∃ s, l = .beckmann s) ∨ ∃ s, l = .sgd s) (hd : args.isDefined kBoot = true) (hv : args.isVec kBoot = false)
    (hfile : files (args.get kBoot) = some (['#', 'A', 'L', 'T', 'A', ' '] ++ text)) :
    l.bootstrap files d args = some l := by
  have h := LobeObj.load_false l _ (load_header_false l text)
  have key : l.nlBootstrap files args = some l := by
    unfold LobeObj.nlBootstrap LobeObj.baseBootstrap
    rw [hv, hfile]
    simp only [Bool.false_eq_true, if_false, h, ite_self]
  rcases hl with ⟨s, rfl⟩ | ⟨s, rfl⟩
  · simp only [LobeObj.bootstrap, hd, if_true]; exact key
  · exact key

/-- Limit: when the file cannot be opened, a sum or a product stays as it was, without an error, while a
    Beckmann or SGD lobe alone ends the program. -/
theorem missing_file (files : Str → Option Str) (d : Data) (args : SMap) (hd : args.isDefined kBoot = true)
    (hv : args.isVec kBoot = false) (hne : args.get kBoot ≠ []) (hfile : files (args.get kBoot) = none) :
    (∀ p fs, (FT.compound p fs).bootstrap files d args = some (.compound p fs)) ∧
    (∀ p f g a b, (FT.product p f g a b).bootstrap files d args = some (.product p f g a b)) ∧
    (∀ s, (FT.leaf (.beckmann s)).bootstrap files d args = none) ∧
    ∀ s, (FT.leaf (.sgd s)).bootstrap files d args = none := by
  refine ⟨?_, ?_, ?_, ?_⟩ <;> intros <;>
    simp [FT.bootstrap, LobeObj.bootstrap, LobeObj.nlBootstrap, LobeObj.baseBootstrap, hd, hv, hne, hfile]

theorem skipHeader_endless (lines : List Str) (h : ∀ l ∈ lines, '\n' ∉ l ∧ l ≠ "#ALTA HEADER END".toList) :
    skipHeader (lines.flatMap (· ++ ['\n'])) = none := by
  induction lines with
  | nil =>
    rw [skipHeader.eq_def]
    have : (getLine (List.flatMap (· ++ ['\n']) [])).1 ≠ "#ALTA HEADER END".toList := by decide
    rw [if_neg this]
    rfl
  | cons l ls ih =>
    have e : (l :: ls).flatMap (· ++ ['\n']) = l ++ '\n' :: ls.flatMap (· ++ ['\n']) := by simp
    rw [e, skipHeader_line l _ (h l (by simp)).1 (h l (by simp)).2]
    exact ih fun l hl => h l (by simp [hl])

/-- Limit: a file without the line `#ALTA HEADER END` makes a sum or a product read forever. -/
theorem headerless_file (files : Str → Option Str) (d : Data) (args : SMap) (lines : List Str)
    (h : ∀ l ∈ lines, '\n' ∉ l ∧ l ≠ "#ALTA HEADER END".toList) (hd : args.isDefined kBoot = true)
    (hv : args.isVec kBoot = false) (hfile : files (args.get kBoot) = some (lines.flatMap (· ++ ['\n']))) :
    (∀ p fs, (FT.compound p fs).bootstrap files d args = none) ∧
    ∀ p f g a b, (FT.product p f g a b).bootstrap files d args = none := by
  have := skipHeader_endless lines h
  refine ⟨?_, ?_⟩ <;> intros <;> simp only [FT.bootstrap, hd, hv, hfile, this, if_true, Bool.false_eq_true, if_false]

/-! ### What is kept -/

theorem LobeObj.set_kept (l : LobeObj) (p : List ℝ) : l.Kept (l.set p) := by
  have h := Fn.set_par l.toFn l.toFn_WF p
  refine ⟨by cases l <;> rfl, ?_, ?_, ?_, fun _ => ?_⟩ <;> rw [LobeObj.toFn_set, h]

theorem LobeObj.load_kept' (l : LobeObj) (st : Stream) : l.Kept (l.load st).2.1 :=
  ⟨by cases l <;> rfl, load_kept l st⟩

theorem LobeObj.kept_refl (l : LobeObj) : l.Kept l := ⟨rfl, rfl, rfl, rfl, fun _ => rfl⟩

theorem LobeObj.nl_kept (files : Str → Option Str) (args : SMap) (l l' : LobeObj)
    (h : l.nlBootstrap files args = some l') : l.Kept l' := by
  unfold LobeObj.nlBootstrap at h
  split at h
  · cases h; exact LobeObj.set_kept _ _
  · unfold LobeObj.baseBootstrap at h
    split at h
    · split at h
      · cases h; exact LobeObj.load_kept' _ _
      · cases h
    · cases h; exact LobeObj.kept_refl _

theorem LobeObj.bootstrap_kept (files : Str → Option Str) (d : Data) (args : SMap) (l l' : LobeObj)
    (h : l.bootstrap files d args = some l') : l.Kept l' := by
  cases l with
  | beckmann s =>
    simp only [LobeObj.bootstrap] at h
    split at h
    · exact LobeObj.nl_kept _ _ _ _ h
    · cases h; exact ⟨rfl, rfl, rfl, rfl, fun _ => rfl⟩
  | sgd s => exact LobeObj.nl_kept _ _ _ _ h
  | diffuse s =>
    simp only [LobeObj.bootstrap] at h
    obtain ⟨t, h1, rfl⟩ := Option.map_eq_some_iff.1 h
    unfold DiffuseS.bootstrap at h1
    split at h1
    · cases h1
    · split at h1
      · cases h1
      · split at h1
        · obtain ⟨kd, -, rfl⟩ := Option.map_eq_some_iff.1 h1
          exact ⟨rfl, rfl, rfl, rfl, fun _ => rfl⟩
        · cases h1; exact ⟨rfl, rfl, rfl, rfl, fun _ => rfl⟩
  | isoLafortune s =>
    simp only [LobeObj.bootstrap] at h
    obtain ⟨t, h1, rfl⟩ := Option.map_eq_some_iff.1 h
    obtain ⟨n, -, rfl⟩ := Option.map_eq_some_iff.1 h1
    exact ⟨rfl, rfl, rfl, rfl, fun _ => rfl⟩
  | lafortune s =>
    simp only [LobeObj.bootstrap] at h
    obtain ⟨t, h1, rfl⟩ := Option.map_eq_some_iff.1 h
    unfold LafortuneS.bootstrap at h1
    split at h1
    · split at h1
      · cases h1
      · cases h1; exact ⟨rfl, rfl, rfl, rfl, fun _ => rfl⟩
    · cases h1
  | sg s =>
    simp only [LobeObj.bootstrap, Option.some.injEq] at h
    subst h
    refine ⟨rfl, ?_⟩
    simp only [LobeObj.toFn, Fn.par, SgS.bootstrap]
    split
    · split <;> exact ⟨rfl, rfl, rfl, fun _ => rfl⟩
    · exact ⟨rfl, rfl, rfl, fun _ => rfl⟩
  | abc s =>
    simp only [LobeObj.bootstrap, Option.some.injEq] at h
    subst h
    exact ⟨rfl, rfl, rfl, rfl, fun h => absurd trivial h⟩
  | _ =>
    simp only [LobeObj.bootstrap, Option.some.injEq] at h
    subst h
    exact ⟨rfl, rfl, rfl, rfl, fun _ => rfl⟩

mutual
theorem FT.kept_refl : ∀ f : FT LobeObj, f.Kept f
  | .leaf l => l.kept_refl
  | .compound p fs => ⟨rfl, FTs.kept_refl fs⟩
  | .product p f g a b => ⟨rfl, rfl, rfl, FT.kept_refl f, FT.kept_refl g⟩
theorem FTs.kept_refl : ∀ fs : FTs LobeObj, fs.Kept fs
  | .nil => trivial
  | .cons a f r => ⟨rfl, FT.kept_refl f, FTs.kept_refl r⟩
end

mutual
theorem FT.set_kept : ∀ (f : FT LobeObj) (p : List ℝ), f.Kept (f.set p)
  | .leaf l, p => l.set_kept p
  | .compound q fs, p => ⟨rfl, FTs.set_kept fs p⟩
  | .product q f g a b, p => by
    refine ⟨rfl, rfl, rfl, ?_, ?_⟩
    · split
      · exact FT.set_kept f _
      · exact FT.kept_refl f
    · split
      · exact FT.set_kept g _
      · exact FT.kept_refl g
theorem FTs.set_kept : ∀ (fs : FTs LobeObj) (p : List ℝ), fs.Kept (fs.set p)
  | .nil, _ => trivial
  | .cons a f r, p => by
    rw [FTs.set]
    split
    · exact ⟨rfl, FT.set_kept f _, FTs.set_kept r _⟩
    · exact ⟨rfl, FT.kept_refl f, FTs.set_kept r _⟩
end

mutual
theorem FT.load_kept : ∀ (f : FT LobeObj) (st : Stream), f.Kept (f.load st).2.1
  | .leaf l, st => l.load_kept' st
  | .compound q fs, st => ⟨rfl, FTs.load_kept fs st⟩
  | .product q f g a b, st => ⟨rfl, rfl, rfl, FT.load_kept f st, FT.load_kept g _⟩
theorem FTs.load_kept : ∀ (fs : FTs LobeObj) (st : Stream), fs.Kept (fs.load st).2.1
  | .nil, _ => trivial
  | .cons a f r, st => ⟨rfl, FT.load_kept f st, FTs.load_kept r _⟩
end

theorem FT.read_or_start_kept (files : Str → Option Str) (d : Data) (args : SMap) (f f' : FT LobeObj) (st : Stream)
    (hb : ∀ f', f.bootstrap files d args = some f' → f.Kept f')
    (h : (if (f.load st).1 then some (f.load st).2.1 else f.bootstrap files d args) = some f') : f.Kept f' := by
  split at h
  · cases h; exact FT.load_kept f st
  · exact hb f' h

mutual
theorem FT.bootstrap_kept (files : Str → Option Str) (d : Data) : ∀ (f : FT LobeObj) (args : SMap) (f' : FT LobeObj),
    f.bootstrap files d args = some f' → f.Kept f'
  | .leaf l, args, f', h => by
    simp only [FT.bootstrap] at h
    obtain ⟨l', h1, rfl⟩ := Option.map_eq_some_iff.1 h
    exact LobeObj.bootstrap_kept files d args l l' h1
  | .compound p fs, args, f', h => by
    simp only [FT.bootstrap] at h
    split at h
    · split at h
      · obtain ⟨fs', h1, rfl⟩ := Option.map_eq_some_iff.1 h
        exact ⟨rfl, FTs.bootVector_kept files d fs _ fs' h1⟩
      · split at h
        · cases h; exact FT.kept_refl _
        · split at h
          · cases h
          · obtain ⟨fs', h1, rfl⟩ := Option.map_eq_some_iff.1 h
            exact ⟨rfl, FTs.bootFile_kept files d args fs _ fs' h1⟩
    · obtain ⟨fs', h1, rfl⟩ := Option.map_eq_some_iff.1 h
      exact ⟨rfl, FTs.bootEach_kept files d fs fs' h1⟩
  | .product p f g a b, args, f', h => by
    simp only [FT.bootstrap] at h
    split at h
    · split at h
      · cases h; exact FT.set_kept _ _
      · split at h
        · cases h; exact FT.kept_refl _
        · split at h
          · cases h
          · split at h
            · cases h
            · rename_i h1
              obtain ⟨g1, h2, rfl⟩ := Option.map_eq_some_iff.1 h
              exact ⟨rfl, rfl, rfl,
                FT.read_or_start_kept files d args f _ _ (FT.bootstrap_kept files d f args) h1,
                FT.read_or_start_kept files d args g _ _ (FT.bootstrap_kept files d g args) h2⟩
    · split at h
      · cases h
      · rename_i h1
        obtain ⟨g1, h2, rfl⟩ := Option.map_eq_some_iff.1 h
        exact ⟨rfl, rfl, rfl, FT.bootstrap_kept files d f args _ h1, FT.bootstrap_kept files d g args _ h2⟩
theorem FTs.bootEach_kept (files : Str → Option Str) (d : Data) : ∀ (fs fs' : FTs LobeObj),
    fs.bootEach files d = some fs' → fs.Kept fs'
  | .nil, fs', h => by
    simp only [FTs.bootEach, Option.some.injEq] at h; subst h; trivial
  | .cons a f r, fs', h => by
    simp only [FTs.bootEach] at h
    split at h
    · cases h
    · rename_i h1
      obtain ⟨r', h2, rfl⟩ := Option.map_eq_some_iff.1 h
      exact ⟨rfl, FT.bootstrap_kept files d f a _ h1, FTs.bootEach_kept files d r r' h2⟩
theorem FTs.bootVector_kept (files : Str → Option Str) (d : Data) : ∀ (fs : FTs LobeObj) (p : List ℝ) (fs' : FTs LobeObj),
    fs.bootVector files d p = some fs' → fs.Kept fs'
  | .nil, p, fs', h => by
    simp only [FTs.bootVector, Option.some.injEq] at h; subst h; trivial
  | .cons a f r, p, fs', h => by
    simp only [FTs.bootVector] at h
    split at h
    · obtain ⟨r', h2, rfl⟩ := Option.map_eq_some_iff.1 h
      exact ⟨rfl, FT.set_kept f _, FTs.bootVector_kept files d r _ r' h2⟩
    · split at h
      · cases h
      · rename_i h1
        obtain ⟨r', h2, rfl⟩ := Option.map_eq_some_iff.1 h
        refine ⟨rfl, ?_, FTs.bootVector_kept files d r _ r' h2⟩
        split at h1
        · exact FT.bootstrap_kept files d f a _ h1
        · cases h1; exact FT.kept_refl f
theorem FTs.bootFile_kept (files : Str → Option Str) (d : Data) (args : SMap) : ∀ (fs : FTs LobeObj) (st : Stream)
    (fs' : FTs LobeObj), fs.bootFile files d args st = some fs' → fs.Kept fs'
  | .nil, st, fs', h => by
    simp only [FTs.bootFile, Option.some.injEq] at h; subst h; trivial
  | .cons a (.product p f g x y) r, st, fs', h => by
    simp only [FTs.bootFile] at h
    split at h
    · cases h
    · rename_i h1
      split at h
      · cases h
      · rename_i h2
        obtain ⟨r', h3, rfl⟩ := Option.map_eq_some_iff.1 h
        exact ⟨rfl, ⟨rfl, rfl, rfl,
          FT.read_or_start_kept files d args f _ _ (FT.bootstrap_kept files d f args) h1,
          FT.read_or_start_kept files d args g _ _ (FT.bootstrap_kept files d g args) h2⟩,
          FTs.bootFile_kept files d args r _ r' h3⟩
  | .cons a (.leaf l) r, st, fs', h => by
    simp only [FTs.bootFile] at h
    split at h
    · cases h
    · rename_i h1
      obtain ⟨r', h3, rfl⟩ := Option.map_eq_some_iff.1 h
      exact ⟨rfl, FT.read_or_start_kept files d a (.leaf l) _ _ (FT.bootstrap_kept files d (.leaf l) a) h1,
        FTs.bootFile_kept files d args r _ r' h3⟩
  | .cons a (.compound q gs) r, st, fs', h => by
    simp only [FTs.bootFile] at h
    split at h
    · cases h
    · rename_i h1
      obtain ⟨r', h3, rfl⟩ := Option.map_eq_some_iff.1 h
      exact ⟨rfl, FT.read_or_start_kept files d a (.compound q gs) _ _ (FT.bootstrap_kept files d (.compound q gs) a) h1,
        FTs.bootFile_kept files d args r _ r' h3⟩
end

theorem FT.kept_dimY (f f' : FT LobeObj) (h : f.Kept f') : f'.toFn.par.dimX = f.toFn.par.dimX ∧
    f'.toFn.par.dimY = f.toFn.par.dimY ∧ f'.toFn.par.output = f.toFn.par.output := by
  cases f <;> cases f' <;> simp only [FT.Kept] at h
  · exact ⟨h.2.1, h.2.2.1, h.2.2.2.1⟩
  · obtain ⟨rfl, -⟩ := h; exact ⟨rfl, rfl, rfl⟩
  · obtain ⟨rfl, -⟩ := h; exact ⟨rfl, rfl, rfl⟩

mutual
theorem FT.kept_WF : ∀ (f f' : FT LobeObj), f.Kept f' → f.toFn.WF → f'.toFn.WF
  | .leaf l, .leaf m, _, _ => m.toFn_WF
  | .compound p fs, .compound q gs, h, hw => by
    obtain ⟨rfl, h⟩ := h
    exact FTs.kept_WF fs gs _ h hw
  | .product p f g a b, .product q f' g' a' b', h, hw => by
    obtain ⟨rfl, rfl, rfl, h1, h2⟩ := h
    obtain ⟨w1, w2, w3, w4⟩ := hw
    exact ⟨FT.kept_WF f f' h1 w1, FT.kept_WF g g' h2 w2, (FT.kept_dimY f f' h1).2.1.trans w3,
      (FT.kept_dimY g g' h2).2.1.trans w4⟩
  | .leaf _, .compound _ _, h, _ => by simp only [FT.Kept] at h
  | .leaf _, .product _ _ _ _ _, h, _ => by simp only [FT.Kept] at h
  | .compound _ _, .leaf _, h, _ => by simp only [FT.Kept] at h
  | .compound _ _, .product _ _ _ _ _, h, _ => by simp only [FT.Kept] at h
  | .product _ _ _ _ _, .leaf _, h, _ => by simp only [FT.Kept] at h
  | .product _ _ _ _ _, .compound _ _, h, _ => by simp only [FT.Kept] at h
theorem FTs.kept_WF : ∀ (fs fs' : FTs LobeObj) (n : ℕ), fs.Kept fs' → fs.toFns.WF n → fs'.toFns.WF n
  | .nil, .nil, _, _, _ => trivial
  | .cons a f r, .cons b g r', n, h, hw => by
    obtain ⟨rfl, h1, h2⟩ := h
    exact ⟨⟨FT.kept_WF f g h1 hw.1.1, (FT.kept_dimY f g h1).2.1.trans hw.1.2⟩, FTs.kept_WF r r' n h2 hw.2⟩
  | .nil, .cons _ _ _, _, h, _ => by simp only [FTs.Kept] at h
  | .cons _ _ _, .nil, _, h, _ => by simp only [FTs.Kept] at h
end

/-- C58: whatever the arguments, a starting point is a function built as the one given: same sums, products
    and classes, same dimensions and output, same members held fixed; and it stays well formed. -/
theorem bootstrap_keeps (files : Str → Option Str) (d : Data) (args : SMap) (f f' : FT LobeObj)
    (h : f.bootstrap files d args = some f') : f.Kept f' ∧ (f.toFn.WF → f'.toFn.WF) ∧
      f'.toFn.par.dimX = f.toFn.par.dimX ∧ f'.toFn.par.dimY = f.toFn.par.dimY ∧
      f'.toFn.par.output = f.toFn.par.output :=
  have hk := FT.bootstrap_kept files d f args f' h
  ⟨hk, FT.kept_WF f f' hk, FT.kept_dimY f f' hk⟩

end
end Alta
