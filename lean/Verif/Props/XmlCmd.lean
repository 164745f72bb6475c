import Verif.Spec.XmlCmd
import Verif.Props.FunctionTree
import Verif.Props.Data2Brdf
/-
Property C82: the scripts in XML.
-/
namespace Alta
variable {W : Type}

/-- ` --k v` -/
def optionText (p : Str × Str) : Str := " --".toList ++ p.1 ++ " ".toList ++ p.2

theorem commandText_eq (program : Str) (os : List (Str × Str)) :
    commandText program os = program ++ (os.map optionText).flatten := rfl

theorem commandText_append (program : Str) (os os' : List (Str × Str)) :
    commandText program (os ++ os') = commandText (commandText program os) os' := by
  simp [commandText, List.append_assoc]

theorem parameterStep_written (cmd : Str) (x : Xml) (p : Str × Str)
    (h : Written "name".toList "value".toList x p) : parameterStep cmd x = some (commandText cmd [p]) := by
  unfold parameterStep
  rw [h.1, h.2]
  simp [commandText]

theorem pluginStep_written (cmd : Str) (x : Xml) (p : Str × Str)
    (h : Written "type".toList "name".toList x p) : pluginStep cmd x = some (commandText cmd [p]) := by
  unfold pluginStep
  rw [h.1, h.2]
  simp [commandText]

theorem fold_written {a b : Str} (step : Str → Xml → Option Str)
    (hs : ∀ cmd x p, Written a b x p → step cmd x = some (commandText cmd [p]))
    (xs : List Xml) (ps : List (Str × Str)) (h : List.Forall₂ (Written a b) xs ps) (cmd : Str) :
    xs.foldlM step cmd = some (commandText cmd ps) := by
  induction h generalizing cmd with
  | nil => simp [commandText]
  | cons hp hrest ih =>
    rename_i x p xs ps
    rw [List.foldlM_cons, hs _ _ _ hp]
    show xs.foldlM step (commandText cmd [p]) = _
    rw [ih, ← commandText_append]
    rfl

theorem parseFunction_written (lib : Str) (x : Xml) (f : FunctionElt) (h : f.IsWritten x) :
    parseFunction lib x = some (commandText f.name (f.options lib)) := by
  unfold parseFunction
  rw [h.name, Option.bind_some, fold_written _ parameterStep_written _ _ h.params, Option.bind_some]
  have hfr := h.fresnel
  unfold FunctionElt.options Xml.find
  cases hf : f.fresnel with
  | none =>
    rw [hf] at hfr
    simp only at hfr
    rw [hfr]
    simp
  | some n =>
    rw [hf] at hfr
    obtain ⟨y, ys, h1, h2⟩ := hfr
    rw [h1]
    simp only [List.head?_cons, h2, Option.map_some]
    rw [commandText_append]
    simp [commandText, kFresnel, libName]

theorem joinWords_options (n : Str) (os : List (Str × Str)) :
    joinWords (n :: lineWords (os.map fun p => .word p.1 p.2)) = commandText n os := by
  induction os generalizing n with
  | nil => simp [lineWords, joinWords, commandText]
  | cons p os ih =>
    have : lineWords ((p :: os).map fun p => Item.word p.1 p.2) =
        optWord p.1 :: p.2 :: lineWords (os.map fun p => Item.word p.1 p.2) := rfl
    rw [this, joinWords_cons _ _ (by simp), joinWords_cons _ _ (by simp), ih]
    simp [commandText, optWord]

theorem term_text (lib : Str) (f : FunctionElt) :
    (f.term lib).text = commandText f.name (f.options lib) := joinWords_options _ _

theorem functionsLoop_written (lib : Str) (xs : List Xml) (fs : List FunctionElt)
    (h : List.Forall₂ FunctionElt.IsWritten xs fs) (last index : ℕ) (x : Xml) (f : FunctionElt)
    (hx : f.IsWritten x) (hl : last = index + xs.length) (cmd : Str) :
    functionsLoop lib last index (x :: xs) cmd =
      some (cmd ++ (f.term lib).text ++ (fs.map fun g => ',' :: ' ' :: (g.term lib).text).flatten) := by
  induction h generalizing index x f cmd with
  | nil =>
    simp only [functionsLoop, parseFunction_written lib x f hx, Option.bind_some, term_text]
    rw [if_neg (by simpa using hl.symm)]
    simp
  | cons hy hrest ih =>
    rename_i y g ys gs
    rw [functionsLoop, parseFunction_written lib x f hx, Option.bind_some,
      if_pos (by simp only [List.length_cons] at hl; omega),
      ih (index + 1) y g hy (by simp only [List.length_cons] at hl; omega), ← term_text]
    simp

/-- the text of the functions of an action -/
theorem parseFunctions_written (lib : Str) (xs : List Xml) (fs : List FunctionElt)
    (h : List.Forall₂ FunctionElt.IsWritten xs fs) :
    parseFunctions lib xs = some (commandText [] (functionOptions lib fs)) := by
  cases h with
  | nil => rfl
  | cons hx hrest =>
    rename_i x f xs fs
    cases hrest with
    | nil =>
      simp only [parseFunctions, parseFunction_written lib x f hx, Option.map_some, functionOptions]
      simp [commandText, kFunc]
    | cons hy hr =>
      rename_i y g ys gs
      simp only [parseFunctions]
      rw [functionsLoop_written lib (y :: ys) (g :: gs) (.cons hy hr) _ 0 x f hx (by simp)]
      simp [functionOptions, commandText, sumText, kFunc, List.map_map, Function.comp_def]

theorem parseAction_written (sys : Sys W) (w : W) (lib : Str) (x : Xml) (a : ActionElt) (h : a.IsWritten x) :
    parseAction sys w lib x =
      (a.source.files sys w).map fun files => files.map fun f => commandText [] (a.options lib f.1 f.2) := by
  unfold parseAction
  rw [parseFunctions_written lib _ _ h.functions, Option.bind_some,
    fold_written _ pluginStep_written _ _ h.plugins, Option.bind_some,
    fold_written _ parameterStep_written _ _ h.params, Option.bind_some]
  obtain ⟨i, is, o, os, hi, ho, hs⟩ := h.source
  unfold Xml.find
  rw [hi, ho]
  simp only [List.head?_cons]
  rw [← commandText_append, ← commandText_append, ← List.append_assoc]
  have key : ∀ u v : Str,
      commandText [] (functionOptions lib a.functions ++ a.plugins ++ a.params) ++ " --input ".toList ++ u ++
        " --output ".toList ++ v = commandText [] (a.options lib u v) := by
    intro u v
    unfold ActionElt.options
    rw [commandText_append]
    simp [commandText]
  cases hsrc : a.source with
  | file p q =>
    rw [hsrc] at hs
    obtain ⟨h1, h2, h3⟩ := hs
    rw [h1, h2, h3]
    simp [Source.files, ← key]
  | directory d =>
    rw [hsrc] at hs
    simp only at hs
    rw [hs]
    simp only [Source.files, Option.map_map]
    congr 1
    funext fs
    simp only [Function.comp_apply, List.map_map]
    apply List.map_congr_left
    intro f _
    simp only [Function.comp_apply, ← key]
    simp

theorem runCommands_eq (sys : Sys W) (cmd : Str) (acts : List Str) (w : W) :
    runCommands sys cmd acts w = inSequence sys (acts.map fun a => cmd ++ a) w := by
  induction acts generalizing w with
  | nil => rfl
  | cons a acts ih =>
    simp only [runCommands, List.map_cons, inSequence, ih]
    by_cases h : (sys.exec (cmd ++ a) w).2 = 0 <;> simp [h]

theorem commandText_program (program : Str) (os : List (Str × Str)) :
    program ++ commandText [] os = commandText program os := rfl

theorem programName_eq (lib program : Str) : programName lib program = programPath lib program := by
  unfold programName programPath
  by_cases h : lib = [] <;> simp [h]

theorem runActions_written (sys : Sys W) (lib : Str) (xs : List Xml) (as : List ActionElt)
    (h : List.Forall₂ ActionElt.IsWritten xs as) (w : W) :
    runActions sys lib xs w = ⟨(scriptRun sys lib as w).1, (scriptRun sys lib as w).2, 0⟩ := by
  induction h generalizing w with
  | nil => rfl
  | cons hx hrest ih =>
    rename_i x a xs as
    simp only [runActions, hx.program, parseAction_written sys w lib x a hx, scriptRun]
    cases a.source.files sys w with
    | none => rfl
    | some files =>
      simp only [Option.map_some, runCommands_eq, List.map_map, Function.comp_def, commandText_program,
        programName_eq, ih]
      split <;> rfl

theorem config_written (xs : List Xml) (ps : List (Str × Str))
    (h : List.Forall₂ (Written "name".toList "value".toList) xs ps) (d : Dirs) :
    ∃ d', xs.foldlM configStep d = some d' ∧ d'.lib = (ps.reverse.lookup "lib-dir".toList).getD d.lib := by
  induction h generalizing d with
  | nil => exact ⟨d, rfl, rfl⟩
  | cons hp hrest ih =>
    rename_i x p xs ps
    rw [List.foldlM_cons]
    unfold configStep
    rw [hp.1, hp.2, Option.bind_some]
    have hlook : ∀ d0, ((p :: ps).reverse.lookup "lib-dir".toList).getD d0 =
        (ps.reverse.lookup "lib-dir".toList).getD (if p.1 = "lib-dir".toList then p.2 else d0) := by
      intro d0
      rw [List.reverse_cons, List.lookup_append]
      cases ps.reverse.lookup "lib-dir".toList with
      | some v => rfl
      | none =>
        obtain ⟨k, v⟩ := p
        by_cases hk : k = "lib-dir".toList
        · rw [if_pos hk, hk]
          simp [List.lookup]
        · rw [if_neg hk]
          have : ("lib-dir".toList == k) = false := by simpa using fun e => hk e.symm
          simp only [List.lookup, this, Option.none_or, Option.getD_none]
    rw [hlook]
    by_cases h1 : p.1 = "lib-dir".toList
    · rw [if_pos h1, if_pos h1]
      obtain ⟨d', h2, h3⟩ := ih { d with lib := p.2 }
      exact ⟨d', h2, h3⟩
    · rw [if_neg h1, if_neg h1]
      by_cases h2 : p.1 = "dat-dir".toList
      · rw [if_pos h2]
        obtain ⟨d', h3, h4⟩ := ih { d with dat := p.2 }
        exact ⟨d', h3, h4⟩
      · rw [if_neg h2]
        by_cases h3 : p.1 = "out-dir".toList
        · rw [if_pos h3]
          obtain ⟨d', h4, h5⟩ := ih { d with dat := p.2 }
          exact ⟨d', h4, h5⟩
        · rw [if_neg h3]
          obtain ⟨d', h4, h5⟩ := ih d
          exact ⟨d', h4, h5⟩

/-- **C82.**  Running a script runs, for each action in the order of the file, the command of the
    action on each of its files, until a command fails or a directory does not exist; the exit status
    is 0 in all cases. -/
theorem xml_script_run (sys : Sys W) (root : Xml) (lib : Str) (as : List ActionElt) (hlib : LibDir root lib)
    (has : List.Forall₂ ActionElt.IsWritten (root.findall "action".toList) as) (w : W) :
    xmlCmd sys root w = ⟨(scriptRun sys lib as w).1, (scriptRun sys lib as w).2, 0⟩ := by
  unfold xmlCmd Xml.find
  unfold LibDir at hlib
  cases hc : root.findall "configuration".toList with
  | nil =>
    rw [hc] at hlib
    simp only at hlib
    simp only [List.head?_nil]
    rw [← hlib]
    exact runActions_written sys lib _ as has w
  | cons conf confs =>
    rw [hc] at hlib
    obtain ⟨ps, h1, h2⟩ := hlib
    obtain ⟨d', h3, h4⟩ := config_written _ ps h1 ⟨[], [], []⟩
    simp only [List.head?_cons, parseConfiguration, h3]
    rw [show d'.lib = lib by rw [h4, h2]]
    exact runActions_written sys lib _ as has w

end Alta
