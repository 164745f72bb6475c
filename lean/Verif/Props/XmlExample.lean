import Verif.Props.XmlOptions
/-
Property C82: what the scripts in XML do not do, and an example.
-/
namespace Alta
variable {W : Type}

/-- the commands of a run of a script are commands of its actions -/
theorem inSequence_mem (sys : Sys W) (cs : List Str) (w : W) : ∀ c ∈ (inSequence sys cs w).1, c ∈ cs := by
  induction cs generalizing w with
  | nil => intro c hc; simp [inSequence] at hc
  | cons d cs ih =>
    intro c hc
    rw [inSequence] at hc
    by_cases h : (sys.exec d w).2 = 0
    · rw [if_pos h] at hc
      simp only [List.mem_cons] at hc ⊢
      exact hc.imp id (ih _ c)
    · rw [if_neg h] at hc
      simp only [List.mem_cons, List.not_mem_nil, or_false] at hc ⊢
      exact Or.inl hc

/-- **C82.**  Nothing else is run: a command of a run of a script is the command of one of its actions
    on one of its files. -/
theorem xml_script_commands (sys : Sys W) (root : Xml) (lib : Str) (as : List ActionElt) (hlib : LibDir root lib)
    (has : List.Forall₂ ActionElt.IsWritten (root.findall "action".toList) as) (w : W) :
    ∀ c ∈ (xmlCmd sys root w).commands, ∃ a ∈ as, ∃ w' files f, a.source.files sys w' = some files ∧ f ∈ files ∧
      c = commandText (programPath lib a.program) (a.options lib f.1 f.2) := by
  rw [xml_script_run sys root lib as hlib has w]
  clear hlib has
  simp only
  induction as generalizing w with
  | nil => intro c hc; simp [scriptRun] at hc
  | cons a as ih =>
    intro c hc
    rw [scriptRun] at hc
    cases hf : a.source.files sys w with
    | none => rw [hf] at hc; simp at hc
    | some files =>
      rw [hf] at hc
      simp only at hc
      have first : ∀ c ∈ (inSequence sys (files.map fun f =>
          commandText (programPath lib a.program) (a.options lib f.1 f.2)) w).1,
          ∃ a' ∈ a :: as, ∃ w' files f, a'.source.files sys w' = some files ∧ f ∈ files ∧
            c = commandText (programPath lib a'.program) (a'.options lib f.1 f.2) := by
        intro c hc
        obtain ⟨f, hf1, hf2⟩ := List.mem_map.1 (inSequence_mem sys _ w c hc)
        exact ⟨a, by simp, w, files, f, hf, hf1, hf2.symm⟩
      split at hc
      · rcases List.mem_append.1 hc with hc | hc
        · exact first c hc
        · obtain ⟨a', h1, h2⟩ := ih _ c hc
          exact ⟨a', by simp [h1], h2⟩
      · exact first c hc

/-- When every command succeeds and every directory exists, all the actions are run on all their files. -/
theorem xml_script_all (sys : Sys W) (hs : ∀ c w, (sys.exec c w).2 = 0) (root : Xml) (lib : Str) (as : List ActionElt)
    (hlib : LibDir root lib) (has : List.Forall₂ ActionElt.IsWritten (root.findall "action".toList) as)
    (hfile : ∀ a ∈ as, ∃ i o, a.source = .file i o) (w : W) :
    (xmlCmd sys root w).commands = as.map fun a =>
      match a.source with
      | .file i o => commandText (programPath lib a.program) (a.options lib i o)
      | .directory _ => [] := by
  rw [xml_script_run sys root lib as hlib has w]
  clear hlib has
  simp only
  induction as generalizing w with
  | nil => rfl
  | cons a as ih =>
    obtain ⟨i, o, h⟩ := hfile a (by simp)
    simp only [scriptRun, h, Source.files, List.map_cons, List.map_nil, inSequence, hs, if_true]
    rw [ih (fun b hb => hfile b (by simp [hb]))]
    rfl

/-- An action without an input or without an output does not get its options: the program is run once
    for each character of the text of the options, with this character alone. -/
theorem xml_no_output (sys : Sys W) (w : W) (lib : Str) (x : Xml) (fs : List FunctionElt) (plugins params : List (Str × Str))
    (hf : List.Forall₂ FunctionElt.IsWritten (x.findall "function".toList) fs)
    (hp : List.Forall₂ (Written "type".toList "name".toList) (x.findall "plugin".toList) plugins)
    (hq : List.Forall₂ (Written "name".toList "value".toList) (x.findall "parameter".toList) params)
    (hno : x.findall "input".toList = [] ∨ x.findall "output".toList = []) (program : Str)
    (hname : x.attr "name".toList = some program) :
    runActions sys lib [x] w =
      ⟨(inSequence sys ((commandText [] (functionOptions lib fs ++ plugins ++ params)).map fun c =>
          programPath lib program ++ [c]) w).1,
        (inSequence sys ((commandText [] (functionOptions lib fs ++ plugins ++ params)).map fun c =>
          programPath lib program ++ [c]) w).2.1, 0⟩ := by
  have hact : parseAction sys w lib x =
      some ((commandText [] (functionOptions lib fs ++ plugins ++ params)).map fun c => [c]) := by
    unfold parseAction
    rw [parseFunctions_written lib _ _ hf, Option.bind_some,
      fold_written _ pluginStep_written _ _ hp, Option.bind_some,
      fold_written _ parameterStep_written _ _ hq, Option.bind_some, ← commandText_append, ← commandText_append,
      ← List.append_assoc]
    unfold Xml.find
    rcases hno with h | h
    · rw [h]
      rfl
    · rw [h]
      cases (x.findall "input".toList).head? <;> rfl
  simp only [runActions, hname, hact, runCommands_eq, List.map_map, Function.comp_def, programName_eq,
    List.append_nil]
  split <;> rfl

/-! ### An example -/

/-- `<tag name="n"/>` -/
def xmlNamed (tag n : String) : Xml := .node tag.toList [("name".toList, n.toList)] []

/-- The action of /repo/sources/scripts/example.xml with two functions. -/
def exampleAction : Xml :=
  .node "action".toList [("name".toList, "data2brdf".toList)]
    [xmlNamed "input" "blue.dat", xmlNamed "output" "blue.brdf",
     xmlNamed "function" "nonlinear_function_diffuse",
     .node "function".toList [("name".toList, "nonlinear_function_blinn".toList)]
       [xmlNamed "fresnel" "nonlinear_fresnel_schlick"],
     .node "plugin".toList [("type".toList, "fitter".toList), ("name".toList, "nonlinear_fitter_eigen".toList)] [],
     .node "parameter".toList [("name".toList, "max".toList), ("value".toList, "[0.8, 0.8]".toList)] []]

/-- a script with this action -/
def exampleScript : Xml :=
  .node "alta".toList []
    [.node "configuration".toList []
       [.node "parameter".toList [("name".toList, "lib-dir".toList), ("value".toList, "./build".toList)] []],
     exampleAction]

/-- the first function -/
def exampleDiffuse : FunctionElt := ⟨"nonlinear_function_diffuse".toList, [], none⟩
/-- the second function -/
def exampleBlinn : FunctionElt := ⟨"nonlinear_function_blinn".toList, [], some "nonlinear_fresnel_schlick".toList⟩

/-- the action -/
def exampleElt : ActionElt :=
  ⟨"data2brdf".toList,
    [exampleDiffuse, exampleBlinn],
    [("fitter".toList, "nonlinear_fitter_eigen".toList)], [("max".toList, "[0.8, 0.8]".toList)],
    .file "blue.dat".toList "blue.brdf".toList⟩

theorem example_libDir : LibDir exampleScript "./build".toList :=
  ⟨[("lib-dir".toList, "./build".toList)], .cons ⟨rfl, rfl⟩ .nil, rfl⟩

theorem example_written :
    List.Forall₂ ActionElt.IsWritten (exampleScript.findall "action".toList) [exampleElt] := by
  refine .cons ⟨rfl, .cons ⟨rfl, .nil, rfl⟩ (.cons ⟨rfl, .nil, _, _, rfl, rfl⟩ .nil), .cons ⟨rfl, rfl⟩ .nil,
    .cons ⟨rfl, rfl⟩ .nil, ?_⟩ .nil
  exact ⟨_, _, _, _, rfl, rfl, rfl, rfl, rfl⟩

/-- a word that is read as itself -/
theorem goodWord (k v : Str) (hk : IsWord k) (hv : IsWord v) (h1 : v.head? ≠ some '-') (h2 : v.head? ≠ some '[')
    (pk : ShellPlain k) (pv : ShellPlain v) : GoodOption (k, v) := by
  refine ⟨hk, Or.inr (Or.inl ⟨hv, ?_, ?_⟩), pk, pv⟩
  · rintro r rfl; simp at h1
  · rintro ⟨r, rfl⟩; simp at h2

theorem example_diffuse : (exampleDiffuse.term "./build".toList).Readable ∧
    ∀ w ∈ (exampleDiffuse.term "./build".toList).words, ShellPlain w := by
  refine ⟨⟨?_, ?_, trivial⟩, ?_⟩
  · unfold IsWord; decide +kernel
  · intro r h
    have := congrArg List.head? h
    revert this
    exact (by decide +kernel : (some 'n' : Option Char) ≠ some '-')
  · unfold ShellPlain; decide +kernel

theorem example_blinn : (exampleBlinn.term "./build".toList).Readable ∧
    ∀ w ∈ (exampleBlinn.term "./build".toList).words, ShellPlain w := by
  refine ⟨⟨?_, ?_, ⟨?_, ?_⟩, trivial⟩, ?_⟩
  · unfold IsWord; decide +kernel
  · intro r h
    have := congrArg List.head? h
    revert this
    exact (by decide +kernel : (some 'n' : Option Char) ≠ some '-')
  · intro r h
    have := congrArg List.head? h
    revert this
    exact (by decide +kernel : (some '.' : Option Char) ≠ some '-')
  · rintro ⟨r, h⟩
    have := congrArg List.head? h
    exact absurd this (by decide +kernel : (some '.' : Option Char) ≠ some '[')
  · unfold ShellPlain; decide +kernel

theorem example_max : GoodOption ("max".toList, "[0.8, 0.8]".toList) := by
  refine ⟨by show IsWord "max".toList; unfold IsWord; decide, Or.inr (Or.inr ⟨"[0.8,".toList, "0.8]".toList, [], rfl, ?_, ?_⟩),
    by show ShellPlain "max".toList; unfold ShellPlain; decide,
    by show ShellPlain "[0.8, 0.8]".toList; unfold ShellPlain; decide⟩
  · unfold IsWord; decide
  · intro n
    have hend : ∀ r : Str, "[0.8,".toList ≠ r ++ [']'] := by
      intro r h
      have := congrArg List.getLast? h
      simp at this
    refine ⟨⟨_, rfl⟩, hend, ?_, Or.inr ⟨"0.8".toList, rfl⟩⟩
    intro u hu
    simp at hu
    subst hu
    exact ⟨by decide, hend⟩

theorem example_program : GoodProgram (programPath "./build".toList exampleElt.program) := by
  refine ⟨by unfold IsWord; decide +kernel, by unfold ShellPlain; decide +kernel, ?_⟩
  intro k h
  have := congrArg List.head? h
  revert this
  exact (by decide +kernel : (some '.' : Option Char) ≠ some '-')

theorem example_plugin : GoodOption ("fitter".toList, "nonlinear_fitter_eigen".toList) :=
  goodWord _ _ (by unfold IsWord; decide) (by unfold IsWord; decide +kernel) (by decide) (by decide)
    (by unfold ShellPlain; decide) (by unfold ShellPlain; decide +kernel)

theorem example_good : exampleElt.Good "./build".toList where
  program := example_program
  functions := by
    show ∀ f ∈ [exampleDiffuse, exampleBlinn], _
    rw [List.forall_mem_cons, List.forall_mem_singleton]
    exact ⟨example_diffuse, example_blinn⟩
  plugins := List.forall_mem_singleton.2 example_plugin
  params := List.forall_mem_singleton.2 example_max

/-- The options that `data2brdf` gets from the example. -/
theorem example_options : ∃ ws m,
    shellWords (fun _ => []) (commandText "./build/data2brdf".toList
      (exampleElt.options "./build".toList "blue.dat".toList "blue.brdf".toList)) =
        some ("./build/data2brdf".toList :: ws) ∧
    parseArgs ("./build/data2brdf".toList :: ws) [] = some m ∧
    m.find kFunc = some ("[nonlinear_function_diffuse, nonlinear_function_blinn --fresnel ".toList ++
      "./build/libnonlinear_fresnel_schlick.so]".toList) ∧
    m.find "fitter".toList = some "nonlinear_fitter_eigen".toList ∧ m.find "max".toList = some "[0.8, 0.8]".toList ∧
    m.find "input".toList = some "blue.dat".toList ∧ m.find "output".toList = some "blue.brdf".toList ∧
    m.find "fresnel".toList = none := by
  have hin : GoodOption ("input".toList, "blue.dat".toList) := goodWord _ _ (by unfold IsWord; decide)
    (by unfold IsWord; decide) (by decide) (by decide) (by unfold ShellPlain; decide) (by unfold ShellPlain; decide)
  have hout : GoodOption ("output".toList, "blue.brdf".toList) := goodWord _ _ (by unfold IsWord; decide)
    (by unfold IsWord; decide) (by decide) (by decide) (by unfold ShellPlain; decide) (by unfold ShellPlain; decide)
  obtain ⟨ws, m, h1, h2, _, h4⟩ := xml_action_options (fun _ => []) "./build".toList exampleElt example_good
    "blue.dat".toList "blue.brdf".toList hin hout (fun _ _ => Or.inl rfl)
  refine ⟨ws, m, h1, h2, ?_, ?_, ?_, ?_, ?_, ?_⟩ <;> rw [h4] <;> decide +kernel

/-- a file system without directories, where every command succeeds -/
def quietSys : Sys Unit := ⟨fun _ w => (w, 0), fun _ _ => none, fun _ _ => true⟩

/-- The run of the example. -/
theorem example_run : (xmlCmd quietSys exampleScript ()).commands =
    [commandText "./build/data2brdf".toList
      (exampleElt.options "./build".toList "blue.dat".toList "blue.brdf".toList)] :=
  xml_script_all quietSys (fun _ _ => rfl) exampleScript "./build".toList [exampleElt] example_libDir example_written
    (by intro a ha; simp at ha; subst ha; exact ⟨_, _, rfl⟩) ()

/-- The same action without its output: the first command that is run is the program without any
    option. -/
theorem example_no_output : (runActions quietSys [] [.node "action".toList [("name".toList, "data2brdf".toList)]
    [xmlNamed "input" "blue.dat", xmlNamed "function" "nonlinear_function_diffuse"]] ()).commands.head? =
      some "data2brdf ".toList := by
  decide +kernel

end Alta
