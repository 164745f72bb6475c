import Verif.Model.XmlCmd
import Verif.Spec.FunctionTree
/-
What an XML script says, and what running it must do.
-/
namespace Alta
variable {W : Type}

/-- A function element: `<function name="…"> <parameter name="…" value="…"/> … <fresnel name="…"/> </function>`. -/
structure FunctionElt where
  name : Str
  params : List (Str × Str)
  fresnel : Option Str

/-- Where an action reads and writes: `<input name="i"/> <output name="o"/>`, or
    `<input directory="d"/> <output/>`. -/
inductive Source where
  | file (input output : Str)
  | directory (d : Str)

/-- An action element. -/
structure ActionElt where
  program : Str
  functions : List FunctionElt
  /-- type and name -/
  plugins : List (Str × Str)
  /-- name and value -/
  params : List (Str × Str)
  source : Source

/-- The element is written with two attributes. -/
def Written (a b : Str) (x : Xml) (p : Str × Str) : Prop := x.attr a = some p.1 ∧ x.attr b = some p.2

/-- The element `x` is the function element `f`. -/
structure FunctionElt.IsWritten (x : Xml) (f : FunctionElt) : Prop where
  name : x.attr "name".toList = some f.name
  params : List.Forall₂ (Written "name".toList "value".toList) (x.findall "parameter".toList) f.params
  fresnel : match f.fresnel with
    | none => x.findall "fresnel".toList = []
    | some n => ∃ y ys, x.findall "fresnel".toList = y :: ys ∧ y.attr "name".toList = some n

/-- The element `x` has the source `s`. -/
def Source.IsWritten (x : Xml) (s : Source) : Prop :=
  ∃ i is o os, x.findall "input".toList = i :: is ∧ x.findall "output".toList = o :: os ∧
    match s with
    | .file a b => i.attr "directory".toList = none ∧ i.attr "name".toList = some a ∧
        o.attr "name".toList = some b
    | .directory d => i.attr "directory".toList = some d

/-- The element `x` is the action `a`. -/
structure ActionElt.IsWritten (x : Xml) (a : ActionElt) : Prop where
  program : x.attr "name".toList = some a.program
  functions : List.Forall₂ FunctionElt.IsWritten (x.findall "function".toList) a.functions
  plugins : List.Forall₂ (Written "type".toList "name".toList) (x.findall "plugin".toList) a.plugins
  params : List.Forall₂ (Written "name".toList "value".toList) (x.findall "parameter".toList) a.params
  source : a.source.IsWritten x

/-- The options a function element stands for: its parameters, then the library of the Fresnel term
    in the directory `lib`. -/
def FunctionElt.options (lib : Str) (f : FunctionElt) : List (Str × Str) :=
  f.params ++ match f.fresnel with
    | none => []
    | some n => [(kFresnel, lib ++ "/lib".toList ++ n ++ ".so".toList)]

/-- The term a function element stands for in a sum. -/
def FunctionElt.term (lib : Str) (f : FunctionElt) : Term :=
  ⟨f.name, (f.options lib).map fun p => .word p.1 p.2⟩

/-- The options the functions of an action stand for: one function is the value of `func` with its
    options after it; several functions are a sum of terms. -/
def functionOptions (lib : Str) : List FunctionElt → List (Str × Str)
  | [] => []
  | [f] => (kFunc, f.name) :: f.options lib
  | fs => [(kFunc, sumText (fs.map (FunctionElt.term lib)))]

/-- The options of an action: those of its functions, its plugins, its parameters, the input and the
    output. -/
def ActionElt.options (lib : Str) (a : ActionElt) (input output : Str) : List (Str × Str) :=
  functionOptions lib a.functions ++ a.plugins ++ a.params ++
    [("input".toList, input), ("output".toList, output)]

/-- The files an action is run on: input and output; `none` when the directory does not exist.  In a
    directory they are the regular files of the directory. -/
def Source.files (sys : Sys W) (w : W) : Source → Option (List (Str × Str))
  | .file i o => some [(i, o)]
  | .directory d => (sys.listdir w d).map fun fs =>
      (fs.filter fun f => sys.isfile w (pathJoin d f)).map fun f => (pathJoin d f, f ++ ".out".toList)

/-- The command with a program and options: `program --k1 v1 --k2 v2 …`. -/
def commandText (program : Str) (options : List (Str × Str)) : Str :=
  program ++ (options.map fun p => " --".toList ++ p.1 ++ " ".toList ++ p.2).flatten

/-- The path of a program: in the directory of the libraries, if there is one. -/
def programPath (lib program : Str) : Str := if lib = [] then program else lib ++ "/".toList ++ program

/-- The commands are run one after the other; one that fails is the last.  The commands that were run,
    the world after them, whether all of them succeeded. -/
def inSequence (sys : Sys W) : List Str → W → List Str × W × Bool
  | [], w => ([], w, true)
  | c :: cs, w =>
    if (sys.exec c w).2 = 0 then
      (c :: (inSequence sys cs (sys.exec c w).1).1, (inSequence sys cs (sys.exec c w).1).2)
    else ([c], (sys.exec c w).1, false)

/-- Running the actions one after the other: each one on all of its files; the run ends at the first
    command that fails and at the first directory that does not exist. -/
def scriptRun (sys : Sys W) (lib : Str) : List ActionElt → W → List Str × W
  | [], w => ([], w)
  | a :: as, w =>
    match a.source.files sys w with
    | none => ([], w)
    | some files =>
      let r := inSequence sys
        (files.map fun f => commandText (programPath lib a.program) (a.options lib f.1 f.2)) w
      if r.2.2 then (r.1 ++ (scriptRun sys lib as r.2.1).1, (scriptRun sys lib as r.2.1).2)
      else (r.1, r.2.1)

/-- The directory of the libraries in a script: that of the last parameter `lib-dir` of the
    configuration. -/
def LibDir (root : Xml) (lib : Str) : Prop :=
  match root.findall "configuration".toList with
  | [] => lib = []
  | conf :: _ => ∃ ps, List.Forall₂ (Written "name".toList "value".toList) (conf.findall "parameter".toList) ps ∧
      lib = (ps.reverse.lookup "lib-dir".toList).getD []

/-! ### Texts that go through the shell unchanged -/

/-- No character of the text has a meaning for the shell. -/
def ShellPlain (s : Str) : Prop := ∀ c ∈ s, shellSpecial c = false

/-- The value of an option that is read as itself: it is empty, or a word that does not start with a
    dash nor with a bracket that it does not close, or words from an opening bracket to a closing
    one. -/
def GoodValue (v : Str) : Prop :=
  v = [] ∨ (IsWord v ∧ (Item.word [] v).Readable []) ∨
  ∃ w u us, v = joinWords (w :: u :: us) ∧ (∀ x ∈ w :: u :: us, IsWord x) ∧
    ∀ n, (Item.vec [] w (u :: us)).Readable n

/-- An option that goes through the shell unchanged. -/
structure GoodOption (p : Str × Str) : Prop where
  name : IsWord p.1
  value : GoodValue p.2
  plain : ShellPlain p.1 ∧ ShellPlain p.2

end Alta
