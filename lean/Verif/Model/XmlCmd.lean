import Verif.Model.Args
/-
Model of the script that runs the programs of ALTA from an XML file.

Modelled: /repo/sources/scripts/xml_cmd.py 62-232, on a POSIX system that is not Darwin.

Simplifications: the XML file is the tree that `xml.etree.ElementTree.parse` returns, without the
texts; a Python exception is `none`; the messages are left out.  The operating system is a
parameter: what a command does (its effect on the world and its return code), the entries of a
directory and which of them are files.  The shell that `subprocess.check_call(…, shell=True)` starts
is modelled for the commands without quotes, expansions, redirections, assignments and control
operators: it cuts the command at the blanks and replaces a word by the names of the files that it
matches, when there are some.
-/
namespace Alta

/-- An element of the tree.  -/
inductive Xml : Type where
  | node (tag : Str) (attrib : List (Str × Str)) (children : List Xml)

/-- the name of an element -/
def Xml.tag : Xml → Str | .node t _ _ => t
/-- the attributes of an element -/
def Xml.attrib : Xml → List (Str × Str) | .node _ a _ => a
/-- the elements in an element -/
def Xml.children : Xml → List Xml | .node _ _ c => c

/-- `findall(name)`: the elements directly in `x` with this name. -/
def Xml.findall (x : Xml) (name : Str) : List Xml := x.children.filter fun c => c.tag == name

/-- `find(name)`: the first of them. -/
def Xml.find (x : Xml) (name : Str) : Option Xml := (x.findall name).head?

/-- `attrib[name]`; `none` is the exception `KeyError`. -/
def Xml.attr (x : Xml) (name : Str) : Option Str := x.attrib.lookup name

/-- `libName`.  /repo/sources/scripts/xml_cmd.py 72-81. -/
def libName (name : Str) : Str := "lib".toList ++ name ++ ".so".toList

/-- The global variables.  /repo/sources/scripts/xml_cmd.py 88-91. -/
structure Dirs where
  lib : Str
  dat : Str
  out : Str

/-- One iteration of the loop of `parseConfiguration`.  /repo/sources/scripts/xml_cmd.py 100-112. -/
def configStep (d : Dirs) (param : Xml) : Option Dirs :=
  (param.attr "name".toList).bind fun n =>
    if n = "lib-dir".toList then (param.attr "value".toList).map fun v => { d with lib := v }
    else if n = "dat-dir".toList then (param.attr "value".toList).map fun v => { d with dat := v }
    else if n = "out-dir".toList then (param.attr "value".toList).map fun v => { d with dat := v }
    else some d

/-- `parseConfiguration`.  /repo/sources/scripts/xml_cmd.py 97-113. -/
def parseConfiguration (x : Xml) (d : Dirs) : Option Dirs := (x.findall "parameter".toList).foldlM configStep d

/-- One iteration of the loops on the parameters: the command grows.
    /repo/sources/scripts/xml_cmd.py 123-125, 168-171. -/
def parameterStep (cmd : Str) (param : Xml) : Option Str :=
  (param.attr "name".toList).bind fun n => (param.attr "value".toList).map fun v =>
    cmd ++ " --".toList ++ n ++ " ".toList ++ v

/-- One iteration of the loop on the plugins.  /repo/sources/scripts/xml_cmd.py 162-166. -/
def pluginStep (cmd : Str) (plugin : Xml) : Option Str :=
  (plugin.attr "type".toList).bind fun t => (plugin.attr "name".toList).map fun n =>
    cmd ++ " --".toList ++ t ++ " ".toList ++ n

/-- `parseFunction`.  /repo/sources/scripts/xml_cmd.py 115-134. -/
def parseFunction (lib : Str) (x : Xml) : Option Str :=
  (x.attr "name".toList).bind fun name =>
    ((x.findall "parameter".toList).foldlM parameterStep name).bind fun cmd =>
      match x.find "fresnel".toList with
      | none => some cmd
      | some fresnel => (fresnel.attr "name".toList).map fun n =>
          cmd ++ " --fresnel ".toList ++ lib ++ "/".toList ++ libName n

/-- The loop of `parseFunctions`; `last` is `list_len - 1`.
    /repo/sources/scripts/xml_cmd.py 144-149. -/
def functionsLoop (lib : Str) (last : ℕ) : ℕ → List Xml → Str → Option Str
  | _, [], cmd => some cmd
  | index, x :: xs, cmd =>
    (parseFunction lib x).bind fun t =>
      functionsLoop lib last (index + 1) xs (if index ≠ last then cmd ++ t ++ ", ".toList else cmd ++ t)

/-- `parseFunctions`.  /repo/sources/scripts/xml_cmd.py 136-154. -/
def parseFunctions (lib : Str) (xs : List Xml) : Option Str :=
  match xs with
  | [] => some []
  | [x] => (parseFunction lib x).map fun t => " --func ".toList ++ t
  | xs => (functionsLoop lib (xs.length - 1) 0 xs " --func [".toList).map fun cmd => cmd ++ "]".toList

/-- The operating system. -/
structure Sys (W : Type) where
  /-- what a command does, and its return code -/
  exec : Str → W → W × Int
  /-- `os.listdir`; `none` is the exception `OSError` -/
  listdir : W → Str → Option (List Str)
  /-- `os.path.isfile` -/
  isfile : W → Str → Bool

/-- `os.path.join` -/
def pathJoin (a b : Str) : Str :=
  if b.head? = some '/' then b
  else if a = [] ∨ a.getLast? = some '/' then a ++ b
  else a ++ "/".toList ++ b

variable {W : Type}

/-- What the loop on the result of `parseAction` iterates on: the list of the ends of the commands or,
    when an input or an output lacks, the characters of the options.
    /repo/sources/scripts/xml_cmd.py 156-193, 217. -/
def parseAction (sys : Sys W) (w : W) (lib : Str) (x : Xml) : Option (List Str) :=
  (parseFunctions lib (x.findall "function".toList)).bind fun cmd =>
    ((x.findall "plugin".toList).foldlM pluginStep cmd).bind fun cmd =>
      ((x.findall "parameter".toList).foldlM parameterStep cmd).bind fun cmd =>
        match x.find "input".toList, x.find "output".toList with
        | some i, some o =>
          match i.attr "directory".toList with
          | some dirname => (sys.listdir w dirname).map fun fs =>
              (fs.filter fun f => sys.isfile w (pathJoin dirname f)).map fun f =>
                cmd ++ " --input ".toList ++ pathJoin dirname f ++ " --output ".toList ++ f ++ ".out".toList
          | none =>
            (i.attr "name".toList).bind fun n => (o.attr "name".toList).map fun m =>
              [cmd ++ " --input ".toList ++ n ++ " --output ".toList ++ m]
        | _, _ => some (cmd.map fun c => [c])

/-- What a run of the script does: the commands that were run, in order, the world after it and its
    exit status. -/
structure ScriptRun (W : Type) where
  commands : List Str
  world : W
  status : Int

/-- The inner loop: the commands that were run, the world, and whether no exception was raised.
    /repo/sources/scripts/xml_cmd.py 217-227. -/
def runCommands (sys : Sys W) (cmd : Str) : List Str → W → List Str × W × Bool
  | [], w => ([], w, true)
  | act :: acts, w =>
    let r := sys.exec (cmd ++ act) w
    if r.2 ≠ 0 then ([cmd ++ act], r.1, false)
    else
      let s := runCommands sys cmd acts r.1
      ((cmd ++ act) :: s.1, s.2.1, s.2.2)

/-- The name of the program of an action.  /repo/sources/scripts/xml_cmd.py 208-212. -/
def programName (lib name : Str) : Str := if lib ≠ [] then lib ++ "/".toList ++ name else name

/-- The loop on the actions.  An exception in the body ends the script with status 0; the attribute
    `name` of the action is read outside of the `try`.
    /repo/sources/scripts/xml_cmd.py 205-232. -/
def runActions (sys : Sys W) (lib : Str) : List Xml → W → ScriptRun W
  | [], w => ⟨[], w, 0⟩
  | child :: rest, w =>
    match child.attr "name".toList with
    | none => ⟨[], w, 1⟩
    | some name =>
      match parseAction sys w lib child with
      | none => ⟨[], w, 0⟩
      | some acts =>
        let r := runCommands sys (programName lib name) acts w
        if r.2.2 then
          let s := runActions sys lib rest r.2.1
          ⟨r.1 ++ s.commands, s.world, s.status⟩
        else ⟨r.1, r.2.1, 0⟩

/-- The script.  /repo/sources/scripts/xml_cmd.py 62-64, 88-91, 196-232. -/
def xmlCmd (sys : Sys W) (root : Xml) (w : W) : ScriptRun W :=
  let dirs : Option Dirs :=
    match root.find "configuration".toList with
    | none => some ⟨[], [], []⟩
    | some conf => parseConfiguration conf ⟨[], [], []⟩
  match dirs with
  | none => ⟨[], w, 1⟩
  | some d => runActions sys d.lib (root.findall "action".toList) w

/-! ### The shell -/

/-- The characters with a meaning for the shell other than cutting into words and matching the names
    of files. -/
def shellSpecial (c : Char) : Bool :=
  c ∈ ['\'', '"', '\\', '$', '`', ';', '&', '|', '<', '>', '(', ')', '{', '}', '#', '~', '=', '!', '\n']

/-- The words of a command, `cur` being the word already begun. -/
def shellSplit : Str → Str → List Str
  | cur, [] => if cur = [] then [] else [cur]
  | cur, c :: r =>
    if c = ' ' ∨ c = '\t' then
      if cur = [] then shellSplit [] r else cur :: shellSplit [] r
    else shellSplit (cur ++ [c]) r

/-- The words a program gets from a command, its name being the first; `glob w` are the names of the
    files that match the word `w`.  `none` is not modelled. -/
def shellWords (glob : Str → List Str) (s : Str) : Option (List Str) :=
  if s.any shellSpecial then none
  else some ((shellSplit [] s).flatMap fun w => if glob w = [] then [w] else glob w)

end Alta
