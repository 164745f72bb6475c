import Verif.Model.Brdf2Brdf
/-
Model of the files of functions in the Python binding.

Modelled: /repo/sources/python/alta.cpp 63-99, 186-192, 315-318, 324-325.

Simplifications: those of `Model/FunctionFile`.  The objects are nonlinear functions that share no plugin object (see
`Model/PythonFunction` for those that do).  What else a script does to an object (`set`, a fit) is an arbitrary change.
-/
namespace Alta
noncomputable section

/-- `f.load(name)`, where `file` is the content of the file if it can be opened: the header is read and not used, the
    result of `load` is not used.  /repo/sources/python/alta.cpp 77-99. -/
def pyLoad (file : Option Str) (f : FT LobeObj) : FT LobeObj :=
  match file with
  | none => f
  | some t => (f.load (some (parseHeader t).2)).2.1

/-- `f.save(name)`: the text of the file; without options, hence with an empty line `#CMD`.
    /repo/sources/python/alta.cpp 189-192. -/
def pySave (fmt : ℝ → Decimal) (f : FT LobeObj) : Option Str := saveFunction fmt [] f

/-- `alta.load_function(name)`, with options or without: `some none` is `None`.
    /repo/sources/python/alta.cpp 66-71, /repo/sources/core/plugins_manager.cpp 181-187. -/
def pyLoadFunction (junk : ℝ) (dir : Str) (env : Option Str) (fs : Str → Option (Symbols (Provider LobeObj)))
    (file : Option Str) : Option (Option AnyFn) :=
  match file with
  | none => some none
  | some t => loadAny junk dir env fs t

/-- The functions made so far, in order, and the files. -/
structure PyFiles where
  objects : List (FT LobeObj)
  files : Str → Option Str

/-- What a script does with functions and files.  Objects are designated by their order of creation. -/
inductive PyFileCmd where
  /-- `alta.get_function(...)` -/
  | make (f : FT LobeObj)
  /-- any change of object `i` (`set`, a fit): it becomes `f` -/
  | change (i : ℕ) (f : FT LobeObj)
  /-- `objects[i].save(name)` -/
  | save (i : ℕ) (name : Str)
  /-- `objects[i].load(name)` -/
  | load (i : ℕ) (name : Str)

/-- One command; `none` when there is no such object or the program is ended (a lobe of the class sgd is saved).
    /repo/sources/python/alta.cpp 77-99, 189-192. -/
def PyFiles.step (fmt : ℝ → Decimal) (s : PyFiles) : PyFileCmd → Option PyFiles
  | .make f => some ⟨s.objects ++ [f], s.files⟩
  | .change i f => if i < s.objects.length then some ⟨s.objects.set i f, s.files⟩ else none
  | .save i name => (s.objects[i]?).bind fun f => (pySave fmt f).map fun t =>
    ⟨s.objects, fun n => if n = name then some t else s.files n⟩
  | .load i name => (s.objects[i]?).map fun f => ⟨s.objects.set i (pyLoad (s.files name) f), s.files⟩

/-- The commands of a script, in order. -/
def PyFiles.run (fmt : ℝ → Decimal) (s : PyFiles) (cs : List PyFileCmd) : Option PyFiles := cs.foldlM (PyFiles.step fmt) s

end
end Alta
