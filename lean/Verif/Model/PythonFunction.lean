import Verif.Model.Function
/-
Model of the function objects of the Python binding: they are shared pointers, a sum or a product
keeps the pointers of its operands, so that one plugin object may be part of several functions.

Modelled: /repo/sources/python/alta.cpp 101-184 (`__add__`, `__mul__`, `__rmul__`, `set`, `get`) and
309-320, with the constructors of /repo/sources/core/function.cpp 460-504, 818-845 and
`setParameters` of /repo/sources/core/function.cpp 752-772, 1075-1106 on shared parts.

Simplifications: a compound or a product is never modified after its construction (no method
assigns `fs`, `f1`, `f2`, `is_fixed`), so that only the plugin objects need an address; what only
reads (`value`, `parameters`, `nbParameters`, `parametrization`) is the function of `Model/Function`
on the tree found by following the pointers.  `load` and the fitters are not part of this model (a
fitter only calls `setParameters`).  Messages are left out.  Pointers are never freed: an object
that is still referred to lives on (`std::shared_ptr`).
-/
namespace Alta
noncomputable section

/-- an object of a plugin class -/
structure PluginObj : Type 1 where
  {σ : Type}
  cls : Cls σ
  state : σ

/-- the plugin objects made so far; an address is a position in this list -/
abbrev PyStore := List PluginObj

mutual
/-- What a pointer to a nonlinear function leads to: a plugin object, designated by its address, a
    `compound_function` or a `product_function`.  /repo/sources/core/function.h 211-390. -/
inductive PyFn : Type where
  | leaf (a : ℕ)
  | compound (p : Par) (fs : PyFns)
  | product (p : Par) (f g : PyFn) (fixF fixG : Bool)
/-- the members of a compound with their flag `is_fixed` -/
inductive PyFns : Type where
  | nil
  | cons (fixed : Bool) (f : PyFn) (rest : PyFns)
end

/-- an object without parameters and without channels, for the addresses that do not exist -/
def noObj : PluginObj := ⟨(⟨fun _ => ⟨0, 0, .UNKNOWN_INPUT, .UNKNOWN_OUTPUT⟩, fun _ => 0, fun _ => [],
  fun s _ => s, fun _ => [], fun _ => [], fun _ _ => none, fun _ _ => none⟩ : Cls Unit), ()⟩

/-- the plugin object at an address -/
def PyStore.at (st : PyStore) (a : ℕ) : PluginObj := st.getD a noObj

mutual
/-- The function found by following the pointers. -/
def PyFn.tree (st : PyStore) : PyFn → Fn
  | .leaf a => .leaf (st.at a).cls (st.at a).state
  | .compound p fs => .compound p (fs.tree st)
  | .product p f g a b => .product p (f.tree st) (g.tree st) a b
/-- for the members of a compound -/
def PyFns.tree (st : PyStore) : PyFns → Fns
  | .nil => .nil
  | .cons b f r => .cons b (f.tree st) (r.tree st)
end

mutual
/-- `setParameters`, called through pointers: it changes the plugin objects that are found.
    /repo/sources/core/function.cpp 752-772, 1075-1106. -/
def PyFn.setParameters : PyFn → List ℝ → PyStore → PyStore
  | .leaf a, v, st => st.set a ⟨(st.at a).cls, (st.at a).cls.set (st.at a).state v⟩
  | .compound _ fs, v, st => fs.setParameters v st
  | .product _ f g fixF fixG, v, st =>
    let nf := if !fixF then (f.tree st).nb else 0
    let st1 := if !fixF then f.setParameters (v.take (f.tree st).nb) st else st
    if !fixG then g.setParameters ((v.drop nf).take (g.tree st1).nb) st1 else st1
/-- the loop of `compound_function::setParameters`, on the parameters not used yet -/
def PyFns.setParameters : PyFns → List ℝ → PyStore → PyStore
  | .nil, _, st => st
  | .cons fixed f rest, v, st =>
    if (f.tree st).nb > 0 && !fixed then
      rest.setParameters (v.drop (f.tree st).nb) (f.setParameters (v.take (f.tree st).nb) st)
    else rest.setParameters v st
end

mutual
/-- The plugin objects of a function that was just made are new.  It is what
    `plugins_manager::get_function` and `load_function` return.  /repo/sources/python/alta.cpp 44-71. -/
def PyStore.alloc (st : PyStore) : Fn → PyStore × PyFn
  | .leaf c s => (st ++ [⟨c, s⟩], .leaf st.length)
  | .compound p fs => let r := st.allocs fs; (r.1, .compound p r.2)
  | .product p f g a b =>
    let r := st.alloc f
    let q := r.1.alloc g
    (q.1, .product p r.2 q.2 a b)
/-- for the members of a compound -/
def PyStore.allocs (st : PyStore) : Fns → PyStore × PyFns
  | .nil => (st, .nil)
  | .cons b f rest =>
    let r := st.alloc f
    let q := r.1.allocs rest
    (q.1, .cons b r.2 q.2)
end

/-- A function object of Python: `none` is `None` or an object that is not a `nonlinear_function`
    (rational functions). -/
abbrev PyObject := Option PyFn

/-- The objects made so far, in order, and the plugin objects they are made of. -/
structure PySession where
  objects : List PyObject
  store : PyStore

/-- What a script does with functions.  Objects are designated by their order of creation. -/
inductive PyCmd : Type 1 where
  /-- `alta.get_function(...)`, `alta.load_function(...)`: a nonlinear function -/
  | make (f : Fn)
  /-- the same calls, when they give a rational function or `None` -/
  | other
  /-- `objects[i] + objects[j]` -/
  | add (i j : ℕ)
  /-- `objects[i] * objects[j]` -/
  | mul (i j : ℕ)
  /-- `objects[i].set(v)` -/
  | set (i : ℕ) (v : List ℝ)

/-- the object number `i` -/
def PySession.obj (s : PySession) (i : ℕ) : PyObject := (s.objects[i]?).join

/-- `add_function`: `none` is `abort()` in `compound_parameters`.
    /repo/sources/python/alta.cpp 107-127, /repo/sources/core/function.cpp 460-504. -/
def addFunction (st : PyStore) (f1 f2 : PyObject) : Option PyObject :=
  match f1, f2 with
  | some nf1, some nf2 =>
    (compoundPar [(nf1.tree st).par, (nf2.tree st).par]).map fun p =>
      some (.compound p (.cons false nf1 (.cons false nf2 .nil)))
  | _, _ => some none

/-- `mult_function`.  /repo/sources/python/alta.cpp 128-141, /repo/sources/core/function.cpp 818-845. -/
def multFunction (st : PyStore) (f1 f2 : PyObject) : PyObject :=
  match f1, f2 with
  | some nf1, some nf2 => some (.product (productPar (nf1.tree st).par (nf2.tree st).par) nf1 nf2 false false)
  | _, _ => none

/-- `set_function_params`.  /repo/sources/python/alta.cpp 147-172. -/
def setFunctionParams (st : PyStore) (f : PyObject) (v : List ℝ) : PyStore :=
  match f with
  | some nf => if (nf.tree st).nb = v.length then nf.setParameters v st else st
  | none => st

/-- `get_function_params`.  /repo/sources/python/alta.cpp 174-184. -/
def getFunctionParams (st : PyStore) (f : PyObject) : List ℝ :=
  match f with
  | some nf => (nf.tree st).get
  | none => []

/-- One call; `none` is the end of the program. -/
def PySession.step (s : PySession) : PyCmd → Option PySession
  | .make f => let r := s.store.alloc f; some ⟨s.objects ++ [some r.2], r.1⟩
  | .other => some ⟨s.objects ++ [none], s.store⟩
  | .add i j => (addFunction s.store (s.obj i) (s.obj j)).map fun o => ⟨s.objects ++ [o], s.store⟩
  | .mul i j => some ⟨s.objects ++ [multFunction s.store (s.obj i) (s.obj j)], s.store⟩
  | .set i v => some ⟨s.objects, setFunctionParams s.store (s.obj i) v⟩

/-- The calls of a script, in order. -/
def PySession.run (s : PySession) (cs : List PyCmd) : Option PySession := cs.foldlM PySession.step s

/-- The start of a script. -/
def PySession.empty : PySession := ⟨[], []⟩

/-- The function that object `i` is at this time: what its methods `value`, `get`, … read. -/
def PySession.fn (s : PySession) (i : ℕ) : Option Fn := (s.obj i).map fun o => o.tree s.store

/-- `objects[i].get()` -/
def PySession.get (s : PySession) (i : ℕ) : List ℝ := getFunctionParams s.store (s.obj i)

end
end Alta
