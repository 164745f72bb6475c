import Verif.Model.Args
/-
Model of the search of plugins and of the creation of the objects they provide.

Modelled: /repo/sources/core/plugins_manager.cpp 32-60, 65-103, 108-176 (the
branches for neither Windows nor macOS), 418-474, 534-557.

Simplifications: the environment variable and the installation directory are
arguments; the file system with its dynamic libraries is a function `fs` from
paths to the table of symbols of the library found there (`none`: `dlopen` fails);
what is done with the symbols (calling the provider) is left out, the model returns
the provider.
-/
namespace Alta

/-- `library_name`: `lib` and `.so` are added unless the name ends with `so`; `none`
    when `name.substr(n-2, n)` throws `std::out_of_range`, i.e. the name has less than
    two characters (`n-2` is then a huge `size_t`).
    /repo/sources/core/plugins_manager.cpp 32-60. -/
def libraryName (name : Str) : Option Str :=
  if name.length < 2 then none
  else if (name.drop (name.length - 2)) ≠ ['s', 'o'] then
    some ("lib".toList ++ name ++ ".so".toList)
  else some name

/-- `obj_str.find(':', start)`, with the end of the string for `npos`.
    /repo/sources/core/plugins_manager.cpp 85-87. -/
def nextColon (s : Str) (start : ℕ) : ℕ :=
  start + (s.drop start).findIdx (· == ':')

theorem start_le_nextColon (s : Str) (start : ℕ) : start ≤ nextColon s start :=
  Nat.le_add_right _ _

/-- The `for` loop over the entries of the path.
    /repo/sources/core/plugins_manager.cpp 81-99. -/
def searchLoop (dir s : Str) (start : ℕ) : List Str :=
  if h : start < s.length then
    let next := nextColon s start
    let entry := if next = start then dir else (s.drop start).take (next - start)
    have : s.length - (next + 1) < s.length - start := by
      have := start_le_nextColon s start
      omega
    entry :: ((if next = s.length - 1 then [dir] else []) ++ searchLoop dir s (next + 1))
  else []
termination_by s.length - start

/-- `plugin_search_path`; `env` is the value of `ALTA_PLUGIN_PATH`, `dir` is
    `ALTA_PLUGIN_DIRECTORY`.  /repo/sources/core/plugins_manager.cpp 65-103. -/
def searchPath (dir : Str) (env : Option Str) : List Str :=
  let s := env.getD []
  if s = [] then [dir] else searchLoop dir s 0

/-- The symbols of a dynamic library -/
abbrev Symbols (α : Type) := Str → Option α

/-- The loop of `open_library`; the error state of the dynamic linker is that of
    glibc, where `dlerror` reports the outcome of the last call, `dlsym`.
    /repo/sources/core/plugins_manager.cpp 113-172. -/
def openLoop {α : Type} (fs : Str → Option (Symbols α)) (lib symbol : Str) :
    List Str → Option α
  | [] => none
  | d :: r =>
    match fs (d ++ ['/'] ++ lib) with
    | none => openLoop fs lib symbol r
    | some syms =>
      match syms symbol with
      | none => openLoop fs lib symbol r
      | some f => some f

/-- The same loop with the error state that POSIX permits: `dlerror` reports the last
    error since the last call to `dlerror`, even when later calls succeeded.
    `pending` is that state.  /repo/sources/core/plugins_manager.cpp 113-172. -/
def openLoopSticky {α : Type} (fs : Str → Option (Symbols α)) (lib symbol : Str) :
    Bool → List Str → Option α
  | _, [] => none
  | pending, d :: r =>
    match fs (d ++ ['/'] ++ lib) with
    | none => openLoopSticky fs lib symbol true r
    | some syms =>
      match syms symbol with
      | none => openLoopSticky fs lib symbol false r
      | some f => if pending then openLoopSticky fs lib symbol false r else some f

/-- `open_library`; the outer `none` is the exception of `library_name`.
    /repo/sources/core/plugins_manager.cpp 108-176. -/
def openLibrary {α : Type} (dir : Str) (env : Option Str) (fs : Str → Option (Symbols α))
    (filename symbol : Str) : Option (Option α) :=
  match libraryName filename with
  | none => none
  | some lib => some (openLoop fs lib symbol (searchPath dir env))

/-- What the factories of `plugins_manager` return -/
inductive Provided (α : Type) where
  /-- `NULL` -/
  | null
  /-- an object of a class of the core library -/
  | builtin (name : Str)
  /-- the result of the provider of a plugin -/
  | plugin (provider : α)

/-- `NULL` or the object of the provider that was found -/
def orNull {α : Type} : Option α → Provided α
  | none => .null
  | some f => .plugin f

/-- `plugins_manager::get_function(n, params)`.
    /repo/sources/core/plugins_manager.cpp 418-446. -/
def getFunctionByName {α : Type} (dir : Str) (env : Option Str)
    (fs : Str → Option (Symbols α)) (n : Str) : Option (Provided α) :=
  if n = [] then some .null
  else if n = "rational_function".toList then some (.builtin n)
  else (openLibrary dir env fs n "provide_function".toList).map orNull

/-- `plugins_manager::get_data`.  /repo/sources/core/plugins_manager.cpp 449-474. -/
def getData {α : Type} (dir : Str) (env : Option Str)
    (fs : Str → Option (Symbols α)) (n : Str) : Option (Provided α) :=
  if n = [] ∨ n = "vertical_segment".toList then some (.builtin "vertical_segment".toList)
  else (openLibrary dir env fs n "provide_data".toList).map orNull

/-- `plugins_manager::get_fitter`.  /repo/sources/core/plugins_manager.cpp 534-557. -/
def getFitter {α : Type} (dir : Str) (env : Option Str)
    (fs : Str → Option (Symbols α)) (n : Str) : Option (Provided α) :=
  if n = [] then some .null
  else (openLibrary dir env fs n "provide_fitter".toList).map orNull

end Alta
