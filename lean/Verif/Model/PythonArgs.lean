import Verif.Model.FunctionFile
/-
Model of the options and of the vectors of the Python binding.

Modelled: /repo/sources/python/wrapper_args.h 41-60, /repo/sources/python/wrapper_vec.h 25-79,
/repo/sources/python/alta.cpp 54-61.

Simplifications: a key or a value of a dictionary is given by its text (`py::str`); numbers are exact; messages are left
out.
-/
namespace Alta
noncomputable section

/-- `python_arguments(dict)`: the items of the dictionary in order.  Two keys of a dictionary may have the same text (`1`
    and `'1'`).  /repo/sources/python/wrapper_args.h 43-49. -/
def pyArguments (items : List (Str × Str)) : SMap := items.foldl (fun m i => m.update i.1 i.2) []

/-- `vec_str`; `fmt` prints a number.  /repo/sources/python/wrapper_vec.h 48-57. -/
def vecStr (fmt : ℝ → Decimal) (v : List ℝ) : Str :=
  "[".toList ++ (List.range v.length).flatMap (fun i =>
    (if i > 0 then ", ".toList else []) ++ (fmt (arr v i)).text) ++ "]".toList

/-- The vectors made so far, in order. -/
abbrev VecSession := List (List ℝ)

/-- What a script does with vectors.  Objects are designated by their order of creation. -/
inductive VecCmd where
  /-- `vec([...])` -/
  | make (l : List ℝ)
  /-- `vec(objects[i])` -/
  | copy (i : ℕ)
  /-- `objects[i] + objects[j]` -/
  | add (i j : ℕ)
  /-- `objects[i] - objects[j]` -/
  | sub (i j : ℕ)
  /-- `objects[i][k] = a` -/
  | set (i : ℕ) (k : ℤ) (a : ℝ)

/-- One command; `none` when it reads or writes outside of a vector (the sizes of the operands are not compared, the index
    is not checked) or when there is no such object.  /repo/sources/python/wrapper_vec.h 27-38, 63-77. -/
def VecSession.run (s : VecSession) : VecCmd → Option VecSession
  | .make l => some (s ++ [l])
  | .copy i => (s[i]?).map fun v => s ++ [v]
  | .add i j => (s[i]?).bind fun a => (s[j]?).bind fun b =>
    if a.length = b.length then some (s ++ [List.zipWith (· + ·) a b]) else none
  | .sub i j => (s[i]?).bind fun a => (s[j]?).bind fun b =>
    if a.length = b.length then some (s ++ [List.zipWith (· - ·) a b]) else none
  | .set i k a => (s[i]?).bind fun v => if 0 ≤ k ∧ k < v.length then some (s.set i (v.set k.toNat a)) else none

/-- The vectors after some commands. -/
def VecSession.runs (s : VecSession) (cs : List VecCmd) : Option VecSession := cs.foldlM VecSession.run s

/-- `objects[i][k]`: an error (`some none`) outside of the vector.  /repo/sources/python/wrapper_vec.h 73-76. -/
def VecSession.item (s : VecSession) (i k : ℕ) : Option (Option ℝ) := (s[i]?).map fun v => v[k]?

end
end Alta
