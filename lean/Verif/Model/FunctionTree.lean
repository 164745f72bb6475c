import Verif.Model.Plugins
import Verif.Model.Function
import Verif.Proofs.ArgsWeight
/-
Model of the creation of a function from command line arguments.

Modelled: /repo/sources/core/plugins_manager.cpp 235-415 (`get_function(args, params)`), with the
constructors of `compound_function` and `product_function`.

Simplifications: a plugin library is a `Provider` (its `provide_function`); the object it makes is a
value of a type `L`, of which only the parametrization (`parOf`) and whether it is a
`nonlinear_function` are used; messages are left out.  `none` is the end of the program: exception
of `library_name`, a null pointer dereferenced by the constructor of `compound_function`, `abort()`,
or arguments that cannot be read (`parseArgs`).
-/
namespace Alta

mutual
/-- A nonlinear function made of plugin objects.  A member of a compound is kept with its arguments
    (`fs_args`).  /repo/sources/core/function.h 211-310, 311-390. -/
inductive FT (L : Type) : Type where
  | leaf (l : L)
  | compound (p : Par) (fs : FTs L)
  | product (p : Par) (f g : FT L) (fixF fixG : Bool)
/-- the members of a compound -/
inductive FTs (L : Type) : Type where
  | nil
  | cons (args : SMap) (f : FT L) (rest : FTs L)
end

variable {L : Type}

/-- `parametrization()` -/
def FT.par (parOf : L → Par) : FT L → Par
  | .leaf l => parOf l
  | .compound p _ => p
  | .product p _ _ _ _ => p

/-- the members of a vector of functions with their arguments -/
def FTs.ofList : List (SMap × FT L) → FTs L
  | [] => .nil
  | (a, f) :: r => .cons a f (FTs.ofList r)

/-- What a library gives: its `provide_function`, and whether the object made is a
    `nonlinear_function`. -/
structure Provider (L : Type) where
  nonlinear : Bool
  make : Par → L

/-- What `get_function` returns -/
inductive Made (L : Type) where
  /-- `NULL` -/
  | null
  /-- a `rational_function` of the core library -/
  | rational
  /-- an object of a plugin that is not a `nonlinear_function` -/
  | linear (l : L)
  /-- a `nonlinear_function` -/
  | nonlinear (t : FT L)

/-- `dynamic_cast<nonlinear_function*>` -/
def Made.cast : Made L → Option (FT L)
  | .nonlinear t => some t
  | _ => none

/-- the option `fixed-lobe` -/
def kFixedLobe : Str := ['f', 'i', 'x', 'e', 'd', '-', 'l', 'o', 'b', 'e']
/-- the option `fixed-fresnel` -/
def kFixedFresnel : Str := ['f', 'i', 'x', 'e', 'd', '-', 'f', 'r', 'e', 's', 'n', 'e', 'l']

/-- The constructor of `compound_function`.  /repo/sources/core/function.cpp 460-504. -/
def newCompound (parOf : L → Par) (fs : List (SMap × FT L)) : Option (FT L) :=
  (compoundPar (fs.map fun f => f.2.par parOf)).map fun p => .compound p (FTs.ofList fs)

/-- The constructor of `product_function`.  /repo/sources/core/function.cpp 818-845. -/
def newProduct (parOf : L → Par) (f g : FT L) (fixF fixG : Bool) : FT L :=
  .product (productPar (f.par parOf) (g.par parOf)) f g fixF fixG

/-- The text after `--func ` of the Fresnel term; `none` for `--fresnel` alone.
    /repo/sources/core/plugins_manager.cpp 348-367. -/
def fresnelText (args : SMap) : Option Str :=
  let v := args.get kFresnel
  if args.isVec kFresnel then some ((v.drop 1).take (v.length - 2))
  else if v = [] then none
  else some v

theorem fresnelText_le (args : SMap) (e : Str) (h : fresnelText args = some e) :
    e.length ≤ (args.get kFresnel).length := by
  unfold fresnelText at h
  simp only at h
  split at h
  · simp only [Option.some.injEq] at h
    rw [← h, List.length_take, List.length_drop]
    omega
  · split at h
    · cases h
    · simp only [Option.some.injEq] at h
      rw [h]

/-- `plugins_manager::get_function(args, params)`.  The value of `func` cannot be empty because
    `library_name` throws.  /repo/sources/core/plugins_manager.cpp 235-415. -/
def getFunction (dir : Str) (env : Option Str) (fs : Str → Option (Symbols (Provider L)))
    (parOf : L → Par) (args : SMap) (p : Par) : Option (Made L) :=
  if args.isDefined kFunc = false then some .rational
  else if hF : args.get kFunc = [] then none
  else
    let base : Option (Made L × Bool) :=
      if args.isVec kFunc then
        if args.getVecStr kFunc = [] then some (.null, true)
        else
          ((args.getVecStr kFunc).attach.mapM fun e : { x // x ∈ args.getVecStr kFunc } =>
            match ha : createArguments (funcPrefix ++ e.1) with
            | none => none
            | some a =>
              have : a.weight < args.weight := by
                have h1 := weight_create _ _ ha
                have h2 := getVecStr_lt args kFunc e.1 e.2
                unfold SMap.weight at *
                omega
              (getFunction dir env fs parOf a p).bind fun m => m.cast.map fun t => (a, t)).bind fun ts =>
            (newCompound parOf ts).map fun t => (.nonlinear t, false)
      else
        (openLibrary dir env fs (args.get kFunc) "provide_function".toList).map fun o =>
          match o with
          | some pr => (if pr.nonlinear then .nonlinear (.leaf (pr.make p)) else .linear (pr.make p), false)
          | none => (.rational, true)
    match base with
    | none => none
    | some (func, early) =>
      if early || !args.isDefined kFresnel then some func
      else
        match func.cast with
        | none => some func
        | some t =>
          match ht : fresnelText args with
          | none => some func
          | some e =>
            match ha : createArguments (funcPrefix ++ e) with
            | none => none
            | some a =>
              have : a.weight < args.weight := by
                have h1 := weight_create _ _ ha
                have h2 := fresnelText_le args e ht
                have h3 : 0 < (args.get kFunc).length := List.length_pos_iff.2 hF
                unfold SMap.weight at *
                omega
              (getFunction dir env fs parOf a p).map fun g =>
                match g.cast with
                | none => func
                | some u => .nonlinear (newProduct parOf t u (args.isDefined kFixedLobe)
                    (args.isDefined kFixedFresnel))
termination_by args.weight

end Alta
