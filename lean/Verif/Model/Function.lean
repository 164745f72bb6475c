import Verif.Model.Geometry
/-
Model of compositions of nonlinear functions: `compound_function` and
`product_function`.

Modelled: /repo/sources/core/function.h 129-400, /repo/sources/core/function.cpp 398-1230,
/repo/sources/core/common.cpp 30-38 (`product`).

Simplifications, valid for the whole file:
* `double` is ℝ.
* a nonlinear function given by a plugin is an object of an arbitrary class (`Cls`)
  with an arbitrary state; a compound or product refers to its parts, and may be nested.
* `std::vector<ptr<nonlinear_function>> fs` and `is_fixed` are one list (`Fns`); a loop
  over `fs` is a recursion over that list, the running offset `current_i` of the loops
  that read or write a parameter vector being the part of the vector not used yet.
* sharing of one object between several places of a composition is not modelled.
* `none` is the end of the program: failed conversion, assertion of Eigen on the sizes.
-/
namespace Alta
noncomputable section

/-- `alta::parameters`.  /repo/sources/core/params.h 435-510. -/
structure Par where
  dimX : ℕ
  dimY : ℕ
  input : Input
  output : Output

/-- The interface `nonlinear_function` of a class with state `σ`.
    /repo/sources/core/function.h 129-197. -/
structure Cls (σ : Type) where
  /-- `parametrization()` -/
  par : σ → Par
  /-- `nbParameters()` -/
  nb : σ → ℕ
  /-- `parameters()` -/
  get : σ → List ℝ
  /-- `setParameters(p)` -/
  set : σ → List ℝ → σ
  /-- `getParametersMin()` -/
  lo : σ → List ℝ
  /-- `getParametersMax()` -/
  hi : σ → List ℝ
  /-- `value(x)`, `none` when the call ends the program -/
  value : σ → List ℝ → Option (List ℝ)
  /-- `parametersJacobian(x)`, `none` when the call ends the program -/
  jac : σ → List ℝ → Option (List ℝ)

mutual
/-- A nonlinear function object: of a plugin class, a `compound_function` or a
    `product_function`.  /repo/sources/core/function.h 203-290, 297-390. -/
inductive Fn : Type 1 where
  | leaf {σ : Type} (c : Cls σ) (s : σ)
  | compound (p : Par) (fs : Fns)
  | product (p : Par) (f g : Fn) (fixF fixG : Bool)
/-- The members of a compound with their flag `is_fixed`. -/
inductive Fns : Type 1 where
  | nil
  | cons (fixed : Bool) (f : Fn) (rest : Fns)
end

/-- `parametrization()`.  /repo/sources/core/function.h 116-118. -/
def Fn.par : Fn → Par
  | .leaf c s => c.par s
  | .compound p _ => p
  | .product p _ _ _ _ => p

mutual
/-- `nbParameters`.  /repo/sources/core/function.cpp 664-674, 1028-1037. -/
def Fn.nb : Fn → ℕ
  | .leaf c s => c.nb s
  | .compound _ fs => fs.nb
  | .product _ f g fixF fixG => (if !fixF then f.nb else 0) + (if !fixG then g.nb else 0)
/-- the loop of `compound_function::nbParameters` -/
def Fns.nb : Fns → ℕ
  | .nil => 0
  | .cons fixed f rest => (if !fixed then f.nb else 0) + rest.nb
end

mutual
/-- `parameters`.  /repo/sources/core/function.cpp 677-699, 1039-1073. -/
def Fn.get : Fn → List ℝ
  | .leaf c s => c.get s
  | .compound _ fs => fs.get
  | .product _ f g fixF fixG =>
    (if !fixF then f.get.take f.nb else []) ++ (if !fixG then g.get.take g.nb else [])
/-- the loop of `compound_function::parameters` -/
def Fns.get : Fns → List ℝ
  | .nil => []
  | .cons fixed f rest => (if f.nb > 0 && !fixed then f.get.take f.nb else []) ++ rest.get
end

mutual
/-- `getParametersMin`.  /repo/sources/core/function.cpp 702-724, 1142-1174. -/
def Fn.lo : Fn → List ℝ
  | .leaf c s => c.lo s
  | .compound _ fs => fs.lo
  | .product _ f g fixF fixG =>
    (if !fixF then f.lo.take f.nb else []) ++ (if !fixG then g.lo.take g.nb else [])
/-- the loop of `compound_function::getParametersMin` -/
def Fns.lo : Fns → List ℝ
  | .nil => []
  | .cons fixed f rest => (if f.nb > 0 && !fixed then f.lo.take f.nb else []) ++ rest.lo
end

mutual
/-- `getParametersMax`.  /repo/sources/core/function.cpp 727-749, 1109-1139. -/
def Fn.hi : Fn → List ℝ
  | .leaf c s => c.hi s
  | .compound _ fs => fs.hi
  | .product _ f g fixF fixG =>
    (if !fixF then f.hi.take f.nb else []) ++ (if !fixG then g.hi.take g.nb else [])
/-- the loop of `compound_function::getParametersMax` -/
def Fns.hi : Fns → List ℝ
  | .nil => []
  | .cons fixed f rest => (if f.nb > 0 && !fixed then f.hi.take f.nb else []) ++ rest.hi
end

mutual
/-- `setParameters`.  /repo/sources/core/function.cpp 752-772, 1075-1106. -/
def Fn.set : Fn → List ℝ → Fn
  | .leaf c s, p => .leaf c (c.set s p)
  | .compound q fs, p => .compound q (fs.set p)
  | .product q f g fixF fixG, p =>
    let n := if !fixF then f.nb else 0
    .product q (if !fixF then f.set (p.take f.nb) else f)
      (if !fixG then g.set ((p.drop n).take g.nb) else g) fixF fixG
/-- the loop of `compound_function::setParameters`, on the parameters not used yet -/
def Fns.set : Fns → List ℝ → Fns
  | .nil, _ => .nil
  | .cons fixed f rest, p =>
    if f.nb > 0 && !fixed then .cons fixed (f.set (p.take f.nb)) (rest.set (p.drop f.nb))
    else .cons fixed f (rest.set p)
end

/-- `a + b` of two Eigen vectors; sizes must agree. -/
def vecAdd (a b : List ℝ) : Option (List ℝ) :=
  if a.length = b.length then some (List.zipWith (· + ·) a b) else none

/-- `product(a, b)`.  /repo/sources/core/common.cpp 30-38. -/
def vecProduct (a b : List ℝ) : Option (List ℝ) :=
  if a.length = 1 then some (b.map (· * a.getD 0 0))
  else if b.length = 1 then some (a.map (· * b.getD 0 0))
  else if a.length = b.length then some (List.zipWith (· * ·) a b) else none

mutual
/-- `value`.  /repo/sources/core/function.cpp 410-421, 856-877. -/
def Fn.value : Fn → List ℝ → Option (List ℝ)
  | .leaf c s, x => c.value s x
  | .compound p fs, x => fs.valueLoop p.input x (List.replicate p.dimY 0)
  | .product p f g _ _, x =>
    match convertInput (arr x) p.input f.par.input with
    | none => none
    | some xf =>
      match f.value xf with
      | none => none
      | some a =>
        match convertInput (arr x) p.input g.par.input with
        | none => none
        | some xg =>
          match g.value xg with
          | none => none
          | some b => vecProduct a b
/-- the loop of `compound_function::value`, with the accumulator `res` -/
def Fns.valueLoop : Fns → Input → List ℝ → List ℝ → Option (List ℝ)
  | .nil, _, _, res => some res
  | .cons _ f rest, input, x, res =>
    match convertInput (arr x) input f.par.input with
    | none => none
    | some xf =>
      match f.value xf with
      | none => none
      | some v =>
        match vecAdd res v with
        | none => none
        | some res' => rest.valueLoop input x res'
end

/-- `jac[y*nb_params + (i+start_i)] = func_jac[y*nb_f_params + i]` for all `i` and `y`.
    /repo/sources/core/function.cpp 445-451. -/
def writeBlock (nbP nbF start dimY : ℕ) (fj : ℕ → ℝ) (jac : ℕ → ℝ) : ℕ → ℝ :=
  (List.range nbF).foldl (fun j i =>
    (List.range dimY).foldl (fun j y => Function.update j (y * nbP + (i + start)) (fj (y * nbF + i))) j) jac

/-- The double loop of `product_function::parametersJacobian`.
    /repo/sources/core/function.cpp 1210-1235. -/
def productLoop (nbP nbF nbG dimY : ℕ) (fixF fixG : Bool) (jf jg vf vg : ℕ → ℝ) (jac : ℕ → ℝ) : ℕ → ℝ :=
  (List.range dimY).foldl (fun j y =>
    let j1 := if !fixF then
        (List.range nbF).foldl (fun j i => Function.update j (y * nbP + i) (jf (y * nbF + i) * vg y)) j
      else j
    if !fixG then
      (List.range nbG).foldl (fun j i =>
        if fixF then Function.update j (y * nbP + i) (jg (y * nbG + i) * vf y)
        else Function.update j (y * nbP + (i + nbF)) (jg (y * nbG + i) * vf y)) j1
    else j1) jac

mutual
/-- `parametersJacobian`.  /repo/sources/core/function.cpp 423-458, 1177-1238. -/
def Fn.jac : Fn → List ℝ → Option (List ℝ)
  | .leaf c s, x => c.jac s x
  | .compound p fs, x =>
    match fs.jacLoop p.input p.dimY fs.nb x 0 (fun _ => 0) with
    | none => none
    | some j => some ((List.range (fs.nb * p.dimY)).map j)
  | .product p f g fixF fixG, x =>
    let nbP := (if !fixF then f.nb else 0) + (if !fixG then g.nb else 0)
    match convertInput (arr x) p.input g.par.input with
    | none => none
    | some xg =>
      match convertInput (arr x) p.input f.par.input with
      | none => none
      | some xf =>
        match f.value xf, g.value xg, f.jac xf, g.jac xg with
        | some a, some b, some ja, some jb =>
          some ((List.range (nbP * p.dimY)).map
            (productLoop nbP f.nb g.nb p.dimY fixF fixG (arr ja) (arr jb) (arr a) (arr b) (fun _ => 0)))
        | _, _, _, _ => none
/-- the loop of `compound_function::parametersJacobian` -/
def Fns.jacLoop : Fns → Input → ℕ → ℕ → List ℝ → ℕ → (ℕ → ℝ) → Option (ℕ → ℝ)
  | .nil, _, _, _, _, _, j => some j
  | .cons fixed f rest, input, dimY, nbP, x, start, j =>
    if f.nb > 0 && !fixed then
      match convertInput (arr x) input f.par.input with
      | none => none
      | some xf =>
        match f.jac xf with
        | none => none
        | some fj => rest.jacLoop input dimY nbP x (start + f.nb) (writeBlock nbP f.nb start dimY (arr fj) j)
    else rest.jacLoop input dimY nbP x start j
end

/-- The loop of `compound_parameters`; `none` is `abort()`.
    /repo/sources/core/function.cpp 470-489. -/
def compoundParLoop : List Par → Par → Option Par
  | [], r => some r
  | f :: fs, r =>
    let r1 : Par :=
      if r.input = .UNKNOWN_INPUT then { r with input := f.input }
      else if r.input ≠ f.input then { r with dimX := 6, input := .CARTESIAN }
      else r
    if r1.output = .UNKNOWN_OUTPUT then compoundParLoop fs { r1 with output := f.output }
    else if r1.output ≠ f.output then none
    else compoundParLoop fs r1

/-- `compound_parameters`; `none` is `abort()` or the assertion on an empty list.
    /repo/sources/core/function.cpp 460-490. -/
def compoundPar : List Par → Option Par
  | [] => none
  | f :: fs => compoundParLoop (f :: fs) f

/-- `product_parameters`.  /repo/sources/core/function.cpp 818-833. -/
def productPar (f g : Par) : Par :=
  if f.input ≠ g.input then { f with dimX := 6, input := .CARTESIAN } else f

/-- the members and their flags -/
def Fns.toList : Fns → List (Bool × Fn)
  | .nil => []
  | .cons b f r => (b, f) :: r.toList

/-- the members of a vector of functions and their flags -/
def Fns.ofList : List (Bool × Fn) → Fns
  | [] => .nil
  | (b, f) :: r => .cons b f (Fns.ofList r)

/-- Constructor of `compound_function`; the flag of a member is given by its arguments
    (`--fixed`).  /repo/sources/core/function.cpp 492-504. -/
def makeCompound (fs : List (Bool × Fn)) : Option (Fn) :=
  (compoundPar (fs.map fun p => p.2.par)).map fun p => .compound p (Fns.ofList fs)

/-- Constructor of `product_function`.  /repo/sources/core/function.cpp 837-845. -/
def makeProduct (f g : Fn) (fixF fixG : Bool) : Fn :=
  .product (productPar f.par g.par) f g fixF fixG

end
end Alta
