import Verif.Model.Geometry
import Verif.Model.Args
import Mathlib.Analysis.SpecialFunctions.Pow.Real
import Mathlib.Analysis.SpecialFunctions.Exp
/-
The part of the shading language GLSL that the exported files use: reading a program, and what its
functions compute.

Numbers are real numbers (a literal without a point is used as a `float`, as the language allows
where the files have one).  `none` is an error of the compiler, or a result that the language leaves
undefined: a division by zero, the square root of a negative number, a power of a negative number or
a non-positive power of zero, the direction of the null vector.
-/
namespace Alta.Glsl

/-! ### Words -/

/-- Words of a program. -/
inductive Token where
  | ident (w : Str)
  | num (w : Str)
  | sym (c : Char)
  deriving DecidableEq

/-- letters, and the underscore -/
def isLetter (c : Char) : Bool := (97 ≤ c.toNat && c.toNat ≤ 122) || (65 ≤ c.toNat && c.toNat ≤ 90) || c.toNat == 95

/-- The word being read is a number. -/
def inNumber : Str → Bool
  | [] => false
  | c :: _ => isDigit c

/-- The word being read ends with an exponent mark. -/
def afterExponent (w : Str) : Bool := w.getLast? == some 'e' || w.getLast? == some 'E'

/-- The word that has been read. -/
def flush (w : Str) : List Token :=
  if w = [] then [] else if inNumber w then [.num w] else [.ident w]

/-- State of the reader: the words read, and the beginning of the next one. -/
structure LexState where
  done : List Token
  word : Str
  deriving DecidableEq

/-- One more character. -/
def lexStep (st : LexState) (c : Char) : LexState :=
  if isLetter c || isDigit c ||
      (inNumber st.word && (c == '.' || ((c == '+' || c == '-') && afterExponent st.word))) then
    ⟨st.done, st.word ++ [c]⟩
  else ⟨st.done ++ flush st.word ++ (if isSpace c then [] else [.sym c]), []⟩

/-- The words of a text. -/
def lex (s : Str) : List Token :=
  let st := s.foldl lexStep ⟨[], []⟩
  st.done ++ flush st.word

/-! ### Grammar -/

inductive Op where
  | add | sub | mul | div | lt | gt | le | ge
  deriving DecidableEq

mutual
/-- Expressions. -/
inductive Expr where
  | num (w : Str)
  | var (x : Str)
  | neg (e : Expr)
  | bin (op : Op) (a b : Expr)
  | field (e : Expr) (f : Str)
  | index (e : Expr) (w : Str)
  | call (f : Str) (args : Args)
/-- The arguments of a call. -/
inductive Args where
  | nil
  | cons (e : Expr) (rest : Args)
end

inductive Ty where
  | float | vec3
  deriving DecidableEq

/-- The name of a type. -/
def tyOf (w : Str) : Option Ty :=
  if w = ['f', 'l', 'o', 'a', 't'] then some .float
  else if w = ['v', 'e', 'c', '3'] then some .vec3 else none

mutual
inductive Stmt where
  | decl (t : Ty) (x : Str) (e : Expr)
  | declOnly (t : Ty) (x : Str)
  | assign (x : Str) (e : Expr)
  | addAssign (x : Str) (e : Expr)
  | setField (x f : Str) (e : Expr)
  | ret (e : Expr)
  | ite (c : Expr) (t e : Stmts)
inductive Stmts where
  | nil
  | cons (s : Stmt) (rest : Stmts)
end

/-- words that are not names -/
def reserved (w : Str) : Bool :=
  w = ['r', 'e', 't', 'u', 'r', 'n'] || w = ['i', 'f'] || w = ['e', 'l', 's', 'e'] ||
  w = ['c', 'o', 'n', 's', 't']

/-- The next word must be this symbol. -/
def expect (c : Char) : List Token → Option (List Token)
  | .sym d :: r => if d = c then some r else none
  | _ => none

mutual
/-- comparison -/
def pExpr : ℕ → List Token → Option (Expr × List Token)
  | 0, _ => none
  | n + 1, ts => (pSum n ts).bind fun a =>
    match a.2 with
    | .sym '<' :: .sym '=' :: r => (pSum n r).map fun b => (.bin .le a.1 b.1, b.2)
    | .sym '>' :: .sym '=' :: r => (pSum n r).map fun b => (.bin .ge a.1 b.1, b.2)
    | .sym '<' :: r => (pSum n r).map fun b => (.bin .lt a.1 b.1, b.2)
    | .sym '>' :: r => (pSum n r).map fun b => (.bin .gt a.1 b.1, b.2)
    | _ => some a
/-- sum -/
def pSum : ℕ → List Token → Option (Expr × List Token)
  | 0, _ => none
  | n + 1, ts => (pProd n ts).bind fun a => pSumTail n a.1 a.2
/-- terms after the first ones -/
def pSumTail : ℕ → Expr → List Token → Option (Expr × List Token)
  | 0, _, _ => none
  | n + 1, a, ts =>
    match ts with
    | .sym '+' :: r => (pProd n r).bind fun b => pSumTail n (.bin .add a b.1) b.2
    | .sym '-' :: r => (pProd n r).bind fun b => pSumTail n (.bin .sub a b.1) b.2
    | _ => some (a, ts)
/-- product -/
def pProd : ℕ → List Token → Option (Expr × List Token)
  | 0, _ => none
  | n + 1, ts => (pUnary n ts).bind fun a => pProdTail n a.1 a.2
/-- factors after the first ones -/
def pProdTail : ℕ → Expr → List Token → Option (Expr × List Token)
  | 0, _, _ => none
  | n + 1, a, ts =>
    match ts with
    | .sym '*' :: r => (pUnary n r).bind fun b => pProdTail n (.bin .mul a b.1) b.2
    | .sym '/' :: r => (pUnary n r).bind fun b => pProdTail n (.bin .div a b.1) b.2
    | _ => some (a, ts)
/-- sign -/
def pUnary : ℕ → List Token → Option (Expr × List Token)
  | 0, _ => none
  | n + 1, ts =>
    match ts with
    | .sym '-' :: r => (pUnary n r).map fun b => (.neg b.1, b.2)
    | _ => (pAtom n ts).bind fun a => pSuffix n a.1 a.2
/-- number, name, call, parenthesis -/
def pAtom : ℕ → List Token → Option (Expr × List Token)
  | 0, _ => none
  | n + 1, ts =>
    match ts with
    | .num w :: r => some (.num w, r)
    | .ident w :: .sym '(' :: r => if reserved w then none else (pArgs n r).map fun a => (.call w a.1, a.2)
    | .ident w :: r => if reserved w then none else some (.var w, r)
    | .sym '(' :: r => (pExpr n r).bind fun a => (expect ')' a.2).map fun r => (a.1, r)
    | _ => none
/-- components -/
def pSuffix : ℕ → Expr → List Token → Option (Expr × List Token)
  | 0, _, _ => none
  | n + 1, a, ts =>
    match ts with
    | .sym '.' :: .ident f :: r => pSuffix n (.field a f) r
    | .sym '[' :: .num w :: .sym ']' :: r => pSuffix n (.index a w) r
    | _ => some (a, ts)
/-- arguments after the opening parenthesis -/
def pArgs : ℕ → List Token → Option (Args × List Token)
  | 0, _ => none
  | n + 1, ts =>
    match ts with
    | .sym ')' :: r => some (.nil, r)
    | _ => (pExpr n ts).bind fun a => (pMore n a.2).map fun b => (.cons a.1 b.1, b.2)
/-- arguments after one of them -/
def pMore : ℕ → List Token → Option (Args × List Token)
  | 0, _ => none
  | n + 1, ts =>
    match ts with
    | .sym ')' :: r => some (.nil, r)
    | .sym ',' :: r => (pExpr n r).bind fun a => (pMore n a.2).map fun b => (.cons a.1 b.1, b.2)
    | _ => none
end

/-- declaration of a variable -/
def pDecl (n : ℕ) : List Token → Option (Stmt × List Token)
  | .ident t :: .ident x :: .sym '=' :: r =>
    (tyOf t).bind fun t => (pExpr n r).bind fun e => (expect ';' e.2).map fun r => (.decl t x e.1, r)
  | .ident t :: .ident x :: .sym ';' :: r => (tyOf t).map fun t => (.declOnly t x, r)
  | _ => none

/-- assignment of a variable, or of one of its components -/
def pAssign (n : ℕ) : List Token → Option (Stmt × List Token)
  | .ident x :: .sym '=' :: r => (pExpr n r).bind fun e => (expect ';' e.2).map fun r => (.assign x e.1, r)
  | .ident x :: .sym '+' :: .sym '=' :: r =>
    (pExpr n r).bind fun e => (expect ';' e.2).map fun r => (.addAssign x e.1, r)
  | .ident x :: .sym '.' :: .ident f :: .sym '=' :: r =>
    (pExpr n r).bind fun e => (expect ';' e.2).map fun r => (.setField x f e.1, r)
  | _ => none

mutual
/-- one statement -/
def pStmt : ℕ → List Token → Option (Stmt × List Token)
  | 0, _ => none
  | n + 1, ts =>
    match ts with
    | .ident w :: r =>
      if w = ['r', 'e', 't', 'u', 'r', 'n'] then
        (pExpr n r).bind fun e => (expect ';' e.2).map fun r => (.ret e.1, r)
      else if w = ['i', 'f'] then
        (expect '(' r).bind fun r => (pExpr n r).bind fun c => (expect ')' c.2).bind fun r =>
          (expect '{' r).bind fun r => (pStmts n r).bind fun t =>
            match t.2 with
            | .ident ['e', 'l', 's', 'e'] :: r => (expect '{' r).bind fun r => (pStmts n r).map fun e =>
                (.ite c.1 t.1 e.1, e.2)
            | _ => some (.ite c.1 t.1 .nil, t.2)
      else if w = ['c', 'o', 'n', 's', 't'] then pDecl n r
      else if (tyOf w).isSome then pDecl n ts
      else pAssign n ts
    | _ => none
/-- statements up to the closing brace -/
def pStmts : ℕ → List Token → Option (Stmts × List Token)
  | 0, _ => none
  | n + 1, ts =>
    match ts with
    | .sym '}' :: r => some (.nil, r)
    | _ => (pStmt n ts).bind fun s => (pStmts n s.2).map fun rest => (.cons s.1 rest.1, rest.2)
end

/-- A function: the type of its result, its name, its parameters, its body. -/
structure FunDef where
  ret : Ty
  name : Str
  params : List (Ty × Str)
  body : Stmts

/-- parameters up to the closing parenthesis -/
def pParams : ℕ → List Token → Option (List (Ty × Str) × List Token)
  | 0, _ => none
  | n + 1, ts =>
    match ts with
    | .ident t :: .ident x :: .sym ',' :: r => (tyOf t).bind fun t => (pParams n r).map fun ps =>
        ((t, x) :: ps.1, ps.2)
    | .ident t :: .ident x :: .sym ')' :: r => (tyOf t).map fun t => ([(t, x)], r)
    | _ => none

/-- definition of a function -/
def pFun (n : ℕ) : List Token → Option (FunDef × List Token)
  | .ident t :: .ident f :: .sym '(' :: r =>
    (tyOf t).bind fun t => (pParams n r).bind fun ps => (expect '{' ps.2).bind fun r =>
      (pStmts n r).map fun b => (⟨t, f, ps.1, b.1⟩, b.2)
  | _ => none

/-- definitions of functions up to the end -/
def pProgram (m : ℕ) : ℕ → List Token → Option (List FunDef)
  | _, [] => some []
  | 0, _ :: _ => none
  | n + 1, ts => (pFun m ts).bind fun f => (pProgram m n f.2).map fun fs => f.1 :: fs

/-- The functions of a program; `none` if the text does not follow the grammar.  The first argument
    of the functions above bounds the depth of the recursion. -/
def parse (s : Str) : Option (List FunDef) :=
  let ts := lex s
  pProgram (100 + 10 * ts.length) ts.length ts

/-! ### Values -/

noncomputable section
open Real Classical

inductive Val where
  | f (x : ℝ)
  | v (a : V3)
  | b (p : Prop)

/-- a value of this type -/
def Val.HasTy : Val → Ty → Prop
  | .f _, .float => True
  | .v _, .vec3 => True
  | _, _ => False

/-- the type of a value that can be passed to a function -/
def Val.ty : Val → Option Ty
  | .f _ => some .float
  | .v _ => some .vec3
  | .b _ => none

/-- An operation on numbers applied to vectors, component by component. -/
def V3.map2 (g : ℝ → ℝ → Option ℝ) (a b : V3) : Option V3 :=
  (g a.x b.x).bind fun x => (g a.y b.y).bind fun y => (g a.z b.z).map fun z => ⟨x, y, z⟩

/-- Arithmetic between numbers and vectors. -/
def arith (g : ℝ → ℝ → Option ℝ) : Val → Val → Option Val
  | .f x, .f y => (g x y).map .f
  | .v a, .v b => (V3.map2 g a b).map .v
  | .f x, .v b => (V3.map2 g ⟨x, x, x⟩ b).map .v
  | .v a, .f y => (V3.map2 g a ⟨y, y, y⟩).map .v
  | _, _ => none

/-- division -/
def divOp (x y : ℝ) : Option ℝ := if y = 0 then none else some (x / y)

/-- `pow` -/
def powOp (x y : ℝ) : Option ℝ := if x < 0 ∨ (x = 0 ∧ y ≤ 0) then none else some (x ^ y)

/-- An operator. -/
def binVal : Op → Val → Val → Option Val
  | .add, a, b => arith (fun x y => some (x + y)) a b
  | .sub, a, b => arith (fun x y => some (x - y)) a b
  | .mul, a, b => arith (fun x y => some (x * y)) a b
  | .div, a, b => arith divOp a b
  | .lt, .f x, .f y => some (.b (x < y))
  | .gt, .f x, .f y => some (.b (x > y))
  | .le, .f x, .f y => some (.b (x ≤ y))
  | .ge, .f x, .f y => some (.b (x ≥ y))
  | _, _, _ => none

/-- A component of a vector. -/
def V3.comp (a : V3) (f : Str) : Option ℝ :=
  if f = ['x'] then some a.x else if f = ['y'] then some a.y else if f = ['z'] then some a.z else none

/-- A vector with another component. -/
def V3.setComp (a : V3) (f : Str) (t : ℝ) : Option V3 :=
  if f = ['x'] then some ⟨t, a.y, a.z⟩ else if f = ['y'] then some ⟨a.x, t, a.z⟩
  else if f = ['z'] then some ⟨a.x, a.y, t⟩ else none

/-- scalar product -/
def dotV (a b : V3) : ℝ := a.x * b.x + a.y * b.y + a.z * b.z

/-- The functions of the language. -/
def builtin (f : Str) (args : List Val) : Option Val :=
  if f = ['d', 'o', 't'] then
    match args with
    | [.v a, .v b] => some (.f (dotV a b))
    | _ => none
  else if f = ['n', 'o', 'r', 'm', 'a', 'l', 'i', 'z', 'e'] then
    match args with
    | [.v a] =>
      let n := √(dotV a a)
      if n = 0 then none else some (.v ⟨a.x / n, a.y / n, a.z / n⟩)
    | _ => none
  else if f = ['p', 'o', 'w'] then
    match args with
    | [.f x, .f y] => (powOp x y).map .f
    | [.v a, .v b] => (V3.map2 powOp a b).map .v
    | _ => none
  else if f = ['m', 'a', 'x'] then
    match args with
    | [.f x, .f y] => some (.f (max x y))
    | [.v a, .v b] => some (.v ⟨max a.x b.x, max a.y b.y, max a.z b.z⟩)
    | _ => none
  else if f = ['c', 'l', 'a', 'm', 'p'] then
    match args with
    | [.f x, .f lo, .f hi] => some (.f (min (max x lo) hi))
    | _ => none
  else if f = ['e', 'x', 'p'] then
    match args with
    | [.f x] => some (.f (exp x))
    | [.v a] => some (.v ⟨exp a.x, exp a.y, exp a.z⟩)
    | _ => none
  else if f = ['s', 'q', 'r', 't'] then
    match args with
    | [.f x] => if x < 0 then none else some (.f (√x))
    | _ => none
  else if f = ['v', 'e', 'c', '3'] then
    match args with
    | [.f x] => some (.v ⟨x, x, x⟩)
    | [.f x, .f y, .f z] => some (.v ⟨x, y, z⟩)
    | [.v a] => some (.v a)
    | _ => none
  else if f = ['s', 'i', 'n'] then
    match args with
    | [.f x] => some (.f (sin x))
    | _ => none
  else if f = ['c', 'o', 's'] then
    match args with
    | [.f x] => some (.f (cos x))
    | _ => none
  else if f = ['a', 'c', 'o', 's'] then
    match args with
    | [.f x] => if 1 < |x| then none else some (.f (arccos x))
    | _ => none
  else if f = ['a', 't', 'a', 'n'] then
    match args with
    | [.f y, .f x] => if x = 0 ∧ y = 0 then none else some (.f (atan2 y x))
    | _ => none
  else none

/-- A function that can be called: its name, the types of its parameters, what it computes. -/
structure Fun where
  name : Str
  params : List Ty
  run : List Val → Option Val

/-- A call: of the function of the program with this name and these parameters, or of the language. -/
def callFun (fs : List Fun) (f : Str) (args : List Val) : Option Val :=
  match fs.find? fun g => g.name = f ∧ args.map Val.ty = g.params.map some with
  | some g => g.run args
  | none => builtin f args

/-- A number: decimal notation, with a suffix `f` or not. -/
def numVal (w : Str) : Option ℝ :=
  match strtod (if w.getLast? = some 'f' then w.dropLast else w) with
  | some (q, []) => some (q : ℝ)
  | _ => none

/-- The variables. -/
abbrev Env := List (Str × Val)

/-- The value of a variable. -/
def Env.get (env : Env) (x : Str) : Option Val := (env.find? fun p => p.1 = x).map (·.2)

/-- The variables after an assignment. -/
def Env.assign : Env → Str → Val → Option Env
  | [], _, _ => none
  | (y, w) :: r, x, u =>
    if y = x then (if u.ty = w.ty then some ((y, u) :: r) else none)
    else (Env.assign r x u).map fun r => (y, w) :: r

mutual
/-- The value of an expression. -/
def eval (fs : List Fun) (env : Env) : Expr → Option Val
  | .num w => (numVal w).map .f
  | .var x => env.get x
  | .neg e => (eval fs env e).bind fun a => arith (fun x y => some (x - y)) (.f 0) a
  | .bin op a b => (eval fs env a).bind fun x => (eval fs env b).bind fun y => binVal op x y
  | .field e f => (eval fs env e).bind fun x =>
    match x with
    | .v a => (V3.comp a f).map .f
    | _ => none
  | .index e w => (eval fs env e).bind fun x =>
    match x with
    | .v a => (V3.comp a (if w = ['0'] then ['x'] else if w = ['1'] then ['y']
        else if w = ['2'] then ['z'] else [])).map .f
    | _ => none
  | .call f args => (evals fs env args).bind fun vs => callFun fs f vs
/-- The values of arguments. -/
def evals (fs : List Fun) (env : Env) : Args → Option (List Val)
  | .nil => some []
  | .cons e rest => (eval fs env e).bind fun x => (evals fs env rest).map fun xs => x :: xs
end

mutual
/-- The variables after a statement, and the value returned if it returns.  A variable declared
    without a value is zero. -/
def exec (fs : List Fun) (env : Env) : Stmt → Option (Env × Option Val)
  | .decl t x e => (eval fs env e).bind fun u => if u.HasTy t then some ((x, u) :: env, none) else none
  | .declOnly t x => some ((x, match t with | .float => .f 0 | .vec3 => .v ⟨0, 0, 0⟩) :: env, none)
  | .assign x e => (eval fs env e).bind fun u => (env.assign x u).map fun env => (env, none)
  | .addAssign x e => (env.get x).bind fun a => (eval fs env e).bind fun u =>
      (binVal .add a u).bind fun u => (env.assign x u).map fun env => (env, none)
  | .setField x f e => (env.get x).bind fun a => (eval fs env e).bind fun u =>
    match a, u with
    | .v a, .f t => (V3.setComp a f t).bind fun a => (env.assign x (.v a)).map fun env => (env, none)
    | _, _ => none
  | .ret e => (eval fs env e).map fun u => (env, some u)
  | .ite c t e => (eval fs env c).bind fun u =>
    match u with
    | .b p =>
      (if p then execs fs env t else execs fs env e).map fun r => (r.1.drop (r.1.length - env.length), r.2)
    | _ => none
/-- The same for a list of statements: those after a `return` are not executed. -/
def execs (fs : List Fun) (env : Env) : Stmts → Option (Env × Option Val)
  | .nil => some (env, none)
  | .cons s rest => (exec fs env s).bind fun r =>
    match r.2 with
    | some u => some (r.1, some u)
    | none => execs fs r.1 rest
end

/-- What a function computes, `fs` being those defined before it. -/
def FunDef.toFun (fs : List Fun) (d : FunDef) : Fun where
  name := d.name
  params := d.params.map (·.1)
  run args :=
    (execs fs (List.zipWith (fun p u => (p.2, u)) d.params args) d.body).bind fun r =>
      r.2.bind fun u => if u.HasTy d.ret then some u else none

/-- The functions of a program.  The same function (name and types of the parameters) must not be
    defined twice. -/
def link : List Fun → List FunDef → Option (List Fun)
  | fs, [] => some fs
  | fs, d :: ds =>
    if ∃ g ∈ fs, g.name = d.name ∧ g.params = d.params.map (·.1) then none
    else link (fs ++ [d.toFun fs]) ds

/-- What the function `BRDF(L, V, N, X, Y)` of a program computes: `L` and `V` are the directions of
    the light and of the view, `N`, `X` and `Y` the frame of the surface. -/
def shade (text : Str) (L V N X Y : V3) : Option V3 :=
  (parse text).bind fun ds => (link [] ds).bind fun fs =>
    match callFun fs "BRDF".toList [.v L, .v V, .v N, .v X, .v Y] with
    | some (.v a) => some a
    | _ => none

end
end Alta.Glsl
