import Verif.Spec.Glsl
/-
The part of C++ that the exported files use: a file that includes Eigen, names its vectors, and defines one
function of a vector.

Expressions are read as in `Spec/Glsl`.  Numbers are real numbers (the exported files have no operation
between two integers).  `none` is an error of the compiler, or a result that is undefined: a division by zero,
a power that is not a number, an element outside of a vector.
-/
namespace Alta.Cpp
open Glsl (Token Expr Args Op pExpr expect)

/-! ### Directives -/

/-- where a character is: at the beginning of a line (after spaces), further, or in a directive -/
inductive Place where
  | start | inside | directive
  deriving DecidableEq

/-- The text without its directives (the lines that start with `#`). -/
def code : Place → Str → Str
  | _, [] => []
  | .start, c :: r =>
    if c = '#' then code .directive r
    else c :: code (if isSpace c then .start else .inside) r
  | .inside, c :: r => c :: code (if c = '\n' then .start else .inside) r
  | .directive, c :: r => if c = '\n' then c :: code .start r else code .directive r

/-- The directives, without their `#`; the first argument is the beginning of the current one. -/
def directives : Place → Str → Str → List Str
  | .directive, w, [] => [w]
  | _, _, [] => []
  | .start, w, c :: r =>
    if c = '#' then directives .directive [] r
    else directives (if isSpace c then .start else .inside) w r
  | .inside, w, c :: r => directives (if c = '\n' then .start else .inside) w r
  | .directive, w, c :: r => if c = '\n' then w :: directives .start [] r else directives .directive (w ++ [c]) r

/-! ### Grammar -/

/-- Statements: `double x = e;`, `vec x(n);`, `x[n] = e;`, `return x;`. -/
inductive Stmt where
  | double (x : Str) (e : Expr)
  | vector (x : Str) (n : Str)
  | setAt (x : Str) (n : Str) (e : Expr)
  | ret (x : Str)

/-- words that are not names -/
def keyword (w : Str) : Bool :=
  w = "return".toList || w = "if".toList || w = "else".toList || w = "const".toList || w = "double".toList ||
  w = "typedef".toList

/-- One statement; `T` is the name of the vectors. -/
def pStmt (n : ℕ) (T : Str) : List Token → Option (Stmt × List Token)
  | .ident w :: .ident x :: .sym '=' :: r =>
    if w = "double".toList ∧ keyword x = false then
      (pExpr n r).bind fun e => (expect ';' e.2).map fun r => (.double x e.1, r)
    else none
  | .ident w :: .ident x :: .sym '(' :: .num k :: .sym ')' :: .sym ';' :: r =>
    if w = T ∧ keyword x = false then some (.vector x k, r) else none
  | .ident x :: .sym '[' :: .num k :: .sym ']' :: .sym '=' :: r =>
    if keyword x = false then (pExpr n r).bind fun e => (expect ';' e.2).map fun r => (.setAt x k e.1, r) else none
  | .ident w :: .ident x :: .sym ';' :: r => if w = "return".toList ∧ keyword x = false then some (.ret x, r) else none
  | _ => none

/-- Statements up to the closing brace, which is the end of the file.  The first argument bounds the number of
    statements, the second one the depth of the expressions. -/
def pStmts : ℕ → ℕ → Str → List Token → Option (List Stmt)
  | 0, _, _, _ => none
  | m + 1, n, T, ts =>
    if ts = [.sym '}'] then some []
    else (pStmt n T ts).bind fun s => (pStmts m n T s.2).map fun rest => s.1 :: rest

/-- A function: its name, its parameter, its body. -/
structure FunDef where
  name : Str
  param : Str
  body : List Stmt

/-- `typedef Eigen::VectorXd T; T name(const T& x) { ... }` -/
def pFile (n : ℕ) : List Token → Option FunDef
  | .ident k :: .ident e :: .sym ':' :: .sym ':' :: .ident v :: .ident T :: .sym ';' :: .ident T1 :: .ident f ::
      .sym '(' :: .ident c :: .ident T2 :: .sym '&' :: .ident x :: .sym ')' :: .sym '{' :: r =>
    if k = "typedef".toList ∧ e = "Eigen".toList ∧ v = "VectorXd".toList ∧ keyword T = false ∧ T1 = T ∧
        keyword f = false ∧ c = "const".toList ∧ T2 = T ∧ keyword x = false then
      (pStmts n n T r).map fun b => ⟨f, x, b⟩
    else none
  | _ => none

/-- The function of a file; `Eigen::VectorXd` is declared by `Eigen/Core`. -/
def parse (s : Str) : Option FunDef :=
  if "include <Eigen/Core>".toList ∈ directives .start [] s then
    let ts := Glsl.lex (code .start s)
    pFile (100 + 10 * ts.length) ts
  else none

/-! ### Values -/

noncomputable section
open Real

/-- An integer literal, in decimal notation: digits, the first one not being zero if there are several. -/
def natVal (w : Str) : Option ℕ :=
  if w ≠ [] ∧ (∀ c ∈ w, isDigit c = true) ∧ (w.head? = some '0' → w.length = 1) then some (digitsVal w) else none

/-- A literal: an integer, or decimal notation with a point or an exponent. -/
def litVal (w : Str) : Option ℝ :=
  if ∀ c ∈ w, isDigit c = true then (natVal w).map fun n => (n : ℝ)
  else
    match strtod w with
    | some (q, []) => some (q : ℝ)
    | _ => none

/-- Values of variables: numbers, and vectors whose elements may not be initialised. -/
inductive Val where
  | d (x : ℝ)
  | v (l : List (Option ℝ))

abbrev Env := List (Str × Val)

/-- The value of a variable. -/
def Env.get (env : Env) (x : Str) : Option Val := (env.find? fun p => p.1 = x).map (·.2)

open Classical in
/-- `pow`: a negative number has integer powers only, and zero no negative power. -/
def powOp (x y : ℝ) : Option ℝ :=
  if (x < 0 ∧ ¬ ∃ n : ℤ, y = n) ∨ (x = 0 ∧ y < 0) then none else some (x ^ y)

/-- The arithmetic operators. -/
def binOp : Op → ℝ → ℝ → Option ℝ
  | .add, x, y => some (x + y)
  | .sub, x, y => some (x - y)
  | .mul, x, y => some (x * y)
  | .div, x, y => if y = 0 then none else some (x / y)
  | _, _, _ => none

mutual
/-- The value of an expression that is a number. -/
def eval (env : Env) : Expr → Option ℝ
  | .num w => litVal w
  | .var x =>
    match env.get x with
    | some (.d a) => some a
    | _ => none
  | .neg e => (eval env e).map fun a => -a
  | .bin op a b => (eval env a).bind fun x => (eval env b).bind fun y => binOp op x y
  | .index (.var x) w =>
    match env.get x, natVal w with
    | some (.v l), some k => (l[k]?).join
    | _, _ => none
  | .call f args => (evals env args).bind fun xs =>
    match xs with
    | [x, y] => if f = "pow".toList then powOp x y else none
    | _ => none
  | _ => none
/-- The values of arguments. -/
def evals (env : Env) : Args → Option (List ℝ)
  | .nil => some []
  | .cons e rest => (eval env e).bind fun x => (evals env rest).map fun xs => x :: xs
end

/-- The vector returned by the statements; `c` is the parameter, which cannot be assigned.  A variable must not
    be declared twice. -/
def exec (c : Str) : Env → List Stmt → Option (List (Option ℝ))
  | _, [] => none
  | env, .double x e :: rest =>
    if x ∈ env.map (·.1) then none else (eval env e).bind fun a => exec c ((x, .d a) :: env) rest
  | env, .vector x n :: rest =>
    if x ∈ env.map (·.1) then none
    else (natVal n).bind fun n => exec c ((x, .v (List.replicate n none)) :: env) rest
  | env, .setAt x n e :: rest =>
    if x = c then none
    else
      match env.get x, natVal n with
      | some (.v l), some k =>
        if k < l.length then (eval env e).bind fun a => exec c ((x, .v (l.set k (some a))) :: env) rest else none
      | _, _ => none
  | env, .ret x :: _ =>
    match env.get x with
    | some (.v l) => some l
    | _ => none

/-- What the function `brdf` of a file computes. -/
def run (text : Str) (x : List ℝ) : Option (List (Option ℝ)) :=
  (parse text).bind fun f =>
    if f.name = "brdf".toList then exec f.param [(f.param, .v (x.map some))] f.body else none

end
end Alta.Cpp
