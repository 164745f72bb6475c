import Verif.Model.Rational
import Mathlib.Analysis.SpecialFunctions.Trigonometric.Inverse
/-
Model of the plugins `rational_function_chebychev`, `rational_function_legendre` and
`rational_function_cosine`: rational functions in other bases.

Modelled: /repo/sources/plugins/rational_function_chebychev/rational_function.cpp 65-153,
/repo/sources/plugins/rational_function_legendre/rational_function.cpp 32-63 and .h 76-105,
/repo/sources/plugins/rational_function_cosine/rational_function.cpp 30-103 and .h 72-101.

Not modelled: the macro RECURSIVE_FORM (not defined), `update(i, r)` with its test of the
dynamic type.

Simplification: `double` is ℝ.
-/
namespace Alta
noncomputable section

/-- `recursive_chebychev`.
    /repo/sources/plugins/rational_function_chebychev/rational_function.cpp 65-80. -/
def recursiveChebychev (x : ℝ) : ℕ → ℝ
  | 0 => 1
  | 1 => x
  | 2 => 2 * x * x - 1
  | 3 => (4 * x * x - 3) * x
  | 4 => 8 * (x * x - 1) * x * x + 1
  | i + 5 => 2 * x * recursiveChebychev x (i + 4) - recursiveChebychev x (i + 3)

/-- `chebychev`.
    /repo/sources/plugins/rational_function_chebychev/rational_function.cpp 82-92. -/
def chebychev (x : ℝ) (i : ℕ) : ℝ :=
  if |x| ≤ 1 then Real.cos (i * Real.arccos x) else recursiveChebychev x i

/-- `legendre` of the plugin rational_function_legendre.
    /repo/sources/plugins/rational_function_legendre/rational_function.cpp 32-46. -/
def legendre (x : ℝ) : ℕ → ℝ
  | 0 => 1
  | 1 => x
  | i + 2 => ((2 * ((i + 2 : ℕ) : ℝ) - 1) * x * legendre x (i + 1) - (((i + 2 : ℕ) : ℝ) - 1) * legendre x i)
      / ((i + 2 : ℕ) : ℝ)

/-- `legendre` of the plugin rational_function_cosine.
    /repo/sources/plugins/rational_function_cosine/rational_function.cpp 30-68. -/
def legendreCos (x : ℝ) : ℕ → ℝ
  | 0 => 1
  | 1 => x
  | 2 => (3 * x * x - 1) * 0.5
  | 3 => ((5 * x * x - 3) * x) * 0.5
  | 4 => ((7 * x * x - 6) * 5 * x * x + 3) * 0.125
  | 5 => (((63 * x * x - 70) * x * x + 15) * x) * 0.125
  | 6 => (((231 * x * x - 315) * x * x + 105) * x * x - 5) * 0.0625
  | 7 => ((((429 * x * x - 693) * x * x + 315) * x * x - 35) * x) * 0.0625
  | i + 8 => ((2 * ((i + 8 : ℕ) : ℝ) - 1) * x * legendreCos x (i + 7) - (((i + 8 : ℕ) : ℝ) - 1) * legendreCos x (i + 6))
      / ((i + 8 : ℕ) : ℝ)

/-- The four classes of functions of one channel. -/
inductive RatKind | power | chebychev | legendre | cosine
  deriving DecidableEq

/-- The function of one variable and a degree that is multiplied over the variables. -/
def RatKind.fn1 : RatKind → ℝ → ℕ → ℝ
  | .power => fun x i => x ^ i
  | .chebychev => Alta.chebychev
  | .legendre => Alta.legendre
  | .cosine => legendreCos

/-- The product over the variables, the exponents of the basis function `i` being computed again
    by `index2degree(i)`; `none` if `i` has no exponents.
    /repo/sources/plugins/rational_function_chebychev/rational_function.cpp 95-118,
    /repo/sources/plugins/rational_function_legendre/rational_function.cpp 49-63,
    /repo/sources/plugins/rational_function_cosine/rational_function.cpp 71-78, 93-103. -/
def tensorBasis (fn : ℝ → ℕ → ℝ) (r : Rat1) (x : List ℝ) (i : ℕ) : Option ℝ :=
  (index2degree r.dimX i).map fun deg =>
    (List.range r.dimX).foldl (fun res k =>
      res * fn (2 * ((arr x k - arr r.lo k) / (arr r.hi k - arr r.lo k) - 0.5)) (deg.getD k 0)) 1

/-- The factor of the numerator of the cosine plugin; `none` when the conversion ends the program.
    /repo/sources/plugins/rational_function_cosine/rational_function.cpp 80-89. -/
def cosineFactor (input : Input) (x : List ℝ) : Option ℝ :=
  if input = .UNKNOWN_INPUT then some 1
  else (convertInput (arr x) input .CARTESIAN).map fun c => arr c 2 * arr c 5

/-- the virtual function `p(x, i)` -/
def RatKind.p (kind : RatKind) (input : Input) (r : Rat1) (x : List ℝ) (i : ℕ) : Option ℝ :=
  match kind with
  | .power => (r.p[i]?).bind fun c => r.basis c x
  | .cosine => (tensorBasis legendreCos r x i).bind fun b => (cosineFactor input x).map fun f => b * f
  | k => tensorBasis k.fn1 r x i

/-- the virtual function `q(x, i)` -/
def RatKind.q (kind : RatKind) (r : Rat1) (x : List ℝ) (i : ℕ) : Option ℝ :=
  match kind with
  | .power => (r.q[i]?).bind fun c => r.basis c x
  | k => tensorBasis k.fn1 r x i

/-- A loop of `value`: `res += coeffs[i].a * basis(x, i)` for `i` to `i + l.length - 1`. -/
def sumBasis (basis : ℕ → Option ℝ) : List Coeff → ℕ → ℝ → Option ℝ
  | [], _, res => some res
  | c :: cs, i, res =>
    match basis i with
    | none => none
    | some b => sumBasis basis cs (i + 1) (res + c.a * b)

/-- `rational_function_1d::value`, with the virtual functions of the class.
    /repo/sources/core/rational_function.cpp 456-478. -/
def RatKind.value (kind : RatKind) (input : Input) (r : Rat1) (x : List ℝ) : Option ℝ :=
  match sumBasis (kind.p input r x) r.p 0 0, sumBasis (kind.q r x) r.q 0 0 with
  | some p, some q => some (p / q)
  | _, _ => none

/-- The bounds of a new channel: the inflation of a degenerate dimension.
    /repo/sources/core/rational_function.cpp 565-577,
    /repo/sources/plugins/rational_function_chebychev/rational_function.cpp 129-141,
    /repo/sources/plugins/rational_function_legendre/rational_function.h 85-94,
    /repo/sources/plugins/rational_function_cosine/rational_function.h 81-90. -/
def RatKind.domain (kind : RatKind) (lo hi : List ℝ) : List ℝ × List ℝ :=
  let h : ℝ := if kind = .power then 0.1 else 1
  ((List.zip lo hi).map fun b => if b.1 = b.2 then b.1 - h else b.1,
   (List.zip lo hi).map fun b => if b.1 = b.2 then b.2 + h else b.2)

end
end Alta
