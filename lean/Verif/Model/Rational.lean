import Verif.Model.RationalBasis
import Verif.Model.Function
import Verif.Spec.Decimal
/-
Model of `rational_function_1d` and `rational_function`.

Modelled: /repo/sources/core/rational_function.cpp 23-119 (constructor, `load`, the ALTA format
of `save_body`), 178-258 (`update`, `resize`), 431-478 (`p`, `q`, `value`), 533-704 (the class
`rational_function`), /repo/sources/core/rational_function.h.

Not modelled here: the C++ export (Model/CppExport), the matlab export, `p(x)` and `q(x)` without index (they add to an
uninitialised vector), the stream operators.

Simplifications: numbers are exact, and `x / 0` is 0 instead of an infinity or a NaN; how a
double is written is the parameter `fmt`; a coefficient that was not initialised has the value
`junk`.
-/
namespace Alta
noncomputable section

/-- `rational_function_1d::coeff`.  /repo/sources/core/rational_function.h 151-159. -/
structure Coeff where
  a : ℝ
  deg : List ℕ

/-- State of `rational_function_1d`: dimension of the domain, coefficients of the numerator and
    of the denominator, bounds of the domain. -/
structure Rat1 where
  dimX : ℕ
  p : List Coeff
  q : List Coeff
  lo : List ℝ
  hi : List ℝ

/-- `_p_coeffs.resize(n)` if the size differs, and then the exponents of all coefficients.
    /repo/sources/core/rational_function.cpp 238-247. -/
def resizeCoeffs (junk : ℝ) (d : ℕ) (l : List Coeff) (n : ℕ) : List Coeff :=
  if l.length ≠ n then
    (List.range n).map fun k => ⟨(l[k]?.map Coeff.a).getD junk, (index2degree d k).getD []⟩
  else l

/-- `resize`.  /repo/sources/core/rational_function.cpp 231-258. -/
def Rat1.resize (junk : ℝ) (r : Rat1) (np nq : ℕ) : Rat1 :=
  if r.dimX = 0 then r
  else { r with p := resizeCoeffs junk r.dimX r.p np, q := resizeCoeffs junk r.dimX r.q nq }

/-- Constructors; the bounds are set by `setMin` and `setMax`.
    /repo/sources/core/rational_function.cpp 23-37. -/
def mkRat1 (junk : ℝ) (dimX np nq : ℕ) (lo hi : List ℝ) : Rat1 :=
  Rat1.resize junk ⟨dimX, [], [], lo, hi⟩ np nq

/-- `_p_coeffs.resize(n)` without the exponents. -/
def growCoeffs (junk : ℝ) (l : List Coeff) (n : ℕ) : List Coeff :=
  (List.range n).map fun k => (l[k]?).getD ⟨junk, []⟩

/-- `b0` of `update`.  /repo/sources/core/rational_function.cpp 196. -/
def normalizer (b : List ℝ) : ℝ := if |arr b 0| > 1e-16 then arr b 0 else 1

/-- `update(in_a, in_b)`; `none` if `in_b` is empty (`in_b[0]` is read).
    /repo/sources/core/rational_function.cpp 178-210. -/
def Rat1.update (junk : ℝ) (r : Rat1) (a b : List ℝ) : Option Rat1 :=
  if b = [] then none
  else
    some { r with
      p := List.zipWith (fun c x => { c with a := x / normalizer b }) (growCoeffs junk r.p a.length) a
      q := List.zipWith (fun c x => { c with a := x / normalizer b }) (growCoeffs junk r.q b.length) b }

/-- `update(r)`.  /repo/sources/core/rational_function.cpp 212-229. -/
def Rat1.copyFrom (junk : ℝ) (f r : Rat1) : Rat1 :=
  let f' := f.resize junk r.p.length r.q.length
  { f' with
    p := List.zipWith (fun c x => { c with a := x.a }) f'.p r.p
    q := List.zipWith (fun c x => { c with a := x.a }) f'.q r.q }

/-- `getP()`, `getQ()`.  /repo/sources/core/rational_function.h 116-131. -/
def Rat1.getP (r : Rat1) : List ℝ := r.p.map Coeff.a
/-- see `Rat1.getP` -/
def Rat1.getQ (r : Rat1) : List ℝ := r.q.map Coeff.a

/-- `p(x, i)` and `q(x, i)` for a coefficient; `none` if its exponents are missing.
    /repo/sources/core/rational_function.cpp 432-453. -/
def Rat1.basis (r : Rat1) (c : Coeff) (x : List ℝ) : Option ℝ :=
  if c.deg.length < r.dimX then none
  else some ((List.range r.dimX).foldl (fun res k =>
    let xp := 2 * ((arr x k - arr r.lo k) / (arr r.hi k - arr r.lo k) - 0.5)
    res * xp ^ c.deg.getD k 0) 1)

/-- the loops of `value` -/
def Rat1.sumLoop (r : Rat1) (x : List ℝ) : List Coeff → ℝ → Option ℝ
  | [], res => some res
  | c :: cs, res =>
    match r.basis c x with
    | none => none
    | some b => r.sumLoop x cs (res + c.a * b)

/-- The sums `p` and `q` of `value`.  /repo/sources/core/rational_function.cpp 460-474. -/
def Rat1.parts (r : Rat1) (x : List ℝ) : Option (ℝ × ℝ) :=
  match r.sumLoop x r.p 0, r.sumLoop x r.q 0 with
  | some p, some q => some (p, q)
  | _, _ => none

/-- `value`.  /repo/sources/core/rational_function.cpp 456-478.  Simplification: when the denominator
    is null the C++ division gives an infinity or a NaN, and this one 0: where it matters the
    statements are about `parts`. -/
def Rat1.value (r : Rat1) (x : List ℝ) : Option ℝ := (r.parts x).map fun c => c.1 / c.2

/-! ### Several channels -/

/-- State of `rational_function`. -/
structure RatFn where
  dimX : ℕ
  dimY : ℕ
  np : ℕ
  nq : ℕ
  lo : List ℝ
  hi : List ℝ
  rs : List (Option Rat1)

/-- The bounds of a new channel: a degenerate dimension is inflated.
    /repo/sources/core/rational_function.cpp 565-577. -/
def inflate (lo hi : List ℝ) : List ℝ × List ℝ :=
  ((List.zip lo hi).map fun b => if b.1 = b.2 then b.1 - 0.1 else b.1,
   (List.zip lo hi).map fun b => if b.1 = b.2 then b.2 + 0.1 else b.2)

/-- `get(i)`, not const: the channel, and the function after the call; `none` is NULL.
    /repo/sources/core/rational_function.cpp 556-589. -/
def RatFn.get (junk : ℝ) (f : RatFn) (i : ℕ) : Option (Rat1 × RatFn) :=
  if i < f.dimY then
    match f.rs[i]? with
    | none => none
    | some (some r) => some (r, f)
    | some none =>
      let b := inflate f.lo f.hi
      let r := mkRat1 junk f.dimX f.np f.nq b.1 b.2
      some (r, { f with rs := f.rs.set i (some r) })
  else none

/-- `value`; `none` if a channel was not allocated or has no value.
    /repo/sources/core/rational_function.cpp 607-616. -/
def RatFn.value (f : RatFn) (x : List ℝ) : Option (List ℝ) :=
  (List.range f.dimY).mapM fun k => ((f.rs[k]?).join).bind fun r => r.value x

/-- `update(r)`.  /repo/sources/core/rational_function.h 199-208.  `r->get(k)` is called on a
    pointer to a non const object: it allocates too.  The functions are distinct objects. -/
def RatFn.copyLoop (junk : ℝ) (g : RatFn) : ℕ → ℕ → RatFn → Option RatFn
  | 0, _, f => some f
  | n + 1, k, f =>
    match f.get junk k, g.get junk k with
    | some (c, f'), some (r, g') =>
      RatFn.copyLoop junk g' n (k + 1) { f' with rs := f'.rs.set k (some (c.copyFrom junk r)) }
    | _, _ => none

/-- see `RatFn.copyLoop` -/
def RatFn.copyFrom (junk : ℝ) (f g : RatFn) : Option RatFn := RatFn.copyLoop junk g f.dimY 0 f

/-! ### Files -/

/-- `in >> n` for an `int`; `none` when there is no number or it is negative. -/
def readNat (s : Str) : Option (ℕ × Str) :=
  let r := s.dropWhile isSpace
  let d := r.takeWhile isDigit
  if d = [] then none else some (digitsVal d, r.dropWhile isDigit)

/-- `n` words read and dropped. -/
def skipWords : ℕ → Str → Str
  | 0, s => s
  | n + 1, s => skipWords n (readWord s).2

/-- The loops that read `n` coefficients, each after the words of its exponents.
    /repo/sources/core/rational_function.cpp 57-76. -/
def readCoeffs (dimX : ℕ) : ℕ → Str → Option (List ℝ × Str)
  | 0, s => some ([], s)
  | n + 1, s =>
    match strtod (skipWords dimX s) with
    | none => none
    | some (v, s1) =>
      match readCoeffs dimX n s1 with
      | none => none
      | some (vs, s2) => some ((v : ℝ) :: vs, s2)

/-- `rational_function_1d::load`; `none` if it returns false or if a number is missing (the
    coefficients are then not all read).  /repo/sources/core/rational_function.cpp 39-85. -/
def Rat1.load (junk : ℝ) (r : Rat1) (s : Str) : Option (Rat1 × Str) :=
  let t := readWord s
  if t.1 ≠ "#NP".toList then none
  else match readNat t.2 with
  | none => none
  | some (np, s1) =>
    let t2 := readWord s1
    match readNat t2.2 with
    | none => none
    | some (nq, s2) =>
      if t2.1 ≠ "#NQ".toList then none
      else match readCoeffs r.dimX np s2 with
      | none => none
      | some (a, s3) =>
        match readCoeffs r.dimX nq s3 with
        | none => none
        | some (b, s4) => ((r.resize junk np nq).update junk a b).map fun r' => (r', s4)

/-- One line of `save_body`.  /repo/sources/core/rational_function.cpp 100-117. -/
def saveCoeff (fmt : ℝ → Decimal) (dimX : ℕ) (c : Coeff) : Str :=
  ((List.range dimX).map fun j => showNat (c.deg.getD j 0) ++ ['\t']).flatten ++ (fmt c.a).text ++ ['\n']

/-- `save_body`, ALTA format.  /repo/sources/core/rational_function.cpp 96-118. -/
def Rat1.saveBody (fmt : ℝ → Decimal) (r : Rat1) : Str :=
  "#NP ".toList ++ showNat r.p.length ++ ['\n'] ++ "#NQ ".toList ++ showNat r.q.length ++ ['\n'] ++
  (r.p.map (saveCoeff fmt r.dimX)).flatten ++ (r.q.map (saveCoeff fmt r.dimX)).flatten

/-- The numbers of `#MIN` and `#MAX`. -/
def saveBounds (fmt : ℝ → Decimal) (n : ℕ) (l : List ℝ) : Str :=
  ((List.range n).map fun k => (fmt (arr l k)).text ++ [' ']).flatten ++ ['\n']

/-- `save_call`, ALTA format: a channel that was not allocated is skipped.
    /repo/sources/core/rational_function.cpp 680-704. -/
def RatFn.saveCall (fmt : ℝ → Decimal) (f : RatFn) : Str :=
  "#FUNC rational_function\n".toList ++
  "#MIN ".toList ++ saveBounds fmt f.dimX f.lo ++ "#MAX ".toList ++ saveBounds fmt f.dimX f.hi ++
  ((List.range f.dimY).map fun k => match (f.rs[k]?).join with
    | some r => r.saveBody fmt ++ ['\n']
    | none => []).flatten

/-- `while(in.peek() != '#') { getline(line, 256); if(!good) return false; }`: the text from the
    first line that starts with `#`; `none` if there is none, or after a line of more than 255
    characters.  /repo/sources/core/rational_function.cpp 622-632. -/
def skipToHash (s : Str) : Option Str :=
  match s with
  | '#' :: r => some ('#' :: r)
  | [] => none
  | c :: r =>
    let line := (c :: r).takeWhile (· ≠ '\n')
    if 255 < line.length then none
    else match _hrest : (c :: r).dropWhile (· ≠ '\n') with
      | [] => none
      | _ :: rest => skipToHash rest
termination_by s.length
decreasing_by

  have h1 := (List.dropWhile_suffix (fun x => decide (x ≠ '\n')) (l := c :: r)).length_le
  rw [_hrest] at h1
  simp only [List.length_cons] at h1 ⊢
  omega

/-- `n` numbers read in a vector. -/
def readVec : ℕ → Str → Option (List ℝ × Str)
  | 0, s => some ([], s)
  | n + 1, s =>
    match strtod s with
    | none => none
    | some (v, s1) =>
      match readVec n s1 with
      | none => none
      | some (vs, s2) => some ((v : ℝ) :: vs, s2)

/-- The loop on the channels of `load`.  /repo/sources/core/rational_function.cpp 669-673. -/
def RatFn.loadChannels (junk : ℝ) : ℕ → ℕ → RatFn → Str → Option RatFn
  | 0, _, f, _ => some f
  | n + 1, i, f, s =>
    match f.get junk i with
    | none => none
    | some (r, f') =>
      match r.load junk s with
      | none => none
      | some (r', s') => RatFn.loadChannels junk n (i + 1) { f' with rs := f'.rs.set i (some r') } s'

/-- The first lines of `load`, up to `#MAX` and its numbers: the bounds and the text that follows; `none` if it returns
    false or a number is missing.  /repo/sources/core/rational_function.cpp 619-668. -/
def loadHead (dimX : ℕ) (s : Str) : Option (List ℝ × List ℝ × Str) :=
  match skipToHash s with
  | none => none
  | some s0 =>
    let t := readWord s0
    if t.1 ≠ "#FUNC".toList then none
    else
      let t1 := readWord t.2
      if t1.1 ≠ "rational_function".toList then none
      else
        let t2 := readWord t1.2
        if t2.1 ≠ "#MIN".toList then none
        else match readVec dimX t2.2 with
        | none => none
        | some (lo, s1) =>
          let t3 := readWord s1
          if t3.1 ≠ "#MAX".toList then none
          else match readVec dimX t3.2 with
          | none => none
          | some (hi, s2) => some (lo, hi, s2)

/-- `load`; `none` if it returns false or a number is missing.
    /repo/sources/core/rational_function.cpp 619-676. -/
def RatFn.load (junk : ℝ) (f : RatFn) (s : Str) : Option RatFn :=
  match loadHead f.dimX s with
  | none => none
  | some (lo, hi, s2) => RatFn.loadChannels junk f.dimY 0 { f with lo := lo, hi := hi } s2

end
end Alta
