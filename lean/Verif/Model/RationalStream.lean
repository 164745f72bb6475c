import Verif.Model.Rational
import Verif.Model.FunctionFile
/-
Model of the loading of a rational function when some of the numbers are missing from the file: the vectors that
receive the coefficients are not initialised, and `>>` leaves a variable unchanged once the stream has failed.

Modelled: /repo/sources/core/rational_function.cpp 39-85 (`rational_function_1d::load`), 619-676
(`rational_function::load`), for any content of the memory.

Simplifications: a count that is missing or negative is not used: the load fails (#NP), or nothing is said of the
result (#NQ: `_nq` is not initialised, or an empty denominator is read).  A number that starts like a number and is not
one gives 0.
-/
namespace Alta
noncomputable section

/-- `in >> x` for a `double` that holds `old`: unchanged if the stream has failed or if only white space is left, 0 if
    what follows is not a number. -/
def readDouble (old : ℝ) : Stream → ℝ × Stream
  | none => (old, none)
  | some s =>
    match strtod s with
    | none => (if s.all isSpace then old else 0, none)
    | some (v, r) => ((v : ℝ), some r)

/-- `in >> token`, `n` times. -/
def skipTokens : ℕ → Stream → Stream
  | 0, st => st
  | _ + 1, none => none
  | n + 1, some s => if (readWord s).1 = [] then none else skipTokens n (some (readWord s).2)

/-- The loop that reads coefficients in a vector that holds `olds`, each after the words of its exponents.
    /repo/sources/core/rational_function.cpp 57-64, 68-75. -/
def readCoeffsStream (dimX : ℕ) : List ℝ → Stream → List ℝ × Stream
  | [], st => ([], st)
  | o :: os, st =>
    let v := readDouble o (skipTokens dimX st)
    let w := readCoeffsStream dimX os v.2
    (v.1 :: w.1, w.2)

/-- `rational_function_1d::load` when the memory of the vectors `a` and `b` holds `ma` and `mb`: the inner `none` is the
    value false, the outer one says that the result is not determined.
    /repo/sources/core/rational_function.cpp 39-85. -/
def Rat1.loadStream (junk : ℝ) (ma mb : ℕ → ℝ) (r : Rat1) : Stream → Option (Option (Rat1 × Stream))
  | none => some none
  | some s =>
    let t := readWord s
    if t.1 ≠ "#NP".toList then some none
    else match readNat t.2 with
    | none => some none
    | some (np, s1) =>
      let t2 := readWord s1
      if t2.1 ≠ "#NQ".toList then some none
      else match readNat t2.2 with
      | none => none
      | some (nq, s2) =>
        let a := readCoeffsStream r.dimX ((List.range np).map ma) (some s2)
        let b := readCoeffsStream r.dimX ((List.range nq).map mb) a.2
        match (r.resize junk np nq).update junk a.1 b.1 with
        | none => none
        | some r' => some (some (r', b.2))

/-- The loop on the channels; `mem k` is what the memory holds when the channel `k` is loaded.
    /repo/sources/core/rational_function.cpp 669-673. -/
def RatFn.loadChannelsStream (junk : ℝ) (mem : ℕ → (ℕ → ℝ) × (ℕ → ℝ)) :
    ℕ → ℕ → RatFn → Stream → Option (Option RatFn)
  | 0, _, f, _ => some (some f)
  | n + 1, i, f, st =>
    match f.get junk i with
    | none => none
    | some (r, f') =>
      match r.loadStream junk (mem i).1 (mem i).2 st with
      | none => none
      | some none => some none
      | some (some (r', st')) =>
        RatFn.loadChannelsStream junk mem n (i + 1) { f' with rs := f'.rs.set i (some r') } st'

/-- `load`, for a function that has channels: without the numbers of the first lines it returns false (the words that
    follow are not read).  /repo/sources/core/rational_function.cpp 619-676. -/
def RatFn.loadStream (junk : ℝ) (mem : ℕ → (ℕ → ℝ) × (ℕ → ℝ)) (f : RatFn) (s : Str) : Option (Option RatFn) :=
  match loadHead f.dimX s with
  | none => some none
  | some (lo, hi, s2) => RatFn.loadChannelsStream junk mem f.dimY 0 { f with lo := lo, hi := hi } (some s2)

end
end Alta
