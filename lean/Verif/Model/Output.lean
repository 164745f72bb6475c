import Mathlib.Algebra.BigOperators.Group.Finset.Basic
import Mathlib.Data.Real.Basic
/-
Conversion of output values.

Modelled: /repo/sources/core/params.h 210-241 (`params::convert` for outputs).
Simplifications: `double` is ℝ; arrays are functions `Nat → Real`, the output
array carries its content before the call; the two output parametrizations are
not arguments of the model because the code never reads them.  `none` is the
`throw` of NOT_IMPLEMENTED (/repo/sources/core/common.h 117-127).
-/
namespace Alta
noncomputable section

/-- writing `n` values from index 0 (`for(int i=0; i<n; ++i) out[i] = f(i)`) -/
def writeLoop (n : ℕ) (f : ℕ → ℝ) (out : ℕ → ℝ) : ℕ → ℝ :=
  (List.range n).foldl (fun o i => fun j => if j = i then f i else o j) out

/-- accumulating `n` values into index 0 (`for(...) out[0] += in[i]`) -/
def sumLoop (n : ℕ) (inv : ℕ → ℝ) (out : ℕ → ℝ) : ℕ → ℝ :=
  (List.range n).foldl (fun o i => fun j => if j = 0 then o 0 + inv i else o j) out

/-- `params::convert(invec, intype, indim, outtype, outdim, outvec)`.
    /repo/sources/core/params.h 210-241. -/
def convertOutput (inv : ℕ → ℝ) (indim outdim : ℕ) (out : ℕ → ℝ) : Option (ℕ → ℝ) :=
  if outdim = indim then some (writeLoop outdim inv out)
  else if indim = 1 then some (writeLoop outdim (fun _ => inv 0) out)
  else if outdim = 1 then
    let o := sumLoop indim inv out
    some (fun j => if j = 0 then o 0 / (indim : ℝ) else o j)
  else none

end
end Alta
