import Mathlib.Data.List.Basic
/-
Model of the enumeration of the exponents of a rational function.

Modelled: /repo/sources/core/rational_function.cpp 289-330 (`estimate_dk`), 332-359
(`populate`), 361-429 (`index2degree`).

Simplification: `int` is `ℕ` (no overflow).
-/
namespace Alta

mutual
/-- `estimate_dk(k, d)`.  For `d = 0` and `k ≥ 2` the C++ function does not return; the value 0
    given here is not used.  /repo/sources/core/rational_function.cpp 293-330. -/
def estimateDk (k : ℕ) : ℕ → ℕ
  | 0 => if k = 0 then 1 else 0
  | d + 1 =>
    if d + 1 = 1 ∨ k = 0 then 1
    else if k = 1 then d + 1
    else if d + 1 = 2 then k + 1
    else if d + 1 = 3 then (k + 1) * (k + 1) - ((k + 1) * k) / 2
    else estimateSum k d (k + 1)
/-- the loop `for(int i=0; i<=k; ++i) res += estimate_dk(k-i, d)`, its first `n` turns -/
def estimateSum (k : ℕ) (d : ℕ) : ℕ → ℕ
  | 0 => 0
  | n + 1 => estimateSum k d n + estimateDk (k - n) d
end

/-- The inner loop of `populate`, with `left = current_M + 1 - k` turns to go: the value of `k`
    and of `nb_conf` when it stops.  /repo/sources/core/rational_function.cpp 345-353. -/
def levelLoop (M rem j : ℕ) : ℕ → ℕ → ℕ → ℕ × ℕ
  | 0, k, nb => (k, nb)
  | left + 1, k, nb =>
    let oracle := estimateDk (M - k) rem
    if nb ≤ j ∧ j < nb + oracle then (k, nb) else levelLoop M rem j left (k + 1) (nb + oracle)

/-- The outer loop of `populate` on `(vec, current_M, nb_conf)`, turns `d` to `N-2`, `n` of them
    to go.  /repo/sources/core/rational_function.cpp 340-357. -/
def populateLoop (N j : ℕ) : ℕ → ℕ → List ℕ × ℕ × ℕ → List ℕ × ℕ × ℕ
  | 0, _, st => st
  | n + 1, d, (v, M, nb) =>
    let r := levelLoop M (N - (d + 1)) j (M + 1) 0 nb
    populateLoop N j n (d + 1) (v.set (N - 1 - d) r.1, M - r.1, r.2)

/-- `populate`.  /repo/sources/core/rational_function.cpp 335-359. -/
def populate (v : List ℕ) (N M j : ℕ) : List ℕ :=
  let st := populateLoop N j (N - 1) 0 (v, M, 0)
  st.1.set 0 st.2.1

/-- `while(!(i >= Nk && i < Nk+dk)) { Nk += dk; ++k; dk = size k; }`: the final `(Nk, k)`;
    `none` if it does not stop.  /repo/sources/core/rational_function.cpp 391-397, 405-413. -/
def degreeLoop (size : ℕ → ℕ) (i : ℕ) (Nk k : ℕ) : Option (ℕ × ℕ) :=
  if Nk ≤ i ∧ i < Nk + size k then some (Nk, k)
  else if Nk ≤ i ∧ 0 < size k then degreeLoop size i (Nk + size k) (k + 1)
  else none
termination_by i + 1 - Nk

/-- `index2degree` for `dimX() = d`.  /repo/sources/core/rational_function.cpp 361-429. -/
def index2degree (d i : ℕ) : Option (List ℕ) :=
  let deg := List.replicate d 0
  if i = 0 then some deg
  else if d = 1 then some (deg.set 0 i)
  else if d = 2 then
    (degreeLoop (fun k => k + 1) i 1 1).map fun r =>
      let rr := i - r.1
      (deg.set 0 (r.2 - rr)).set 1 rr
  else
    (degreeLoop (fun k => estimateDk k d) i 1 1).map fun r => populate deg d r.2 (i - r.1)

end Alta
