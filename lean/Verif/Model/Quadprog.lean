import Verif.Model.Rational
import Verif.Model.Segment
/-
Model of the fitters of rational functions by quadratic programming.

Modelled: /repo/sources/plugins/rational_fitters/quadprog.cpp 80-425,
/repo/sources/plugins/rational_fitters/quadratic_program.h,
/repo/sources/plugins/rational_fitters/quadprog_parallel.cpp 138-386.

Simplifications: numbers are exact (so that no number is a NaN or infinite); the solver
of the library QuadProg++ is a parameter: a function from the number of unknowns and the
linear constraints `CI^T x + ci >= 0` to a solution, `none` when the cost is infinite
(whatever the quadratic energy `G`, `g` and the scheduling of the constraints; the vector
`g` of quadratic_program.h 102 is not initialised); the export of the program and the
messages are left out.
-/
namespace Alta
noncomputable section

/-- A column of `CI` with the element of `ci`. -/
abbrev Constraint := List ℝ × ℝ

/-- The solver: number of unknowns, constraints. -/
abbrev Solver := ℕ → List Constraint → Option (List ℝ)

/-- `p(x, j)`; `none` outside of the vector of coefficients.
    /repo/sources/core/rational_function.cpp 432-441. -/
def Rat1.pAt (r : Rat1) (x : List ℝ) (j : ℕ) : Option ℝ := (r.p[j]?).bind fun c => r.basis c x

/-- `q(x, j)`.  /repo/sources/core/rational_function.cpp 443-453. -/
def Rat1.qAt (r : Rat1) (x : List ℝ) (j : ℕ) : Option ℝ := (r.q[j]?).bind fun c => r.basis c x

/-- Element `j` of the two columns of a vertical segment.
    /repo/sources/plugins/rational_fitters/quadprog.cpp 238-259,
    /repo/sources/plugins/rational_fitters/quadratic_program.h 256-271,
    /repo/sources/plugins/rational_fitters/quadprog_parallel.cpp 368-384. -/
def constraintElement (r : Rat1) (np : ℕ) (xi : List ℝ) (yl yu : ℝ) (j : ℕ) : Option (ℝ × ℝ) :=
  if j < np then (r.pAt xi j).map fun pi => (pi, -pi)
  else (r.qAt xi (j - np)).map fun qi => (-yu * qi, yl * qi)

/-- The two columns of a vertical segment.
    /repo/sources/plugins/rational_fitters/quadprog.cpp 236-264,
    /repo/sources/plugins/rational_fitters/quadratic_program.h 246-273,
    /repo/sources/plugins/rational_fitters/quadprog_parallel.cpp 356-386. -/
def constraintPair (r : Rat1) (np nq : ℕ) (xi : List ℝ) (yl yu : ℝ) : Option (List ℝ × List ℝ) :=
  ((List.range (np + nq)).mapM (constraintElement r np xi yl yu)).map fun c =>
    (c.map Prod.fst, c.map Prod.snd)

/-- The sum of the squares of a column.
    /repo/sources/plugins/rational_fitters/quadprog.cpp 262-263,
    /repo/sources/plugins/rational_fitters/quadratic_program.h 127-132. -/
def sumSquares (c : List ℝ) : ℝ := c.foldl (fun s v => s + v * v) 0

/-- The element of `ci` for a column.
    /repo/sources/plugins/rational_fitters/quadprog.cpp 268-269, 326,
    /repo/sources/plugins/rational_fitters/quadratic_program.h 136. -/
def withOffset (delta : ℝ) (c : List ℝ) : Constraint := (c, -delta * Real.sqrt (sumSquares c))

/-! ### The fitter with all the constraints -/

/-- State of the loop that fills the matrix: `k0`, `k1`, the columns. -/
structure Fill where
  k0 : ℕ
  k1 : ℕ
  cols : List Constraint

/-- One iteration: the columns `2*k0` and `2*k0+1` are written; `none` when they are outside of
    the matrix.  /repo/sources/plugins/rational_fitters/quadprog.cpp 217-229, 236-269. -/
def fillStep (delta : ℝ) (M : ℕ) (s : Fill) (c : List ℝ × List ℝ) : Option Fill :=
  if 2 * s.k0 + 1 < 2 * M then
    some {
      k0 := if M ≤ s.k0 + 32 then s.k1 else s.k0 + 32
      k1 := if M ≤ s.k0 + 32 then s.k1 + 1 else s.k1
      cols := (s.cols.set (2 * s.k0) (withOffset delta c.1)).set (2 * s.k0 + 1) (withOffset delta c.2) }
  else none

/-- The loop that fills the matrix, initially zero.
    /repo/sources/plugins/rational_fitters/quadprog.cpp 189-192, 209-270. -/
def fillMatrix (delta : ℝ) (N M : ℕ) (pairs : List (List ℝ × List ℝ)) : Option (List Constraint) :=
  (pairs.foldlM (fillStep delta M) ⟨0, 1, List.replicate (2 * M) (List.replicate N 0, 0)⟩).map Fill.cols

/-- The two columns of the data point number `i` in channel `ny`. -/
def pointPair (d : Store ℝ) (r : Rat1) (np nq ny i : ℕ) : Option (List ℝ × List ℝ) :=
  (d.get i).bind fun xi => (d.getSegment i).bind fun s =>
    constraintPair r np nq xi (arr s.2.1 ny) (arr s.2.2 ny)

/-- `fit_data(d, np, nq, ny, r)`: what is returned and the function after the call; `none` when
    the code reads outside of a vector.
    /repo/sources/plugins/rational_fitters/quadprog.cpp 181-425. -/
def fitChannel (solve : Solver) (junk delta : ℝ) (d : Store ℝ) (np nq ny : ℕ) (r : Rat1) :
    Option (Bool × Rat1) :=
  ((List.range d.size).mapM (pointPair d r np nq ny)).bind fun pairs =>
    (fillMatrix delta (np + nq) d.size pairs).bind fun prog =>
      match solve (np + nq) prog with
      | none => some (false, r)
      | some x =>
        (r.update junk (x.take np) (x.drop np)).map fun r' =>
          (@decide (0 < sumSquares x) (Classical.propDecidable _), r')

/-- `fit_data(d, np, nq, r)`: the loop on the channels; `k` of them remain, `j` is the next one.
    /repo/sources/plugins/rational_fitters/quadprog.cpp 160-175. -/
def fitChannels (solve : Solver) (junk delta : ℝ) (d : Store ℝ) (np nq : ℕ) :
    ℕ → ℕ → RatFn → Option (Bool × RatFn)
  | 0, _, f => some (true, f)
  | k + 1, j, f =>
    match f.get junk j with
    | none => none
    | some (rs, f') =>
      match fitChannel solve junk delta d np nq j (rs.resize junk np nq) with
      | none => none
      | some (ok, rs') =>
        let f'' := { f' with rs := f'.rs.set j (some rs') }
        if ok then fitChannels solve junk delta d np nq k (j + 1) f'' else some (false, f'')

/-- `setSize`.  /repo/sources/core/rational_function.h 229-241. -/
def RatFn.setSize (f : RatFn) (np nq : ℕ) : RatFn :=
  { f with np := np, nq := nq, rs := List.replicate f.dimY none }

/-- The loop on the sizes of `fit_data(dat, fit, args)`; `none` also when the loop never ends.
    /repo/sources/plugins/rational_fitters/quadprog.cpp 99-135. -/
def fitSizes (solve : Solver) (junk delta : ℝ) (d : Store ℝ) (maxNp maxNq : ℕ) (np nq : ℕ)
    (f : RatFn) : Option (Bool × RatFn) :=
  if np ≤ maxNp ∨ nq ≤ maxNq then
    match fitChannels solve junk delta d np nq d.dimY 0 (f.setSize np nq) with
    | none => none
    | some (true, f') => some (true, f')
    | some (false, f') =>
      if np = maxNp ∧ nq = maxNq then some (false, f')
      else if np < maxNp ∨ nq < maxNq then
        fitSizes solve junk delta d maxNp maxNq (if np < maxNp then np + 1 else np)
          (if nq < maxNq then nq + 1 else nq) f'
      else none
  else some (false, f)
termination_by (maxNp - np) + (maxNq - nq)
decreasing_by split <;> split <;> omega

/-- `fit_data(dat, fit, args)` of `rational_fitter_quadprog`; the sizes are those of
    `set_parameters`: `np`, `nq` and the optional `min-np`, `min-nq`.
    /repo/sources/plugins/rational_fitters/quadprog.cpp 80-157. -/
def quadprogFit (solve : Solver) (junk delta : ℝ) (d : Segments) (np nq : ℕ)
    (minNp minNq : Option ℕ) (f : RatFn) : Option (Bool × RatFn) :=
  if d.store.kind ≠ .asymmetrical then some (false, f)
  else fitSizes solve junk delta d.store (max np (minNp.getD np)) (max nq (minNq.getD nq))
    (minNp.getD np) (minNq.getD nq) { f with lo := d.min, hi := d.max }

end
end Alta
