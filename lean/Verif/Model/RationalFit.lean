import Verif.Model.Quadprog
import Verif.Model.Lobes
/-
Model of the fitters of rational functions by linear algebra.

Modelled: /repo/sources/plugins/rational_fitters/eigen.cpp 55-209,
/repo/sources/plugins/rational_fitters/leastsquare.cpp 56-243.

Simplifications: numbers are exact (so that no number is a NaN or infinite); the decomposition and the QR solver of the
library Eigen are parameters; the sizes are given as natural numbers; the messages and the times are left out.
-/
namespace Alta
noncomputable section

/-- `fit_data(d, np, nq, r)` of both fitters: the loop on the channels; `k` of them remain, `j` is the next one.  The
    function of a channel is one of `r`; `none` when `r` has no such channel (a null pointer is followed).
    /repo/sources/plugins/rational_fitters/eigen.cpp 106-120, leastsquare.cpp 103-118. -/
def fitEach (fit : ℕ → Rat1 → Option (Bool × Rat1)) (junk : ℝ) : ℕ → ℕ → RatFn → Option (Bool × RatFn)
  | 0, _, f => some (true, f)
  | k + 1, j, f =>
    match f.get junk j with
    | none => none
    | some (rs, f') =>
      match fit j rs with
      | none => none
      | some (ok, rs') =>
        if ok then fitEach fit junk k (j + 1) { f' with rs := f'.rs.set j (some rs') }
        else some (false, { f' with rs := f'.rs.set j (some rs') })

/-! ### The eigenvector of the smallest eigenvalue -/

/-- `SelfAdjointEigenSolver`: size and matrix to the eigenvalues with their eigenvectors; `none` when it does not
    succeed. -/
abbrev EigenSystem := ℕ → (ℕ → ℕ → ℝ) → Option (List (ℝ × List ℝ))

/-- The column of `CI` for a sample.  /repo/sources/plugins/rational_fitters/eigen.cpp 131-153. -/
def eigenColumn (r : Rat1) (dimX np nq ny : ℕ) (v : List ℝ) : Option (List ℝ) :=
  (List.range (np + nq)).mapM fun j =>
    if j < np then r.pAt v j else (r.qAt v (j - np)).map fun qi => -arr v (dimX + ny) * qi

/-- `CI * CI.transpose()`.  /repo/sources/plugins/rational_fitters/eigen.cpp 158-159. -/
def gram (cols : List (List ℝ)) (a b : ℕ) : ℝ := (cols.map fun c => arr c a * arr c b).sum

/-- The loop that looks for the smallest eigenvalue.
    /repo/sources/plugins/rational_fitters/eigen.cpp 179-189. -/
def smallestEigen (l : List (ℝ × List ℝ)) : ℝ × List ℝ :=
  l.foldl (fun s e => if 0 ≤ e.1 ∧ e.1 < s.1 then e else s) (maxDouble, [])

/-- `fit_data(d, np, nq, ny, r)`; `none` when the code reads outside of a vector (`p[0]` and `q[0]` are read).
    /repo/sources/plugins/rational_fitters/eigen.cpp 126-209. -/
def eigenChannel (solve : EigenSystem) (junk : ℝ) (d : Store ℝ) (np nq ny : ℕ) (r : Rat1) : Option (Bool × Rat1) :=
  ((List.range d.size).mapM fun i => (d.get i).bind (eigenColumn r d.dimX np nq ny)).bind fun cols =>
    match solve (np + nq) (gram cols) with
    | none => some (false, r)
    | some l =>
      if (smallestEigen l).1 = maxDouble then some (false, r)
      else if np = 0 ∨ nq = 0 then none
      else (r.update junk ((smallestEigen l).2.take np) ((smallestEigen l).2.drop np)).map fun r' => (true, r')

/-- `fit_data(dat, fit, args)` of `rational_fitter_eigen`.
    /repo/sources/plugins/rational_fitters/eigen.cpp 55-96. -/
def eigenRationalFit (solve : EigenSystem) (junk : ℝ) (d : Segments) (np nq : ℕ) (f : RatFn) : Option (Bool × RatFn) :=
  if d.store.kind ≠ .asymmetrical then some (false, f)
  else fitEach (fun ny => eigenChannel solve junk d.store np nq ny) junk d.store.dimY 0
    (RatFn.setSize { f with lo := d.min, hi := d.max } np nq)

/-! ### Least squares -/

/-- `A.colPivHouseholderQr().solve(b)`: number of columns, rows of the matrix, right hand side. -/
abbrev LeastSquares := ℕ → List (List ℝ) → List ℝ → List ℝ

/-- The dot product of a row and a vector. -/
def rowDot (c x : List ℝ) : ℝ := (List.zipWith (· * ·) c x).sum

/-- A sample: the values of the basis functions of the numerator and of the denominator, and the value.
    /repo/sources/plugins/rational_fitters/leastsquare.cpp 130-153. -/
def leastRow (r : Rat1) (dimX np nq ny : ℕ) (v : List ℝ) : Option (List ℝ × List ℝ × ℝ) :=
  ((List.range np).mapM (r.pAt v)).bind fun p => ((List.range nq).mapM (r.qAt v)).map fun q =>
    (p, q, arr v (dimX + ny))

/-- Step 1: the denominator for the numerator `p`.
    /repo/sources/plugins/rational_fitters/leastsquare.cpp 165-177. -/
def leastDenominator (solve : LeastSquares) (nq : ℕ) (rows : List (List ℝ × List ℝ × ℝ)) (p : List ℝ) : List ℝ :=
  solve nq (rows.map fun s => s.2.1.map (s.2.2 ^ 2 * ·)) (rows.map fun s => s.2.2 * rowDot s.1 p)

/-- Step 2: the numerator for the denominator `q`; `none` when the denominator is null at a sample (the code divides
    by it).  /repo/sources/plugins/rational_fitters/leastsquare.cpp 201-205. -/
def leastNumerator (solve : LeastSquares) (np : ℕ) (rows : List (List ℝ × List ℝ × ℝ)) (q : List ℝ) : Option (List ℝ) :=
  if ∀ s ∈ rows, rowDot s.2.1 q ≠ 0 then
    some (solve np (rows.map fun s => s.1.map (· / rowDot s.2.1 q)) (rows.map fun s => s.2.2))
  else none

/-- The iterations.  /repo/sources/plugins/rational_fitters/leastsquare.cpp 163-213. -/
def leastIterations (solve : LeastSquares) (np nq : ℕ) (rows : List (List ℝ × List ℝ × ℝ)) :
    ℕ → List ℝ × List ℝ → Option (List ℝ × List ℝ)
  | 0, pq => some pq
  | n + 1, pq =>
    (leastNumerator solve np rows (leastDenominator solve nq rows pq.1)).bind fun p =>
      leastIterations solve np nq rows n (p, leastDenominator solve nq rows pq.1)

/-- `fit_data(d, np, nq, ny, r)`: the first numerator is the first basis function; the scale is 1; a denominator that
    was not computed has the value `junk`.  `none` when the code reads outside of a vector.
    /repo/sources/plugins/rational_fitters/leastsquare.cpp 124-243. -/
def leastChannel (solve : LeastSquares) (junk : ℝ) (d : Store ℝ) (np nq maxIter ny : ℕ) (r : Rat1) :
    Option (Bool × Rat1) :=
  if np = 0 ∨ nq = 0 then none
  else ((List.range d.size).mapM fun i => (d.get i).bind (leastRow r d.dimX np nq ny)).bind fun rows =>
    (leastIterations solve np nq rows maxIter
        ((List.range np).map (fun j => if j = 0 then 1 else 0), List.replicate nq junk)).bind fun pq =>
      (r.update junk pq.1 pq.2).map fun r' => (true, r')

/-- `fit_data(dat, fit, args)` of `rational_fitter_leastsquare`.
    /repo/sources/plugins/rational_fitters/leastsquare.cpp 56-94. -/
def leastSquareFit (solve : LeastSquares) (junk : ℝ) (d : Segments) (np nq maxIter : ℕ) (f : RatFn) :
    Option (Bool × RatFn) :=
  if d.store.kind ≠ .asymmetrical then some (false, f)
  else fitEach (fun ny => leastChannel solve junk d.store np nq maxIter ny) junk d.store.dimY 0
    (RatFn.setSize { f with lo := d.min, hi := d.max } np nq)

end
end Alta
