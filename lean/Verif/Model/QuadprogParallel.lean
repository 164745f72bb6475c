import Verif.Model.Quadprog
import Mathlib.Data.EReal.Basic
/-
Model of the parallel fitter of rational functions, that adds constraints progressively.

Modelled: /repo/sources/plugins/rational_fitters/quadprog_parallel.cpp 89-386,
/repo/sources/plugins/rational_fitters/quadratic_program.h 29-201.

Simplifications: those of `Verif.Model.Quadprog`; the functions that the threads fit are of the
class `rational_function`; an OpenMP schedule is the order in which the iterations of the parallel
loop reach the critical section `r` (they share nothing else but counters); the distance
`L2_distance` to the data is a parameter; the computation of `delta` from the singular values
of the constraints is a parameter.
-/
namespace Alta
noncomputable section

/-- State of the loop of `test_constraints`: `nb_failed`, `max_dev`, and the sample `max_ind` with its
    constraints `cu`, `cl`.  /repo/sources/plugins/rational_fitters/quadratic_program.h 153-157. -/
structure TestState where
  failed : ℕ
  maxDev : EReal
  pick : Option (ℕ × List ℝ × List ℝ)

/-- `fail_lower || fail_upper` for the value `p / q`: the comparisons are false when it is not a
    number (0 / 0), and one is true when it is infinite.
    /repo/sources/plugins/rational_fitters/quadratic_program.h 165-168. -/
def sampleFails (yl yu p q : ℝ) : Prop :=
  (q = 0 ∧ p ≠ 0) ∨ (q ≠ 0 ∧ (yu < p / q ∨ p / q < yl))

open Classical in
/-- `dev`, infinite if the value is.  /repo/sources/plugins/rational_fitters/quadratic_program.h 170. -/
def sampleDev (yl yu p q : ℝ) : EReal :=
  if q = 0 then ⊤ else ((|0.5 * (yu + yl) - p / q| : ℝ) : EReal)

open Classical in
/-- One iteration of `test_constraints`.
    /repo/sources/plugins/rational_fitters/quadratic_program.h 160-181. -/
def testStep (d : Store ℝ) (np nq ny : ℕ) (r : Rat1) (s : TestState) (i : ℕ) : Option TestState :=
  (d.getSegment i).bind fun seg =>
    (r.parts seg.1).bind fun y =>
      if sampleFails (arr seg.2.1 ny) (arr seg.2.2 ny) y.1 y.2 then
        let dev := sampleDev (arr seg.2.1 ny) (arr seg.2.2 ny) y.1 y.2
        if s.maxDev < dev then
          (constraintPair r np nq seg.1 (arr seg.2.1 ny) (arr seg.2.2 ny)).map fun c =>
            ⟨s.failed + 1, dev, some (i, c)⟩
        else some { s with failed := s.failed + 1 }
      else some s

/-- `test_constraints`: `some none` when it returns true; otherwise the sample that leaves the
    training set, with its constraints; `none` when no sample was picked (the iterator is then not
    initialised).  /repo/sources/plugins/rational_fitters/quadratic_program.h 150-201. -/
def testConstraints (d : Store ℝ) (np nq ny : ℕ) (r : Rat1) (training : List ℕ) :
    Option (Option (ℕ × List ℝ × List ℝ)) :=
  (training.foldlM (testStep d np nq ny r) ⟨0, 0, none⟩).bind fun s =>
    if s.failed = 0 then some none
    else match s.pick with
    | none => none
    | some c => some (some c)

open Classical in
/-- The `do ... while` loop: solution if any, delta, the function.  The first argument bounds the
    number of iterations (see `parLoop_spec`: the size of the training set plus one is enough).
    When the program has no solution the function keeps its coefficients (the code gives it the
    vectors `p`, `q` of the previous iteration and returns false).
    /repo/sources/plugins/rational_fitters/quadprog_parallel.cpp 323-353,
    /repo/sources/plugins/rational_fitters/quadratic_program.h 36-51, 67-144. -/
def parLoop (solve : Solver) (nextDelta : List (List ℝ) → ℝ → ℝ) (junk : ℝ) (d : Store ℝ)
    (np nq ny : ℕ) : ℕ → ℝ → List (List ℝ) → List ℕ → Rat1 →
    Option (Option (List ℝ × List ℝ) × ℝ × Rat1)
  | 0, _, _, _, _ => none
  | n + 1, delta, cols, training, r =>
    let delta' := nextDelta cols delta
    match solve (np + nq) (cols.map (withOffset delta')) with
    | none => some (none, delta', r)
    | some x =>
      match r.update junk (x.take np) (x.drop np) with
      | none => none
      | some r' =>
        if 0 < sumSquares x then
          match testConstraints d np nq ny r' training with
          | none => none
          | some none => some (some (x.take np, x.drop np), delta', r')
          | some (some (i, cu, cl)) =>
            if (cols ++ [cu, cl]).length < 2 * d.size then
              parLoop solve nextDelta junk d np nq ny n delta' (cols ++ [cu, cl]) (training.erase i) r'
            else some (none, delta', r')
        else some (none, delta', r')

/-- `di`: one sample out of `di` is in the first program.  `nb_starting_points` is the member, that
    is 100 whatever the option.  /repo/sources/plugins/rational_fitters/quadprog_parallel.cpp 303. -/
def startStep (m : ℕ) : ℕ := max ((m - 1) / (100 - 1)) 1

/-- The samples of the first program and the training set.
    /repo/sources/plugins/rational_fitters/quadprog_parallel.cpp 304-320. -/
def startSet (m : ℕ) : List ℕ := (List.range m).filter fun i => i % startStep m = 0
/-- see `startSet` -/
def trainingSet (m : ℕ) : List ℕ := (List.range m).filter fun i => ¬ i % startStep m = 0

/-- `fit_data(d, np, nq, ny, r, args, p, q, delta)`.
    /repo/sources/plugins/rational_fitters/quadprog_parallel.cpp 292-354. -/
def parChannel (solve : Solver) (nextDelta : List (List ℝ) → ℝ → ℝ) (junk : ℝ) (d : Store ℝ)
    (np nq ny : ℕ) (delta : ℝ) (r : Rat1) : Option (Option (List ℝ × List ℝ) × ℝ × Rat1) :=
  ((startSet d.size).mapM (pointPair d r np nq ny)).bind fun pairs =>
    parLoop solve nextDelta junk d np nq ny ((trainingSet d.size).length + 1) delta
      (pairs.flatMap fun c => [c.1, c.2]) (trainingSet d.size) r

/-- `fit_data(d, np, nq, r, args, delta, ...)`: the loop on the channels; `k` remain, `j` is the next
    one.  `some none` when it returns false, else `delta` and the function.
    /repo/sources/plugins/rational_fitters/quadprog_parallel.cpp 263-286. -/
def parChannels (solve : Solver) (nextDelta : List (List ℝ) → ℝ → ℝ) (junk : ℝ) (d : Store ℝ)
    (np nq : ℕ) : ℕ → ℕ → ℝ → RatFn → Option (Option (ℝ × RatFn))
  | 0, _, delta, f => some (some (delta, f))
  | k + 1, j, delta, f =>
    match f.get junk j with
    | none => none
    | some (rs, f') =>
      match parChannel solve nextDelta junk d np nq j delta (rs.resize junk np nq) with
      | none => none
      | some (none, _, _) => some none
      | some (some (p, q), delta', rs') =>
        match rs'.update junk p q with
        | none => none
        | some rs'' =>
          parChannels solve nextDelta junk d np nq k (j + 1) delta'
            { f' with rs := f'.rs.set j (some rs'') }

/-- The margin of the next program: with `use_delta` it is computed from the constraints, `cond` is
    the ratio of their extreme singular values; otherwise it does not change.
    /repo/sources/plugins/rational_fitters/quadratic_program.h 107-115,
    /repo/sources/plugins/rational_fitters/quadprog_parallel.cpp 299. -/
def nextDelta (cond : List (List ℝ) → ℝ) (useDelta : Bool) (cols : List (List ℝ)) (delta : ℝ) : ℝ :=
  if useDelta then cond cols else delta

/-- What an iteration of the parallel loop computes: the function `rk` with `N - j` and `j`
    coefficients.  /repo/sources/plugins/rational_fitters/quadprog_parallel.cpp 171-204. -/
def candidate (solve : Solver) (cond : List (List ℝ) → ℝ) (useDelta : Bool) (junk : ℝ) (d : Store ℝ)
    (r : RatFn) (N j : ℕ) : Option (Option (ℝ × RatFn)) :=
  parChannels solve (nextDelta cond useDelta) junk d (N - j) j d.dimY 0 1
    (RatFn.setSize ⟨r.dimX, r.dimY, 0, 0, r.lo, r.hi, []⟩ (N - j) j)

/-- `min_delta`, `min_l2_dist` and `r`. -/
structure Best where
  delta : ℝ
  dist : ℝ
  r : RatFn

open Classical in
/-- The critical section.
    /repo/sources/plugins/rational_fitters/quadprog_parallel.cpp 205-229. -/
def keepBest (junk : ℝ) (l2 : RatFn → ℝ) (useDelta : Bool) (N : ℕ) (b : Best)
    (j : ℕ) (c : Option (ℝ × RatFn)) : Option Best :=
  match c with
  | none => some b
  | some (delta, rk) =>
    if (useDelta = true ∧ delta < b.delta) ∨ (useDelta = false ∧ l2 rk < b.dist) then
      ((b.r.setSize (N - j) j).copyFrom junk rk).map fun r' => ⟨delta, l2 rk, r'⟩
    else some b

/-- One iteration of the parallel loop, at its place in the schedule. -/
def roundStep (solve : Solver) (cond : List (List ℝ) → ℝ) (useDelta : Bool) (junk : ℝ) (d : Store ℝ)
    (l2 : RatFn → ℝ) (N : ℕ) (r : RatFn) (b : Best) (j : ℕ) : Option Best :=
  (candidate solve cond useDelta junk d r N j).bind fun c => keepBest junk l2 useDelta N b j c

/-- The parallel loop for `N` coefficients; `order` is the order in which the iterations reach the
    critical section.  /repo/sources/plugins/rational_fitters/quadprog_parallel.cpp 164-239. -/
def parallelRound (solve : Solver) (cond : List (List ℝ) → ℝ) (useDelta : Bool) (junk : ℝ) (d : Store ℝ)
    (l2 : RatFn → ℝ) (N : ℕ) (order : List ℕ) (r : RatFn) : Option Best :=
  order.foldlM (roundStep solve cond useDelta junk d l2 N r) ⟨dblMax, dblMax, r⟩

open Classical in
/-- `fit_data(dat, fit, args)` for asymmetrical data: the loop on the number of coefficients, from
    `i` to `maxN` by `step`; `none` also when it never ends.
    /repo/sources/plugins/rational_fitters/quadprog_parallel.cpp 135-256. -/
def parallelFit (solve : Solver) (cond : List (List ℝ) → ℝ) (useDelta : Bool) (junk : ℝ) (d : Store ℝ)
    (l2 : RatFn → ℝ) (order : ℕ → List ℕ) (maxN step : ℕ) (i : ℕ) (r : RatFn) :
    Option (Bool × RatFn) :=
  if i ≤ maxN then
    match parallelRound solve cond useDelta junk d l2 i (order i) r with
    | none => none
    | some b =>
      if b.delta < dblMax then some (true, b.r)
      else if step = 0 then none
      else parallelFit solve cond useDelta junk d l2 order maxN step (i + step) b.r
  else some (false, r)
termination_by maxN + 1 - i

/-- `fit_data(dat, fit, args)` for data that has asymmetrical intervals; `minNp` is `--min-np`, `np`
    is `--np` and `step` is `--np-step`.
    /repo/sources/plugins/rational_fitters/quadprog_parallel.cpp 89-256. -/
def quadprogParallelFit (solve : Solver) (cond : List (List ℝ) → ℝ) (useDelta : Bool) (junk : ℝ)
    (d : Segments) (l2 : RatFn → ℝ) (order : ℕ → List ℕ) (minNp np step : Option ℕ) (f : RatFn) :
    Option (Bool × RatFn) :=
  parallelFit solve cond useDelta junk d.store l2 order (np.getD (minNp.getD 10)) (step.getD 1)
    (minNp.getD 10) { f with lo := d.min, hi := d.max }

/-! ### Data without asymmetrical intervals -/

/-- The writes for the sample number `i` in `content`.
    /repo/sources/plugins/rational_fitters/quadprog_parallel.cpp 111-123. -/
def convertRow (dimX dimY : ℕ) (dt : ℝ) (i : ℕ) (x : List ℝ) (content : List ℝ) : List ℝ :=
  let c1 := (List.range x.length).foldl (fun c k => c.set (i + k) (arr x k)) content
  let c2 := (List.range dimY).foldl
    (fun c k => c.set (i + k + dimX + dimY) ((1 - dt) * arr x (k + dimX))) c1
  (List.range dimY).foldl
    (fun c k => c.set (i + k + dimX + 2 * dimY) ((1 + dt) * arr x (k + dimX))) c2

/-- The buffer of the automatic conversion to vertical segments; `junk` is the content of new
    memory.  /repo/sources/plugins/rational_fitters/quadprog_parallel.cpp 102-131. -/
def convertAll (dimX dimY : ℕ) (dt junk : ℝ) (rows : List (List ℝ)) : List ℝ :=
  (List.range rows.length).foldl (fun c i => convertRow dimX dimY dt i (rows.getD i []) c)
    (List.replicate (rows.length * (dimX + 3 * dimY)) junk)

end
end Alta
