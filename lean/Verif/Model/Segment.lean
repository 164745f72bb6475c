import Verif.Model.ParamNames
import Mathlib.Data.Real.Basic
/-
Model of the class `vertical_segment` (samples with confidence intervals) and of
`data::equals`.

Modelled: /repo/sources/core/vertical_segment.{h,cpp}, /repo/sources/core/data.{h,cpp}.

Simplifications, valid for the whole file:
* the buffer of doubles is a list; the type of its elements is a parameter where no
  arithmetic is done, and ℝ elsewhere (no rounding, no NaN, no infinity).
* `dimX()` and `dimY()` are natural numbers.
* `none` stands for an abort: an uncaught `throw` or an out of range index (stopped by
  an assertion of Eigen).
-/
namespace Alta

/-- `vertical_segment::ci_kind`.  /repo/sources/core/vertical_segment.h 84-89. -/
inductive CIKind where
  | none
  | symmetrical
  | asymmetrical
  deriving DecidableEq

/-- `vertical_segment::confidence_interval_columns`.
    /repo/sources/core/vertical_segment.h 138-153. -/
def ciColumns : CIKind → ℕ → ℕ
  | .none, _ => 0
  | .symmetrical, dimY => dimY
  | .asymmetrical, dimY => 2 * dimY

/-- What a `vertical_segment` stores (but for its bounds, see `Segments`): `_parameters`
    (dimensions and parametrizations), `_size`, `_data`, `_ci_kind`.
    /repo/sources/core/vertical_segment.h 190-202, /repo/sources/core/data.h 105-110. -/
structure Store (α : Type) where
  dimX : ℕ
  dimY : ℕ
  input : Input
  output : Output
  size : ℕ
  raw : List α
  kind : CIKind

variable {α : Type}

/-- `column_number`.  /repo/sources/core/vertical_segment.h 156-160. -/
def Store.columns (s : Store α) : ℕ := s.dimX + s.dimY + ciColumns s.kind s.dimY

/-- `matrix_view().row(i)`: row major view of the buffer.
    /repo/sources/core/vertical_segment.h 167-170. -/
def Store.row (s : Store α) (i : ℕ) : List α := (s.raw.drop (i * s.columns)).take s.columns

/-- `segment(start, n)` of a row -/
def segment (l : List α) (start n : ℕ) : List α := (l.drop start).take n

/-- `vertical_segment::get(int)`: `data_view().row(i)`.
    /repo/sources/core/vertical_segment.cpp 145-148, vertical_segment.h 176-181. -/
def Store.get (s : Store α) (i : ℕ) : Option (List α) :=
  if i < s.size then some ((s.raw.drop (i * s.columns)).take (s.dimX + s.dimY)) else .none

/-- `vertical_segment::set`.  /repo/sources/core/vertical_segment.cpp 150-163. -/
def Store.set (s : Store α) (i : ℕ) (x : List α) : Option (Store α) :=
  if x.length = s.columns ∨ x.length = s.dimX + s.dimY then
    if i < s.size then
      some { s with raw := s.raw.take (i * s.columns) ++ (x ++ s.raw.drop (i * s.columns + x.length)) }
    else .none
  else .none

/-- `_dt`, as set by the constructor.  /repo/sources/core/vertical_segment.cpp 86. -/
noncomputable def defaultDt : ℝ := 1 / 10

/-- `vertical_segment::get(int, vec&, vec&, vec&)`: abscissa, lower and upper bounds.
    /repo/sources/core/vertical_segment.cpp 106-137. -/
noncomputable def Store.getSegment (s : Store ℝ) (i : ℕ) : Option (List ℝ × List ℝ × List ℝ) :=
  if i < s.size then
    let row := s.row i
    let x := segment row 0 s.dimX
    let y := segment row s.dimX s.dimY
    match s.kind with
    | .asymmetrical =>
      some (x, segment row (s.dimX + s.dimY) s.dimY, segment row (s.dimX + 2 * s.dimY) s.dimY)
    | .symmetrical =>
      let c := segment row (s.dimX + s.dimY) s.dimY
      some (x, List.zipWith (· - ·) y c, List.zipWith (· - ·) y c)
    | .none => some (x, y.map (· - defaultDt), y.map (· + defaultDt))
  else .none

/-- `vertical_segment::vs`, for `_is_absolute = absolute` and `_dt = dt`.
    /repo/sources/core/vertical_segment.cpp 165-183. -/
def makeSegment (dimX dimY : ℕ) (absolute : Bool) (dt : ℝ) (x : List ℝ) : List ℝ :=
  let y := segment x dimX dimY
  x.take (dimX + dimY) ++
  (y.map fun v => if absolute then v - dt else v * (1 - dt)) ++
  (y.map fun v => if absolute then v + dt else v * (1 + dt))

/-- the largest double -/
noncomputable def dblMax : ℝ := (2 - 2 ^ (-52 : ℤ)) * 2 ^ (1023 : ℕ)

/-- The columns of `x_view`: the first `dimX` values of each row of the buffer.
    /repo/sources/core/vertical_segment.cpp 64-75. -/
def xView (dimX stride : ℕ) : ℕ → List ℝ → List (List ℝ)
  | 0, _ => []
  | n + 1, raw => raw.take dimX :: xView dimX stride n (raw.drop stride)

/-- `data_min`.  /repo/sources/core/vertical_segment.cpp 30-45. -/
noncomputable def dataMin (rows : ℕ) (cols : List (List ℝ)) : List ℝ :=
  cols.foldl (fun m col => List.zipWith min m col) (List.replicate rows dblMax)

/-- `data_max`.  /repo/sources/core/vertical_segment.cpp 47-62. -/
noncomputable def dataMax (rows : ℕ) (cols : List (List ℝ)) : List ℝ :=
  cols.foldl (fun m col => List.zipWith max m col) (List.replicate rows (-dblMax))

/-- A `vertical_segment`: the store and `_min`, `_max`. -/
structure Segments where
  store : Store ℝ
  min : List ℝ
  max : List ℝ

/-- Constructor of `vertical_segment`: the bounds are those of the given buffer.
    /repo/sources/core/vertical_segment.cpp 77-88. -/
noncomputable def Segments.make (s : Store ℝ) : Segments :=
  { store := s
    min := dataMin s.dimX (xView s.dimX s.columns s.size s.raw)
    max := dataMax s.dimX (xView s.dimX s.columns s.size s.raw) }

/-- Constructor from a number of rows: a zeroed buffer, asymmetrical intervals.
    /repo/sources/core/vertical_segment.cpp 96-103. -/
noncomputable def Segments.zeroed (dimX dimY : ℕ) (i : Input) (o : Output) (rows : ℕ) : Segments :=
  Segments.make { dimX := dimX, dimY := dimY, input := i, output := o, size := rows,
                  raw := List.replicate (rows * (dimX + 3 * dimY)) 0, kind := .asymmetrical }

/-- `vertical_segment::set` changes the buffer only.
    /repo/sources/core/vertical_segment.cpp 150-163. -/
def Segments.set (d : Segments) (i : ℕ) (x : List ℝ) : Option Segments :=
  (d.store.set i x).map fun s => { d with store := s }

/-! Equality of data sets -/

/-- What `data::equals` sees of a data set.  /repo/sources/core/data.h 33-110. -/
structure Data where
  dimX : ℕ
  dimY : ℕ
  input : Input
  output : Output
  /-- the results of `get(0)`, …, `get(size() - 1)` -/
  rows : List (List ℝ)

/-- The comparison of two rows.  /repo/sources/core/data.cpp 47-55. -/
noncomputable def rowEquals (eps : ℝ) (a b : List ℝ) : Bool :=
  a.length = b.length ∧ (List.zip a b).all fun p => decide (¬ (|p.1 - p.2| > eps))

/-- `data::equals`.  /repo/sources/core/data.cpp 31-59. -/
noncomputable def Data.equals (a b : Data) (eps : ℝ) : Bool :=
  if a.rows.length ≠ b.rows.length ∨ a.dimX ≠ b.dimX ∨ a.dimY ≠ b.dimY ∨ a.input ≠ b.input ∨
     a.output ≠ b.output then false
  else (List.zip a.rows b.rows).all fun p => rowEquals eps p.1 p.2

/-- The default `epsilon`: `std::pow(1.0, -14)`.  /repo/sources/core/data.h 83-85. -/
noncomputable def defaultEpsilon : ℝ := (1 : ℝ) ^ (-14 : ℤ)

/-- A vertical segment data set seen as data.  /repo/sources/core/vertical_segment.h 79. -/
def Store.toData (s : Store ℝ) : Data :=
  { dimX := s.dimX, dimY := s.dimY, input := s.input, output := s.output,
    rows := (List.range s.size).map fun i => (s.get i).getD [] }

end Alta
