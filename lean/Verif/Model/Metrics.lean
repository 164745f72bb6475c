import Verif.Model.Geometry
import Mathlib.Analysis.SpecialFunctions.Pow.Real
/-
Model of the error metrics (`errors::compute`).

Modelled: /repo/sources/core/metrics.cpp (all).

Simplifications: `double` is ℝ; a division by zero gives 0 (`mse` of no row); writing a row outside
of a matrix, or a row of another size, is `none` (an assertion of Eigen, or undefined behaviour).
-/
namespace Alta
noncomputable section

/-- The part of a `data` object that is read for the reference: dimensions, parametrization of the
    abscissae and rows `get(i)`. -/
structure RefData where
  nX : ℕ
  nY : ℕ
  input : Input
  rows : List (List ℝ)

/-- The part of a `data` object that is read for the tested data: parametrization of the abscissae
    and the function `value`. -/
structure InpData where
  input : Input
  value : List ℝ → List ℝ

/-- A matrix, by rows. -/
abbrev Mat := List (List ℝ)

/-- `checkMaskSize`; the mask is the list of its values `mask->get(i).tail(1)[0]`.
    /repo/sources/core/metrics.cpp 53-71. -/
def checkMaskSize (ref : RefData) (mask : Option (List ℝ)) : ℕ :=
  match mask with
  | none => ref.rows.length
  | some m => (List.range ref.rows.length).foldl (fun nb i => if arr m i = 0 then nb + 1 else nb) 0

/-- `M.row(i) = v` in a matrix with `cols` columns. -/
def setRow (M : Mat) (cols i : ℕ) (v : List ℝ) : Option Mat :=
  if i < M.length ∧ v.length = cols then some (M.set i v) else none

/-- `has_mask && mask->get(i).tail(1)[0] == 0.0`.  /repo/sources/core/metrics.cpp 97. -/
def skipped (mask : Option (List ℝ)) (i : ℕ) : Prop :=
  match mask with
  | none => False
  | some m => arr m i = 0

open Classical in
/-- One turn of the loop of `evaluate`, on the matrices `(inp_y, ref_y)`.
    /repo/sources/core/metrics.cpp 94-134. -/
def evaluateRow (inp : InpData) (ref : RefData) (mask : Option (List ℝ)) (i : ℕ) (row : List ℝ) (M : Mat × Mat) :
    Option (Mat × Mat) :=
  if skipped mask i then some M
  else
    match convertInput (arr (row.take ref.nX)) ref.input .CARTESIAN with
    | none => none
    | some cart =>
      if arr cart 2 ≥ 0 ∨ arr cart 5 ≥ 0 then
        match convertInput (arr cart) .CARTESIAN inp.input with
        | none => none
        | some x =>
          match setRow M.2 ref.nY i (row.drop (row.length - ref.nY)), setRow M.1 ref.nY i (inp.value x) with
          | some r, some p => some (p, r)
          | _, _ => none
      else
        match setRow M.2 ref.nY i (List.replicate ref.nY 0), setRow M.1 ref.nY i (List.replicate ref.nY 0) with
        | some r, some p => some (p, r)
        | _, _ => none

/-- The loop of `evaluate` from row `i`.  /repo/sources/core/metrics.cpp 94-134. -/
def evaluateLoop (inp : InpData) (ref : RefData) (mask : Option (List ℝ)) : ℕ → List (List ℝ) → Mat × Mat →
    Option (Mat × Mat)
  | _, [], M => some M
  | i, row :: rows, M =>
    match evaluateRow inp ref mask i row M with
    | none => none
    | some M' => evaluateLoop inp ref mask (i + 1) rows M'

/-- The column `c` of `o_data_y - f_y`. -/
def diffCol (A B : Mat) (c : ℕ) : List ℝ := List.zipWith (fun a b => arr a c - arr b c) A B

/-- `lpNorm<1>` -/
def norm1 (d : List ℝ) : ℝ := (d.map fun x => |x|).sum
/-- `lpNorm<2>` -/
def norm2 (d : List ℝ) : ℝ := √ (d.map fun x => |x| ^ 2).sum
/-- `lpNorm<3>` -/
def norm3 (d : List ℝ) : ℝ := (d.map fun x => |x| ^ 3).sum ^ ((1 : ℝ) / 3)
/-- `lpNorm<Infinity>` -/
def normInf (d : List ℝ) : ℝ := d.foldl (fun m x => max m |x|) 0

/-- The result of `compute`: a vector for each metric. -/
structure Metrics where
  L1 : List ℝ
  L2 : List ℝ
  L3 : List ℝ
  LInf : List ℝ
  mse : List ℝ
  rmse : List ℝ

/-- `fastNormComputation`, for `cols` columns.  /repo/sources/core/metrics.cpp 137-168. -/
def fastNorms (cols : ℕ) (A B : Mat) : Metrics :=
  let mse := (List.range cols).map fun c => ((diffCol A B c).map fun x : ℝ => x ^ 2).sum / (A.length : ℝ)
  { L1 := (List.range cols).map fun c => norm1 (diffCol A B c)
    L2 := (List.range cols).map fun c => norm2 (diffCol A B c)
    L3 := (List.range cols).map fun c => norm3 (diffCol A B c)
    LInf := (List.range cols).map fun c => normInf (diffCol A B c)
    mse := mse
    rmse := mse.map fun x => √ x }

/-- `errors::compute`.  /repo/sources/core/metrics.cpp 5-51. -/
def computeMetrics (inp : InpData) (ref : RefData) (mask : Option (List ℝ)) : Option Metrics :=
  let size := checkMaskSize ref mask
  let zero := List.replicate size (List.replicate ref.nY (0 : ℝ))
  (evaluateLoop inp ref mask 0 ref.rows (zero, zero)).map fun M => fastNorms ref.nY M.1 M.2

end
end Alta
