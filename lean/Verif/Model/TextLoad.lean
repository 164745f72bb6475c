import Verif.Model.Storage
import Verif.Model.Geometry
/-
Model of the text file format: `load_data_from_text` and `save_data_as_text`.

Modelled: /repo/sources/core/data_storage.cpp 37-69 and 88-290.

Simplifications:
* numbers are exact (read as rationals by `strtod`, computed with as reals): no
  rounding, and `stream >> double` reads what `strtod` reads.
* `none` stands for an abort (`throw` without an exception, failed assertion) and for
  the rows where a number is missing: the code then stores zero or indeterminate
  values.
-/
namespace Alta

open Classical in
/-- `within_bounds`.  /repo/sources/core/data_storage.cpp 63-69. -/
noncomputable def withinBounds (v min max : List ℝ) : Bool :=
  (List.zip v min).all (fun p => decide (p.1 ≥ p.2)) && (List.zip v max).all (fun p => decide (p.1 ≤ p.2))

/-- `n` numbers read from a stream by `>>`. -/
def readNumbers : ℕ → Str → Option (List ℚ × Str)
  | 0, s => some ([], s)
  | n + 1, s =>
    match strtod s with
    | Option.none => Option.none
    | some (x, r) =>
      match readNumbers n r with
      | Option.none => Option.none
      | some (xs, r') => some (x :: xs, r')

/-- The options `dt-relative`, `dt-max` and `dt-positive`. -/
structure CIOptions where
  relative : Bool
  max : Bool
  positive : Bool

/-- The widths used for the component `i`: `(min_dt, max_dt)`; the stream is read for
    the first component only.  /repo/sources/core/data_storage.cpp 98-123. -/
def readDt (kind : CIKind) (dt : Option ℚ) (i : ℕ) (s : Str) : Option ((ℚ × ℚ) × Str) :=
  match i, kind with
  | 0, .asymmetrical => (readNumbers 2 s).map fun p => ((-(p.1.headD 0), (p.1.drop 1).headD 0), p.2)
  | 0, .symmetrical => (readNumbers 1 s).map fun p => ((-(p.1.headD 0), p.1.headD 0), p.2)
  | _, _ => dt.map fun d => ((-d, d), s)

/-- The value and the two bounds stored for one component.
    /repo/sources/core/data_storage.cpp 125-149. -/
noncomputable def storeInterval (o : CIOptions) (v minDt maxDt : ℝ) : ℝ × ℝ × ℝ :=
  let b : ℝ × ℝ :=
    if o.relative then (v * (1 + minDt), v * (1 + maxDt))
    else if o.max then (v + Max.max (v * minDt) minDt, v + Max.max (v * maxDt) maxDt)
    else (v + minDt, v + maxDt)
  if o.positive then (Max.max v 0, Max.max b.1 0, Max.max b.2 0) else (v, b.1, b.2)

/-- `read_confidence_interval`, for the components from `i` on: values and bounds.
    /repo/sources/core/data_storage.cpp 88-155. -/
noncomputable def readIntervals (o : CIOptions) (kind : CIKind) (dt : Option ℚ) :
    ℕ → List ℝ → Str → Option (List (ℝ × ℝ × ℝ))
  | _, [], _ => some []
  | i, v :: vs, s =>
    match readDt kind dt i s with
    | Option.none => Option.none
    | some ((a, b), s') =>
      match readIntervals o kind dt (i + 1) vs s' with
      | Option.none => Option.none
      | some r => some (storeInterval o v a b :: r)

open Classical in
/-- `cosine_correction`: the corrected values, `some none` when the row is to be
    dropped.  /repo/sources/core/data_storage.cpp 37-61. -/
noncomputable def cosineCorrection (x y : List ℝ) (p : Input) : Option (Option (List ℝ)) :=
  match convertInput (arr x) p .CARTESIAN with
  | Option.none => Option.none
  | some cart =>
    if arr cart 5 > 0 ∧ arr cart 2 > 0 then
      some (some (y.map (· / (1 / arr cart 5 * arr cart 2))))
    else some Option.none

/-- What the loader keeps from the header and the arguments.
    /repo/sources/core/data_storage.cpp 170-188. -/
structure LoadSetup where
  dimX : ℕ
  dimY : ℕ
  input : Input
  output : Output
  min : List ℝ
  max : List ℝ
  ymin : List ℝ
  ymax : List ℝ
  kind : CIKind
  dt : Option ℚ
  opt : CIOptions
  cosine : Bool

/-- The values stored for one line of the body; `some none` when it is filtered out.
    /repo/sources/core/data_storage.cpp 207-240. -/
noncomputable def loadRow (c : LoadSetup) (line : Str) : Option (Option (List ℝ)) :=
  match readNumbers (c.dimX + c.dimY) line with
  | Option.none => Option.none
  | some (nums, rest) =>
    let v : List ℝ := nums.map (fun q : ℚ => (q : ℝ))
    let x := v.take c.dimX
    match readIntervals c.opt c.kind c.dt 0 (v.drop c.dimX) rest with
    | Option.none => Option.none
    | some t =>
      let y := t.map (·.1)
      let lo := t.map (·.2.1)
      let up := t.map (·.2.2)
      if withinBounds x c.min c.max && withinBounds y c.ymin c.ymax then
        if c.cosine then
          match cosineCorrection x y c.input with
          | Option.none => Option.none
          | some Option.none => some Option.none
          | some (some y') => some (some (x ++ y' ++ lo ++ up))
        else some (some (x ++ y ++ lo ++ up))
      else some Option.none

/-- The loop over the lines of the body: the rows kept, in order.
    /repo/sources/core/data_storage.cpp 194-242. -/
noncomputable def loadRows (c : LoadSetup) (s : Str) : Option (List (List ℝ)) :=
  match s with
  | [] => some []
  | a :: r =>
    let line := (getLine (a :: r)).1
    let rest := (getLine (a :: r)).2
    if line = [] ∨ line.head? = some '#' then loadRows c rest
    else
      match loadRow c line, loadRows c rest with
      | some (some v), some rows => some (v :: rows)
      | some Option.none, some rows => some rows
      | _, _ => Option.none
termination_by s.length
decreasing_by
  all_goals
    simp only [getLine, List.length_drop, List.length_cons]
    have := (List.dropWhile_sublist (l := a :: r) (· ≠ '\n')).length_le
    simp only [List.length_cons] at this
    omega

/-- the largest `float` -/
def fltMax : ℚ := (2 - 1 / 2 ^ 23) * 2 ^ 127

/-- The setup read from the header and the arguments; `none` when the dimensions are
    missing.  /repo/sources/core/data_storage.cpp 164-188. -/
noncomputable def loadSetup (header args : SMap) : Option LoadSetup :=
  match header.getPairInt "DIM".toList with
  | Option.none => Option.none
  | some (dx, dy) =>
    if dx < 0 ∨ dy < 0 then Option.none
    else
      let bounds (k : Str) (n : ℕ) (d : ℚ) : List ℝ := (args.getVec k n d).map (fun q : ℚ => (q : ℝ))
      some
        { dimX := dx.toNat, dimY := dy.toNat
          input := parseInput (String.ofList (header.getString "PARAM_IN".toList "UNKNOWN_INPUT".toList))
          output := parseOutput (String.ofList (header.getString "PARAM_OUT".toList "UNKNOWN_OUTPUT".toList))
          min := bounds "min".toList dx.toNat (-fltMax)
          max := bounds "max".toList dx.toNat fltMax
          ymin := bounds "ymin".toList dy.toNat (-fltMax)
          ymax := bounds "ymax".toList dy.toNat fltMax
          kind := kindFromNumber (header.getInt "VS".toList 0)
          dt := args.getDouble "dt".toList (1 / 10)
          opt := { relative := args.isDefined "dt-relative".toList, max := args.isDefined "dt-max".toList,
                   positive := args.isDefined "dt-positive".toList }
          cosine := args.isDefined "data-correct-cosine".toList }

/-- `load_data_from_text`: the loaded data set always declares asymmetrical intervals.
    /repo/sources/core/data_storage.cpp 157-266. -/
noncomputable def loadText (input : Str) (header args : SMap) : Option Segments :=
  match loadSetup header args with
  | Option.none => Option.none
  | some c =>
    match loadRows c input with
    | Option.none => Option.none
    | some rows =>
      -- `content.size() / row_count` divides by zero for a data set without columns
      if c.dimX + 3 * c.dimY = 0 then Option.none
      else some (Segments.make
        { dimX := c.dimX, dimY := c.dimY, input := c.input, output := c.output, size := rows.length,
          raw := rows.flatten, kind := .asymmetrical })

end Alta
