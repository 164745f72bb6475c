import Verif.Model.TextLoad
import Verif.Model.Function
/-
Model of the ASTM data plugin (measurements of Cornell University).

Modelled: /repo/sources/plugins/data_io/astm.cpp 64-177, and the template
`arguments::get_vec<std::string>`, /repo/sources/core/args.h 280-311.

Simplifications: those of `Model/TextLoad` (numbers are exact and `stream >> double` reads what
`strtod` reads; a row with a missing number is `undefined`: the code stores zero, then indeterminate
values).  A stream is the list of the characters not read yet; for `load_data`, `none` is a stream on
which `good()` is false.
-/
namespace Alta

/-- The loop of `get_vec<std::string>`: at most 255 characters up to a comma, of which the first word
    is kept; an empty element stops the loop.  /repo/sources/core/args.h 296-307. -/
def vecWords (s : Str) : List Str :=
  match h : (s.takeWhile (· ≠ ',')).take 255 with
  | [] => [[]]
  | c :: p =>
    match s.drop (p.length + 1) with
    | [] => [(readWord (c :: p)).1]
    | _ :: _ =>
      if hl : s.length < p.length + 2 then []
      else (readWord (c :: p)).1 :: vecWords (s.drop (p.length + 2))
termination_by s.length
decreasing_by
  simp only [List.length_drop]
  omega

/-- `arguments::get_vec<std::string>`.  /repo/sources/core/args.h 280-311. -/
def SMap.getVecWords (m : SMap) (k : Str) : List Str :=
  match m.find k with
  | some str =>
    if str.head? = some '[' ∧ str.getLast? = some ']' then vecWords (str.drop 1).dropLast else []
  | .none => []

/-- The loop of `parse_header`, on a stream that is good: `key` and `line` are the variables of the
    function.  /repo/sources/plugins/data_io/astm.cpp 73-88. -/
def astmHeaderFrom (key line s : Str) (m : SMap) : SMap × Option Str :=
  match h : readWord s with
  | (w, r) =>
    -- end of the file before a word: the variables are not changed
    if hw : w = [] then (m.update key line, .none)
    -- end of the file after the word: the line is not changed
    else if r = [] then
      (if w = "VARS".toList then m.update w (['['] ++ line ++ [']']) else m.update w line, .none)
    else
      let l := (getLine r).1
      let rest := (getLine r).2
      let good := decide ('\n' ∈ r)
      if w = "VARS".toList then (m.update w (['['] ++ l ++ [']']), if good then some rest else .none)
      else if good then astmHeaderFrom w l rest (m.update w l)
      else (m.update w l, .none)
termination_by s.length
decreasing_by
  simp only [readWord, Prod.mk.injEq] at h
  obtain ⟨h1, h2⟩ := h
  have a1 : (s.dropWhile isSpace).length ≤ s.length := (List.dropWhile_sublist _).length_le
  have a2 : w.length + r.length = (s.dropWhile isSpace).length := by
    rw [← h1, ← h2, ← List.length_append, List.takeWhile_append_dropWhile]
  have a3 : ((r.dropWhile (· ≠ '\n')).drop 1).length ≤ r.length := by
    rw [List.length_drop]
    have := (List.dropWhile_sublist (l := r) (· ≠ '\n')).length_le
    omega
  have a4 : 0 < w.length := List.length_pos_iff.2 hw
  simp only [getLine]
  omega

/-- `parse_header`.  /repo/sources/plugins/data_io/astm.cpp 68-91. -/
def astmHeader (s : Str) : SMap × Option Str := astmHeaderFrom [] [] s []

/-- The names of angles. -/
def astmAngle (v : Str) : Bool :=
  v = "theta_i".toList || v = "phi_i".toList || v = "theta_s".toList || v = "phi_s".toList

/-- `compute_parameters`; `none` for an empty list (`back()` of an empty vector).
    /repo/sources/plugins/data_io/astm.cpp 93-132. -/
def astmPar (vars : List Str) : Option Par :=
  match vars.getLast? with
  | .none => .none
  | some last =>
    let nX := (vars.filter astmAngle).length
    let nY := (vars.filter fun v => !astmAngle v).length
    some
      { dimX := nX, dimY := nY
        input := if nX = 4 then .SPHERICAL_TL_PL_TV_PV else .UNKNOWN_INPUT
        output := if last = "B".toList then .RGB_COLOR
          else if last.take 10 = "Integrated".toList then .INV_STERADIAN else .UNKNOWN_OUTPUT }

/-- Why nothing is loaded. -/
inductive AstmStop where
  /-- a failed assertion or an exception that is not caught -/
  | abort
  /-- a loop that never ends -/
  | hang
  /-- indeterminate values -/
  | undefined
  deriving DecidableEq

/-- The inner loop: the first line with a comma.  At the end of the file `getline` leaves the line as
    it is, without a comma, for ever.  /repo/sources/plugins/data_io/astm.cpp 162-164. -/
def astmNextLine (s : Str) : Except AstmStop (Str × Option Str) :=
  match s with
  | [] => .error .hang
  | a :: r =>
    let line := (getLine (a :: r)).1
    let rest := (getLine (a :: r)).2
    if ',' ∈ line then .ok (line, if '\n' ∈ a :: r then some rest else .none)
    else if '\n' ∈ a :: r then astmNextLine rest
    else .error .hang
termination_by s.length
decreasing_by
  simp only [getLine, List.length_drop, List.length_cons]
  have := (List.dropWhile_sublist (l := a :: r) (· ≠ '\n')).length_le
  simp only [List.length_cons] at this
  omega

/-- The loop over the rows; `n` numbers are read in each.
    /repo/sources/plugins/data_io/astm.cpp 158-174. -/
def astmRows (n : ℕ) : ℕ → Option Str → Except AstmStop (List (List ℚ))
  | 0, _ => .ok []
  | _ + 1, .none => .error .abort
  | k + 1, some s =>
    match astmNextLine s with
    | .error e => .error e
    | .ok (line, rest) =>
      match readNumbers n (line.map fun c => if c = ',' then ' ' else c) with
      | .none => .error .undefined
      | some (xs, _) =>
        match astmRows n k rest with
        | .error e => .error e
        | .ok rows => .ok (xs :: rows)

/-- `load_data`.  /repo/sources/plugins/data_io/astm.cpp 141-177. -/
noncomputable def astmLoad (file : Str) : Except AstmStop Segments :=
  let (header, input) := astmHeader file
  match astmPar (header.getVecWords "VARS".toList) with
  | .none => .error .undefined
  | some p =>
    if header.isDefined "NUM_POINTS".toList then
      let size := header.getInt "NUM_POINTS".toList 0
      -- the size is converted to an unsigned number: the allocation fails
      if size < 0 then .error .abort
      else
        match astmRows (p.dimX + p.dimY) size.toNat input with
        | .error e => .error e
        | .ok rows =>
          .ok (Segments.make
            { dimX := p.dimX, dimY := p.dimY, input := p.input, output := p.output, size := rows.length
              raw := (rows.flatten).map (fun q : ℚ => (q : ℝ)), kind := .none })
    else .error .abort

end Alta
