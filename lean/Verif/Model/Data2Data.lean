import Verif.Model.Segment
import Verif.Model.Geometry
import Verif.Model.Output
/-
Model of the command `data2data`.

Modelled: /repo/sources/softs/data2data/main.cpp 112-291, with the classes `data` and
`vertical_segment` of `Verif.Model.Segment` and the conversions of `Verif.Model.Geometry`,
`Verif.Model.Output`.

Simplifications: those of these files; the input is what `get` and `value` return; the exported plugin,
when it is not a `vertical_segment`, is an array of rows in which `set` replaces a row; loading,
saving and messages are elsewhere (`TextLoad`, `TextSave`, `Binary`).  `none` is an abort.
-/
namespace Alta
noncomputable section

/-- `compute_parameters`: dimensions and parametrizations of the output; `none` is the exit.
    `param` is what `parse_input` gives for the option `--param`.
    /repo/sources/softs/data2data/main.cpp 112-137. -/
def computeParameters (din : Data) (param : Input) : Option (ℕ × ℕ × Input × Output) :=
  if param = .UNKNOWN_INPUT ∧ din.input ≠ .UNKNOWN_INPUT then
    some ((inputDim din.input).toNat, din.dimY, din.input, din.output)
  else if param = .UNKNOWN_INPUT then none
  else some ((inputDim param).toNat, din.dimY, param, din.output)

open Classical in
/-- One iteration of `convert_vertical_segment`.  The vector `temp` is the same for all the rows.
    /repo/sources/softs/data2data/main.cpp 162-202. -/
def convertVsRow (din : Data) (allValues : Bool) (s : (ℕ → ℝ) × Segments) (i : ℕ) :
    Option ((ℕ → ℝ) × Segments) :=
  (din.rows[i]?).bind fun x =>
    (convertInput (arr x) din.input s.2.store.input).bind fun t =>
      let temp : ℕ → ℝ := fun k => if k < t.length then arr t k else s.1 k
      (isAboveHemisphere temp s.2.store.input).bind fun above =>
        if ¬ above ∧ allValues = false then some (temp, s.2)
        else
          (convertOutput (fun k => arr x (din.dimX + k)) din.dimY s.2.store.dimY
            (fun k => temp (s.2.store.dimX + k))).bind fun o =>
              let temp' : ℕ → ℝ :=
                fun k => if k < s.2.store.dimX then temp k else o (k - s.2.store.dimX)
              (s.2.set i ((List.range (s.2.store.dimX + s.2.store.dimY)).map temp')).map fun d =>
                (temp', d)

/-- `convert_vertical_segment`; `junk` is the content of the new vector `temp`.
    /repo/sources/softs/data2data/main.cpp 143-213. -/
def convertVerticalSegment (junk : ℕ → ℝ) (din : Data) (allValues : Bool) (out : Segments) :
    Option Segments :=
  ((List.range din.rows.length).foldlM (convertVsRow din allValues) (junk, out)).map Prod.snd

/-- `data2data` without `--out-data`, or for ALTA's formats: what is saved.
    /repo/sources/softs/data2data/main.cpp 375-408, plugins_manager.cpp 449-459. -/
def data2data (junk : ℕ → ℝ) (din : Data) (param : Input) (allValues : Bool) : Option Segments :=
  (computeParameters din param).bind fun p =>
    convertVerticalSegment junk din allValues
      (Segments.zeroed p.1 p.2.1 p.2.2.1 p.2.2.2 din.rows.length)

/-! ### With interpolation -/

open Classical in
/-- The new row computed by an iteration of `convert_with_interpolation`, from the row `x` of the
    output; `value` is the interpolation of the input.
    /repo/sources/softs/data2data/main.cpp 237-268. -/
def convertPoint (value : List ℝ → List ℝ) (din : Data) (outIn : Input) (outX outY : ℕ) (x : List ℝ) :
    Option (List ℝ) :=
  (convertInput (arr x) outIn .CARTESIAN).bind fun cart =>
    (if 0 ≤ arr cart 2 ∧ 0 ≤ arr cart 5 then
      (convertInput (arr cart) .CARTESIAN din.input).map value
    else some (List.replicate din.dimY 0)).bind fun y =>
      (convertOutput (arr y) din.dimY outY (fun k => arr x (outX + k))).map fun o =>
        (List.range x.length).map fun k => if k < outX then arr x k else o (k - outX)

/-- What a thread of `convert_with_interpolation` does to the shared output for its row: it reads
    it, and later it writes it.  /repo/sources/softs/data2data/main.cpp 242, 270. -/
inductive RowEvent where
  | read (i : ℕ)
  | write (i : ℕ)
  deriving DecidableEq

/-- The shared output and the local vectors `x` of the iterations. -/
structure ParState where
  rows : List (List ℝ)
  pending : ℕ → Option (List ℝ)

/-- one event; `f` is what the iteration computes between its two accesses.
    /repo/sources/softs/data2data/main.cpp 234-271. -/
def parStep (f : List ℝ → Option (List ℝ)) (s : ParState) : RowEvent → Option ParState
  | .read i => (s.rows[i]?).bind fun x => (f x).map fun y =>
      { s with pending := fun k => if k = i then some y else s.pending k }
  | .write i => (s.pending i).map fun y => { s with rows := s.rows.set i y }

/-- `convert_with_interpolation` for a given interleaving of the threads.
    /repo/sources/softs/data2data/main.cpp 214-278. -/
def convertInterleaved (f : List ℝ → Option (List ℝ)) (rows : List (List ℝ)) (evs : List RowEvent) :
    Option (List (List ℝ)) :=
  (evs.foldlM (parStep f) ⟨rows, fun _ => none⟩).map ParState.rows

end
end Alta
