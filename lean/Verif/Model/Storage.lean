import Verif.Model.Args
import Verif.Model.Segment
import Verif.Spec.Decimal
/-
Model of the binary file format.

Modelled: /repo/sources/core/data_storage.cpp 71-86 and 292-403, and the choice of the
format in `plugins_manager::load_data`, /repo/sources/core/plugins_manager.cpp 476-504.

Simplifications:
* the host is little endian with IEEE doubles; a double is its bit pattern, a byte is
  the character of that code.
* decimal printing of integers is `showNat` (Verif/Spec/Decimal.lean); there is no
  overflow of `int`.
* `none` stands for an abort: a failed assertion or the exception thrown by a short
  read.
-/
namespace Alta

/-- a double, bit for bit -/
abbrev Dbl := BitVec 64

/-- the eight bytes of a double in memory, little endian -/
def dblBytes (d : Dbl) : Str := (List.range 8).map fun i => Char.ofNat (d.toNat / 256 ^ i % 256)

/-- a double from its bytes -/
def bytesDbl (s : Str) : Dbl := BitVec.ofNat 64 (s.foldr (fun c n => c.toNat + 256 * n) 0)

/-- the bytes of an array -/
def arrayBytes (l : List Dbl) : Str := l.flatMap dblBytes

/-- `n` doubles copied from a stream of bytes -/
def bytesArray : ℕ → Str → List Dbl
  | 0, _ => []
  | n + 1, s => bytesDbl (s.take 8) :: bytesArray n (s.drop 8)

/-- What `save_data_as_binary` sees of a data set: the interface `data`, and the
    object itself when it is a `vertical_segment`. -/
structure AnyData where
  dimX : ℕ
  dimY : ℕ
  input : Input
  output : Output
  size : ℕ
  get : ℕ → List Dbl
  segments : Option (Store Dbl)

/-- A `vertical_segment` as a data set. -/
def Store.toAny (s : Store Dbl) : AnyData :=
  { dimX := s.dimX, dimY := s.dimY, input := s.input, output := s.output, size := s.size,
    get := fun i => (s.get i).getD [], segments := some s }

/-- `number_from_ci_kind`.  /repo/sources/core/data_storage.cpp 80-86. -/
def numberFromKind : CIKind → ℕ
  | .asymmetrical => 2
  | .symmetrical => 1
  | .none => 0

/-- `ci_kind_from_number`.  /repo/sources/core/data_storage.cpp 71-78. -/
def kindFromNumber (n : Int) : CIKind :=
  if n = 2 then .asymmetrical else if n = 1 then .symmetrical else .none

/-- The header written before the binary stream.
    /repo/sources/core/data_storage.cpp 301-323. -/
def binaryHeader (d : AnyData) (kind : CIKind) : Str :=
  "#DIM ".toList ++ showNat d.dimX ++ " ".toList ++ showNat d.dimY ++ "\n".toList ++
  "#PARAM_IN  ".toList ++ (inputName d.input).toList ++ "\n".toList ++
  "#PARAM_OUT ".toList ++ (outputName d.output).toList ++ "\n".toList ++
  "#FORMAT binary\n".toList ++ "#VERSION 0\n".toList ++ "#PRECISION ieee754-double\n".toList ++
  "#SAMPLE_COUNT ".toList ++ showNat d.size ++ "\n".toList ++
  "#VS ".toList ++ showNat (numberFromKind kind) ++ "\n".toList ++
  "#ENDIAN little\n".toList ++ "#BEGIN_STREAM\n".toList

/-- `save_data_as_binary`.  /repo/sources/core/data_storage.cpp 292-349. -/
def saveBinary (d : AnyData) : Option Str :=
  let kind := match d.segments with
    | some s => s.kind
    | .none => .none
  let tail := "\n#END_STREAM\n".toList
  match kind, d.segments with
  | .none, _ =>
    let samples := (List.range d.size).map d.get
    if samples.all (fun v => v.length = d.dimX + d.dimY) then
      some (binaryHeader d .none ++ arrayBytes samples.flatten ++ tail)
    else .none
  | k, some s => some (binaryHeader d k ++ arrayBytes (s.raw.take (s.size * s.columns)) ++ tail)
  | _, .none => .none

/-- `load_data_from_binary`.  /repo/sources/core/data_storage.cpp 351-403. -/
def loadBinary (input : Str) (h : SMap) : Option (Store Dbl) :=
  if h.get "FORMAT".toList ≠ "binary".toList then .none
  else if h.getInt "VERSION".toList 0 ≠ 0 then .none
  else if h.get "PRECISION".toList ≠ "ieee754-double".toList then .none
  else if h.get "ENDIAN".toList ≠ "little".toList then .none
  else
    match h.getPairInt "DIM".toList with
    | .none => .none
    | some (dx, dy) =>
      if dx ≤ 0 ∨ dy ≤ 0 then .none
      else
        let kind := kindFromNumber (h.getInt "VS".toList 0)
        let count := h.getInt "SAMPLE_COUNT".toList 0
        if count < 0 then .none
        else
          let ciRows := match kind with
            | .asymmetrical => 2
            | .symmetrical => 1
            | .none => 0
          let rows := dx.toNat + dy.toNat + ciRows * dy.toNat
          let n := count.toNat * rows
          if input.length < 8 * n then .none
          else some
            { dimX := dx.toNat, dimY := dy.toNat
              input := parseInput (String.ofList (h.get "PARAM_IN".toList))
              output := parseOutput (String.ofList (h.get "PARAM_OUT".toList))
              size := count.toNat, raw := bytesArray n input, kind := kind }

/-- `plugins_manager::load_data` for the default data type and a binary file; `none`
    also when the file is not declared binary (see `loadText`).
    /repo/sources/core/plugins_manager.cpp 481-495. -/
def loadDataBinary (file : Str) : Option (Store Dbl) :=
  let (h, rest) := parseHeader file
  if h.get "FORMAT".toList = "binary".toList then loadBinary rest h else .none

end Alta
