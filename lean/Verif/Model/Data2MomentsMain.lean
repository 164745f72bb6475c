import Verif.Model.Moments
import Verif.Model.Astm
import Verif.Model.Brdf2GnuplotMain
/-
Model of the program `data2moments`, from its options to the file that it writes.

Modelled: /repo/sources/softs/data2moments/main.cpp 45-356, /repo/sources/core/plugins_manager.cpp 476-529 (`load_data`), the
template `arguments::get_vec<int>` (/repo/sources/core/args.h 277-311), /repo/sources/core/common.cpp 40-50 (text of a vector).

Simplifications: those of `Model/Moments` and `Model/Brdf2GnuplotMain` (the text of a quotient by zero); `none` is the end of
the program by an exception, an assertion or a read out of a vector, the output file being absent, empty or unfinished; it is
also the result given here when a number of the options is negative or missing (the code then reads a variable that is not
initialised, or counts the samples with negative numbers).  An exception of the stream that is thrown out of `load_data` is
caught, and gives the code 1.
-/
namespace Alta
noncomputable section

/-- A data object: `vertical_segment` and its derived classes, or another class. -/
inductive MomentsInput where
  | segment
  | other (d : Interpolant)

/-- `sstream >> v` for an `int`, on the first word of a string: nothing is read of an empty string, a number that is too
    large is replaced by the nearest `int`.  /repo/sources/core/args.h 301-303. -/
def wordInt (w : Str) : Option ℤ :=
  if w = [] then none
  else some (max (-2 ^ 31) (min (2 ^ 31 - 1) (atoi w)))

/-- `arguments::get_vec<int>`.  /repo/sources/core/args.h 280-311. -/
def SMap.getVecInts (m : SMap) (k : Str) : List (Option ℤ) := (m.getVecWords k).map wordInt

/-- A vector of the options, in natural numbers. -/
def naturals (l : List (Option ℤ)) : Option (List ℕ) :=
  l.mapM fun z => z.bind fun z => if 0 ≤ z then some z.toNat else none

/-- The option `samples` or `dim`: the inner `none` is the default value.
    /repo/sources/softs/data2moments/main.cpp 140-164. -/
def momentsOption (args : SMap) (k : Str) : Option (Option (List ℕ)) :=
  if args.isDefined k then (naturals (args.getVecInts k)).map some else some none

/-- `load_data`; the inner `none` is a null pointer.  /repo/sources/core/plugins_manager.cpp 476-529. -/
def loadMomentsInput (dir : Str) (env : Option Str) (fs : Str → Option (Symbols (Str → SMap → Option MomentsInput)))
    (type : Str) (input : Str) (args : SMap) : Option (Option MomentsInput) :=
  if type = [] ∨ type = "vertical_segment".toList then
    let (h, rest) := parseHeader input
    if h.get "FORMAT".toList = "binary".toList then (loadBinary rest h).map fun _ => some .segment
    else (loadText rest h args).map fun _ => some .segment
  else
    match openLibrary dir env fs type "load_data".toList with
    | some (some load) => (load input args).map some
    | some none => some none
    | none => none

/-- `out << v` for a vector whose numbers have these texts.  /repo/sources/core/common.cpp 40-50. -/
def vecCells (cells : List Str) : Str :=
  '[' :: ((List.range cells.length).flatMap fun i =>
    cells.getD i [] ++ if i ≠ cells.length - 1 then ", ".toList else []) ++ [']']

/-- The line of a moment that is divided by the moment of order 0.
    /repo/sources/softs/data2moments/main.cpp 273-284 and 330-338. -/
def momentQuotientLine (fmt : ℝ → Decimal) (name : String) (f : Moments → ℝ) (sums : List Moments) : Str :=
  name.toList ++ " = ".toList ++ vecCells (sums.map fun m => quotientText fmt (f m) m.m0) ++ "\n".toList

/-- The content of the file of `--output`, from the sums.  /repo/sources/softs/data2moments/main.cpp 329-338. -/
def momentsFile (fmt : ℝ → Decimal) (sums : List Moments) : Str :=
  "\\mu_0 = ".toList ++ vecCells (sums.map fun m => (fmt m.m0).text) ++ "\n".toList ++
  momentQuotientLine fmt "\\mu_x" Moments.mx sums ++
  momentQuotientLine fmt "\\mu_y" Moments.my sums ++
  momentQuotientLine fmt "\\mu_{xx}" Moments.mxx sums ++
  momentQuotientLine fmt "\\mu_{xy}" Moments.mxy sums ++
  momentQuotientLine fmt "\\mu_{yy}" Moments.myy sums ++
  momentQuotientLine fmt "\\mu_{xxx}" Moments.mxxx sums ++
  momentQuotientLine fmt "\\mu_{xxy}" Moments.mxxy sums ++
  momentQuotientLine fmt "\\mu_{xyy}" Moments.mxyy sums ++
  momentQuotientLine fmt "\\mu_{yyy}" Moments.myyy sums

/-- The end of `main`, once the data are there: the file is created, then the moments are computed; the errors of the
    output are not looked at.  /repo/sources/softs/data2moments/main.cpp 90-356. -/
def data2momentsWrite (fmt : ℝ → Decimal) (writable : Str → Bool) (args : SMap) : Option MomentsInput → Option (ℕ × Option Str)
  | none => some (1, if writable (args.get "output".toList) then some [] else none)
  | some .segment => some (1, none)
  | some (.other d) =>
    (momentsOption args "samples".toList).bind fun samples => (momentsOption args "dim".toList).bind fun dim =>
      (data2momentsSums d samples dim).map fun sums =>
        (0, if writable (args.get "output".toList) then some (momentsFile fmt sums) else none)

/-- `main`: the exit code, and the content of the file of `--output` when it is written.
    /repo/sources/softs/data2moments/main.cpp 45-356. -/
def data2momentsMain (fmt : ℝ → Decimal) (dir : Str) (env : Option Str)
    (fs : Str → Option (Symbols (Str → SMap → Option MomentsInput))) (files : Str → Option Str) (writable : Str → Bool)
    (args : SMap) : Option (ℕ × Option Str) :=
  if args.isDefined "help".toList then some (0, none)
  else if args.isDefined "input".toList = false then some (1, none)
  else if args.isDefined "output".toList = false then some (1, none)
  else if args.isDefined "data".toList = false then some (1, none)
  else
    match files (args.get "input".toList) with
    | none => some (1, none)
    | some content =>
      (loadMomentsInput dir env fs (args.get "data".toList) content
        (args.update "filename".toList (args.get "input".toList))).bind (data2momentsWrite fmt writable args)

/-- An object of the class `MERL`, with its domain.  /repo/sources/plugins/data_io/merl.cpp 86-106, 131-188. -/
def merlInterpolant (brdf : List ℝ) : Interpolant :=
  ⟨3, 3, (List.range merlSize).map fun i => (merlGet brdf i).getD [], [0, 0, 0],
    [0.5 * Real.pi, 0.5 * Real.pi, 2 * Real.pi], merlValue brdf⟩

/-- `load_data` of the plugin of the MERL files.  /repo/sources/plugins/data_io/merl.cpp 451-462. -/
def merlMoments (val : Dbl → ℝ) (file : Str) (_args : SMap) : Option MomentsInput :=
  (merlLoad file).map fun t => .other (merlInterpolant (t.map val))

end
end Alta
