import Verif.Model.Brdf2Gnuplot
import Verif.Model.Brdf2DataMain
/-
Model of the program `brdf2gnuplot`, from its options to the file that it writes.

Modelled: /repo/sources/softs/brdf2gnuplot/main.cpp 30-224, /repo/sources/core/plugins_manager.cpp 178-231 (`load_function`),
476-529 (`load_data`).

Simplifications: those of `Model/Brdf2Gnuplot` and `Model/Brdf2Brdf` (`loadAny`); the quotient by a value of the data that is
zero has its text here, but for the sign of a zero (`-nan` is the text of the invalid operation on the processors of the x86
family); `--inc-angle` is not rounded to `float`; `none` is the end of the program by an exception or by a read out of a
vector, the output file being left empty or unfinished, or out of `load_data` (an exception of the stream that is thrown there
is caught, and gives the code 1).
-/
namespace Alta
noncomputable section

/-- `file << x / v` -/
def quotientText (fmt : ℝ → Decimal) (x v : ℝ) : Str :=
  if v ≠ 0 then (fmt (x / v)).text
  else if x = 0 then "-nan".toList
  else if 0 < x then "inf".toList else "-inf".toList

/-- A line: a tabulation after each of the cells, and `std::endl`.
    /repo/sources/softs/brdf2gnuplot/main.cpp 147-173, 201-203 and 217-219. -/
def tabLine (cells : List Str) : Str := (cells.flatMap fun c => c ++ ['\t']) ++ ['\n']

/-- The text of the line of a sample; for the linear plot the first cell is the `int` of the loop.
    /repo/sources/softs/brdf2gnuplot/main.cpp 119-174. -/
def gnuplotLine (fmt : ℝ → Decimal) (g : Evaluable) (d : Data) (kind : PlotKind) (cos : Bool) (i : ℕ) (v : List ℝ) : Option Str :=
  if kind = .linear then
    (plotLine g d .error cos i v).map fun l => tabLine (showNat i ::
      (List.range d.dimY).map fun u => quotientText fmt (arr l (d.dimX + u)) (arr v (d.dimX + u)))
  else (plotLine g d kind cos i v).map fun l => tabLine (l.map fun x => (fmt x).text)

/-- The lines of the file for the samples of a data set, after the two distances.
    /repo/sources/softs/brdf2gnuplot/main.cpp 95-174. -/
def gnuplotData (fmt : ℝ → Decimal) (g : Evaluable) (d : Data) (kind : PlotKind) (cos : Bool) : Option Str :=
  (l2Distance g d).bind fun _ => (linfDistance g d).bind fun _ =>
    (d.rows.zipIdx.mapM fun p => gnuplotLine fmt g d kind cos p.2 p.1).map List.flatten

/-- The lines of the polar plot.  /repo/sources/softs/brdf2gnuplot/main.cpp 184-220. -/
def gnuplotPolar (fmt : ℝ → Decimal) (g : Evaluable) (inc : ℝ) (samples : ℤ) : Option Str :=
  (polarPlot g inc samples).map fun lines => lines.flatMap fun l => tabLine (l.map fun x => (fmt x).text)

/-- `std::ofstream`: the errors of the stream are not looked at, a file that cannot be opened is not written.
    /repo/sources/softs/brdf2gnuplot/main.cpp 92, 176, 181 and 221. -/
def gnuplotOutput (writable : Str → Bool) (args : SMap) (text : Str) : ℕ × Option Str :=
  (0, if writable (args.get "output".toList) then some text else none)

/-- The end of `main`, once the function is there; a null pointer to the data is dereferenced by the distances.
    /repo/sources/softs/brdf2gnuplot/main.cpp 74-224. -/
def gnuplotWrite (val : Dbl → ℝ) (fmt : ℝ → Decimal) (dir : Str) (env : Option Str)
    (fs : Str → Option (Symbols (Str → SMap → Option DataObj))) (files : Str → Option Str) (writable : Str → Bool)
    (args : SMap) (g : Evaluable) : Option (ℕ × Option Str) :=
  if args.isDefined "data".toList = true ∨ args.isDefined "data-file".toList = true then
    match files (args.get "data-file".toList) with
    | none => some (1, none)
    | some content =>
      match loadDataStream val dir env fs (args.get "data".toList) content
          (args.update "filename".toList (args.get "data-file".toList)) with
      | none => none
      | some none => none
      | some (some d) =>
        (gnuplotData fmt g d.toData (plotKind (args.isDefined "error".toList) (args.isDefined "linear_error".toList))
          (args.isDefined "cos-plot".toList)).map (gnuplotOutput writable args)
  else if args.isDefined "polar-plot".toList = true then
    (gnuplotPolar fmt g ((args.getFloat "inc-angle".toList 0 : ℚ) : ℝ) (args.getInt "samples".toList 100)).map
      (gnuplotOutput writable args)
  else some (0, none)

/-- `main`: the exit code, and the content of the file of `--output` when it is written.
    /repo/sources/softs/brdf2gnuplot/main.cpp 30-224. -/
def brdf2gnuplotMain (val : Dbl → ℝ) (junk : ℝ) (fmt : ℝ → Decimal) (dir : Str) (env : Option Str)
    (ff : Str → Option (Symbols (Provider LobeObj))) (fs : Str → Option (Symbols (Str → SMap → Option DataObj)))
    (files : Str → Option Str) (writable : Str → Bool) (args : SMap) : Option (ℕ × Option Str) :=
  if args.isDefined "help".toList then some (0, none)
  else if args.isDefined "input".toList = false then some (1, none)
  else if args.isDefined "output".toList = false then some (1, none)
  else
    match (files (args.get "input".toList)).map (loadAny junk dir env ff) with
    | none => some (1, none)
    | some none => none
    | some (some none) => some (1, none)
    | some (some (some f)) => gnuplotWrite val fmt dir env fs files writable args f.evaluable

end
end Alta
