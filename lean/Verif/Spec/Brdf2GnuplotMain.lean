import Verif.Model.Brdf2GnuplotMain
import Verif.Spec.Brdf2Gnuplot
import Verif.Spec.Brdf2DataMain
import Verif.Spec.Data2Stats
/-
What the program `brdf2gnuplot` is expected to write.
-/
namespace Alta
noncomputable section

/-- The options of a run that plots for the samples of a data file. -/
structure AsksPlot (args : SMap) (writable : Str → Bool) : Prop where
  noHelp : args.isDefined "help".toList = false
  input : args.isDefined "input".toList = true
  output : args.isDefined "output".toList = true ∧ writable (args.get "output".toList) = true
  file : args.isDefined "data-file".toList = true

/-- The options of a run that makes a polar plot. -/
structure AsksPolar (args : SMap) (writable : Str → Bool) : Prop where
  noHelp : args.isDefined "help".toList = false
  input : args.isDefined "input".toList = true
  output : args.isDefined "output".toList = true ∧ writable (args.get "output".toList) = true
  noData : args.isDefined "data".toList = false ∧ args.isDefined "data-file".toList = false
  polar : args.isDefined "polar-plot".toList = true

/-- The parts of a text that are ended by a character. -/
def endedBy (c : Char) (s : Str) : Option (List Str) :=
  if (cutAt c s).getLast? = some [] then some (cutAt c s).dropLast else none

/-- The numbers of a table: every line is ended by an end of line, every cell by a tabulation. -/
def readTable (file : Str) : Option (List (List ℝ)) :=
  (endedBy '\n' file).bind fun lines => lines.mapM fun l => (endedBy '\t' l).bind fun cells => cells.mapM wholeNumber

/-- The numbers of a table, as they are printed. -/
def printedTable (fmt : ℝ → Decimal) (t : List (List ℝ)) : List (List ℝ) := t.map fun l => l.map fun x => ((fmt x).value : ℝ)

end
end Alta
