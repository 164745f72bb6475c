import Verif.Model.Fit2StatMain
import Verif.Spec.Fit2Stat
import Verif.Spec.Data2Stats
/-
What the program `fit2stat` is expected to write.
-/
namespace Alta
noncomputable section

/-- The options of a run that asks for a file. -/
structure AsksFitStats (args : SMap) (writable : Str → Bool) : Prop where
  noHelp : args.isDefined "help".toList = false ∧ args.isDefined "h".toList = false
  brdf : args.isDefined "brdf".toList = true
  input : args.isDefined "input".toList = true
  output : args.isDefined "output".toList = true ∧ args.get "output".toList ≠ [] ∧
    writable (args.get "output".toList) = true
  /-- the arguments have no end of line -/
  oneLine : '\n' ∉ args.getCmd

/-- A text without the spaces at its end. -/
def withoutLastSpaces (s : Str) : Str := (s.reverse.dropWhile (· = ' ')).reverse

/-- A line `NAME :[numbers]`; the name is all that is before the colon, without the spaces at its end; lines that start with `#`
    are comments. -/
def fitStatLine (l : Str) : Option (Str × List ℝ) :=
  if l.head? = some '#' then none
  else match cutAt ':' l with
    | [name, v] => (readVector v).map fun x => (withoutLastSpaces name, x)
    | _ => none

/-- The statistics of a file: a name and a vector for each line. -/
def readFitStats (file : Str) : List (Str × List ℝ) := (cutAt '\n' file).filterMap fitStatLine

/-- The mean over the samples of the squares of the weighted errors, channel by channel, and its root. -/
def weightedStats (d : Data) (e : List ℝ → ℕ → ℝ) (w : List ℝ → ℝ) (mse rmse : Str) : List (Str × List ℝ) :=
  [(mse, (List.range d.dimY).map fun c => meanOver d fun row => (w row * e row c) ^ 2),
   (rmse, (List.range d.dimY).map fun c => √ (meanOver d fun row => (w row * e row c) ^ 2))]

/-- What the file should have: the statistics of the errors, without weight, weighted by `w` and by `w'`. -/
def fitStatsOf (d : Data) (e : List ℝ → ℕ → ℝ) (w w' : List ℝ → ℝ) : List (Str × List ℝ) :=
  statsOf d.dimY d.rows.length (fun c => d.rows.map fun row => e row c) ++
  weightedStats d e w "MSE * cos(theta_light)".toList "RMSE * cos(theta_light)".toList ++
  weightedStats d e w' "MSE * cos(theta_light) * cos(theta_view)".toList "RMSE * cos(theta_light) cos(theta_view)".toList

/-- The data can be compared with the function by `fit2stat`: the distances are defined, and either the values have the
    same kind and the abscissae are those of the function or can be converted, or the abscissae are those of the function. -/
structure StatComparable (g : Evaluable) (d : Data) : Prop where
  ready : DistanceReady g d
  kinds : (d.input = g.par.input ∧ d.dimX = g.par.dimX) ∨
    (d.output = g.par.output ∧ d.input ≠ g.par.input ∧ g.par.input ≠ .UNKNOWN_INPUT ∧
      (inputDim d.input).toNat ≤ d.dimX ∧ d.input.Named)

end
end Alta
