import Verif.Model.Data2DataMain
import Verif.Props.ParamNames
/-
What the program `data2data` is expected to write.
-/
namespace Alta
noncomputable section

/-- Every sample has its coordinates and its values. -/
def Data.Sampled (d : Data) : Prop := ∀ x ∈ d.rows, x.length = d.dimX + d.dimY

/-- The parametrization asked for: the one named by `--param`, or that of the input. -/
def wantedParam (args : SMap) (din : Data) : Input :=
  if parseInput (String.ofList (args.get "param".toList)) = .UNKNOWN_INPUT then din.input
  else parseInput (String.ofList (args.get "param".toList))

/-- The sample `y` of the output for the sample `x` of the input: its coordinates converted and its values, unless the
    directions are below the surface: then zeros, but with `--all-values`. -/
def ConvertedSample (args : SMap) (din : Data) (x y : List ℝ) : Prop :=
  ∃ t above, convertInput (arr x) din.input (wantedParam args din) = some t ∧
    isAboveHemisphere (arr t) (wantedParam args din) = some above ∧
    (above ∨ args.isDefined "all-values".toList = true → y = t ++ x.drop din.dimX) ∧
    (¬ above → args.isDefined "all-values".toList = false →
      y = List.replicate ((inputDim (wantedParam args din)).toNat + din.dimY) 0)

/-- The conversion of a data set, sample by sample. -/
structure ConvertedData (args : SMap) (din d : Data) : Prop where
  input : d.input = wantedParam args din
  output : d.output = din.output
  dimX : d.dimX = (inputDim (wantedParam args din)).toNat
  dimY : d.dimY = din.dimY
  rows : List.Forall₂ (ConvertedSample args din) din.rows d.rows

/-- The options of a run that converts. -/
structure AsksData (args : SMap) : Prop where
  noHelp : args.isDefined "help".toList = false ∧ args.isDefined "help-params".toList = false
  input : args.isDefined "input".toList = true
  output : args.isDefined "output".toList = true

/-- The output is one of ALTA's text files. -/
def TextOutput (args : SMap) : Prop :=
  args.get "out-data".toList = [] ∨ args.get "out-data".toList = "vertical_segment".toList

/-- The output is one of ALTA's binary files. -/
def BinaryOutput (args : SMap) : Prop := args.get "out-data".toList = "alta-binary".toList

end
end Alta
