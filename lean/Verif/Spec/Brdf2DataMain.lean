import Verif.Model.Brdf2DataMain
import Verif.Spec.Data2DataMain
import Verif.Spec.Brdf2Data
/-
What the program `brdf2data` is expected to write.
-/
namespace Alta
noncomputable section

/-- The options of a run that exports on a template file. -/
structure AsksExport (args : SMap) : Prop where
  noHelp : args.isDefined "help".toList = false
  input : args.isDefined "input".toList = true
  output : args.isDefined "output".toList = true
  file : args.isDefined "data-file".toList = true

/-- The template is one of ALTA's files. -/
def AltaTemplate (args : SMap) : Prop :=
  args.get "data".toList = [] ∨ args.get "data".toList = "vertical_segment".toList

/-- The sample `y` of the output for the sample `x` of the template: its abscissa, and the value of the function there, or
    with `--export-diff` the values of the template less those of the function. -/
def ExportedSample (g : Evaluable) (args : SMap) (d : Data) (x y : List ℝ) : Prop :=
  ∃ z v, g.abscissa d x = some z ∧ g.value z = some v ∧ v.length = d.dimY ∧
    (args.isDefined "export-diff".toList = false → y = x.take d.dimX ++ v) ∧
    (args.isDefined "export-diff".toList = true → y = x.take d.dimX ++ (List.range d.dimY).map fun c => arr x (d.dimX + c) - arr v c)

/-- The data set with the exported samples. -/
structure ExportedData (g : Evaluable) (args : SMap) (d d' : Data) : Prop where
  input : d'.input = d.input
  output : d'.output = d.output
  dimX : d'.dimX = d.dimX
  dimY : d'.dimY = d.dimY
  rows : List.Forall₂ (ExportedSample g args d) d.rows d'.rows

/-- The root of the mean, over the samples, of the sum over the channels of the squares of the values. -/
def Data.rootMeanSquare (d : Data) : ℝ :=
  Real.sqrt (meanOver d fun row => ∑ c ∈ Finset.range d.dimY, arr row (d.dimX + c) ^ 2)

end
end Alta
