import Verif.Model.Brdf2Data
import Verif.Spec.Distance
import Verif.Props.ParamNames
/-
What `brdf2data` must write.
-/
namespace Alta
noncomputable section

/-- The coordinates that a function needs are among the abscissae of the data. -/
def ReadsAbscissae (g : Evaluable) (d : Data) : Prop :=
  (g.par.input = .UNKNOWN_INPUT ∧ g.par.dimX ≤ d.dimX) ∨
  (g.par.input ≠ .UNKNOWN_INPUT ∧ d.input.Named ∧ (inputDim d.input).toNat ≤ d.dimX)

/-- The value of the function for a sample. -/
def Evaluable.valueFor (g : Evaluable) (d : Data) (row : List ℝ) : List ℝ := ((g.abscissa d row).bind g.value).getD []

/-- What replaces the values of a sample: the values of the function, or the differences with `export-diff`. -/
def exported (g : Evaluable) (d : Data) (diff : Bool) (row : List ℝ) : List ℝ :=
  if diff then (List.range d.dimY).map (g.error d row) else g.valueFor d row

/-- The data set with the same abscissae and the values `v`. -/
def Data.withValues (d : Data) (v : List ℝ → List ℝ) : Data :=
  { d with rows := d.rows.map fun row => row.take d.dimX ++ v row }

end
end Alta
