import Verif.Model.Distance
import Verif.Spec.NonlinearFit
/-
What the distances of a function to a data set must be.
-/
namespace Alta
noncomputable section

/-- Where the function is compared with a sample: the abscissa of the sample in the parametrization of the function,
    or the first coordinates of the sample when the function has no parametrization. -/
def Evaluable.abscissa (g : Evaluable) (d : Data) (row : List ℝ) : Option (List ℝ) :=
  if g.par.input = .UNKNOWN_INPUT then some (row.take g.par.dimX) else convertInput (arr row) d.input g.par.input

/-- The difference of the data and the function, for a sample and a channel. -/
def Evaluable.error (g : Evaluable) (d : Data) (row : List ℝ) (i : ℕ) : ℝ :=
  arr row (d.dimX + i) - arr ((((g.abscissa d row).bind g.value)).getD []) i

/-- The data set can be compared with the function. -/
structure DistanceReady (g : Evaluable) (d : Data) : Prop where
  channels : g.par.dimY = d.dimY
  size : ∀ row ∈ d.rows, row.length = d.dimX + d.dimY
  points : ∀ row ∈ d.rows, ∃ x v, g.abscissa d row = some x ∧ x.length = g.par.dimX ∧ g.value x = some v ∧
    v.length = g.par.dimY

/-- The mean over the samples. -/
def meanOver (d : Data) (q : List ℝ → ℝ) : ℝ := (d.rows.map q).sum / d.rows.length

end
end Alta
