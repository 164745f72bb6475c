import Verif.Model.Fit2Stat
import Verif.Spec.Distance
import Verif.Props.ParamNames
/-
What the statistics of a fit must be, stated on the differences `Evaluable.error` (C62) between the samples and
the function.
-/
namespace Alta
noncomputable section

/-- The metrics `m` are those of the differences `e row c`, channel by channel. -/
structure Metrics.Of (m : Metrics) (d : Data) (e : List ℝ → ℕ → ℝ) : Prop where
  sizes : m.L1.length = d.dimY ∧ m.L2.length = d.dimY ∧ m.L3.length = d.dimY ∧ m.LInf.length = d.dimY ∧
    m.mse.length = d.dimY ∧ m.rmse.length = d.dimY
  L1 : ∀ c < d.dimY, arr m.L1 c = (d.rows.map fun row => |e row c|).sum
  L2 : ∀ c < d.dimY, 0 ≤ arr m.L2 c ∧ arr m.L2 c ^ 2 = (d.rows.map fun row => e row c ^ 2).sum
  L3 : ∀ c < d.dimY, 0 ≤ arr m.L3 c ∧ arr m.L3 c ^ 3 = (d.rows.map fun row => |e row c| ^ 3).sum
  bound : ∀ c < d.dimY, ∀ row ∈ d.rows, |e row c| ≤ arr m.LInf c
  reached : ∀ c < d.dimY, d.rows ≠ [] → ∃ row ∈ d.rows, arr m.LInf c = |e row c|
  mse : ∀ c < d.dimY, arr m.mse c = meanOver d fun row => e row c ^ 2
  rmse : ∀ c < d.dimY, arr m.rmse c = Real.sqrt (meanOver d fun row => e row c ^ 2)

/-- The mean of the squared differences weighted by `w`, and its square root, channel by channel. -/
def WeightedOf (r : List ℝ × List ℝ) (d : Data) (e : List ℝ → ℕ → ℝ) (w : List ℝ → ℝ) : Prop :=
  r.1.length = d.dimY ∧ r.2.length = d.dimY ∧ ∀ c < d.dimY,
    arr r.1 c = meanOver d (fun row => (w row * e row c) ^ 2) ∧
    arr r.2 c = Real.sqrt (meanOver d fun row => (w row * e row c) ^ 2)

/-- The data and the function have the same values (no conversion of the outputs), and the same abscissae or
    abscissae that can be converted. -/
structure StatReady (g : Evaluable) (d : Data) : Prop where
  ready : DistanceReady g d
  output : d.output = g.par.output
  inputs : (d.input = g.par.input ∧ d.dimX = g.par.dimX) ∨
    (d.input ≠ g.par.input ∧ g.par.input ≠ .UNKNOWN_INPUT ∧ (inputDim d.input).toNat ≤ d.dimX ∧ d.input.Named)

/-- The two directions of a sample. -/
def Evaluable.directions (g : Evaluable) (d : Data) (row : List ℝ) : Cart :=
  Cart.ofFun (arr ((g.abscissa d row).getD []))

end
end Alta
