import Verif.Spec.Function
import Verif.Model.Segment
import Mathlib.Analysis.SpecialFunctions.Log.Basic
/-
What a nonlinear fitter minimises, stated on the samples.
-/
namespace Alta
noncomputable section

/-- The data set can be compared with the function: same number of channels, each sample can be expressed
    in the parametrization of the function and the function has a value there. -/
structure FitReady (f : Fn) (d : Data) : Prop where
  wf : f.WF
  channels : f.par.dimY = d.dimY
  size : ∀ row ∈ d.rows, row.length = d.dimX + d.dimY
  points : ∀ row ∈ d.rows, ∃ x, convertInput (arr row) d.input f.par.input = some x ∧ f.DefAt x

/-- The abscissa of a sample in the parametrization of the function. -/
def Data.pointFor (d : Data) (f : Fn) (row : List ℝ) : List ℝ :=
  (convertInput (arr row) d.input f.par.input).getD []

/-- The difference of the data and the function for a sample and a channel. -/
def errorOf (f : Fn) (d : Data) (row : List ℝ) (i : ℕ) : ℝ :=
  arr row (d.dimX + i) - f.valueAt (d.pointFor f row) i

/-- The sum of the squared differences, over the samples and the channels. -/
def sumSquaredErrors (f : Fn) (d : Data) : ℝ :=
  (d.rows.map fun row => ∑ i ∈ Finset.range d.dimY, errorOf f d row i ^ 2).sum

/-- The cosine of the light direction with the normal. -/
def lightCosine (d : Data) (row : List ℝ) : ℝ := arr ((convertInput (arr row) d.input .CARTESIAN).getD []) 5

/-- The factor of the function: the cosine when the fit is weighted by it, else 1. -/
def cosineWeight (d : Data) (cosine : Bool) (row : List ℝ) : ℝ := if cosine then lightCosine d row else 1

/-- The difference of the data and the function times the factor. -/
def weightedErrorOf (f : Fn) (d : Data) (cosine : Bool) (row : List ℝ) (i : ℕ) : ℝ :=
  arr row (d.dimX + i) - cosineWeight d cosine row * f.valueAt (d.pointFor f row) i

/-- The sum of the squared weighted differences, over the samples and the channels. -/
def weightedSumSquares (f : Fn) (d : Data) (cosine : Bool) : ℝ :=
  (d.rows.map fun row => ∑ i ∈ Finset.range d.dimY, weightedErrorOf f d cosine row i ^ 2).sum

/-- With the cosine, each sample can be expressed with the two directions. -/
def CosineDefined (d : Data) (cosine : Bool) : Prop :=
  cosine = true → ∀ row ∈ d.rows, ∃ c, convertInput (arr row) d.input .CARTESIAN = some c

/-- Each entry of the vector is within the bounds of the function. -/
def WithinBounds (f : Fn) (p : List ℝ) : Prop := ∀ i < f.nb, arr f.lo i ≤ arr p i ∧ arr p i ≤ arr f.hi i

/-- The function and its Jacobian depend on the first `n` entries of the abscissa only. -/
def Fn.ReadsOnly (f : Fn) (n : ℕ) : Prop :=
  ∀ x y : List ℝ, (∀ k < n, arr x k = arr y k) → f.value x = f.value y ∧ f.jac x = f.jac y

/-- What Ceres needs: with any parameters, the function depends on its `dimX` coordinates only, and the
    abscissas have this size. -/
structure CeresReady (f : Fn) (d : Data) : Prop where
  reads : ∀ p, (f.set p).ReadsOnly f.par.dimX
  dim : ∀ row ∈ d.rows, (d.pointFor f row).length = f.par.dimX

/-- The difference of the logarithms of the data and the function. -/
def logErrorOf (f : Fn) (d : Data) (row : List ℝ) (i : ℕ) : ℝ :=
  Real.log (1 + arr row (d.dimX + i)) - Real.log (1 + f.valueAt (d.pointFor f row) i)

/-- The function computes its Jacobian at the samples. -/
def JacobianAtSamples (f : Fn) (d : Data) : Prop := ∀ row ∈ d.rows, f.IsJacobianAt (d.pointFor f row)

end
end Alta
