import Verif.Model.Brdf2Gnuplot
import Verif.Spec.Brdf2Data
import Verif.Spec.Geometry
/-
What the plots of a function must contain.
-/
namespace Alta
noncomputable section

/-- The line of a sample, when the values of the function are weighted by `w`: the abscissa and the values, the
    abscissa and the differences, or the index and the relative differences. -/
def plotted (g : Evaluable) (d : Data) (kind : PlotKind) (w : ℝ) (i : ℕ) (row : List ℝ) : List ℝ :=
  match kind with
  | .value => row.take d.dimX ++ (List.range d.dimY).map fun u => w * arr (g.valueFor d row) u
  | .error => row.take d.dimX ++ (List.range d.dimY).map fun u =>
      arr row (d.dimX + u) - w * arr (g.valueFor d row) u
  | .linear => (i : ℝ) :: (List.range d.dimY).map fun u =>
      (arr row (d.dimX + u) - w * arr (g.valueFor d row) u) / arr row (d.dimX + u)

/-- The pair of directions of a sample. -/
def Data.directions (d : Data) (row : List ℝ) (c : Cart) : Prop :=
  convertInput (arr row) d.input .CARTESIAN = some c.toList

/-- The value of a function for a pair of directions. -/
def Evaluable.reflect (g : Evaluable) (c : Cart) : Option (List ℝ) :=
  (convertInput (arr c.toList) .CARTESIAN g.par.input).bind g.value

/-- In the polar plot the light is in the half plane of azimuth π, at the elevation `inc`; the view is in the plane
    of incidence at the signed elevation `t`, on the side of the light when it is negative. -/
def polarDirections (inc t : ℝ) : Cart := ⟨⟨Real.sin t, 0, Real.cos t⟩, ⟨-Real.sin inc, 0, Real.cos inc⟩⟩

/-- The signed elevations of the polar plot, `n` on each side. -/
def polarAngles (n : ℕ) : List ℝ :=
  ((List.range n).map fun (i : ℕ) => -(Real.pi / 2 * ((i : ℝ) / n))) ++
    (List.range n).map fun (i : ℕ) => Real.pi / 2 * ((i : ℝ) / n)

end
end Alta
