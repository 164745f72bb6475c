import Verif.Model.Metrics
/-
What the error metrics should be, stated on the samples.
-/
namespace Alta
noncomputable section

/-- The difference between the tested data and the sample `row` of the reference, for the channel
    `c`: the abscissa of the sample is converted to Cartesian coordinates and from there to the
    parametrization of the tested data.  A sample with both directions below the surface does not
    count. -/
def errorAt (inp : InpData) (ref : RefData) (row : List ℝ) (c : ℕ) : ℝ :=
  let cart := (convertInput (arr (row.take ref.nX)) ref.input .CARTESIAN).getD []
  let x := (convertInput (arr cart) .CARTESIAN inp.input).getD []
  if arr cart 2 < 0 ∧ arr cart 5 < 0 then 0 else arr (inp.value x) c - arr row (ref.nX + c)

/-- The metrics can be evaluated: the rows have their size, the conversions exist, and where a sample counts the
    tested data gives a vector of the size of the reference. -/
structure Comparable (inp : InpData) (ref : RefData) : Prop where
  size : ∀ row ∈ ref.rows, row.length = ref.nX + ref.nY
  toCart : ∀ row ∈ ref.rows, (convertInput (arr (row.take ref.nX)) ref.input .CARTESIAN).isSome
  answers : ∀ row ∈ ref.rows, ∀ cart, convertInput (arr (row.take ref.nX)) ref.input .CARTESIAN = some cart →
    ¬ (arr cart 2 < 0 ∧ arr cart 5 < 0) →
    ∃ x, convertInput (arr cart) .CARTESIAN inp.input = some x ∧ (inp.value x).length = ref.nY

/-- All the errors of the channel `c`. -/
def errorsOf (inp : InpData) (ref : RefData) (c : ℕ) : List ℝ := ref.rows.map fun row => errorAt inp ref row c

end
end Alta
