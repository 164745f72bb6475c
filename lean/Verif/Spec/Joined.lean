import Verif.Model.TextLoad
/-
C94: text files of data that are joined, cut between two lines, or whose lines are put in another order.
-/
namespace Alta
noncomputable section

/-- The text made of the lines, each with its end of line. -/
def textOfLines (ls : List Str) : Str := ls.flatMap fun l => l ++ ['\n']

/-- The samples of a data set in order: the point with its values, and the point with its lower and upper bounds. -/
def Segments.samples (d : Segments) : List (Option (List ℝ) × Option (List ℝ × List ℝ × List ℝ)) :=
  (List.range d.store.size).map fun i => (d.store.get i, d.store.getSegment i)

/-- The same parametrization and kind of intervals. -/
def SameLayout (d e : Segments) : Prop :=
  d.store.dimX = e.store.dimX ∧ d.store.dimY = e.store.dimY ∧ d.store.input = e.store.input ∧
    d.store.output = e.store.output ∧ d.store.kind = e.store.kind

end
end Alta
