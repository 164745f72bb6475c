import Verif.Model.Quadprog
import Verif.Spec.Rational
/-
What the fitters of rational functions should do: pass through the vertical segments.
-/
namespace Alta
noncomputable section
open Finset

/-- The linear constraint `CI^T x + ci >= 0`. -/
def Constraint.Holds (c : Constraint) (x : List ℝ) : Prop :=
  0 ≤ (∑ j ∈ range c.1.length, arr c.1 j * arr x j) + c.2

/-- What QuadProg++ promises: the solution has the right size and satisfies the constraints. -/
def Solver.Sound (s : Solver) : Prop :=
  ∀ n prog x, (∀ c ∈ prog, c.1.length = n) → s n prog = some x →
    x.length = n ∧ ∀ c ∈ prog, Constraint.Holds c x

/-- and the cost is infinite only when no vector satisfies the constraints. -/
def Solver.Complete (s : Solver) : Prop :=
  ∀ n prog, (∀ c ∈ prog, c.1.length = n) →
    (∃ x : List ℝ, x.length = n ∧ ∀ c ∈ prog, Constraint.Holds c x) → (s n prog).isSome

/-- The value `v` lies in the vertical segment of channel `ny` of the data point number `i`, whose
    abscissa is `x`. -/
def InSegment (d : Store ℝ) (i ny : ℕ) (x : List ℝ) (v : ℝ) : Prop :=
  ∃ yl yu, d.getSegment i = some (x, yl, yu) ∧ arr yl ny ≤ v ∧ v ≤ arr yu ny

/-- Some rational function of the given size, on the domain [lo, hi], whose denominator keeps the
    same sign on the data, passes strictly inside all the vertical segments of a channel. -/
def Fittable (d : Store ℝ) (lo hi : List ℝ) (np nq ny : ℕ) : Prop :=
  ∃ a b : List ℝ, a.length = np ∧ b.length = nq ∧
    ((∀ i x yl yu, d.getSegment i = some (x, yl, yu) → 0 < polynomial d.dimX lo hi b x) ∨
     (∀ i x yl yu, d.getSegment i = some (x, yl, yu) → polynomial d.dimX lo hi b x < 0)) ∧
    ∀ i x yl yu, d.getSegment i = some (x, yl, yu) →
      arr yl ny < polynomial d.dimX lo hi a x / polynomial d.dimX lo hi b x ∧
      polynomial d.dimX lo hi a x / polynomial d.dimX lo hi b x < arr yu ny

end
end Alta
