import Verif.Model.RationalFit
import Verif.Spec.Rational
/-
What the fitters of rational functions by linear algebra should find.
-/
namespace Alta
noncomputable section
open Finset

/-- Sample number `i`: its abscissa, then its values. -/
def Store.point (d : Store ℝ) (i : ℕ) : List ℝ := (d.get i).getD []

/-- The value of sample number `i` in channel `ny`. -/
def Store.ordinate (d : Store ℝ) (i ny : ℕ) : ℝ := arr (d.point i) (d.dimX + ny)

/-- The sum over the samples of `(p(x) - y q(x))²`, for the polynomials with coefficients `a` and `b`. -/
def linearError (d : Store ℝ) (lo hi : List ℝ) (ny : ℕ) (a b : List ℝ) : ℝ :=
  ∑ i ∈ range d.size, (polynomial d.dimX lo hi a (d.point i) - d.ordinate i ny * polynomial d.dimX lo hi b (d.point i)) ^ 2

/-- The sum over the samples of `(p(x)/q(x) - y)²`. -/
def squaredError (d : Store ℝ) (lo hi : List ℝ) (ny : ℕ) (a b : List ℝ) : ℝ :=
  ∑ i ∈ range d.size, (polynomial d.dimX lo hi a (d.point i) / polynomial d.dimX lo hi b (d.point i) - d.ordinate i ny) ^ 2

/-- The sum over the samples of `(y² q(x) - y p(x))²`. -/
def weightedError (d : Store ℝ) (lo hi : List ℝ) (ny : ℕ) (a b : List ℝ) : ℝ :=
  ∑ i ∈ range d.size, (d.ordinate i ny ^ 2 * polynomial d.dimX lo hi b (d.point i) -
    d.ordinate i ny * polynomial d.dimX lo hi a (d.point i)) ^ 2

/-- The sum of the squares of the coefficients. -/
def coefficientNorm (a b : List ℝ) : ℝ := (∑ j ∈ range a.length, arr a j ^ 2) + ∑ j ∈ range b.length, arr b j ^ 2

/-- Channel `m` of the function is the quotient of the polynomials with coefficients `a` and `b`, on the domain
    [lo, hi] (both of them divided by the same number). -/
def RatFn.IsQuotient (f : RatFn) (lo hi : List ℝ) (m : ℕ) (a b : List ℝ) : Prop :=
  ∃ r c, f.rs[m]? = some (some r) ∧ c ≠ 0 ∧
    ∀ x, r.parts x = some (polynomial f.dimX lo hi a x / c, polynomial f.dimX lo hi b x / c)

/-- What Eigen promises for a symmetric matrix when it succeeds: as many eigenvectors as the size, of length 1 and
    orthogonal to each other. -/
def EigenSystem.Sound (s : EigenSystem) : Prop :=
  ∀ n M l, (∀ i j, M i j = M j i) → s n M = some l →
    l.length = n ∧ (∀ e ∈ l, e.2.length = n ∧ ∀ i < n, ∑ j ∈ range n, M i j * arr e.2 j = e.1 * arr e.2 i) ∧
    ∀ (k k' : ℕ) (e e' : ℝ × List ℝ), l[k]? = some e → l[k']? = some e' →
      ∑ j ∈ range n, arr e.2 j * arr e'.2 j = if k = k' then 1 else 0

/-- What Eigen promises for a least squares problem: no other vector has a smaller residual. -/
def LeastSquares.Sound (s : LeastSquares) : Prop :=
  ∀ n rows rhs, (∀ c ∈ rows, c.length = n) → rows.length = rhs.length → (s n rows rhs).length = n ∧
    ∀ z : List ℝ, z.length = n →
      ∑ i ∈ range rows.length, (rowDot (rows.getD i []) (s n rows rhs) - arr rhs i) ^ 2 ≤
        ∑ i ∈ range rows.length, (rowDot (rows.getD i []) z - arr rhs i) ^ 2

end
end Alta
