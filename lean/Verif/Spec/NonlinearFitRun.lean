import Verif.Model.NonlinearFitRun
import Verif.Spec.NonlinearFit
/-
What the outcome of a nonlinear fit must be, and what is expected of the external solvers.
-/
namespace Alta
noncomputable section

/-- A dialogue of a solver with a program: the calls with their answers, and the result. -/
def CallingSolver.Dialogue {Q A R : Type} : CallingSolver Q A R → List (Q × A) → R → Prop
  | .stop r, tr, r' => tr = [] ∧ r' = r
  | .call q next, tr, r' => ∃ a tr', tr = (q, a) :: tr' ∧ (next a).Dialogue tr' r'

/-- Two arrays with the same first `n` entries. -/
def SameFirst (n : ℕ) (x y : ℕ → ℝ) : Prop := ∀ i < n, x i = y i

/-- The sum of the squares of the first `m` entries. -/
def squares (m : ℕ) (y : ℕ → ℝ) : ℝ := ∑ k ∈ Finset.range m, y k ^ 2

/-- Expected of Eigen's solver: the point that it returns is one where the residuals could be computed. -/
def EigenSolver.AnswersEvaluated (solver : EigenSolver) : Prop :=
  ∀ n m start tr k x, (solver n m start).Dialogue tr (.other k, x) →
    ∃ x' y₀ c y, SameFirst n x x' ∧ (EigenQuery.residuals x' y₀, EigenAnswer.residuals c y) ∈ tr ∧ 0 ≤ c

/-- Expected of Eigen's solver: it computes the residuals of the start and those of the point that it
    returns, and their norm is not larger. -/
def EigenSolver.Descends (solver : EigenSolver) : Prop :=
  ∀ n m start tr k x, (solver n m start).Dialogue tr (.other k, x) →
    ∃ x' y₀ c y s' z₀ e z, SameFirst n x x' ∧ SameFirst n start s' ∧
      (EigenQuery.residuals x' y₀, EigenAnswer.residuals c y) ∈ tr ∧ 0 ≤ c ∧
      (EigenQuery.residuals s' z₀, EigenAnswer.residuals e z) ∈ tr ∧ 0 ≤ e ∧ squares m y ≤ squares m z

/-- Expected of Ceres: the point that it leaves in the parameter block is the start, or one where the residuals
    of some block could be computed. -/
def CeresSolver.AnswersEvaluated (solver : CeresSolver) : Prop :=
  ∀ n m start tr u x, (solver n m start).Dialogue tr (u, x) →
    SameFirst n x start ∨ ∃ q r, SameFirst n x q.x ∧ (q, some r) ∈ tr

/-- The residuals of all blocks at the point `x`. -/
def BlocksAt (n m : ℕ) (x : ℕ → ℝ) (tr : List (CeresQuery × Option (List ℝ × List ℝ))) (r : ℕ → List ℝ) : Prop :=
  ∀ i < m, ∃ q dy, q.block = i ∧ SameFirst n x q.x ∧ (q, some (r i, dy)) ∈ tr

/-- The cost of the residuals of `m` blocks (twice that of Ceres). -/
def blockCost (m : ℕ) (r : ℕ → List ℝ) : ℝ := ∑ i ∈ Finset.range m, ((r i).map (· ^ 2)).sum

/-- Expected of Ceres: the point that it leaves is the start, or one with a cost that is not larger. -/
def CeresSolver.Descends (solver : CeresSolver) : Prop :=
  ∀ n m start tr u x, (solver n m start).Dialogue tr (u, x) →
    SameFirst n x start ∨ ∃ r s, BlocksAt n m x tr r ∧ BlocksAt n m start tr s ∧ blockCost m r ≤ blockCost m s

/-- The sum of the squared differences of the logarithms, over the samples and the channels. -/
def sumSquaredLogErrors (f : Fn) (d : Data) : ℝ :=
  (d.rows.map fun row => ∑ i ∈ Finset.range d.dimY, logErrorOf f d row i ^ 2).sum

/-- Each of the first `n` entries is between the bounds. -/
def Between (n : ℕ) (lo hi x : ℕ → ℝ) : Prop := ∀ i < n, lo i ≤ x i ∧ x i ≤ hi i

/-- Expected of NLopt: a point that it returns with success is between the bounds. -/
def NloptSolver.StaysBetween (solver : NloptSolver) : Prop :=
  ∀ alg n opt lo hi c start s tr res x, solver alg n = some opt → opt lo hi c start = some s →
    s.Dialogue tr (res, x) → 0 < res → Between n lo hi x

/-- Expected of NLopt: it computes the objective at the start and at the point that it returns with success,
    where it is not larger. -/
def NloptSolver.Descends (solver : NloptSolver) : Prop :=
  ∀ alg n opt lo hi c start s tr res x, solver alg n = some opt → opt lo hi c start = some s →
    s.Dialogue tr (res, x) → 0 < res →
    ∃ q y g q' z g', SameFirst n x q.x ∧ SameFirst n start q'.x ∧ (q, (y, g)) ∈ tr ∧ (q', (z, g')) ∈ tr ∧ y ≤ z

/-- Expected of Ipopt: a solution is given to the program when it succeeds or stops after the maximal number
    of iterations, and it is between the bounds. -/
def IpoptSolver.StaysBetween (solver : IpoptSolver) : Prop :=
  ∀ n lo hi o start s tr st x, solver n lo hi o start = some s → s.Dialogue tr (st, x) →
    (st = .solveSucceeded ∨ st = .maximumIterationsExceeded) → ∃ y, x = some y ∧ Between n lo hi y

/-- Expected of Ipopt: it computes the objective at the start and at the solution, where it is not larger. -/
def IpoptSolver.Descends (solver : IpoptSolver) : Prop :=
  ∀ n lo hi o start s tr st x, solver n lo hi o start = some s → s.Dialogue tr (st, x) →
    (st = .solveSucceeded ∨ st = .maximumIterationsExceeded) →
    ∃ y, x = some y ∧ ∃ y' b s' c, SameFirst n y y' ∧ SameFirst n start s' ∧
      (IpoptQuery.objective y', IpoptAnswer.objective b) ∈ tr ∧
      (IpoptQuery.objective s', IpoptAnswer.objective c) ∈ tr ∧ b ≤ c

end
end Alta
