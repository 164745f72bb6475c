import Verif.Model.Rational
import Mathlib.Algebra.BigOperators.Group.Finset.Basic
/-
What a rational function should compute, stated on the coefficients and on the domain.
-/
namespace Alta
noncomputable section
open Finset

/-- The abscissa number `k`, mapped affinely from the domain to [-1, 1]. -/
def unitCoord (lo hi x : List ℝ) (k : ℕ) : ℝ := 2 * (arr x k - arr lo k) / (arr hi k - arr lo k) - 1

/-- The product of the powers of the mapped abscissae. -/
def monomial (d : ℕ) (lo hi : List ℝ) (e : List ℕ) (x : List ℝ) : ℝ :=
  ∏ k ∈ range d, unitCoord lo hi x k ^ e.getD k 0

/-- The basis function number `i` of `d` variables: the monomial with the exponents of the
    enumeration (see `basis_enumerates`). -/
def basisFn (d : ℕ) (lo hi : List ℝ) (i : ℕ) (x : List ℝ) : ℝ :=
  monomial d lo hi ((index2degree d i).getD []) x

/-- The polynomial with the given coefficients in that basis. -/
def polynomial (d : ℕ) (lo hi : List ℝ) (a x : List ℝ) : ℝ :=
  ∑ i ∈ range a.length, arr a i * basisFn d lo hi i x

/-- The coefficients of a function have the exponents of the enumeration. -/
def Rat1.Standard (r : Rat1) : Prop :=
  1 ≤ r.dimX ∧ (∀ i c, r.p[i]? = some c → c.deg = (index2degree r.dimX i).getD []) ∧
    (∀ i c, r.q[i]? = some c → c.deg = (index2degree r.dimX i).getD [])

end
end Alta
