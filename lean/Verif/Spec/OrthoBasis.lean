import Verif.Model.OrthoBasis
import Verif.Spec.Rational
import Mathlib.RingTheory.Polynomial.Chebyshev
import Mathlib.RingTheory.Polynomial.ShiftedLegendre
/-
The classical polynomials, from Mathlib, and rational functions in a basis made of products of
them.
-/
namespace Alta
noncomputable section
open Finset

/-- The Chebyshev polynomial of the first kind. -/
def chebyshevT (n : ℕ) (x : ℝ) : ℝ := (Polynomial.Chebyshev.T ℝ n).eval x

/-- The Legendre polynomial on [-1, 1], from the polynomial of Mathlib on [0, 1]. -/
def legendreP (n : ℕ) (x : ℝ) : ℝ := Polynomial.aeval ((1 - x) / 2) (Polynomial.shiftedLegendre n)

/-- What each plugin should use in one variable. -/
def RatKind.classical : RatKind → ℕ → ℝ → ℝ
  | .power => fun n x => x ^ n
  | .chebychev => chebyshevT
  | .legendre => legendreP
  | .cosine => legendreP

/-- The basis function `i` of `d` variables. -/
def tensorFn (fn : ℕ → ℝ → ℝ) (d : ℕ) (lo hi : List ℝ) (i : ℕ) (x : List ℝ) : ℝ :=
  ∏ k ∈ range d, fn (((index2degree d i).getD []).getD k 0) (unitCoord lo hi x k)

/-- The function with the given coefficients in that basis. -/
def combination (fn : ℕ → ℝ → ℝ) (d : ℕ) (lo hi : List ℝ) (a x : List ℝ) : ℝ :=
  ∑ i ∈ range a.length, arr a i * tensorFn fn d lo hi i x

end
end Alta
