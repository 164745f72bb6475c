import Verif.Model.Moments
import Mathlib.Algebra.BigOperators.Group.Finset.Basic
import Mathlib.Order.Bounds.Basic
import Mathlib.Data.Real.Basic
/-
What the moments of a data set are: weighted means over the nodes of a regular grid of its domain.
-/
namespace Alta
noncomputable section

/-- The sum over all the indices `j` with `j_k < n_k`. -/
def gridSum : List ℕ → (List ℕ → ℝ) → ℝ
  | [], F => F []
  | n :: t, F => ∑ a ∈ Finset.range n, gridSum t fun j => F (a :: j)

/-- The number of nodes in each dimension: one when the domain has no extent. -/
def Interpolant.counts (d : Interpolant) (samples : List ℕ) : List ℕ :=
  (List.range d.dimX).map fun k => if arr d.lo k < arr d.hi k then samples.getD k 0 else 1

/-- A node of the grid: it divides each dimension of the domain in equal parts. -/
def Interpolant.node (d : Interpolant) (counts j : List ℕ) : List ℝ :=
  (List.range d.dimX).map fun k => arr d.lo k + (arr d.hi k - arr d.lo k) * ((j.getD k 0 : ℝ) / (counts.getD k 0 : ℝ))

/-- The volume of the domain, without the dimensions of no extent. -/
def Interpolant.volume (d : Interpolant) : ℝ :=
  ∏ k ∈ Finset.range d.dimX, if arr d.lo k < arr d.hi k then arr d.hi k - arr d.lo k else 1

/-- The sum of a function over the cells of the grid: its value at the node, times the volume of the cell. -/
def Interpolant.cells (d : Interpolant) (samples : List ℕ) (F : List ℝ → ℝ) : ℝ :=
  gridSum (d.counts samples) fun j => F (d.node (d.counts samples) j) * (d.volume / (d.counts samples).prod)

/-- The smallest value of a channel. -/
def Interpolant.Lowest (d : Interpolant) (k : ℕ) (low : ℝ) : Prop :=
  IsLeast {v | ∃ row ∈ d.rows, v = arr row (d.dimX + k)} low

/-- The value of a channel above the smallest one. -/
def Interpolant.weight (d : Interpolant) (k : ℕ) (low : ℝ) (x : List ℝ) : ℝ := arr ((d.value x).getD []) k - low

/-- The moments of the weight `w` for the sums `S`, in the dimensions `a` and `b`: its sum, and weighted means. -/
structure MomentsOf (m : Moments) (S : (List ℝ → ℝ) → ℝ) (w : List ℝ → ℝ) (a b : ℕ) : Prop where
  m0 : m.m0 = S w
  mx : m.mx = S (fun x => w x * arr x a) / S w
  my : m.my = S (fun x => w x * arr x b) / S w
  mxx : m.mxx = S (fun x => w x * arr x a ^ 2) / S w
  mxy : m.mxy = S (fun x => w x * (arr x a * arr x b)) / S w
  myy : m.myy = S (fun x => w x * arr x b ^ 2) / S w
  mxxx : m.mxxx = S (fun x => w x * arr x a ^ 3) / S w
  mxxy : m.mxxy = S (fun x => w x * (arr x a ^ 2 * arr x b)) / S w
  mxyy : m.mxyy = S (fun x => w x * (arr x a * arr x b ^ 2)) / S w
  myyy : m.myyy = S (fun x => w x * arr x b ^ 3) / S w

/-- The data and the options permit the computation. -/
structure MomentsReady (d : Interpolant) (samples : List ℕ) (a b : ℕ) : Prop where
  nonempty : d.rows ≠ []
  rows : ∀ row ∈ d.rows, d.dimX + d.dimY ≤ row.length
  lo : d.dimX ≤ d.lo.length
  hi : d.dimX ≤ d.hi.length
  perDimension : samples.length = d.dimX
  positive : ∀ n ∈ samples, 1 ≤ n
  int : (d.counts samples).prod < 2 ^ 31
  dims : a < d.dimX ∧ b < d.dimX
  values : ∀ x : List ℝ, x.length = d.dimX → ∃ y, d.value x = some y ∧ d.dimY ≤ y.length

end
end Alta
