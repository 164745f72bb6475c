import Verif.Model.Geometry
/-
Independent vocabulary for the geometric properties.
-/
namespace Alta
open Real
noncomputable section

/-- Euclidean scalar product. -/
def V3.dot (a b : V3) : ℝ := a.x * b.x + a.y * b.y + a.z * b.z

/-- A direction: a vector of norm one. -/
def V3.IsUnit (a : V3) : Prop := a.x ^ 2 + a.y ^ 2 + a.z ^ 2 = 1

/-- Both directions of a configuration are unit vectors. -/
def Cart.IsUnit (c : Cart) : Prop := c.v.IsUnit ∧ c.l.IsUnit

/-- The direction of elevation `θ` (from the normal) and azimuth `φ`. -/
def sph (θ φ : ℝ) : V3 := ⟨sin θ * cos φ, sin θ * sin φ, cos θ⟩

/-- Exchange of the view and light directions. -/
def Cart.swap (c : Cart) : Cart := ⟨c.l, c.v⟩

/-- Rotation of a vector about the surface normal (z axis). -/
def V3.rotZ (a : V3) (t : ℝ) : V3 := ⟨cos t * a.x - sin t * a.y, sin t * a.x + cos t * a.y, a.z⟩

/-- Rotation of both directions about the surface normal. -/
def Cart.rotZ (c : Cart) (t : ℝ) : Cart := ⟨c.v.rotZ t, c.l.rotZ t⟩

/-- Mirror image with respect to the plane spanned by x and z. -/
def Cart.mirrorY (c : Cart) : Cart := ⟨⟨c.v.x, -c.v.y, c.v.z⟩, ⟨c.l.x, -c.l.y, c.l.z⟩⟩

/-- Two angles are equal modulo a full turn. -/
def SameAngle (a b : ℝ) : Prop := ∃ k : ℤ, a = b + 2 * π * k

/-- Coordinates for which a parametrization describes a pair of directions:
    projections must lie in the unit disc, cosines in `[-1, 1]`, vectors must be
    unit vectors; angles are unrestricted. -/
def CoordDomain (p : Input) (x : ℕ → ℝ) : Prop :=
  match p with
  | .COS_TH | .COS_TK | .COS_TLV | .COS_TLR => x 0 ^ 2 ≤ 1
  | .COS_TH_TD => x 0 ^ 2 ≤ 1 ∧ x 1 ^ 2 ≤ 1
  | .STARK_2D | .NEUMANN_2D | .STARK_3D => x 0 ^ 2 + x 1 ^ 2 ≤ 1
  | .RUSIN_VH | .SCHLICK_VK => x 0 ^ 2 + x 1 ^ 2 + x 2 ^ 2 = 1
  | .CARTESIAN => (Cart.ofFun x).IsUnit
  | _ => True

end
end Alta
