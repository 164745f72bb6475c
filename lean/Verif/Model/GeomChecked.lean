import Verif.Model.Geometry
/-
`params::from_cartesian` once more, with checked arithmetic: every `acos`,
`sqrt` and division is evaluated only inside its domain, and the result is
`none` as soon as one of them would give a NaN or an infinity in C++.

Modelled: /repo/sources/core/params.cpp 405-738.
-/
namespace Alta
open Real
noncomputable section
open Classical

/-- `acos`, defined on `[-1, 1]`. -/
def acos? (x : ℝ) : Option ℝ := if -1 ≤ x ∧ x ≤ 1 then some (arccos x) else none
/-- `sqrt`, defined on non negative numbers. -/
def sqrt? (x : ℝ) : Option ℝ := if 0 ≤ x then some (√x) else none
/-- division, defined when the divisor is not zero. -/
def div? (x y : ℝ) : Option ℝ := if y ≠ 0 then some (x / y) else none

/-- `half_vector` with its assertions.  /repo/sources/core/params.cpp 405-425. -/
def halfVector? (c : Cart) : Option V3 := do
  let hx := c.v.x + c.l.x
  let hy := c.v.y + c.l.y
  let hz := c.v.z + c.l.z
  let sqnorm := hx * hx + hy * hy + hz * hz
  let h ← if sqnorm ≤ 0 then some (⟨0, 0, 1⟩ : V3)
    else do
      let n ← sqrt? sqnorm
      let x ← div? hx n
      let y ← div? hy n
      let z ← div? hz n
      some ⟨x, y, z⟩
  if h.z ≤ 1 ∧ h.z ≥ 0 then some h else none

/-- `from_cartesian` with checked operations.
    /repo/sources/core/params.cpp 445-738. -/
def fromCartesian? (c : Cart) (p : Input) : Option (List ℝ) := do
  let half ← halfVector? c
  let v := c.v
  let l := c.l
  match p with
  | .COS_TH => some [half.z]
  | .COS_TK => do
    let kx := v.x - l.x
    let ky := v.y - l.y
    let kz := v.z + l.z
    let n ← sqrt? (kx * kx + ky * ky + kz * kz)
    let r ← div? (v.z + l.z) n
    some [r]
  | .COS_TLV => some [v.x * l.x + v.y * l.y + v.z * l.z]
  | .COS_TLR => some [v.x * l.x - (v.y * l.y + v.z * l.z)]
  | .COS_TH_TD => some [half.z, half.x * v.x + half.y * v.y + half.z * v.z]
  | .RUSIN_TH_TD => do
    let a ← acos? half.z
    let b ← acos? (clampR (half.x * v.x + half.y * v.y + half.z * v.z) (-1) 1)
    some [a, b]
  | .ISOTROPIC_TV_PROJ_DPHI => do
    let theta ← acos? v.z
    let dphi := atan2 v.y v.x - atan2 l.y l.x
    some [theta * cos dphi, theta * sin dphi]
  | .STARK_2D => do
    let hx := 1/2 * (v.x + l.x)
    let hy := 1/2 * (v.y + l.y)
    let bx := 1/2 * (l.x - v.x)
    let bY := 1/2 * (l.y - v.y)
    let bz := 1/2 * (l.z - v.z)
    let a ← sqrt? (hx * hx + hy * hy)
    let b ← sqrt? (bx * bx + bY * bY + bz * bz)
    some [a, b]
  | .NEUMANN_2D => do
    let hx := 1/2 * (v.x + l.x)
    let hy := 1/2 * (v.y + l.y)
    let bx := 1/2 * (l.x - v.x)
    let bY := 1/2 * (l.y - v.y)
    let a ← sqrt? (hx * hx + hy * hy)
    let b ← sqrt? (bx * bx + bY * bY)
    some [a, b]
  | .RUSIN_TH_PH_TD => do
    let a ← acos? half.z
    let b ← acos? (half.x * v.x + half.y * v.y + half.z * v.z)
    some [a, atan2 half.y half.x, b]
  | .RUSIN_TH_TD_PD => do
    let th ← acos? half.z
    let diff := rotate v (-atan2 half.y half.x) (-th)
    let td ← acos? diff.z
    some [th, td, if alongsideZ diff then 0 else atan2 diff.y diff.x]
  | .ISOTROPIC_TV_TL_DPHI => do
    let a ← acos? v.z
    let b ← acos? l.z
    some [a, b, atan2 l.y l.x - atan2 v.y v.x]
  | .RUSIN_VH => some [half.x, half.y, half.z]
  | .SCHLICK_VK => do
    let kx := l.x - v.x
    let ky := l.y - v.y
    let kz := l.z + v.z
    let norm ← sqrt? (kx * kx + ky * ky + kz * kz)
    if norm > 1e-10 then do
      let a ← div? kx norm
      let b ← div? ky norm
      let d ← div? kz norm
      some [a, b, d]
    else some [0, 0, 1]
  | .ISOTROPIC_TL_TV_PROJ_DPHI => do
    let thetaL ← acos? l.z
    let thetaV ← acos? v.z
    let dphi := atan2 l.y l.x - atan2 v.y v.x
    some [thetaL, thetaV * cos dphi, thetaV * sin dphi]
  | .RETRO_TL_TVL_PROJ_DPHI => do
    let cosV := v.z
    let cosL := l.z
    let cosVL := v.x * l.x + v.y * l.y + v.z * l.z
    let sinL ← sqrt? (1 - cosL * cosL)
    let sinV ← sqrt? (1 - cosV * cosV)
    let sinVL ← sqrt? (1 - cosVL * cosVL)
    let sinDp := sin (atan2 l.y l.x - atan2 v.y v.x)
    if sinVL ≠ 0 ∧ sinL ≠ 0 then do
      let cosPhi ← div? (cosV - cosL * cosVL) (sinL * sinVL)
      let sinPhi ← div? (sinDp * sinV) sinVL
      let theta ← acos? cosVL
      let a ← acos? cosL
      some [a, theta * cosPhi, theta * sinPhi]
    else do
      let a ← acos? cosL
      let b ← acos? cosV
      some [a, b - a, 0]
  | .SCHLICK_TL_TK_PROJ_DPHI => do
    let vkx := v.x - l.x
    let vky := v.y - l.y
    let vkz := v.z + l.z
    let norm ← sqrt? (vkx * vkx + vky * vky + vkz * vkz)
    let q ← div? vkz norm
    let thetaK ← acos? q
    let qy ← div? vky norm
    let qx ← div? vkx norm
    let dphi := atan2 l.y l.x - atan2 qy qx
    let a ← acos? l.z
    some [a, thetaK * cos dphi, thetaK * sin dphi]
  | .STARK_3D => do
    let hx := 1/2 * (v.x + l.x)
    let hy := 1/2 * (v.y + l.y)
    let bx := 1/2 * (l.x - v.x)
    let bY := 1/2 * (l.y - v.y)
    let bz := 1/2 * (l.z - v.z)
    let a ← sqrt? (hx * hx + hy * hy)
    let b ← sqrt? (bx * bx + bY * bY + bz * bz)
    let d := atan2 bY bx - atan2 hy hx
    some [a, b, if d < 0 then 2 * π + d else d]
  | .NEUMANN_3D => do
    let hx := 1/2 * (v.x + l.x)
    let hy := 1/2 * (v.y + l.y)
    let bx := 1/2 * (l.x - v.x)
    let bY := 1/2 * (l.y - v.y)
    let a ← sqrt? (hx * hx + hy * hy)
    let b ← sqrt? (bx * bx + bY * bY)
    some [a, b, atan2 bY bx - atan2 hy hx]
  | .RUSIN_TH_PH_TD_PD => do
    let th ← acos? half.z
    let ph := atan2 half.y half.x
    let diff := rotate v (-ph) (-th)
    if alongsideZ diff then some [th, ph, 0, 0]
    else do
      let td ← acos? diff.z
      some [th, ph, td, atan2 diff.y diff.x]
  | .SPHERICAL_TL_PL_TV_PV => do
    let a ← acos? l.z
    let b ← acos? v.z
    some [a, atan2 l.y l.x, b, atan2 v.y v.x]
  | .STEREOGRAPHIC => do
    let a ← div? v.x (1 + v.z)
    let b ← div? v.y (1 + v.z)
    let d ← div? l.x (1 + l.z)
    let e ← div? l.y (1 + l.z)
    some [a, b, d, e]
  | .CARTESIAN => some c.toList
  | _ => none

end
end Alta
