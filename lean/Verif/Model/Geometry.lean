import Mathlib.Analysis.SpecialFunctions.Complex.Arg
import Mathlib.Analysis.SpecialFunctions.Trigonometric.Inverse
import Verif.Model.ParamNames
/-
Model of the geometric conversions of ALTA (`params::to_cartesian`,
`params::from_cartesian`, `params::convert`, `params::is_above_hemisphere`).

Modelled: /repo/sources/core/params.h 247-278, 339-414 and
/repo/sources/core/params.cpp 93-738, 836-845.

Simplifications, valid for the whole file:
* `double` is modelled by the real numbers: no rounding, no NaN, no infinity,
  no signed zero.  Where C++ would produce a NaN (`acos` or `sqrt` outside its
  domain, 0/0) the Lean function returns some real instead; the properties that
  depend on this carry the domain condition, and `Verif/Props/GeomDefined`
  shows when the code stays inside the domains.
* `atan2 y x` is `Complex.arg (x + i y)`: same values as C for finite
  arguments other than negative zeros, with `atan2 0 0 = 0`.
* an input array `const double*` is a function `Nat → Real`, an output array is
  the list of the values written.
* `throw;` in `to_cartesian` and `assert(false)` in `from_cartesian` are `none`.
* `Eigen::AngleAxis(t, axis) * v` for the axes z and y is the rotation matrix
  that Eigen builds for these axes.
-/

namespace Alta
open Real

noncomputable section

/-- `atan2` of the C library on reals. -/
def atan2 (y x : ℝ) : ℝ := Complex.arg ⟨x, y⟩

/-- A three dimensional vector (`double[3]`, `Eigen::Vector3d`). -/
@[ext] structure V3 where
  x : ℝ
  y : ℝ
  z : ℝ

/-- A CARTESIAN configuration: the view vector then the light vector.
    /repo/sources/core/params.h 144-146. -/
@[ext] structure Cart where
  v : V3
  l : V3

/-- The six values of a CARTESIAN configuration in memory order. -/
def Cart.toList (c : Cart) : List ℝ := [c.v.x, c.v.y, c.v.z, c.l.x, c.l.y, c.l.z]

/-- Reading six doubles as a CARTESIAN configuration. -/
def Cart.ofFun (x : ℕ → ℝ) : Cart := ⟨⟨x 0, x 1, x 2⟩, ⟨x 3, x 4, x 5⟩⟩

/-- A list seen as the array it is stored in (0 past the end). -/
def arr (l : List ℝ) : ℕ → ℝ := fun i => l.getD i 0

/-- `alta::clamp`.  /repo/sources/core/common.h 98-101. -/
def clampR (x a b : ℝ) : ℝ := max (min x b) a

/-- `alta::close_to`.  /repo/sources/core/common.h 103-107. -/
def closeTo (a b eps : ℝ) : Prop := |a - b| < eps

/-- `params::rotate_normal`.  /repo/sources/core/params.h 390-395. -/
def rotateNormal (v : V3) (t : ℝ) : V3 :=
  ⟨cos t * v.x - sin t * v.y, sin t * v.x + cos t * v.y, v.z⟩

/-- `params::rotate_binormal`.  /repo/sources/core/params.h 399-404. -/
def rotateBinormal (v : V3) (t : ℝ) : V3 :=
  ⟨cos t * v.x + sin t * v.z, v.y, - sin t * v.x + cos t * v.z⟩

/-- `params::rotate`.  /repo/sources/core/params.h 408-414. -/
def rotate (v : V3) (theta phi : ℝ) : V3 :=
  rotateBinormal (rotateNormal v theta) phi

/-- `params::half_to_cartesian`.  /repo/sources/core/params.h 339-373.
    The `assert` under `#ifdef DEBUG` is not active in a default build. -/
def halfToCartesian (th ph td pd : ℝ) : Cart :=
  let half : V3 := ⟨sin th * cos ph, sin th * sin ph, cos th⟩
  let out0 : V3 := ⟨sin td * cos pd, sin td * sin pd, cos td⟩
  let out : V3 := rotateNormal (rotateBinormal out0 th) ph
  let dot := out.x * half.x + out.y * half.y + out.z * half.z
  ⟨out, ⟨-out.x + 2 * dot * half.x, -out.y + 2 * dot * half.y, -out.z + 2 * dot * half.z⟩⟩

/-- `params::classical_to_cartesian`.  /repo/sources/core/params.h 377-386. -/
def classicalToCartesian (tl pl tv pv : ℝ) : Cart :=
  ⟨⟨cos pl * sin tl, sin pl * sin tl, cos tl⟩,
   ⟨cos pv * sin tv, sin pv * sin tv, cos tv⟩⟩

open Classical in
/-- `params::to_cartesian`; `none` is the `throw;` of the default branch.
    /repo/sources/core/params.cpp 93-403. -/
def toCartesian (p : Input) (x : ℕ → ℝ) : Option Cart :=
  match p with
  -- params.cpp 103-105
  | .COS_TH => some (halfToCartesian (arccos (x 0)) 0 0 0)
  -- params.cpp 106-113
  | .COS_TK => some ⟨⟨x 0 * x 0 - 1, 0, x 0⟩, ⟨1 - x 0 * x 0, 0, x 0⟩⟩
  -- params.cpp 114-121
  | .COS_TLV => some ⟨⟨√(1 - x 0 * x 0), 0, x 0⟩, ⟨0, 0, 1⟩⟩
  -- params.cpp 122-129
  | .COS_TLR => some ⟨⟨-√(1 - x 0 * x 0), 0, x 0⟩, ⟨0, 0, 1⟩⟩
  -- params.cpp 132-134
  | .COS_TH_TD => some (halfToCartesian (arccos (x 0)) 0 (arccos (x 1)) 0)
  -- params.cpp 135-137
  | .RUSIN_TH_TD => some (halfToCartesian (x 0) 0 (x 1) (1/2 * π))
  -- params.cpp 138-156
  | .ISOTROPIC_TV_PROJ_DPHI =>
    let theta := √(x 0 * x 0 + x 1 * x 1)
    some ⟨if theta > 0 then ⟨(x 0 / theta) * sin theta, (x 1 / theta) * sin theta, cos theta⟩
          else ⟨0, 0, cos theta⟩, ⟨0, 0, 1⟩⟩
  -- params.cpp 160-180
  | .STARK_2D =>
    let hx := x 0
    let hy : ℝ := 0
    let sum := hx * hx + x 1 * x 1
    let hz := if sum ≤ 1 then √(1 - min sum 1) else -1
    let bx : ℝ := 0
    let bY := x 1
    let bz : ℝ := 0
    some ⟨⟨hx - bx, hy - bY, hz - bz⟩, ⟨hx + bx, hy + bY, hz + bz⟩⟩
  -- params.cpp 181-190
  | .NEUMANN_2D =>
    some ⟨⟨x 0, x 1, √(1 - x 0 * x 0 - x 1 * x 1)⟩,
          ⟨x 0, -x 1, √(1 - x 0 * x 0 - (-x 1) * (-x 1))⟩⟩
  -- params.cpp 194-196
  | .RUSIN_TH_PH_TD => some (halfToCartesian (x 0) (x 1) (x 2) 0)
  -- params.cpp 197-202
  | .RUSIN_TH_TD_PD => some (halfToCartesian (x 0) 0 (x 1) (x 2))
  -- params.cpp 203-205
  | .ISOTROPIC_TV_TL_DPHI => some (classicalToCartesian (x 0) 0 (x 1) (x 2))
  -- params.cpp 206-208
  | .RUSIN_VH => some (halfToCartesian (arccos (x 2)) (atan2 (x 1) (x 0)) 0 0)
  -- params.cpp 210-217
  | .SCHLICK_VK => some ⟨⟨x 2 * x 2 - 1, 0, x 2⟩, ⟨1 - x 2 * x 2, 0, x 2⟩⟩
  -- params.cpp 218-239
  | .ISOTROPIC_TL_TV_PROJ_DPHI =>
    let theta := √(x 1 * x 1 + x 2 * x 2)
    some ⟨if theta > 0 then ⟨(x 1 / theta) * sin theta, (x 2 / theta) * sin theta, cos theta⟩
          else ⟨0, 0, cos theta⟩, ⟨sin (x 0), 0, cos (x 0)⟩⟩
  -- params.cpp 240-260
  | .SCHLICK_TL_TK_PROJ_DPHI =>
    let l : V3 := ⟨sin (x 0), 0, cos (x 0)⟩
    let theta := √(x 1 * x 1 + x 2 * x 2)
    let kx := if theta > 0 then (x 1 / theta) * sin theta else 0
    let ky := if theta > 0 then (x 2 / theta) * sin theta else 0
    let kz := cos theta
    let dotKR := l.z * kz - l.x * kx
    some ⟨⟨2 * dotKR * kx + l.x, 2 * dotKR * ky, 2 * dotKR * kz - l.z⟩, l⟩
  -- params.cpp 261-293
  | .RETRO_TL_TVL_PROJ_DPHI =>
    let thetaVL := √(x 1 * x 1 + x 2 * x 2)
    let cosVL := cos thetaVL
    let sinVL := sin thetaVL
    let cosL := cos (x 0)
    let sinL := sin (x 0)
    let cosPhi := if thetaVL > 0 then x 1 / thetaVL else 0
    let sinPhi := if thetaVL > 0 then x 2 / thetaVL else 0
    let cosV := cosL * cosVL + cosPhi * sinL * sinVL
    let sinV := √(1 - min (cosV * cosV) 1)
    let sinDphi := (sinVL * sinPhi) / sinV
    some ⟨if sinV ≠ 0 then ⟨sinV * √(1 - min (sinDphi * sinDphi) 1), sinV * sinDphi, cosV⟩
          else ⟨0, 0, cosV⟩, ⟨sin (x 0), 0, cos (x 0)⟩⟩
  -- params.cpp 294-327 (STARK_BUILDING_THETA is defined on line 305)
  | .STARK_3D =>
    let hx := x 0
    let hy : ℝ := 0
    let hz := √(1 - x 0 * x 0 - x 1 * x 1)
    let cosPhi := cos (x 2)
    let sinPhi := sin (x 2)
    let theta := atan2 (-hz) (x 0 * cosPhi)
    let bx := x 1 * sin theta * cosPhi
    let bY := x 1 * sin theta * sinPhi
    let bz := x 1 * cos theta
    some ⟨⟨hx - bx, hy - bY, hz - bz⟩, ⟨hx + bx, hy + bY, hz + bz⟩⟩
  -- params.cpp 328-356
  | .NEUMANN_3D =>
    let vx := x 0 + cos (x 2) * x 1
    let vy := sin (x 2) * x 1
    let lx := x 0 - cos (x 2) * x 1
    let ly := -sin (x 2) * x 1
    if vx * vx + vy * vy > 1 ∨ lx * lx + ly * ly > 1 then
      some ⟨⟨0, 0, -1⟩, ⟨0, 0, -1⟩⟩
    else
      some ⟨⟨vx, vy, √(1 - vx * vx - vy * vy)⟩, ⟨lx, ly, √(1 - lx * lx - ly * ly)⟩⟩
  -- params.cpp 359-361
  | .RUSIN_TH_PH_TD_PD => some (halfToCartesian (x 0) (x 1) (x 2) (x 3))
  -- params.cpp 363-370
  | .SPHERICAL_TL_PL_TV_PV =>
    some ⟨⟨cos (x 3) * sin (x 2), sin (x 3) * sin (x 2), cos (x 2)⟩,
          ⟨cos (x 1) * sin (x 0), sin (x 1) * sin (x 0), cos (x 0)⟩⟩
  -- params.cpp 372-390
  | .STEREOGRAPHIC =>
    let normL := x 0 * x 0 + x 1 * x 1
    let alphL := (1 - normL) / (1 + normL)
    let normV := x 2 * x 2 + x 3 * x 3
    let alphV := (1 - normV) / (1 + normV)
    some ⟨⟨x 0 + alphL, x 1 + alphL, alphL⟩, ⟨x 2 + alphV, x 3 + alphV, alphV⟩⟩
  -- params.cpp 393-395
  | .CARTESIAN => some (Cart.ofFun x)
  -- params.cpp 397-400
  | _ => none

open Classical in
/-- `half_vector`, without its two assertions (see `halfAsserts`).
    /repo/sources/core/params.cpp 405-425. -/
def halfVector (c : Cart) : V3 :=
  let hx := c.v.x + c.l.x
  let hy := c.v.y + c.l.y
  let hz := c.v.z + c.l.z
  let sqnorm := hx * hx + hy * hy + hz * hz
  if sqnorm ≤ 0 then ⟨0, 0, 1⟩
  else ⟨hx / √sqnorm, hy / √sqnorm, hz / √sqnorm⟩

/-- The assertions at the end of `half_vector`; when they fail the program
    aborts, whatever the requested output parametrization.
    /repo/sources/core/params.cpp 423-424. -/
def halfAsserts (c : Cart) : Prop := (halfVector c).z ≤ 1 ∧ (halfVector c).z ≥ 0

/-- `is_zero`.  /repo/sources/core/params.cpp 430-434. -/
def isZero (x : ℝ) : Prop := closeTo x 0 1e-14

/-- `alongside_z`.  /repo/sources/core/params.cpp 437-442. -/
def alongsideZ (v : V3) : Prop := (isZero v.x ∧ isZero v.y) ∨ closeTo v.z 1 1e-14

open Classical in
/-- The switch of `params::from_cartesian`, as the list of the values written;
    `none` is the `assert(false)` of the default branch.
    /repo/sources/core/params.cpp 445-738. -/
def fromCartesianSwitch (c : Cart) (p : Input) : Option (List ℝ) :=
  let half := halfVector c
  let v := c.v
  let l := c.l
  match p with
  -- params.cpp 464-466
  | .COS_TH => some [half.z]
  -- params.cpp 467-474
  | .COS_TK =>
    let kx := v.x - l.x
    let ky := v.y - l.y
    let kz := v.z + l.z
    some [(v.z + l.z) / √(kx * kx + ky * ky + kz * kz)]
  -- params.cpp 475-477
  | .COS_TLV => some [v.x * l.x + v.y * l.y + v.z * l.z]
  -- params.cpp 478-480
  | .COS_TLR => some [v.x * l.x - (v.y * l.y + v.z * l.z)]
  -- params.cpp 483-486
  | .COS_TH_TD => some [half.z, half.x * v.x + half.y * v.y + half.z * v.z]
  -- params.cpp 487-490
  | .RUSIN_TH_TD =>
    some [arccos half.z,
          arccos (clampR (half.x * v.x + half.y * v.y + half.z * v.z) (-1) 1)]
  -- params.cpp 491-498
  | .ISOTROPIC_TV_PROJ_DPHI =>
    let theta := arccos v.z
    let dphi := atan2 v.y v.x - atan2 l.y l.x
    some [theta * cos dphi, theta * sin dphi]
  -- params.cpp 502-513
  | .STARK_2D =>
    let hx := 1/2 * (v.x + l.x)
    let hy := 1/2 * (v.y + l.y)
    let bx := 1/2 * (l.x - v.x)
    let bY := 1/2 * (l.y - v.y)
    let bz := 1/2 * (l.z - v.z)
    some [√(hx * hx + hy * hy), √(bx * bx + bY * bY + bz * bz)]
  -- params.cpp 514-524
  | .NEUMANN_2D =>
    let hx := 1/2 * (v.x + l.x)
    let hy := 1/2 * (v.y + l.y)
    let bx := 1/2 * (l.x - v.x)
    let bY := 1/2 * (l.y - v.y)
    some [√(hx * hx + hy * hy), √(bx * bx + bY * bY)]
  -- params.cpp 528-532
  | .RUSIN_TH_PH_TD =>
    some [arccos half.z, atan2 half.y half.x,
          arccos (half.x * v.x + half.y * v.y + half.z * v.z)]
  -- params.cpp 533-560
  | .RUSIN_TH_TD_PD =>
    let th := arccos half.z
    let diff := rotate v (-atan2 half.y half.x) (-th)
    some [th, arccos diff.z, if alongsideZ diff then 0 else atan2 diff.y diff.x]
  -- params.cpp 561-565
  | .ISOTROPIC_TV_TL_DPHI =>
    some [arccos v.z, arccos l.z, atan2 l.y l.x - atan2 v.y v.x]
  -- params.cpp 566-570
  | .RUSIN_VH => some [half.x, half.y, half.z]
  -- params.cpp 571-591
  | .SCHLICK_VK =>
    let kx := l.x - v.x
    let ky := l.y - v.y
    let kz := l.z + v.z
    let norm := √(kx * kx + ky * ky + kz * kz)
    if norm > 1e-10 then some [kx / norm, ky / norm, kz / norm] else some [0, 0, 1]
  -- params.cpp 592-601
  | .ISOTROPIC_TL_TV_PROJ_DPHI =>
    let thetaL := arccos l.z
    let thetaV := arccos v.z
    let dphi := atan2 l.y l.x - atan2 v.y v.x
    some [thetaL, thetaV * cos dphi, thetaV * sin dphi]
  -- params.cpp 602-634
  | .RETRO_TL_TVL_PROJ_DPHI =>
    let cosV := v.z
    let cosL := l.z
    let cosVL := v.x * l.x + v.y * l.y + v.z * l.z
    let sinL := √(1 - cosL * cosL)
    let sinV := √(1 - cosV * cosV)
    let sinVL := √(1 - cosVL * cosVL)
    let sinDp := sin (atan2 l.y l.x - atan2 v.y v.x)
    if sinVL ≠ 0 ∧ sinL ≠ 0 then
      let cosPhi := (cosV - cosL * cosVL) / (sinL * sinVL)
      let sinPhi := (sinDp * sinV) / sinVL
      let theta := arccos cosVL
      some [arccos cosL, theta * cosPhi, theta * sinPhi]
    else
      some [arccos cosL, arccos cosV - arccos cosL, 0]
  -- params.cpp 635-647
  | .SCHLICK_TL_TK_PROJ_DPHI =>
    let vkx := v.x - l.x
    let vky := v.y - l.y
    let vkz := v.z + l.z
    let norm := √(vkx * vkx + vky * vky + vkz * vkz)
    let thetaK := arccos (vkz / norm)
    let dphi := atan2 l.y l.x - atan2 (vky / norm) (vkx / norm)
    some [arccos l.z, thetaK * cos dphi, thetaK * sin dphi]
  -- params.cpp 648-663
  | .STARK_3D =>
    let hx := 1/2 * (v.x + l.x)
    let hy := 1/2 * (v.y + l.y)
    let bx := 1/2 * (l.x - v.x)
    let bY := 1/2 * (l.y - v.y)
    let bz := 1/2 * (l.z - v.z)
    let d := atan2 bY bx - atan2 hy hx
    some [√(hx * hx + hy * hy), √(bx * bx + bY * bY + bz * bz),
          if d < 0 then 2 * π + d else d]
  -- params.cpp 664-675
  | .NEUMANN_3D =>
    let hx := 1/2 * (v.x + l.x)
    let hy := 1/2 * (v.y + l.y)
    let bx := 1/2 * (l.x - v.x)
    let bY := 1/2 * (l.y - v.y)
    some [√(hx * hx + hy * hy), √(bx * bx + bY * bY), atan2 bY bx - atan2 hy hx]
  -- params.cpp 678-699
  | .RUSIN_TH_PH_TD_PD =>
    let th := arccos half.z
    let ph := atan2 half.y half.x
    let diff := rotate v (-ph) (-th)
    if alongsideZ diff then some [th, ph, 0, 0]
    else some [th, ph, arccos diff.z, atan2 diff.y diff.x]
  -- params.cpp 701-709
  | .SPHERICAL_TL_PL_TV_PV =>
    some [arccos l.z, atan2 l.y l.x, arccos v.z, atan2 v.y v.x]
  -- params.cpp 711-726
  | .STEREOGRAPHIC =>
    some [v.x / (1 + v.z), v.y / (1 + v.z), l.x / (1 + l.z), l.y / (1 + l.z)]
  -- params.cpp 729-731
  | .CARTESIAN => some c.toList
  -- params.cpp 733-736
  | _ => none

open Classical in
/-- `params::from_cartesian`: the half vector is computed first, whatever the
    output parametrization, and its assertions end the program (`none`) when
    they fail; then the switch.  /repo/sources/core/params.cpp 445-738. -/
def fromCartesian (c : Cart) (p : Input) : Option (List ℝ) :=
  if halfAsserts c then fromCartesianSwitch c p else none

/-- `params::convert(invec, intype, outtype, outvec)`: the list of the values
    written into `outvec`, or `none` when the call ends the program.
    /repo/sources/core/params.h 247-278.  The copy loop of the first branch
    writes `dimension(outtype)` values (none when that is -1). -/
def convertInput (x : ℕ → ℝ) (intype outtype : Input) : Option (List ℝ) :=
  if intype = outtype then some ((List.range (inputDim outtype).toNat).map x)
  else if intype = .CARTESIAN then fromCartesian (Cart.ofFun x) outtype
  else if outtype = .CARTESIAN then (toCartesian intype x).map Cart.toList
  else match toCartesian intype x with
    | some c => fromCartesian c outtype
    | none => none

/-- `params::is_above_hemisphere`; `none` when the conversion ends the program.
    /repo/sources/core/params.cpp 836-845. -/
def isAboveHemisphere (x : ℕ → ℝ) (p : Input) : Option Prop :=
  (convertInput x p .CARTESIAN).map fun o => arr o 2 ≥ 0 ∧ arr o 5 ≥ 0

end
end Alta
