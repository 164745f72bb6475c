import Verif.Model.Storage
import Verif.Model.Geometry
import Mathlib.Analysis.SpecialFunctions.Trigonometric.Basic
/-
Model of the UTIA data plugin.

Modelled: /repo/sources/plugins/data_io/utia.cpp 35-41, 95-118 (constants, constructor),
124-151 and 317-351 (`save` and `load_data` for the binary format), 154-167 (`get`), 169-191
(`vecToIndex`), 193-296 (`value`), 298-304 (`set`).

Not modelled: the OpenEXR branch of `save` and `load_data`.

Simplifications: `double` and `float` are ℝ and M_PI is π for the values (so `d2r` is exactly
180/π; the file functions work on the 64 bits of each number); reading outside of the table and a
failed assertion are `none`.
-/
namespace Alta
noncomputable section

/-- STEP_T.  /repo/sources/plugins/data_io/utia.cpp 35, 98. -/
def stepT : ℝ := 15
/-- STEP_P.  /repo/sources/plugins/data_io/utia.cpp 36, 99. -/
def stepP : ℝ := 7.5
/-- NTI = NTV.  /repo/sources/plugins/data_io/utia.cpp 37-38, 100-101. -/
def utiaNt : ℕ := 6
/-- NPI = NPV = `(int)(360.f/STEP_P)`.  /repo/sources/plugins/data_io/utia.cpp 39-40, 102-103. -/
def utiaNp : ℕ := 48
/-- N_PER_PLANE.  /repo/sources/plugins/data_io/utia.cpp 41, 105. -/
def utiaPlane : ℕ := utiaNt * utiaNp * utiaNt * utiaNp

/-- `get(i)`.  /repo/sources/plugins/data_io/utia.cpp 154-167. -/
def utiaGet (bd : List ℝ) (i : ℕ) : Option (List ℝ) :=
  match bd[i + 0 * utiaPlane]?, bd[i + 1 * utiaPlane]?, bd[i + 2 * utiaPlane]? with
  | some r, some g, some b =>
    let r2d := Real.pi / 180
    let x3 := r2d * stepP * ((i % utiaNp : ℕ) : ℝ)
    let i := i / utiaNp
    let x2 := r2d * stepT * ((i % utiaNt : ℕ) : ℝ)
    let i := i / utiaNt
    let x1 := r2d * stepP * ((i % utiaNp : ℕ) : ℝ)
    let i := i / utiaNp
    let x0 := r2d * stepT * ((i % utiaNt : ℕ) : ℝ)
    some [x0, x1, x2, x3, r, g, b]
  | _, _, _ => none

/-- `set(i, x)`: the last three coordinates of `x`.
    /repo/sources/plugins/data_io/utia.cpp 298-304. -/
def utiaSet (bd : List ℝ) (i : ℕ) (x : List ℝ) : Option (List ℝ) :=
  if x.length = 7 ∧ 2 * utiaPlane + i < bd.length then
    let y := x.drop (x.length - 3)
    some (((bd.set (0 * utiaPlane + i) (arr y 0)).set (1 * utiaPlane + i) (arr y 1)).set (2 * utiaPlane + i) (arr y 2))
  else none

/-- `vecToIndex`: the four indices.  /repo/sources/plugins/data_io/utia.cpp 169-191. -/
def utiaVecToIndex (x : List ℝ) : ℤ × ℤ × ℤ × ℤ :=
  let d2r := 180 / Real.pi
  let ti := arr x 0 * d2r
  let tv := arr x 2 * d2r
  let pi := arr x 1 * d2r
  let pv := arr x 3 * d2r
  let pi := if pi ≥ 360 then 0 else pi
  let pv := if pv ≥ 360 then 0 else pv
  (⌊ti / stepT⌋, ⌊pi / stepP⌋, ⌊tv / stepT⌋, ⌊pv / stepP⌋)

/-- the two indices along an elevation, in degrees.
    /repo/sources/plugins/data_io/utia.cpp 238-243, 244-249. -/
def utiaThetaIndex (theta : ℝ) : ℕ → ℤ :=
  let i0 : ℤ := ⌊theta / stepT⌋
  if i0 > utiaNt - 2 then fun i => if i = 0 then utiaNt - 2 else utiaNt - 1
  else fun i => if i = 0 then i0 else i0 + 1

/-- the two indices along an azimuth, in degrees, before line 280.
    /repo/sources/plugins/data_io/utia.cpp 251-254. -/
def utiaPhiIndex (phi : ℝ) : ℕ → ℤ := fun i => if i = 0 then ⌊phi / stepP⌋ else ⌊phi / stepP⌋ + 1

/-- the two weights for a position between two indices.
    /repo/sources/plugins/data_io/utia.cpp 258-262 (and 263-267, 269-273, 274-278). -/
def utiaWeights (step x : ℝ) (idx : ℕ → ℤ) : ℕ → ℝ :=
  let w1 := x - step * idx 0
  let w0 := step * idx 1 - x
  let sum := w0 + w1
  fun i => if i = 0 then w0 / sum else w1 / sum

/-- the second azimuth index wraps.  /repo/sources/plugins/data_io/utia.cpp 280-283. -/
def utiaWrap (idx : ℕ → ℤ) : ℕ → ℤ := fun i => if i = 0 then idx 0 else if idx 1 = utiaNp then 0 else idx 1

/-- a read of the array `Bd` -/
def utiaRead (bd : List ℝ) (i : ℤ) : Option ℝ := if 0 ≤ i then bd[i.toNat]? else none

/-- the four nested loops over `{0, 1}` -/
def loop4 : List (ℕ × ℕ × ℕ × ℕ) :=
  (List.range 2).flatMap fun i => (List.range 2).flatMap fun j =>
    (List.range 2).flatMap fun k => (List.range 2).map fun l => (i, j, k, l)

/-- the sum for the colour `isp`.  /repo/sources/plugins/data_io/utia.cpp 285-294. -/
def utiaSum (bd : List ℝ) (isp : ℕ) (iti itv ipi ipv : ℕ → ℤ) (wti wtv wpi wpv : ℕ → ℝ) : Option ℝ :=
  let nc : ℤ := utiaNp * utiaNt
  let nr : ℤ := utiaNp * utiaNt
  loop4.foldl (fun acc q => match acc, utiaRead bd
      (isp * nr * nc + nc * (utiaNp * iti q.1 + ipi q.2.2.1) + utiaNp * itv q.2.1 + ipv q.2.2.2) with
    | some a, some b => some (a + b * wti q.1 * wtv q.2.1 * wpi q.2.2.1 * wpv q.2.2.2)
    | _, _ => none) (some 0)

/-- `value`.  /repo/sources/plugins/data_io/utia.cpp 193-296. -/
def utiaValue (bd : List ℝ) (x : List ℝ) : Option (List ℝ) :=
  let pi2 := Real.pi * 0.5
  let m2pi := Real.pi * 2
  let ti := arr x 0
  let pi := arr x 1
  let tv := arr x 2
  let pv := arr x 3
  if ti > pi2 ∨ tv > pi2 then some [0, 0, 0]
  else
    let pi := if pi < 0 then m2pi + pi else pi
    let pv := if pv < 0 then m2pi + pv else pv
    if ¬ ((0 ≤ pi ∧ pi ≤ m2pi) ∧ (0 ≤ pv ∧ pv ≤ m2pi)) then none
    else
      let d2r := 180 / Real.pi
      let ti := ti * d2r
      let tv := tv * d2r
      let pi := pi * d2r
      let pv := pv * d2r
      let pi := if pi ≥ 360 then 0 else pi
      let pv := if pv ≥ 360 then 0 else pv
      let iti := utiaThetaIndex ti
      let itv := utiaThetaIndex tv
      let ipi := utiaPhiIndex pi
      let ipv := utiaPhiIndex pv
      let wti := utiaWeights stepT ti iti
      let wtv := utiaWeights stepT tv itv
      let wpi := utiaWeights stepP pi ipi
      let wpv := utiaWeights stepP pv ipv
      let ipi := utiaWrap ipi
      let ipv := utiaWrap ipv
      match utiaSum bd 0 iti itv ipi ipv wti wtv wpi wpv, utiaSum bd 1 iti itv ipi ipv wti wtv wpi wpv,
          utiaSum bd 2 iti itv ipi ipv wti wtv wpi wpv with
      | some r, some g, some b => some [r, g, b]
      | _, _, _ => none

/-- `save`, binary format: `stream << Bd[count++]` prints each number as text, with nothing in
    between; `fmt` is that printing.  /repo/sources/plugins/data_io/utia.cpp 141-150. -/
def utiaSave (fmt : Dbl → Str) (bd : List Dbl) : Str := (bd.take (3 * utiaPlane)).flatMap fmt

/-- `load_data`, binary format: the bytes of the file over those of the array; `mem` is what the
    array, that the constructor does not initialise, held.
    /repo/sources/plugins/data_io/utia.cpp 106, 343-348. -/
def utiaLoad (mem : List Dbl) (file : Str) : List Dbl :=
  let bytes := file.take (3 * utiaPlane * 8)
  bytesArray (3 * utiaPlane) (bytes ++ (arrayBytes mem).drop bytes.length)

end
end Alta
