import Verif.Model.Storage
import Verif.Model.Geometry
import Mathlib.Analysis.SpecialFunctions.Trigonometric.Basic
/-
Model of the MERL data plugin.

Modelled: /repo/sources/plugins/data_io/merl.cpp 37-188 (constructor, `save`, `get`, `set`,
`value`), 289-420 (indices and angles, `lookup_brdf_val`), 426-462 (`read_brdf`, `load_data`).

Not modelled: `std_coords_to_half_diff_coords` and its helpers (not called).

Simplifications: `double` is ℝ and M_PI is π for the values (the file functions work on the 64
bits of each number); reading or writing outside of the table is `none`.
-/
namespace Alta
noncomputable section

/-- Conversion of a `double` to an `int`: towards zero. -/
def cint (x : ℝ) : ℤ := if 0 ≤ x then ⌊x⌋ else ⌈x⌉

/-- MERL_SIZE.  /repo/sources/plugins/data_io/merl.cpp 37-39, 76-78. -/
def merlSize : ℕ := 90 * 90 * 360 / 2

/-- RED_SCALE, GREEN_SCALE, BLUE_SCALE.  /repo/sources/plugins/data_io/merl.cpp 41-43. -/
def redScale : ℝ := 1.00 / 1500
/-- see `redScale` -/
def greenScale : ℝ := 1.15 / 1500
/-- see `redScale` -/
def blueScale : ℝ := 1.66 / 1500

/-- `theta_half_from_index`.  /repo/sources/plugins/data_io/merl.cpp 311-317. -/
def thetaHalfFromIndex (index : ℕ) : ℝ :=
  let temp : ℝ := index + 0.5
  let deg := temp * temp / 90
  deg * (0.5 * Real.pi) / 90

/-- `theta_half_index`.  /repo/sources/plugins/data_io/merl.cpp 293-305. -/
def thetaHalfIndex (theta : ℝ) : ℤ :=
  if theta ≤ 0 then 0
  else
    let deg := theta / (Real.pi / 2) * 90
    let temp := deg * 90
    let ret := cint (√ temp)
    let ret := if ret < 0 then 0 else ret
    if ret ≥ 90 then 90 - 1 else ret

/-- `theta_diff_index`.  /repo/sources/plugins/data_io/merl.cpp 322-331. -/
def thetaDiffIndex (theta : ℝ) : ℤ :=
  let tmp := cint (theta / (Real.pi * 0.5) * 90)
  if tmp < 0 then 0 else if tmp < 90 - 1 then tmp else 90 - 1

/-- `theta_diff_from_index`.  /repo/sources/plugins/data_io/merl.cpp 336-341. -/
def thetaDiffFromIndex (index : ℕ) : ℝ := (index + 0.5) * (0.5 * Real.pi) / 90

/-- `phi_diff_index`.  /repo/sources/plugins/data_io/merl.cpp 345-361. -/
def phiDiffIndex (phi : ℝ) : ℤ :=
  let phi := if phi < 0 then phi + Real.pi else phi
  let tmp := cint (phi / Real.pi * 360 / 2)
  if tmp < 0 then 0 else if tmp < 360 / 2 - 1 then tmp else 360 / 2 - 1

/-- `phi_diff_from_index`.  /repo/sources/plugins/data_io/merl.cpp 365-369. -/
def phiDiffFromIndex (index : ℕ) : ℝ := (index + 0.5) * Real.pi / (360 / 2 : ℕ)

/-- `get(i)` for the table `brdf`.  /repo/sources/plugins/data_io/merl.cpp 131-151. -/
def merlGet (brdf : List ℝ) (i : ℕ) : Option (List ℝ) :=
  let phid := i % (360 / 2)
  let thed := (i / (360 / 2)) % 90
  let theh := (i / (360 / 2 * 90)) % 90
  match brdf[i]?, brdf[i + 90 * 90 * 360 / 2]?, brdf[i + 90 * 90 * 360]? with
  | some r, some g, some b =>
    some [thetaHalfFromIndex theh, thetaDiffFromIndex thed, phiDiffFromIndex phid,
      r * redScale, g * greenScale, b * blueScale]
  | _, _, _ => none

/-- `set(i, x)`; the assertion is on the size of `x`.
    /repo/sources/plugins/data_io/merl.cpp 153-161. -/
def merlSet (brdf : List ℝ) (i : ℕ) (x : List ℝ) : Option (List ℝ) :=
  let iG := i + merlSize
  let iB := iG + merlSize
  if x.length = 6 ∧ iB < brdf.length then
    some (((brdf.set i (arr x 3 / redScale)).set iG (arr x 4 / greenScale)).set iB (arr x 5 / blueScale))
  else none

/-- the index of `lookup_brdf_val`.  /repo/sources/plugins/data_io/merl.cpp 402-405. -/
def merlIndex (thetaHalf thetaDiff phiDiff : ℝ) : ℤ :=
  phiDiffIndex phiDiff + thetaDiffIndex thetaDiff * 360 / 2 + thetaHalfIndex thetaHalf * 360 / 2 * 90

/-- `lookup_brdf_val`.  /repo/sources/plugins/data_io/merl.cpp 373-420. -/
def merlLookup (brdf : List ℝ) (thetaHalf thetaDiff phiDiff : ℝ) : Option (ℝ × ℝ × ℝ) :=
  let phi := if phiDiff < 0 then -phiDiff else phiDiff
  let phi := if phi > Real.pi then 2 * Real.pi - phi else phi
  if thetaHalf < 0 ∨ thetaHalf > 0.5 * Real.pi ∨ thetaDiff < 0 ∨ thetaDiff > 0.5 * Real.pi ∨ phi > Real.pi ∨ phi < 0 then
    some (0, 0, 0)
  else
    let ind := merlIndex thetaHalf thetaDiff phi
    if ind < 0 then none
    else
      let ind := ind.toNat
      match brdf[ind]?, brdf[ind + 90 * 90 * 360 / 2]?, brdf[ind + 90 * 90 * 360]? with
      | some r, some g, some b => some (r * redScale, g * greenScale, b * blueScale)
      | _, _, _ => none

/-- `value`.  /repo/sources/plugins/data_io/merl.cpp 163-188. -/
def merlValue (brdf : List ℝ) (x : List ℝ) : Option (List ℝ) :=
  (merlLookup brdf (arr x 0) (arr x 1) (arr x 2)).map fun c =>
    if c.1 < 0 ∨ c.2.1 < 0 ∨ c.2.2 < 0 then [0, 0, 0] else [c.1, c.2.1, c.2.2]

/-- the four bytes of an `int` that is not negative, little endian -/
def intBytes (n : ℕ) : Str := (List.range 4).map fun i => Char.ofNat (n / 256 ^ i % 256)

/-- and back, as an `int` -/
def bytesInt (s : Str) : ℤ := (BitVec.ofNat 32 (s.foldr (fun c n => c.toNat + 256 * n) 0)).toInt

/-- `save`.  /repo/sources/plugins/data_io/merl.cpp 113-128. -/
def merlSave (brdf : List Dbl) : Str :=
  intBytes 90 ++ intBytes 90 ++ intBytes (360 / 2) ++ arrayBytes (brdf.take (3 * (90 * 90 * (360 / 2))))

/-- `load_data` and `read_brdf`: the table, `none` if the dimensions do not match (`throw` without
    an exception ends the program).  What is missing in a short file stays zero, without an error.
    The product of the dimensions is computed on `int`s: its overflow is not modelled.
    /repo/sources/plugins/data_io/merl.cpp 86-106, 426-462. -/
def merlLoad (file : Str) : Option (List Dbl) :=
  let d0 := bytesInt (file.take 4)
  let d1 := bytesInt ((file.drop 4).take 4)
  let d2 := bytesInt ((file.drop 8).take 4)
  let n := d0 * d1 * d2
  if n ≠ 90 * 90 * 360 / 2 then none
  else some (bytesArray (3 * merlSize) (file.drop 12 ++ List.replicate (8 * (3 * merlSize)) (Char.ofNat 0)))

end
end Alta
