import Verif.Model.Args
import Verif.Model.Geometry
import Verif.Model.Function
import Mathlib.Analysis.SpecialFunctions.Trigonometric.Basic
/-
Model of the BRDF slice data plugin, and of the copy of the pixels to and from the planes of an EXR
image.

Modelled: /repo/sources/plugins/data_io/slice.cpp 24-281 and /repo/sources/plugins/data_io/EXR_IO.h
97-118, 138-155.

Not modelled: the coder and decoder of EXR images (TinyEXR).

Simplifications: `double` is ℝ and M_PI is π; the conversion to `float` of the pixels that are saved
is the parameter `single`; the samples of a slice are a list of 3·width·height·slice numbers; an
access outside of it and a result that is not initialised are the results `outside` and `junk`.
-/
namespace Alta
noncomputable section
open Real

/-- The object.  /repo/sources/plugins/data_io/slice.cpp 74-80. -/
structure Slice where
  par : Par
  width : ℕ
  height : ℕ
  slice : ℕ
  phi : ℝ
  reverse : Bool
  min : List ℝ
  max : List ℝ
  data : List ℝ

/-- `brdf_slice_parameters`.  /repo/sources/plugins/data_io/slice.cpp 24-52. -/
def slicePar (args : SMap) : Par :=
  let result : Par := ⟨2, 3, .STARK_2D, .RGB_COLOR⟩
  if args.isDefined "param".toList then
    let param := parseInput (String.ofList (args.get "param".toList))
    if inputDim param = 2 then ⟨result.dimX, result.dimY, param, result.output⟩
    else if inputDim param = 3 then ⟨3, result.dimY, param, result.output⟩
    else result
  else result

/-- `_reverse`.  /repo/sources/plugins/data_io/slice.cpp 100-103. -/
def sliceReverse (i : Input) : Bool :=
  i = .ISOTROPIC_TL_TV_PROJ_DPHI || i = .SCHLICK_TL_TK_PROJ_DPHI || i = .RETRO_TL_TVL_PROJ_DPHI

/-- `min()`: `res[2]` is set for three dimensions only.
    /repo/sources/plugins/data_io/slice.cpp 204-231. -/
def sliceMin (p : Par) : List ℝ :=
  let third : ℝ := 0
  if p.input = .ISOTROPIC_TL_TV_PROJ_DPHI ∨ p.input = .ISOTROPIC_TV_TL_DPHI then
    [-0.5 * π, -0.5 * π] ++ (if p.dimX = 3 then [third] else [])
  else if p.input = .ISOTROPIC_TL_TV_PROJ_DPHI ∨ p.input = .SCHLICK_TL_TK_PROJ_DPHI ∨
      p.input = .RETRO_TL_TVL_PROJ_DPHI then
    [-0.5 * π, -0.5 * π, -0.5 * π]
  else [0, 0] ++ (if p.dimX = 3 then [third] else [])

/-- `max()`.  /repo/sources/plugins/data_io/slice.cpp 232-260. -/
def sliceMax (p : Par) : List ℝ :=
  let third : ℝ := 2 * π
  if p.input = .RUSIN_TH_TD ∨ p.input = .RUSIN_TH_TD_PD ∨ p.input = .ISOTROPIC_TV_TL_DPHI then
    [0.5 * π, 0.5 * π] ++ (if p.dimX = 3 then [third] else [])
  else if p.input = .ISOTROPIC_TL_TV_PROJ_DPHI ∨ p.input = .SCHLICK_TL_TK_PROJ_DPHI ∨
      p.input = .RETRO_TL_TVL_PROJ_DPHI then
    [0.5 * π, 0.5 * π, 0.5 * π]
  else [1, 1] ++ (if p.dimX = 3 then [third] else [])

/-- Constructor.  /repo/sources/plugins/data_io/slice.cpp 84-108. -/
def mkSlice (args : SMap) (width height slice : ℕ) (content : List ℝ) : Slice :=
  let p := slicePar args
  { par := p, width := width, height := height, slice := slice
    phi := if args.isDefined "param".toList ∧ p.dimX = 3 then
        (π / 180) * ((args.getFloat "phi".toList 90 : ℚ) : ℝ)
      else 0.5 * π
    reverse := sliceReverse p.input
    min := sliceMin p
    max := sliceMax p
    data := content }

/-- `res.segment(0, dimX).reverseInPlace()` -/
def reverseHead (n : ℕ) (x : List ℝ) : List ℝ := (x.take n).reverse ++ x.drop n

/-- The abscissa of the sample `id`.  /repo/sources/plugins/data_io/slice.cpp 132-146. -/
def Slice.abscissa (s : Slice) (id : ℕ) : List ℝ :=
  let i := id % s.width
  let k := id / (s.width * s.height)
  let j := (id - k * s.width * s.height) / s.width
  let res : List ℝ :=
    [(i + 0.5) * (arr s.max 0 - arr s.min 0) / s.width + arr s.min 0,
     (j + 0.5) * (arr s.max 1 - arr s.min 1) / s.height + arr s.min 1] ++
    (if s.par.dimX = 3 then [s.phi] else [])
  if s.reverse then reverseHead s.par.dimX res else res

/-- The three values of the sample `id`; `none` outside of the storage. -/
def Slice.sample (s : Slice) (id : ℤ) : Option (List ℝ) :=
  if 0 ≤ id then
    (s.data[3 * id.toNat + 0]?).bind fun r => (s.data[3 * id.toNat + 1]?).bind fun g =>
      (s.data[3 * id.toNat + 2]?).map fun b => [r, g, b]
  else none

/-- `get`; `none` if the sample is outside of the storage.
    /repo/sources/plugins/data_io/slice.cpp 130-153. -/
def Slice.get (s : Slice) (id : ℕ) : Option (List ℝ) :=
  (s.sample id).map fun v => s.abscissa id ++ v

/-- `set`; `none` if the assertion fails or if the sample is outside of the storage.
    /repo/sources/plugins/data_io/slice.cpp 155-162. -/
def Slice.set (s : Slice) (id : ℕ) (x : List ℝ) : Option Slice :=
  if x.length ≠ s.par.dimX + s.par.dimY then none
  else if s.data.length ≤ 3 * id + 2 then none
  else some { s with data := ((s.data.set (3 * id + 0) (arr x (s.par.dimX + 0))).set (3 * id + 1)
      (arr x (s.par.dimX + 1))).set (3 * id + 2) (arr x (s.par.dimX + 2)) }

/-- What `value` returns. -/
inductive SliceValue where
  | values (v : List ℝ)
  /-- a vector that is not initialised -/
  | junk
  /-- numbers read outside of the storage -/
  | outside

/-- `value`.  /repo/sources/plugins/data_io/slice.cpp 164-199 (the coordinates are not NaN; the
    messages printed when an index is out of bounds are not modelled). -/
def Slice.value (s : Slice) (x : List ℝ) : SliceValue :=
  let y := if s.reverse then reverseHead s.par.dimX x else x
  if arr y 0 > arr s.max 0 ∨ arr x 0 < arr s.min 0 ∨ arr x 1 > arr s.max 1 ∨ arr x 1 < arr s.min 1 then .junk
  else
    let i : ℤ := ⌊(arr y 0 - arr s.min 0) * s.width / (arr s.max 0 - arr s.min 0)⌋
    let j : ℤ := ⌊(arr y 1 - arr s.min 1) * s.height / (arr s.max 1 - arr s.min 1)⌋
    let k : ℤ := 1
    let id := (i + j * s.width) * k
    match s.sample id with
    | some v => .values v
    | none => .outside

/-- The planes B, G and R of the image that is saved, with their names.
    /repo/sources/plugins/data_io/EXR_IO.h 138-166. -/
def exrPlanes (single : ℝ → ℝ) (w h : ℕ) (pix : ℕ → ℝ) : List (Char × List ℝ) :=
  let plane (c : ℕ) := (List.range (w * h)).map fun i => single (pix (3 * i + c))
  [('B', plane 2), ('G', plane 1), ('R', plane 0)]

/-- The component of a pixel given by a channel: its name is looked at. -/
def exrChannel (name : Char) : Option ℕ :=
  if name = 'R' then some 0 else if name = 'G' then some 1 else if name = 'B' then some 2 else none

/-- The pixels of an image that is loaded; `junk` is what the storage holds before.
    /repo/sources/plugins/data_io/EXR_IO.h 97-118. -/
def exrPixels (w h : ℕ) (junk : ℕ → ℝ) (planes : List (Char × List ℝ)) : ℕ → ℝ :=
  planes.foldl (fun pix p =>
    (List.range (w * h)).foldl (fun pix i =>
      match exrChannel p.1 with
      | some c => Function.update pix (3 * i + c) (arr p.2 i)
      | none => pix) pix) junk

/-- `save`: the image has `slice·height` lines.  /repo/sources/plugins/data_io/slice.cpp 121-127. -/
def Slice.save (single : ℝ → ℝ) (s : Slice) : ℕ × ℕ × List (Char × List ℝ) :=
  (s.width, s.slice * s.height, exrPlanes single s.width (s.slice * s.height) (arr s.data))

/-- `load_data`.  /repo/sources/plugins/data_io/slice.cpp 272-281. -/
def sliceLoad (args : SMap) (junk : ℕ → ℝ) (image : ℕ × ℕ × List (Char × List ℝ)) : Slice :=
  let (w, h, planes) := image
  let pix := exrPixels w h junk planes
  mkSlice args w h 1 ((List.range (w * h * 3)).map pix)

end
end Alta
