import Mathlib.Data.Real.Basic
import Verif.Model.Geometry
/-
Model of the command `data2moments`.

Modelled: /repo/sources/softs/data2moments/main.cpp 98-338, from the loaded data and the options.

Simplifications: real numbers; the numbers of samples and the two dimensions given in the options are natural
numbers; the fourth order moments and the cumulants, which are neither printed nor written, are left out; `none` is
the end of the program: an assertion, a read outside of a vector, the overflow of an `int`.
-/
namespace Alta
noncomputable section

/-- What the command reads of a data object: `get`, `min`, `max` and the interpolation `value`.
    /repo/sources/core/data.h 64, 73, 100, 103. -/
structure Interpolant where
  dimX : ℕ
  dimY : ℕ
  rows : List (List ℝ)
  lo : List ℝ
  hi : List ℝ
  value : List ℝ → Option (List ℝ)

/-- The smallest value of each channel, as the row `_d_min`.
    /repo/sources/softs/data2moments/main.cpp 168-176. -/
def lowestRow (d : Interpolant) : Option (List ℝ) :=
  match d.rows with
  | [] => none
  | r :: t => some (t.foldl (fun (m y : List ℝ) =>
      (List.range d.dimY).foldl (fun m j => m.set (d.dimX + j) (min (arr m (d.dimX + j)) (arr y (d.dimX + j)))) m) r)

/-- One turn of the loop on the dimensions: the volume, the number of samples, the samples per dimension.
    /repo/sources/softs/data2moments/main.cpp 182-195. -/
def stepVolume (d : Interpolant) (s : ℝ × ℕ × List ℕ) (k : ℕ) : Option (ℝ × ℕ × List ℕ) :=
  let length := arr d.hi k - arr d.lo k
  if 0 < length then
    if s.2.1 * s.2.2.getD k 0 < 2 ^ 31 then some (s.1 * length, s.2.1 * s.2.2.getD k 0, s.2.2) else none
  else some (s.1, s.2.1, s.2.2.set k 1)

/-- The index of a sample in each dimension.  /repo/sources/softs/data2moments/main.cpp 227-232. -/
def sampleIndices : List ℕ → ℕ → List ℕ
  | [], _ => []
  | n :: t, global => global % n :: sampleIndices t (global / n)

/-- The position of a sample.  /repo/sources/softs/data2moments/main.cpp 234-240. -/
def samplePosition (d : Interpolant) (samples indices : List ℕ) : List ℝ :=
  (List.range d.dimX).map fun k =>
    arr d.lo k + (arr d.hi k - arr d.lo k) * ((indices.getD k 0 : ℝ) / (samples.getD k 0 : ℝ))

/-- The moments of a channel that are printed and written. -/
structure Moments where
  m0 : ℝ
  mx : ℝ
  my : ℝ
  mxx : ℝ
  mxy : ℝ
  myy : ℝ
  mxxx : ℝ
  mxxy : ℝ
  mxyy : ℝ
  myyy : ℝ

/-- /repo/sources/softs/data2moments/main.cpp 201-210. -/
def Moments.zero : Moments := ⟨0, 0, 0, 0, 0, 0, 0, 0, 0, 0⟩

/-- The sums, for `val = y[k] * dt`.  /repo/sources/softs/data2moments/main.cpp 252-261. -/
def Moments.add (m : Moments) (val x y : ℝ) : Moments where
  m0 := m.m0 + val
  mx := m.mx + val * x
  my := m.my + val * y
  mxx := m.mxx + val * x * x
  mxy := m.mxy + val * x * y
  myy := m.myy + val * y * y
  mxxx := m.mxxx + val * x * x * x
  mxxy := m.mxxy + val * x * x * y
  mxyy := m.mxyy + val * x * y * y
  myyy := m.myyy + val * y * y * y

/-- The division by the first moment.  /repo/sources/softs/data2moments/main.cpp 275-283. -/
def Moments.normalize (m : Moments) : Moments where
  m0 := m.m0
  mx := m.mx / m.m0
  my := m.my / m.m0
  mxx := m.mxx / m.m0
  mxy := m.mxy / m.m0
  myy := m.myy / m.m0
  mxxx := m.mxxx / m.m0
  mxxy := m.mxxy / m.m0
  mxyy := m.mxyy / m.m0
  myyy := m.myyy / m.m0

/-- One sample, for all the channels.  /repo/sources/softs/data2moments/main.cpp 222-268. -/
def momentSample (d : Interpolant) (low : List ℝ) (dt : ℝ) (samples : List ℕ) (dx dy : ℕ) (m : List Moments) (i : ℕ) :
    Option (List Moments) :=
  let x := samplePosition d samples (sampleIndices samples i)
  (d.value x).bind fun y =>
    if y.length < d.dimY then none
    else some (m.mapIdx fun k mk => mk.add ((arr y k - arr low (d.dimX + k)) * dt) (arr x dx) (arr x dy))

/-- The sums, from the data and the options `samples` and `dim`.
    /repo/sources/softs/data2moments/main.cpp 98-268. -/
def data2momentsSums (d : Interpolant) (samples : Option (List ℕ)) (dim : Option (List ℕ)) : Option (List Moments) :=
  let samples := samples.getD (List.replicate d.dimX 100)
  let dim := dim.getD [0, 1]
  if samples.length ≠ d.dimX ∨ dim.length ≠ 2 ∨ d.lo.length < d.dimX ∨ d.hi.length < d.dimX then none
  else (lowestRow d).bind fun low =>
    if (∃ row ∈ d.rows, row.length < d.dimX + d.dimY) then none else
    ((List.range d.dimX).foldlM (stepVolume d) (1, 1, samples)).bind fun v =>
      if 0 < v.2.1 ∧ 0 < d.dimY ∧ ¬(dim.getD 0 0 < d.dimX ∧ dim.getD 1 0 < d.dimX) then none
      else ((List.range v.2.1).foldlM (momentSample d low (v.1 / v.2.1) v.2.2 (dim.getD 0 0) (dim.getD 1 0))
        (List.replicate d.dimY Moments.zero))

/-- The command, from the data and the options `samples` and `dim`.
    /repo/sources/softs/data2moments/main.cpp 98-338. -/
def data2moments (d : Interpolant) (samples : Option (List ℕ)) (dim : Option (List ℕ)) : Option (List Moments) :=
  (data2momentsSums d samples dim).map fun m => m.map Moments.normalize

end
end Alta
