import Verif.Model.Geometry
import Mathlib.Algebra.Order.Floor.Ring
/-
Model of the grid interpolant.

Modelled: /repo/sources/plugins/data_interpolants/grid.cpp 24-134 (domain of a parametrization),
200-208 (abscissae set by the constructor), 214-264 (index computations), 304-355 (`operator[]`,
`set`, `value`).

Not modelled: the parsing of the arguments by `initialize` (182-196 for the sizes), `save`, and
`load_data`, which aborts.  The parametrization of the data set is supposed to be the one of the
arguments.

Simplifications: `double` is ℝ; `none` stands for an access outside of the storage; the sizes are
positive.
-/
namespace Alta
noncomputable section

/-- `get_min`; `none` when the vector is returned uninitialised.
    /repo/sources/plugins/data_interpolants/grid.cpp 24-78. -/
def gridMin : Input → Option (List ℝ)
  | .COS_TH => some [0]
  | .COS_TK => some [0]
  | .COS_TLV => some [-1]
  | .COS_TLR => some [-1]
  | .COS_TH_TD => some [0, 0]
  | .RUSIN_TH_TD => some [0, 0]
  | .ISOTROPIC_TV_PROJ_DPHI => some [-0.5 * Real.pi, -0.5 * Real.pi]
  | .STARK_2D => some [0, 0]
  | .RUSIN_TH_TD_PD => some [0, 0, 0]
  | .STARK_3D => some [0, 0, 0]
  | _ => none

/-- `get_max`.  /repo/sources/plugins/data_interpolants/grid.cpp 80-134. -/
def gridMax : Input → Option (List ℝ)
  | .COS_TH => some [1]
  | .COS_TK => some [1]
  | .COS_TLV => some [1]
  | .COS_TLR => some [1]
  | .COS_TH_TD => some [1, 1]
  | .RUSIN_TH_TD => some [0.5 * Real.pi, 0.5 * Real.pi]
  | .ISOTROPIC_TV_PROJ_DPHI => some [0.5 * Real.pi, 0.5 * Real.pi]
  | .STARK_2D => some [1, 1]
  | .RUSIN_TH_TD_PD => some [0.5 * Real.pi, 0.5 * Real.pi, 2 * Real.pi]
  | .STARK_3D => some [1, 1, 2 * Real.pi]
  | _ => none

/-- One dimension of the grid: number of nodes, minimum, maximum. -/
structure GridDim where
  size : ℕ
  min : ℝ
  max : ℝ

/-- `get_index` on indices.  /repo/sources/plugins/data_interpolants/grid.cpp 220-227. -/
def gridIndex (dims : List GridDim) (k : List ℤ) : ℤ :=
  (dims.zip k).foldl (fun N q => N * q.1.size + q.2) 0

/-- `get_indices` on a configuration.  /repo/sources/plugins/data_interpolants/grid.cpp 229-236. -/
def gridIndicesAt (dims : List GridDim) (x : List ℝ) : List ℤ :=
  (dims.zip x).map fun q => ⌊((q.1.size : ℝ) - 1) * (q.2 - q.1.min) / (q.1.max - q.1.min)⌋

/-- `get_index` on a configuration.  /repo/sources/plugins/data_interpolants/grid.cpp 214-218. -/
def gridIndexAt (dims : List GridDim) (x : List ℝ) : ℤ := gridIndex dims (gridIndicesAt dims x)

/-- the loop of `get_indices` on an index, from the last dimension to the first; `K` is the index
    left for the dimensions that remain -/
def gridIndicesRev : List GridDim → ℕ → List ℕ
  | [], _ => []
  | d :: r, K => K % d.size :: gridIndicesRev r ((K - K % d.size) / d.size)

/-- `get_indices` on an index.  /repo/sources/plugins/data_interpolants/grid.cpp 238-252. -/
def gridIndices (dims : List GridDim) (N : ℕ) : List ℕ := (gridIndicesRev dims.reverse N).reverse

/-- `get_abscissa`.  /repo/sources/plugins/data_interpolants/grid.cpp 255-264. -/
def gridAbscissa (dims : List GridDim) (N : ℕ) : List ℝ :=
  (dims.zip (gridIndices dims N)).map fun q => q.1.min + (q.1.max - q.1.min) * (q.2 : ℝ) / ((q.1.size : ℝ) - 1)

/-- the rows of the storage after the constructor; `y` is what the ordinates hold.
    /repo/sources/plugins/data_interpolants/grid.cpp 200-208. -/
def gridInit (dims : List GridDim) (N : ℕ) (y : ℕ → List ℝ) : List (List ℝ) :=
  (List.range N).map fun n => gridAbscissa dims n ++ y n

/-- `get(i)`: the row, or an access outside of the storage -/
def gridGet (rows : List (List ℝ)) (i : ℤ) : Option (List ℝ) := if 0 ≤ i then rows[i.toNat]? else none

/-- the weight and the index shift of the corner `d`.
    /repo/sources/plugins/data_interpolants/grid.cpp 336-345. -/
def gridCorner (dims : List GridDim) (alphas : List ℝ) (d : ℕ) : ℝ × ℕ :=
  (dims.zip alphas).zipIdx.foldl (fun st q =>
    let bitset := d.testBit q.2
    let calpha := if bitset then q.1.2 else 1 - q.1.2
    (st.1 * calpha, st.2 * q.1.1.size + if bitset then 1 else 0)) (1, 0)

/-- the weights along each dimension.  /repo/sources/plugins/data_interpolants/grid.cpp 323-329. -/
def gridAlphas (dims : List GridDim) (x x0 : List ℝ) : List ℝ :=
  (dims.zip (x.zip x0)).map fun q => clampR (((q.1.size : ℝ) - 1) * (q.2.1 - q.2.2) / (q.1.max - q.1.min)) 0 1

/-- the index read for a corner: the shift is dropped when the index is beyond the number of rows.
    /repo/sources/plugins/data_interpolants/grid.cpp 347-350. -/
def gridShift (n : ℕ) (id : ℤ) (cid : ℕ) : ℤ := if id + cid > n then id else id + cid

/-- `y += alpha * get(...).segment(dimX, dimY)`.
    /repo/sources/plugins/data_interpolants/grid.cpp 350-351. -/
def gridAccum (dimX dimY : ℕ) (alpha : ℝ) (y r : Option (List ℝ)) : Option (List ℝ) :=
  match y, r with
  | some y, some r => some ((List.range dimY).map fun c => arr y c + alpha * arr r (dimX + c))
  | _, _ => none

/-- `value`.  /repo/sources/plugins/data_interpolants/grid.cpp 314-355. -/
def gridValue (dims : List GridDim) (dimY : ℕ) (rows : List (List ℝ)) (x : List ℝ) : Option (List ℝ) :=
  let k := gridIndicesAt dims x
  let id := gridIndex dims k
  match gridGet rows id with
  | none => none
  | some x0 =>
    let alphas := gridAlphas dims x x0
    (List.range (2 ^ dims.length)).foldl (fun y d =>
      let a := gridCorner dims alphas d
      gridAccum dims.length dimY a.1 y (gridGet rows (gridShift rows.length id a.2)))
      (some (List.replicate dimY 0))

end
end Alta
