import Verif.Model.Slice
/-
Specification of the slices of BRDF (C73): a regular grid of cells over a square, one sample at the
centre of each cell.
-/
namespace Alta
noncomputable section
open Real

/-- The interval over which the two coordinates of the image range. -/
def sliceInterval : Input → ℝ × ℝ
  | .ISOTROPIC_TL_TV_PROJ_DPHI => (-(π / 2), π / 2)
  | .SCHLICK_TL_TK_PROJ_DPHI => (-(π / 2), π / 2)
  | .RETRO_TL_TVL_PROJ_DPHI => (-(π / 2), π / 2)
  | .ISOTROPIC_TV_TL_DPHI => (-(π / 2), π / 2)
  | .RUSIN_TH_TD => (0, π / 2)
  | .RUSIN_TH_TD_PD => (0, π / 2)
  | _ => (0, 1)

/-- The centre of the cell `i` of `n` cells of equal width between `lo` and `hi`. -/
def cellCentre (lo hi : ℝ) (n i : ℕ) : ℝ := lo + (hi - lo) * ((2 * i + 1) / (2 * n))

/-- The parametrizations in which the azimuth comes first. -/
def AzimuthFirst (i : Input) : Prop :=
  i = .ISOTROPIC_TL_TV_PROJ_DPHI ∨ i = .SCHLICK_TL_TK_PROJ_DPHI ∨ i = .RETRO_TL_TVL_PROJ_DPHI

instance (i : Input) : Decidable (AzimuthFirst i) := by unfold AzimuthFirst; infer_instance

/-- An abscissa with the coordinates `u` along the lines of the image, `v` along its columns, and
    the azimuth `w` of the slice. -/
def sliceAbscissa (i : Input) (dimX : ℕ) (u v w : ℝ) : List ℝ :=
  if AzimuthFirst i then [w, v, u] else if dimX = 3 then [u, v, w] else [u, v]

/-- The objects that the plugin makes for an image of `w·h` pixels. -/
def SliceOf (s : Slice) (w h : ℕ) : Prop :=
  0 < w ∧ 0 < h ∧ ∃ args : SMap, ∃ content : List ℝ, content.length = 3 * (w * h) ∧
    s = mkSlice args w h 1 content

end
end Alta
