import Verif.Proofs.Unit
/-
Properties C05 (unit directions) and C06 (half-angle geometry).
-/
namespace Alta
open Real

/-- C06: the view and light vectors of half-angle coordinates: both have norm
    one, their sum is `2 cos θd` times the half direction, and both make the
    angle `θd` with it. -/
theorem halfToCartesian_geometry (th ph td pd : ℝ) :
    let c := halfToCartesian th ph td pd
    let h := sph th ph
    c.IsUnit ∧
    (c.v.x + c.l.x = 2 * cos td * h.x ∧ c.v.y + c.l.y = 2 * cos td * h.y ∧
      c.v.z + c.l.z = 2 * cos td * h.z) ∧
    c.v.dot h = cos td ∧ c.l.dot h = cos td := by
  have e1 := sin_sq_add_cos_sq th
  have e2 := sin_sq_add_cos_sq ph
  have e3 := sin_sq_add_cos_sq td
  have e4 := sin_sq_add_cos_sq pd
  -- scalar product of the view vector and the half vector
  have hdot : (halfToCartesian th ph td pd).v.dot (sph th ph) = cos td := by
    simp only [halfToCartesian, rotateNormal, rotateBinormal, V3.dot, sph]
    linear_combination (cos td * sin th ^ 2 + sin td * cos pd * sin th * cos th) * e2 + cos td * e1
  have hunit : (halfToCartesian th ph td pd).v.IsUnit := by
    simp only [halfToCartesian, rotateNormal, rotateBinormal, V3.IsUnit]
    linear_combination ((cos th * (sin td * cos pd) + sin th * cos td)^2 + (sin td * sin pd)^2) * e2
      + (sin td^2 * cos pd^2 + cos td^2) * e1 + sin td^2 * e4 + e3
  have hsph : (sph th ph).x ^ 2 + (sph th ph).y ^ 2 + (sph th ph).z ^ 2 = 1 := by
    simp only [sph]; linear_combination sin th ^ 2 * e2 + e1
  have hl : (halfToCartesian th ph td pd).l =
      ⟨-(halfToCartesian th ph td pd).v.x + 2 * cos td * (sph th ph).x,
       -(halfToCartesian th ph td pd).v.y + 2 * cos td * (sph th ph).y,
       -(halfToCartesian th ph td pd).v.z + 2 * cos td * (sph th ph).z⟩ := by
    rw [← hdot]; rfl
  generalize halfToCartesian th ph td pd = c at *
  generalize sph th ph = h at *
  simp only [V3.dot, V3.IsUnit] at *
  refine ⟨⟨hunit, ?_⟩, ⟨?_, ?_, ?_⟩, hdot, ?_⟩ <;> simp only [hl, V3.IsUnit]
  · linear_combination hunit + 4 * cos td ^ 2 * hsph - 4 * cos td * hdot
  · ring
  · ring
  · ring
  · linear_combination 2 * cos td * hsph - hdot

/-- C06: `φd` is the azimuth of the view vector around the half vector: in the
    frame obtained by the rotations of angles `-φh` about z and `-θh` about y the
    view vector is the direction `(θd, φd)`. -/
theorem halfToCartesian_frame (th ph td pd : ℝ) :
    rotate (halfToCartesian th ph td pd).v (-ph) (-th) = sph td pd := by
  have e1 := sin_sq_add_cos_sq th
  have e2 := sin_sq_add_cos_sq ph
  ext <;> simp only [halfToCartesian, rotate, rotateNormal, rotateBinormal, sph, cos_neg, sin_neg]
  · linear_combination (cos th * (cos th * (sin td * cos pd) + sin th * cos td)) * e2
      + (sin td * cos pd) * e1
  · linear_combination (sin td * sin pd) * e2
  · linear_combination (sin th * (cos th * (sin td * cos pd) + sin th * cos td)) * e2
      + cos td * e1

/-- C05: coordinates in the domain give unit directions.  Partial: the full
    property ranges over every accepted parametrization, but `COS_TK`,
    `SCHLICK_VK` and `STEREOGRAPHIC` do not satisfy it
    (`COS_TK_unit_iff`, `SCHLICK_VK_unit_iff`, `STEREOGRAPHIC_not_unit`). -/
theorem toCartesian_unit_partial (p : Input) (x : ℕ → ℝ) (c : Cart)
    (hp : p ≠ .COS_TK ∧ p ≠ .SCHLICK_VK ∧ p ≠ .STEREOGRAPHIC)
    (hx : CoordDomain p x) (hc : toCartesian p x = some c) : c.IsUnit := by
  have half : ∀ a b c d, (halfToCartesian a b c d).IsUnit :=
    fun a b c d => (halfToCartesian_geometry a b c d).1
  cases p
  case COS_TK => simp at hp
  case SCHLICK_VK => simp at hp
  case STEREOGRAPHIC => simp at hp
  case COS_TLV => exact unit_COS_TLV x c hx hc
  case COS_TLR => exact unit_COS_TLR x c hx hc
  case STARK_2D => exact unit_STARK_2D x c hx hc
  case NEUMANN_2D => exact unit_NEUMANN_2D x c hx hc
  case STARK_3D => exact unit_STARK_3D x c hx hc
  case NEUMANN_3D => exact unit_NEUMANN_3D x c hc
  case ISOTROPIC_TV_PROJ_DPHI => exact unit_ISOTROPIC_TV_PROJ_DPHI x c hc
  case ISOTROPIC_TL_TV_PROJ_DPHI => exact unit_ISOTROPIC_TL_TV_PROJ_DPHI x c hc
  case ISOTROPIC_TV_TL_DPHI => exact unit_ISOTROPIC_TV_TL_DPHI x c hc
  case SCHLICK_TL_TK_PROJ_DPHI => exact unit_SCHLICK_TL_TK_PROJ_DPHI x c hc
  case RETRO_TL_TVL_PROJ_DPHI => exact unit_RETRO_TL_TVL_PROJ_DPHI x c hc
  case SPHERICAL_TL_PL_TV_PV => exact unit_SPHERICAL x c hc
  all_goals simp only [toCartesian] at hc
  all_goals first
    | (simp at hc; done)
    | (simp only [Option.some.injEq] at hc; subst hc; first | exact half _ _ _ _ | exact hx)

/-- Non vacuity: a coordinate of the domain, with its directions. -/
example : ∃ c, CoordDomain .STARK_3D (arr [0.5, 0.25, 1]) ∧
    toCartesian .STARK_3D (arr [0.5, 0.25, 1]) = some c := by
  refine ⟨_, ?_, rfl⟩
  simp [CoordDomain, arr]; norm_num

/-- C05, limit of the code: `COS_TK` gives unit vectors at isolated values
    only. -/
theorem COS_TK_unit_iff (x : ℕ → ℝ) (c : Cart) (hc : toCartesian .COS_TK x = some c) :
    c.IsUnit ↔ x 0 = 0 ∨ x 0 = 1 ∨ x 0 = -1 := by
  simp only [toCartesian, Option.some.injEq] at hc
  subst hc
  have key : (x 0 * x 0 - 1) ^ 2 + 0 ^ 2 + x 0 ^ 2 = 1 ↔ x 0 = 0 ∨ x 0 = 1 ∨ x 0 = -1 := by
    have : (x 0 * x 0 - 1) ^ 2 + 0 ^ 2 + x 0 ^ 2 = 1 ↔ x 0 * x 0 * ((x 0 - 1) * (x 0 + 1)) = 0 := by
      constructor <;> intro h <;> linarith
    rw [this]
    simp only [mul_eq_zero, or_self, sub_eq_zero, add_eq_zero_iff_eq_neg]
  simp only [Cart.IsUnit, V3.IsUnit]
  rw [key]
  refine ⟨fun h => h.1, fun h => ⟨h, ?_⟩⟩
  have := key.2 h
  linarith

/-- C05, limit of the code: same for `SCHLICK_VK`. -/
theorem SCHLICK_VK_unit_iff (x : ℕ → ℝ) (c : Cart) (hc : toCartesian .SCHLICK_VK x = some c) :
    c.IsUnit ↔ x 2 = 0 ∨ x 2 = 1 ∨ x 2 = -1 := by
  apply COS_TK_unit_iff (fun _ => x 2) c
  simpa [toCartesian] using hc

/-- C05, limit of the code: `STEREOGRAPHIC` gives, at the origin (both
    directions along the normal), vectors of squared norm 3. -/
theorem STEREOGRAPHIC_not_unit :
    toCartesian .STEREOGRAPHIC (fun _ => 0) = some ⟨⟨1, 1, 1⟩, ⟨1, 1, 1⟩⟩ ∧
    ¬ (⟨⟨1, 1, 1⟩, ⟨1, 1, 1⟩⟩ : Cart).IsUnit := by
  simp [toCartesian, Cart.IsUnit, V3.IsUnit]

end Alta
