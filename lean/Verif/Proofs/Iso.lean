import Verif.Proofs.Round
/-
Lemmas on rotations about the normal and azimuths.
-/
namespace Alta
open Real

/-- length of the projection on the surface -/
noncomputable def V3.rad (v : V3) : ℝ := √(v.x ^ 2 + v.y ^ 2)

/-- azimuth -/
noncomputable def V3.az (v : V3) : ℝ := atan2 v.y v.x

theorem V3.x_polar (v : V3) : v.rad * cos v.az = v.x := sqrt_mul_cos_atan2 _ _
theorem V3.y_polar (v : V3) : v.rad * sin v.az = v.y := sqrt_mul_sin_atan2 _ _
theorem V3.rad_nonneg (v : V3) : 0 ≤ v.rad := sqrt_nonneg _
theorem V3.rad_sq (v : V3) : v.rad ^ 2 = v.x ^ 2 + v.y ^ 2 := sq_sqrt (by positivity)

theorem V3.rad_eq_zero {v : V3} (h : v.rad = 0) : v.x = 0 ∧ v.y = 0 := by
  have h1 := v.x_polar; have h2 := v.y_polar
  rw [h] at h1 h2
  constructor <;> linarith

theorem V3.rad_pos {v : V3} (h : ¬ (v.x = 0 ∧ v.y = 0)) : 0 < v.rad :=
  lt_of_le_of_ne v.rad_nonneg (fun h' => h (V3.rad_eq_zero h'.symm))

theorem V3.rotZ_x (v : V3) (t : ℝ) : (v.rotZ t).x = v.rad * cos (v.az + t) := by
  rw [cos_add]; simp only [V3.rotZ]; rw [← v.x_polar, ← v.y_polar]; 
  simp only [v.x_polar, v.y_polar]
  linear_combination -(cos t) * v.x_polar + sin t * v.y_polar

theorem V3.rotZ_y (v : V3) (t : ℝ) : (v.rotZ t).y = v.rad * sin (v.az + t) := by
  rw [sin_add]; simp only [V3.rotZ]
  linear_combination -(cos t) * v.y_polar - sin t * v.x_polar

theorem V3.rotZ_rad (v : V3) (t : ℝ) : (v.rotZ t).rad = v.rad := by
  have e := sin_sq_add_cos_sq t
  unfold V3.rad
  congr 1
  simp only [V3.rotZ]
  linear_combination (v.x ^ 2 + v.y ^ 2) * e

/-- the azimuth of a rotated vector -/
theorem V3.rotZ_az (v : V3) (t : ℝ) (h : 0 < v.rad) : SameAngle (v.rotZ t).az (v.az + t) := by
  unfold V3.az
  rw [V3.rotZ_x, V3.rotZ_y]
  exact atan2_polar_mod h

theorem V3.IsUnit.sin_eq_rad {v : V3} (h : v.IsUnit) : sin (arccos v.z) = v.rad := h.sin_arccos

theorem SameAngle.sub {a b c d : ℝ} (h1 : SameAngle a b) (h2 : SameAngle c d) :
    SameAngle (a - c) (b - d) := by
  obtain ⟨k, hk⟩ := h1
  obtain ⟨m, hm⟩ := h2
  exact ⟨k - m, by push_cast; linarith⟩

theorem rotZ_halfToCartesian (th ph td pd : ℝ) :
    (halfToCartesian th ph td pd).rotZ (-ph) = halfToCartesian th 0 td pd := by
  have e := sin_sq_add_cos_sq ph
  have hv : ((halfToCartesian th ph td pd).v).rotZ (-ph) = (halfToCartesian th 0 td pd).v := by
    ext <;> simp only [halfToCartesian, rotateNormal, rotateBinormal, V3.rotZ, cos_neg, sin_neg,
      cos_zero, sin_zero]
    · linear_combination (cos th * (sin td * cos pd) + sin th * cos td) * e
    · linear_combination (sin td * sin pd) * e
  obtain ⟨-, ⟨gx, gy, gz⟩, -, -⟩ := halfToCartesian_geometry th ph td pd
  obtain ⟨-, ⟨kx, ky, kz⟩, -, -⟩ := halfToCartesian_geometry th 0 td pd
  rw [← hv] at kx ky kz
  apply Cart.ext
  · exact hv
  · ext <;> simp only [Cart.rotZ, V3.rotZ, cos_neg, sin_neg, sph, cos_zero, sin_zero] at *
    · linear_combination cos ph * gx + sin ph * gy - kx + 2 * cos td * sin th * e
    · linear_combination cos ph * gy - sin ph * gx - ky
    · linear_combination gz - kz

end Alta
