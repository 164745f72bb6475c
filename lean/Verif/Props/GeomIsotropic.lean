import Verif.Proofs.Iso
import Verif.Props.GeomRoundTrip
/-
Properties C09 (three dimensional isotropic coordinates) and C12 (isotropy).
-/
namespace Alta
open Real

/-- C09, `ISOTROPIC_TV_TL_DPHI`: the directions come back exactly, up to one
    rotation about the normal. -/
theorem ISOTROPIC_TV_TL_DPHI_round_trip (c : Cart) (hc : c.IsUnit) (hz : 0 ≤ c.v.z + c.l.z) :
    ∃ o t, fromCartesian c .ISOTROPIC_TV_TL_DPHI = some o ∧
      toCartesian .ISOTROPIC_TV_TL_DPHI (arr o) = some (c.rotZ t) := by
  rw [fromCartesian_eq _ _ hz]
  refine ⟨_, -c.v.az, rfl, ?_⟩
  simp only [toCartesian, arr, List.getD_cons_zero, List.getD_cons_succ, Option.some.injEq,
    classicalToCartesian, hc.1.cos_arccos, hc.2.cos_arccos, hc.1.sin_eq_rad, hc.2.sin_eq_rad]
  apply Cart.ext
  · ext
    · simp only [Cart.rotZ, V3.rotZ_x]; simp [mul_comm]
    · simp only [Cart.rotZ, V3.rotZ_y]; simp
    · rfl
  · ext
    · simp only [Cart.rotZ, V3.rotZ_x]; rw [mul_comm]; rfl
    · simp only [Cart.rotZ, V3.rotZ_y]; rw [mul_comm]; rfl
    · rfl

/-- C09, `RUSIN_TH_TD_PD`: the directions come back up to one rotation about
    the normal, exactly when `V·L ≤ 1 - 4e-14` and within a squared distance of
    `8e-14` otherwise (the code drops `φd` near the pole). -/
theorem RUSIN_TH_TD_PD_round_trip (c : Cart) (hc : c.IsUnit) (hv : 0 ≤ c.v.z) (hl : 0 ≤ c.l.z) :
    ∃ o c' t, fromCartesian c .RUSIN_TH_TD_PD = some o ∧
      toCartesian .RUSIN_TH_TD_PD (arr o) = some c' ∧
      (c.v.dot c.l ≤ 1 - 4e-14 → c' = c.rotZ t) ∧
      c'.v.dist2 (c.rotZ t).v ≤ 8e-14 ∧ c'.l.dist2 (c.rotZ t).l ≤ 8e-14 := by
  rw [fromCartesian_eq _ _ (by linarith)]
  have hs := upper_sum c hv hl
  have hu := halfVector_unit c
  have hd0 := dot_half_nonneg c hc hs
  have hvl := dot_vl c hc hs
  obtain ⟨mx, my, mz⟩ := light_is_mirror c hc hs
  have hsph := sph_of_unit _ hu
  obtain ⟨hA1, hA2⟩ := rusin3_switch c _ _ _ rfl rfl rfl
  generalize arccos (halfVector c).z = th at *
  generalize atan2 (halfVector c).y (halfVector c).x = ph at *
  have hdu := rotate_isUnit c.v (-ph) (-th) hc.1
  have hdz := rotate_z c.v th ph
  rw [hsph] at hdz
  generalize hd : rotate c.v (-ph) (-th) = d at *
  have hal := alongsideZ_iff d hdu (by rw [hdz]; exact hd0)
  generalize halfVector c = h at *
  -- the configuration itself, in half-angle coordinates
  have ev : (halfToCartesian th ph (arccos d.z) (atan2 d.y d.x)).v = c.v :=
    halfToCartesian_of_diff _ _ _ _ _ (by rw [hd]; exact sph_of_unit d hdu)
  have eq : halfToCartesian th ph (arccos d.z) (atan2 d.y d.x) = c := by
    obtain ⟨-, ⟨gx, gy, gz⟩, -, -⟩ := halfToCartesian_geometry th ph (arccos d.z) (atan2 d.y d.x)
    rw [ev, hdu.cos_arccos.trans hdz, hsph] at gx gy gz
    ext <;> first | (rw [ev]) | linarith
  have eqr : c.rotZ (-ph) = halfToCartesian th 0 (arccos d.z) (atan2 d.y d.x) := by
    rw [← rotZ_halfToCartesian, eq]
  by_cases hA : alongsideZ d
  · refine ⟨_, _, -ph, hA1 hA, rfl, ?_⟩
    have hbig := hal.1 hA
    have hle := hdu.z_le
    rw [eqr]
    simp only [arr, List.getD_cons_zero, List.getD_cons_succ]
    have hcos := hdu.cos_arccos
    have hsin := sin_sq_add_cos_sq (arccos d.z)
    generalize arccos d.z = td at *
    generalize atan2 d.y d.x = pd at *
    have hbound : (halfToCartesian th 0 td 0).v.dist2 (halfToCartesian th 0 td pd).v ≤ 8e-14 := by
      have e1 := sin_sq_add_cos_sq th
      have e2 := sin_sq_add_cos_sq pd
      have : (halfToCartesian th 0 td 0).v.dist2 (halfToCartesian th 0 td pd).v
          = 2 * sin td ^ 2 * (1 - cos pd) := by
        simp only [V3.dist2, halfToCartesian, rotateNormal, rotateBinormal, cos_zero, sin_zero]
        linear_combination (sin td ^ 2 * (1 - cos pd) ^ 2) * e1 + sin td ^ 2 * e2
      rw [this]
      have := neg_one_le_cos pd
      have h4 : sin td ^ 2 ≤ 2e-14 := by nlinarith
      nlinarith [sq_nonneg (sin td)]
    refine ⟨fun h => ?_, hbound, ?_⟩
    · exfalso; nlinarith
    · obtain ⟨-, ⟨gx, gy, gz⟩, -, -⟩ := halfToCartesian_geometry th 0 td 0
      obtain ⟨-, ⟨kx, ky, kz⟩, -, -⟩ := halfToCartesian_geometry th 0 td pd
      have : (halfToCartesian th 0 td 0).l.dist2 (halfToCartesian th 0 td pd).l
          = (halfToCartesian th 0 td 0).v.dist2 (halfToCartesian th 0 td pd).v := by
        have ex : (halfToCartesian th 0 td 0).l.x - (halfToCartesian th 0 td pd).l.x
          = - ((halfToCartesian th 0 td 0).v.x - (halfToCartesian th 0 td pd).v.x) := by linarith
        have ey : (halfToCartesian th 0 td 0).l.y - (halfToCartesian th 0 td pd).l.y
          = - ((halfToCartesian th 0 td 0).v.y - (halfToCartesian th 0 td pd).v.y) := by linarith
        have ez : (halfToCartesian th 0 td 0).l.z - (halfToCartesian th 0 td pd).l.z
          = - ((halfToCartesian th 0 td 0).v.z - (halfToCartesian th 0 td pd).v.z) := by linarith
        simp only [V3.dist2, ex, ey, ez]; ring
      rw [this]; exact hbound
  · refine ⟨_, _, -ph, hA2 hA, rfl, ?_⟩
    simp only [arr, List.getD_cons_zero, List.getD_cons_succ]
    rw [← eqr]
    refine ⟨fun _ => rfl, ?_, ?_⟩ <;> simp [V3.dist2] <;> norm_num

example : (⟨⟨0.6, 0, 0.8⟩, ⟨0, 1, 0⟩⟩ : Cart).IsUnit ∧ (0 : ℝ) ≤ 0.8 + 0 := by
  simp only [Cart.IsUnit, V3.IsUnit]; norm_num

/-- C09, limit of the code: `ISOTROPIC_TL_TV_PROJ_DPHI` returns the mirror image
    of the configuration, up to a rotation about the normal. -/
theorem ISOTROPIC_TL_TV_PROJ_DPHI_mirrors (c : Cart) (hc : c.IsUnit) (hz : 0 ≤ c.v.z + c.l.z) :
    ∃ o t, fromCartesian c .ISOTROPIC_TL_TV_PROJ_DPHI = some o ∧
      toCartesian .ISOTROPIC_TL_TV_PROJ_DPHI (arr o) = some (c.rotZ t).mirrorY := by
  rw [fromCartesian_eq _ _ hz]
  refine ⟨_, -c.l.az, rfl, ?_⟩
  simp only [toCartesian, arr, List.getD_cons_zero, List.getD_cons_succ, Option.some.injEq]
  have hcs := sin_sq_add_cos_sq (atan2 c.l.y c.l.x - atan2 c.v.y c.v.x)
  have ht : √(arccos c.v.z * cos (atan2 c.l.y c.l.x - atan2 c.v.y c.v.x) *
      (arccos c.v.z * cos (atan2 c.l.y c.l.x - atan2 c.v.y c.v.x)) +
      arccos c.v.z * sin (atan2 c.l.y c.l.x - atan2 c.v.y c.v.x) *
      (arccos c.v.z * sin (atan2 c.l.y c.l.x - atan2 c.v.y c.v.x))) = arccos c.v.z := by
    rw [show arccos c.v.z * cos (atan2 c.l.y c.l.x - atan2 c.v.y c.v.x) *
      (arccos c.v.z * cos (atan2 c.l.y c.l.x - atan2 c.v.y c.v.x)) +
      arccos c.v.z * sin (atan2 c.l.y c.l.x - atan2 c.v.y c.v.x) *
      (arccos c.v.z * sin (atan2 c.l.y c.l.x - atan2 c.v.y c.v.x)) = arccos c.v.z ^ 2 by
      linear_combination arccos c.v.z ^ 2 * hcs]
    exact sqrt_sq (arccos_nonneg _)
  simp only [ht, hc.1.cos_arccos, hc.2.cos_arccos, hc.1.sin_eq_rad, hc.2.sin_eq_rad]
  have hdelta : c.v.az + -c.l.az = -(atan2 c.l.y c.l.x - atan2 c.v.y c.v.x) := by
    simp only [V3.az]; ring
  apply Cart.ext
  · by_cases h : arccos c.v.z > 0
    · rw [if_pos h]
      ext
      · simp only [Cart.mirrorY, Cart.rotZ, V3.rotZ_x, hdelta, cos_neg]; field_simp
      · simp only [Cart.mirrorY, Cart.rotZ, V3.rotZ_y, hdelta, sin_neg]; field_simp
      · rfl
    · rw [if_neg h]
      have h0 : arccos c.v.z = 0 := le_antisymm (not_lt.1 h) (arccos_nonneg _)
      have hr : c.v.rad = 0 := by rw [← hc.1.sin_eq_rad, h0, sin_zero]
      ext
      · simp [Cart.mirrorY, Cart.rotZ, V3.rotZ_x, hr]
      · simp [Cart.mirrorY, Cart.rotZ, V3.rotZ_y, hr]
      · rfl
  · ext
    · simp only [Cart.mirrorY, Cart.rotZ, V3.rotZ_x]; simp
    · simp only [Cart.mirrorY, Cart.rotZ, V3.rotZ_y]; simp
    · rfl

/-- A configuration is not, in general, a rotation of its mirror image: C09 is
    false for `ISOTROPIC_TL_TV_PROJ_DPHI`. -/
theorem ISOTROPIC_TL_TV_PROJ_DPHI_not_rotation :
    ∃ c : Cart, c.IsUnit ∧ 0 ≤ c.v.z ∧ 0 ≤ c.l.z ∧ ∀ o c', fromCartesian c .ISOTROPIC_TL_TV_PROJ_DPHI = some o →
      toCartesian .ISOTROPIC_TL_TV_PROJ_DPHI (arr o) = some c' → ∀ t, c' ≠ c.rotZ t := by
  refine ⟨⟨⟨0, 1, 0⟩, ⟨1, 0, 0⟩⟩, ?_, by simp, by simp, ?_⟩
  · simp [Cart.IsUnit, V3.IsUnit]
  · intro o c' ho hc' t heq
    obtain ⟨o', t', ho', hc''⟩ := ISOTROPIC_TL_TV_PROJ_DPHI_mirrors ⟨⟨0, 1, 0⟩, ⟨1, 0, 0⟩⟩
      (by simp [Cart.IsUnit, V3.IsUnit]) (by simp)
    rw [ho] at ho'
    obtain rfl := Option.some.inj ho'
    rw [hc'] at hc''
    have := Option.some.inj hc''
    rw [heq] at this
    -- the oriented area `l × v` is a rotation invariant and changes sign
    have h1 := congrArg (fun c : Cart => c.l.x * c.v.y - c.l.y * c.v.x) this
    have e1 := sin_sq_add_cos_sq t
    have e2 := sin_sq_add_cos_sq t'
    simp only [Cart.rotZ, Cart.mirrorY, V3.rotZ] at h1
    nlinarith

end Alta
