import Verif.Proofs.Unit
import Verif.Props.GeomUnit
/-
Lemmas for the round trips through angular coordinates.
-/
namespace Alta
open Real

theorem V3.IsUnit.z_le {d : V3} (h : d.IsUnit) : d.z ≤ 1 := by
  unfold V3.IsUnit at h; nlinarith [sq_nonneg d.x, sq_nonneg d.y, sq_nonneg (d.z - 1)]

theorem V3.IsUnit.neg_le_z {d : V3} (h : d.IsUnit) : -1 ≤ d.z := by
  unfold V3.IsUnit at h; nlinarith [sq_nonneg d.x, sq_nonneg d.y, sq_nonneg (d.z + 1)]

theorem V3.IsUnit.sin_arccos {d : V3} (h : d.IsUnit) : sin (arccos d.z) = √(d.x ^ 2 + d.y ^ 2) := by
  rw [Real.sin_arccos]; congr 1; unfold V3.IsUnit at h; linarith

theorem V3.IsUnit.cos_arccos {d : V3} (h : d.IsUnit) : cos (arccos d.z) = d.z :=
  Real.cos_arccos h.neg_le_z h.z_le

/-- spherical coordinates of a direction give the direction back -/
theorem sph_of_unit (d : V3) (h : d.IsUnit) : sph (arccos d.z) (atan2 d.y d.x) = d := by
  ext
  · simp only [sph, h.sin_arccos]; exact sqrt_mul_cos_atan2 _ _
  · simp only [sph, h.sin_arccos]; exact sqrt_mul_sin_atan2 _ _
  · simp only [sph, h.cos_arccos]

theorem sph_isUnit (t p : ℝ) : (sph t p).IsUnit := by
  simp only [V3.IsUnit, sph]
  linear_combination sin t ^ 2 * sin_sq_add_cos_sq p + sin_sq_add_cos_sq t

/-- direction to canonical spherical coordinates -/
theorem arccos_sph {t : ℝ} (p : ℝ) (h0 : 0 ≤ t) (h1 : t ≤ π) : arccos (sph t p).z = t :=
  arccos_cos h0 h1

theorem atan2_sph {t p : ℝ} (h0 : 0 ≤ t) (h1 : t < π) (hp : p ∈ Set.Ioc (-π) π)
    (hcan : t = 0 → p = 0) : atan2 (sph t p).y (sph t p).x = p := by
  rcases eq_or_lt_of_le h0 with h | h
  · rw [hcan h.symm, ← h]; simp [sph, atan2_zero_zero]
  · exact atan2_polar (sin_pos_of_pos_of_lt_pi h h1) hp

/-- the inverse rotations undo `rotate` -/
theorem rotate_inverse (v : V3) (th ph : ℝ) :
    rotateNormal (rotateBinormal (rotate v (-ph) (-th)) th) ph = v := by
  have e1 := sin_sq_add_cos_sq th
  have e2 := sin_sq_add_cos_sq ph
  ext <;> simp only [rotate, rotateNormal, rotateBinormal, cos_neg, sin_neg]
  · linear_combination (cos ph * (cos ph * v.x + sin ph * v.y)) * e1 + v.x * e2
  · linear_combination (sin ph * (cos ph * v.x + sin ph * v.y)) * e1 + v.y * e2
  · linear_combination v.z * e1

theorem rotate_isUnit (v : V3) (a b : ℝ) (h : v.IsUnit) : (rotate v a b).IsUnit := by
  have e1 := sin_sq_add_cos_sq a
  have e2 := sin_sq_add_cos_sq b
  simp only [V3.IsUnit, rotate, rotateNormal, rotateBinormal] at *
  linear_combination ((cos a * v.x - sin a * v.y) ^ 2 + v.z ^ 2) * e2 + (v.x ^ 2 + v.y ^ 2) * e1 + h

theorem rotate_z (v : V3) (th ph : ℝ) : (rotate v (-ph) (-th)).z = v.dot (sph th ph) := by
  simp only [rotate, rotateNormal, rotateBinormal, V3.dot, sph, cos_neg, sin_neg]; ring

/-- half-angle reconstruction from the rotated view vector -/
theorem halfToCartesian_of_diff (v : V3) (th ph td pd : ℝ)
    (h : sph td pd = rotate v (-ph) (-th)) :
    (halfToCartesian th ph td pd).v = v := by
  have : (halfToCartesian th ph td pd).v = rotateNormal (rotateBinormal (sph td pd) th) ph := rfl
  rw [this, h, rotate_inverse]

/-- the light vector is the mirror image of the view vector about the half
    vector -/
theorem light_is_mirror (c : Cart) (hc : c.IsUnit) (hz : c.sumNorm ≠ 0 ∨ c.v.z = 0) :
    c.v.x + c.l.x = 2 * c.v.dot (halfVector c) * (halfVector c).x ∧
    c.v.y + c.l.y = 2 * c.v.dot (halfVector c) * (halfVector c).y ∧
    c.v.z + c.l.z = 2 * c.v.dot (halfVector c) * (halfVector c).z := by
  obtain ⟨hv, hl⟩ := hc
  unfold V3.IsUnit at hv hl
  rcases eq_or_lt_of_le c.sumNorm_nonneg with h | h
  · obtain ⟨sx, sy, sz⟩ := c.sumNorm_eq_zero h.symm
    rw [halfVector_zero c h.symm]
    have hz' : c.v.z = 0 := hz.resolve_left (fun h' => h' h.symm)
    simp only [Cart.sumX, Cart.sumY, Cart.sumZ] at sx sy sz
    simp only [V3.dot, hz']
    refine ⟨?_, ?_, ?_⟩ <;> linarith
  · rw [halfVector_pos c h]
    have h2 := c.sumNorm_sq
    have hdot : c.v.dot ⟨c.sumX / c.sumNorm, c.sumY / c.sumNorm, c.sumZ / c.sumNorm⟩
        = c.sumNorm / 2 := by
      simp only [V3.dot]
      field_simp
      rw [h2]
      simp only [Cart.sumX, Cart.sumY, Cart.sumZ]
      linear_combination hv - hl
    rw [hdot]
    refine ⟨?_, ?_, ?_⟩ <;> (field_simp; rfl)

theorem dot_half_nonneg (c : Cart) (hc : c.IsUnit) (hz : c.sumNorm ≠ 0 ∨ c.v.z = 0) :
    0 ≤ c.v.dot (halfVector c) := by
  obtain ⟨hv, hl⟩ := hc
  unfold V3.IsUnit at hv hl
  rcases eq_or_lt_of_le c.sumNorm_nonneg with h | h
  · rw [halfVector_zero c h.symm]
    have hz' : c.v.z = 0 := hz.resolve_left (fun h' => h' h.symm)
    simp [V3.dot, hz']
  · rw [halfVector_pos c h]
    have h2 := c.sumNorm_sq
    have hdot : c.v.dot ⟨c.sumX / c.sumNorm, c.sumY / c.sumNorm, c.sumZ / c.sumNorm⟩
        = c.sumNorm / 2 := by
      simp only [V3.dot]
      field_simp
      rw [h2]
      simp only [Cart.sumX, Cart.sumY, Cart.sumZ]
      linear_combination hv - hl
    rw [hdot]; linarith

/-- in the upper hemisphere opposite directions are horizontal -/
theorem upper_sum (c : Cart) (h1 : 0 ≤ c.v.z) (h2 : 0 ≤ c.l.z) :
    c.sumNorm ≠ 0 ∨ c.v.z = 0 := by
  by_cases h : c.sumNorm = 0
  · right
    have := (c.sumNorm_eq_zero h).2.2
    simp only [Cart.sumZ] at this
    linarith
  · exact Or.inl h

/-- relation between the two directions' angle and the difference angle -/
theorem dot_vl (c : Cart) (hc : c.IsUnit) (hz : c.sumNorm ≠ 0 ∨ c.v.z = 0) :
    c.v.dot c.l = 2 * (c.v.dot (halfVector c)) ^ 2 - 1 := by
  obtain ⟨a, b, d⟩ := light_is_mirror c hc hz
  have hv := hc.1
  unfold V3.IsUnit at hv
  simp only [V3.dot] at *
  linear_combination c.v.x * a + c.v.y * b + c.v.z * d - hv

/-- the pole test, on unit vectors of the upper hemisphere, is a test on z -/
theorem alongsideZ_iff (d : V3) (hd : d.IsUnit) (hz : 0 ≤ d.z) :
    alongsideZ d ↔ 1 - 1e-14 < d.z := by
  have h1 := hd.z_le
  unfold V3.IsUnit at hd
  unfold alongsideZ isZero closeTo
  constructor
  · rintro (⟨hx, hy⟩ | h)
    · rw [sub_zero, abs_lt] at hx hy
      by_contra hcon
      push Not at hcon
      nlinarith [hx.1, hx.2, hy.1, hy.2]
    · rw [abs_lt] at h; linarith [h.1]
  · intro h
    right; rw [abs_lt]; constructor <;> linarith

theorem halfVector_recovered (th ph td pd : ℝ) (h : 0 < cos td) :
    halfVector (halfToCartesian th ph td pd) = sph th ph := by
  obtain ⟨-, ⟨hx, hy, hz⟩, -, -⟩ := halfToCartesian_geometry th ph td pd
  set c := halfToCartesian th ph td pd
  have hu := sph_isUnit th ph
  unfold V3.IsUnit at hu
  have hn : c.sumNorm = 2 * cos td := by
    have : c.sumX ^ 2 + c.sumY ^ 2 + c.sumZ ^ 2 = (2 * cos td) ^ 2 := by
      simp only [Cart.sumX, Cart.sumY, Cart.sumZ, hx, hy, hz]
      linear_combination 4 * cos td ^ 2 * hu
    unfold Cart.sumNorm
    rw [this, sqrt_sq (by linarith)]
  rw [halfVector_pos c (by rw [hn]; linarith), hn]
  ext <;> simp only [Cart.sumX, Cart.sumY, Cart.sumZ, hx, hy, hz] <;> field_simp

end Alta

namespace Alta
open Real

theorem rusin4_switch (c : Cart) (th ph : ℝ) (d : V3) (hth : arccos (halfVector c).z = th)
    (hph : atan2 (halfVector c).y (halfVector c).x = ph) (hd : rotate c.v (-ph) (-th) = d) :
    (alongsideZ d → fromCartesianSwitch c .RUSIN_TH_PH_TD_PD = some [th, ph, 0, 0]) ∧
    (¬ alongsideZ d → fromCartesianSwitch c .RUSIN_TH_PH_TD_PD =
      some [th, ph, arccos d.z, atan2 d.y d.x]) := by
  subst hth hph hd
  constructor <;> intro h
  · exact if_pos h
  · exact if_neg h

theorem rusin3_switch (c : Cart) (th ph : ℝ) (d : V3) (hth : arccos (halfVector c).z = th)
    (hph : atan2 (halfVector c).y (halfVector c).x = ph) (hd : rotate c.v (-ph) (-th) = d) :
    (alongsideZ d → fromCartesianSwitch c .RUSIN_TH_TD_PD = some [th, arccos d.z, 0]) ∧
    (¬ alongsideZ d → fromCartesianSwitch c .RUSIN_TH_TD_PD =
      some [th, arccos d.z, atan2 d.y d.x]) := by
  subst hth hph hd
  constructor <;> intro h
  · simp [fromCartesianSwitch, h]
  · simp [fromCartesianSwitch, h]

theorem halfToCartesian_pole (th ph : ℝ) :
    halfToCartesian th ph 0 0 = ⟨sph th ph, sph th ph⟩ := by
  have ev : (halfToCartesian th ph 0 0).v = sph th ph := by
    ext <;> simp [halfToCartesian, rotateNormal, rotateBinormal, sph, mul_comm]
  obtain ⟨-, ⟨gx, gy, gz⟩, -, -⟩ := halfToCartesian_geometry th ph 0 0
  rw [ev, cos_zero] at gx gy gz
  ext <;> simp only [ev] <;> linarith

end Alta
