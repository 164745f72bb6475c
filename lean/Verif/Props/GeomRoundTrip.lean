import Verif.Proofs.Round
import Mathlib.Analysis.Real.Pi.Bounds
/-
Properties C07 (RUSIN_TH_PH_TD_PD round trips) and C08
(SPHERICAL_TL_PL_TV_PV round trips).
-/
namespace Alta
open Real

/-- Squared distance of two vectors. -/
def V3.dist2 (a b : V3) : ℝ := (a.x - b.x) ^ 2 + (a.y - b.y) ^ 2 + (a.z - b.z) ^ 2

/-- C07, directions to coordinates to directions.  For every pair of unit
    directions of the upper hemisphere both conversions succeed and the
    directions come back: exactly when `V·L ≤ 1 - 4e-14`, and within a squared
    distance of `2e-14` otherwise (the code snaps nearly equal directions to the
    half vector). -/
theorem RUSIN_TH_PH_TD_PD_directions_round_trip (c : Cart) (hc : c.IsUnit)
    (hv : 0 ≤ c.v.z) (hl : 0 ≤ c.l.z) :
    ∃ o c', fromCartesian c .RUSIN_TH_PH_TD_PD = some o ∧
      toCartesian .RUSIN_TH_PH_TD_PD (arr o) = some c' ∧
      (c.v.dot c.l ≤ 1 - 4e-14 → c' = c) ∧
      c'.v.dist2 c.v ≤ 2e-14 ∧ c'.l.dist2 c.l ≤ 2e-14 := by
  rw [fromCartesian_eq _ _ (by linarith)]
  have hs := upper_sum c hv hl
  have hu := halfVector_unit c
  obtain ⟨mx, my, mz⟩ := light_is_mirror c hc hs
  have hd0 := dot_half_nonneg c hc hs
  have hvl := dot_vl c hc hs
  have hsph := sph_of_unit _ hu
  obtain ⟨hA1, hA2⟩ := rusin4_switch c _ _ _ rfl rfl rfl
  generalize arccos (halfVector c).z = th at *
  generalize atan2 (halfVector c).y (halfVector c).x = ph at *
  have hdu := rotate_isUnit c.v (-ph) (-th) hc.1
  have hdz := rotate_z c.v th ph
  rw [hsph] at hdz
  generalize hd : rotate c.v (-ph) (-th) = d at *
  have hal := alongsideZ_iff d hdu (by rw [hdz]; exact hd0)
  have hvu := hc.1
  have hlu := hc.2
  generalize halfVector c = h at *
  by_cases hA : alongsideZ d
  · refine ⟨_, _, hA1 hA, rfl, ?_⟩
    have hbig := hal.1 hA
    have hle := hdu.z_le
    rw [hdz] at hbig hle
    simp only [arr, List.getD_cons_zero, List.getD_cons_succ]
    rw [halfToCartesian_pole, hsph]
    unfold V3.IsUnit at hvu hlu hu
    refine ⟨fun h => ?_, ?_, ?_⟩
    · exfalso; nlinarith
    · simp only [V3.dist2, V3.dot] at *; nlinarith
    · have : c.l.x * h.x + c.l.y * h.y + c.l.z * h.z = c.v.dot h := by
        simp only [V3.dot] at *
        linear_combination h.x * mx + h.y * my + h.z * mz
          + 2 * (c.v.x * h.x + c.v.y * h.y + c.v.z * h.z) * hu
      simp only [V3.dist2]
      nlinarith
  · refine ⟨_, _, hA2 hA, rfl, ?_⟩
    simp only [arr, List.getD_cons_zero, List.getD_cons_succ]
    have ev : (halfToCartesian th ph (arccos d.z) (atan2 d.y d.x)).v = c.v :=
      halfToCartesian_of_diff _ _ _ _ _ (by rw [hd]; exact sph_of_unit d hdu)
    have eq : halfToCartesian th ph (arccos d.z) (atan2 d.y d.x) = c := by
      obtain ⟨-, ⟨gx, gy, gz⟩, -, -⟩ := halfToCartesian_geometry th ph (arccos d.z) (atan2 d.y d.x)
      rw [ev, hdu.cos_arccos.trans hdz, hsph] at gx gy gz
      ext <;> first | (rw [ev]) | linarith
    rw [eq]
    refine ⟨fun _ => rfl, ?_, ?_⟩ <;> simp [V3.dist2] <;> norm_num

/-- Non vacuity: a grazing configuration off the plane of incidence. -/
example : (⟨⟨0.6, 0, 0.8⟩, ⟨0, 1, 0⟩⟩ : Cart).IsUnit ∧
    (⟨0.6, 0, 0.8⟩ : V3).dot ⟨0, 1, 0⟩ ≤ 1 - 4e-14 := by
  simp only [Cart.IsUnit, V3.IsUnit, V3.dot]; norm_num

/-- C07, coordinates to directions to coordinates.  Partial: the property asks
    this of every canonical tuple; the code returns `θd = φd = 0` when
    `cos θd > 1 - 1e-14` (`RUSIN_TH_PH_TD_PD_pole`), which is not the input
    unless it is zero already. -/
theorem RUSIN_TH_PH_TD_PD_coordinates_round_trip_partial (th ph td pd : ℝ)
    (hth : 0 ≤ th) (hth' : th ≤ π / 2) (hph : ph ∈ Set.Ioc (-π) π) (hcan : th = 0 → ph = 0)
    (htd : 0 ≤ td) (htd' : td < π / 2) (hpd : pd ∈ Set.Ioc (-π) π)
    (htol : cos td ≤ 1 - 1e-14 ∨ (td = 0 ∧ pd = 0)) :
    ∃ c, toCartesian .RUSIN_TH_PH_TD_PD (arr [th, ph, td, pd]) = some c ∧
      fromCartesian c .RUSIN_TH_PH_TD_PD = some [th, ph, td, pd] := by
  refine ⟨_, rfl, ?_⟩
  simp only [arr, List.getD_cons_zero, List.getD_cons_succ]
  have hctd : 0 < cos td := cos_pos_of_mem_Ioo ⟨by linarith [pi_pos], htd'⟩
  have hcth : 0 ≤ cos th := cos_nonneg_of_mem_Icc ⟨by linarith [pi_pos], hth'⟩
  obtain ⟨-, ⟨gx, gy, gz⟩, -, -⟩ := halfToCartesian_geometry th ph td pd
  have hzz : (sph th ph).z = cos th := rfl
  rw [fromCartesian_eq _ _ (by rw [gz, hzz]; positivity)]
  have hpi := pi_pos
  have h1 : arccos (sph th ph).z = th := arccos_sph ph hth (by linarith)
  have h2 : atan2 (sph th ph).y (sph th ph).x = ph := atan2_sph hth (by linarith) hph hcan
  have hh := halfVector_recovered th ph td pd hctd
  obtain ⟨hA1, hA2⟩ := rusin4_switch (halfToCartesian th ph td pd) th ph (sph td pd)
    (by rw [hh, h1]) (by rw [hh, h2]) (halfToCartesian_frame th ph td pd)
  have hal := alongsideZ_iff (sph td pd) (sph_isUnit td pd) hctd.le
  rcases htol with h | ⟨rfl, rfl⟩
  · have hne : td ≠ 0 := by rintro rfl; rw [cos_zero] at h; norm_num at h
    rw [hA2 (by rw [hal]; exact not_lt.2 h), arccos_sph pd htd (by linarith),
      atan2_sph htd (by linarith) hpd (fun h => absurd h hne)]
  · rw [hA1 (by rw [hal]; simp [sph]; norm_num)]

/-- Non vacuity: the middle of the domain satisfies all the hypotheses. -/
example : ∃ th ph td pd : ℝ, 0 ≤ th ∧ th ≤ π / 2 ∧ ph ∈ Set.Ioc (-π) π ∧ (th = 0 → ph = 0) ∧
    0 ≤ td ∧ td < π / 2 ∧ pd ∈ Set.Ioc (-π) π ∧ (cos td ≤ 1 - 1e-14 ∨ (td = 0 ∧ pd = 0)) := by
  have := pi_gt_three
  refine ⟨1, 2, π / 3, -1, by norm_num, by linarith, ⟨by linarith, by linarith⟩, by norm_num,
    by linarith, by linarith, ⟨by linarith, by linarith⟩, Or.inl ?_⟩
  rw [cos_pi_div_three]; norm_num

/-- C07, limit of the code: inside the pole tolerance the difference angles are
    replaced by zero. -/
theorem RUSIN_TH_PH_TD_PD_pole (th ph td pd : ℝ)
    (hth : 0 ≤ th) (hth' : th ≤ π / 2) (hph : ph ∈ Set.Ioc (-π) π) (hcan : th = 0 → ph = 0)
    (htol : 1 - 1e-14 < cos td) :
    ∃ c, toCartesian .RUSIN_TH_PH_TD_PD (arr [th, ph, td, pd]) = some c ∧
      fromCartesian c .RUSIN_TH_PH_TD_PD = some [th, ph, 0, 0] := by
  refine ⟨_, rfl, ?_⟩
  simp only [arr, List.getD_cons_zero, List.getD_cons_succ]
  have hctd : 0 < cos td := by linarith
  have hcth : 0 ≤ cos th := cos_nonneg_of_mem_Icc ⟨by linarith [pi_pos], hth'⟩
  obtain ⟨-, ⟨gx, gy, gz⟩, -, -⟩ := halfToCartesian_geometry th ph td pd
  have hzz : (sph th ph).z = cos th := rfl
  rw [fromCartesian_eq _ _ (by rw [gz, hzz]; positivity)]
  have hpi := pi_pos
  have h1 : arccos (sph th ph).z = th := arccos_sph ph hth (by linarith)
  have h2 : atan2 (sph th ph).y (sph th ph).x = ph := atan2_sph hth (by linarith) hph hcan
  have hh := halfVector_recovered th ph td pd hctd
  obtain ⟨hA1, hA2⟩ := rusin4_switch (halfToCartesian th ph td pd) th ph (sph td pd)
    (by rw [hh, h1]) (by rw [hh, h2]) (halfToCartesian_frame th ph td pd)
  have hal := alongsideZ_iff (sph td pd) (sph_isUnit td pd) hctd.le
  rw [hA1 (by rw [hal]; exact htol)]

/-- C08, directions to spherical coordinates and back.  The only condition is
    the one under which the conversion does not abort. -/
theorem SPHERICAL_directions_round_trip (c : Cart) (hc : c.IsUnit) (hz : 0 ≤ c.v.z + c.l.z) :
    ∃ o, fromCartesian c .SPHERICAL_TL_PL_TV_PV = some o ∧
      toCartesian .SPHERICAL_TL_PL_TV_PV (arr o) = some c := by
  rw [fromCartesian_eq _ _ hz]
  refine ⟨_, rfl, ?_⟩
  simp only [toCartesian, arr, List.getD_cons_zero, List.getD_cons_succ, Option.some.injEq]
  have h1 := sph_of_unit c.v hc.1
  have h2 := sph_of_unit c.l hc.2
  simp only [sph, mul_comm] at h1 h2
  exact Cart.ext h1 h2

/-- C08, limit of the code: when `V + L` points below the surface the conversion
    of CARTESIAN to any other parametrization ends the program. -/
theorem fromCartesian_aborts (c : Cart) (p : Input) (hz : c.v.z + c.l.z < 0) :
    fromCartesian c p = none := by
  unfold fromCartesian
  rw [if_neg (by rw [halfAsserts_iff]; exact not_le.2 hz)]

/-- C08, canonical spherical coordinates to directions and back. -/
theorem SPHERICAL_coordinates_round_trip (tl pl tv pv : ℝ)
    (htl : 0 ≤ tl) (htl' : tl < π) (hpl : pl ∈ Set.Ioc (-π) π) (hcl : tl = 0 → pl = 0)
    (htv : 0 ≤ tv) (htv' : tv < π) (hpv : pv ∈ Set.Ioc (-π) π) (hcv : tv = 0 → pv = 0)
    (hz : 0 ≤ cos tl + cos tv) :
    ∃ c, toCartesian .SPHERICAL_TL_PL_TV_PV (arr [tl, pl, tv, pv]) = some c ∧
      fromCartesian c .SPHERICAL_TL_PL_TV_PV = some [tl, pl, tv, pv] := by
  refine ⟨_, rfl, ?_⟩
  simp only [arr, List.getD_cons_zero, List.getD_cons_succ]
  rw [fromCartesian_eq _ _ (by simpa [add_comm] using hz)]
  have h1 : atan2 (sin pl * sin tl) (cos pl * sin tl) = pl := by
    rw [mul_comm, mul_comm (cos pl)]; exact atan2_sph htl htl' hpl hcl
  have h2 : atan2 (sin pv * sin tv) (cos pv * sin tv) = pv := by
    rw [mul_comm, mul_comm (cos pv)]; exact atan2_sph htv htv' hpv hcv
  simp only [fromCartesianSwitch, arccos_cos htl htl'.le, arccos_cos htv htv'.le, h1, h2]

example : ∃ tl pl tv pv : ℝ, 0 ≤ tl ∧ tl < π ∧ pl ∈ Set.Ioc (-π) π ∧ (tl = 0 → pl = 0) ∧
    0 ≤ tv ∧ tv < π ∧ pv ∈ Set.Ioc (-π) π ∧ (tv = 0 → pv = 0) ∧ 0 ≤ cos tl + cos tv := by
  have := pi_gt_three
  refine ⟨π / 3, 3, π / 3, -2, by linarith, by linarith, ⟨by linarith, by linarith⟩,
    fun h => by linarith, by linarith, by linarith, ⟨by linarith, by linarith⟩,
    fun h => by linarith, ?_⟩
  rw [cos_pi_div_three]; norm_num

end Alta
