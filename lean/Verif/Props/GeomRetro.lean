import Verif.Props.GeomIsotropic2
/-
Property C09, end: `RETRO_TL_TVL_PROJ_DPHI`.
-/
namespace Alta
open Real

theorem V3.IsUnit.sqrt_eq_rad {v : V3} (h : v.IsUnit) : √(1 - v.z * v.z) = v.rad := by
  unfold V3.rad; congr 1; unfold V3.IsUnit at h; linarith

/-- the code of `to_cartesian` for RETRO coordinates, given the intermediate
    values it computes -/
theorem retro_to (x : ℕ → ℝ) (tvl cp sp : ℝ)
    (h1 : √(x 1 * x 1 + x 2 * x 2) = tvl)
    (hcp : (if tvl > 0 then x 1 / tvl else 0) = cp)
    (hsp : (if tvl > 0 then x 2 / tvl else 0) = sp) (cv sv : ℝ)
    (hcv : cos (x 0) * cos tvl + cp * sin (x 0) * sin tvl = cv)
    (hsv : √(1 - min (cv * cv) 1) = sv) :
    toCartesian .RETRO_TL_TVL_PROJ_DPHI x =
      some ⟨if sv ≠ 0 then ⟨sv * √(1 - min (sin tvl * sp / sv * (sin tvl * sp / sv)) 1),
          sv * (sin tvl * sp / sv), cv⟩ else ⟨0, 0, cv⟩, ⟨sin (x 0), 0, cos (x 0)⟩⟩ := by
  subst h1 hcp hsp hcv hsv
  rfl

/-- the code of `from_cartesian` for RETRO coordinates, given the intermediate
    values it computes -/
theorem retro_from (c : Cart) (hc : c.IsUnit) (C S : ℝ)
    (hC : c.v.x * c.l.x + c.v.y * c.l.y + c.v.z * c.l.z = C) (hS : √(1 - C * C) = S) :
    fromCartesianSwitch c .RETRO_TL_TVL_PROJ_DPHI =
      if S ≠ 0 ∧ c.l.rad ≠ 0 then
        some [arccos c.l.z, arccos C * ((c.v.z - c.l.z * C) / (c.l.rad * S)),
          arccos C * (sin (c.l.az - c.v.az) * c.v.rad / S)]
      else some [arccos c.l.z, arccos c.v.z - arccos c.l.z, 0] := by
  subst hC hS
  simp only [fromCartesianSwitch, hc.1.sqrt_eq_rad, hc.2.sqrt_eq_rad]
  rfl

theorem sqrt_min_rad {v : V3} (h : v.IsUnit) : √(1 - min (v.z * v.z) 1) = v.rad := by
  have h' := h
  unfold V3.IsUnit at h'
  rw [min_eq_left (by nlinarith [sq_nonneg v.x, sq_nonneg v.y]), h.sqrt_eq_rad]

theorem rotZ_self_x (v : V3) : (v.rotZ (-v.az)).x = v.rad := by
  rw [V3.rotZ_x, add_neg_cancel, cos_zero, mul_one]

theorem rotZ_self_y (v : V3) : (v.rotZ (-v.az)).y = 0 := by
  rw [V3.rotZ_y, add_neg_cancel, sin_zero, mul_zero]

theorem dot_xy_polar (c : Cart) :
    c.v.x * c.l.x + c.v.y * c.l.y = c.v.rad * c.l.rad * cos (c.l.az - c.v.az) := by
  rw [cos_sub]
  linear_combination -(c.l.x) * c.v.x_polar - c.v.rad * cos c.v.az * c.l.x_polar
    - c.l.y * c.v.y_polar - c.v.rad * sin c.v.az * c.l.y_polar

/-- spherical trigonometry, in rational form -/
theorem retro_trig (rv rl vz lz cd sd : ℝ) (e : sd ^ 2 + cd ^ 2 = 1)
    (a1 : rv ^ 2 + vz ^ 2 = 1) (a2 : rl ^ 2 + lz ^ 2 = 1) :
    (rv * rl * cd + vz * lz) ^ 2 + ((vz * rl - rv * lz * cd) ^ 2 + (sd * rv) ^ 2) = 1 := by
  linear_combination rv ^ 2 * e + a1 + (rv ^ 2 * cd ^ 2 + vz ^ 2) * a2

/-- what the coordinates of a configuration in general position satisfy, in scalars -/
theorem retro_scalar (rv rl vz lz δ C S : ℝ) (a1 : rv ^ 2 + vz ^ 2 = 1) (a2 : rl ^ 2 + lz ^ 2 = 1)
    (hC : rv * rl * cos δ + vz * lz = C) (hSd : √(1 - C * C) = S) (hS : S ≠ 0) (hrl : 0 < rl) :
    0 < S ∧ 0 < arccos C ∧ sin (arccos C) = S ∧ cos (arccos C) = C ∧
    ((vz - lz * C) / (rl * S)) ^ 2 + (sin δ * rv / S) ^ 2 = 1 ∧
    lz * C + (vz - lz * C) / (rl * S) * rl * S = vz := by
  have hunit := retro_trig rv rl vz lz (cos δ) (sin δ) (sin_sq_add_cos_sq δ) a1 a2
  rw [hC] at hunit
  have hC1 : C ^ 2 ≤ 1 := by
    have h1 := sq_nonneg (vz * rl - rv * lz * cos δ)
    have h2 := sq_nonneg (sin δ * rv)
    linarith
  have hC2 := abs_le_one_iff_mul_self_le_one.2 (by linarith : C * C ≤ 1)
  have hS2 : S ^ 2 = 1 - C * C := by rw [← hSd]; exact sq_sqrt (by linarith)
  have hS0 : 0 ≤ S := by rw [← hSd]; exact sqrt_nonneg _
  have hSp : 0 < S := lt_of_le_of_ne hS0 (Ne.symm hS)
  have ha : (vz - lz * C) / (rl * S) = (vz * rl - rv * lz * cos δ) / S := by
    rw [div_eq_div_iff (by positivity) (by positivity), ← hC]
    linear_combination -S * vz * a2
  refine ⟨hSp, ?_, ?_, Real.cos_arccos (abs_le.1 hC2).1 (abs_le.1 hC2).2, ?_, ?_⟩
  · rw [arccos_pos]
    refine lt_of_le_of_ne (abs_le.1 hC2).2 fun h => ?_
    rw [h] at hS2
    have : S ^ 2 = 0 := by rw [hS2]; ring
    exact hS (pow_eq_zero_iff (by norm_num) |>.1 this)
  · rw [Real.sin_arccos, ← hSd]; congr 1; ring
  · rw [ha, div_pow, div_pow, ← add_div, div_eq_one_iff_eq (by positivity)]; linarith
  · have : (vz - lz * C) / (rl * S) * rl * S = vz - lz * C := by field_simp
    rw [this]; ring

/-- the direction rebuilt by `to_cartesian` -/
theorem retro_view (c : Cart) (hrlp : 0 < c.l.rad)
    (hside : 0 ≤ c.v.x * c.l.x + c.v.y * c.l.y) (S : ℝ) (hSp : 0 < S) :
    (if c.v.rad ≠ 0 then
      (⟨c.v.rad * √(1 - min (S * (sin (c.l.az - c.v.az) * c.v.rad / S) / c.v.rad *
          (S * (sin (c.l.az - c.v.az) * c.v.rad / S) / c.v.rad)) 1),
        c.v.rad * (S * (sin (c.l.az - c.v.az) * c.v.rad / S) / c.v.rad), c.v.z⟩ : V3)
      else ⟨0, 0, c.v.z⟩) = (c.rotZ (-c.l.az)).mirrorY.v := by
  have hdelta : c.v.az + -c.l.az = -(c.l.az - c.v.az) := by ring
  have hrotvx : (c.v.rotZ (-c.l.az)).x = c.v.rad * cos (c.l.az - c.v.az) := by
    rw [V3.rotZ_x, hdelta, cos_neg]
  have hrotvy : (c.v.rotZ (-c.l.az)).y = -(c.v.rad * sin (c.l.az - c.v.az)) := by
    rw [V3.rotZ_y, hdelta, sin_neg]; ring
  rw [dot_xy_polar] at hside
  generalize c.l.az - c.v.az = δ at *
  by_cases h0 : c.v.rad ≠ 0
  · rw [if_pos h0]
    have hsd : S * (sin δ * c.v.rad / S) / c.v.rad = sin δ := by field_simp
    have hcd : 0 ≤ cos δ := by
      have : 0 < c.v.rad * c.l.rad := mul_pos (lt_of_le_of_ne c.v.rad_nonneg (Ne.symm h0)) hrlp
      exact (mul_nonneg_iff_of_pos_left this).1 hside
    have eδ := sin_sq_add_cos_sq δ
    have hs1 : sin δ * sin δ ≤ 1 := by linarith [sq_nonneg (cos δ)]
    rw [hsd, min_eq_left hs1, show 1 - sin δ * sin δ = cos δ ^ 2 by linarith, sqrt_sq hcd]
    ext
    · simp only [Cart.mirrorY, Cart.rotZ, hrotvx]
    · simp only [Cart.mirrorY, Cart.rotZ, hrotvy, neg_neg]
    · rfl
  · have h0' : c.v.rad = 0 := not_not.1 h0
    rw [if_neg h0]
    ext
    · simp only [Cart.mirrorY, Cart.rotZ, hrotvx, h0', zero_mul]
    · simp only [Cart.mirrorY, Cart.rotZ, hrotvy, h0', zero_mul, neg_zero]
    · rfl

theorem retro_general (c : Cart) (hc : c.IsUnit) (hside : 0 ≤ c.v.x * c.l.x + c.v.y * c.l.y)
    (C S : ℝ) (hC : c.v.x * c.l.x + c.v.y * c.l.y + c.v.z * c.l.z = C) (hSd : √(1 - C * C) = S)
    (hS : S ≠ 0) (hrl : c.l.rad ≠ 0) :
    toCartesian .RETRO_TL_TVL_PROJ_DPHI
      (arr [arccos c.l.z, arccos C * ((c.v.z - c.l.z * C) / (c.l.rad * S)),
          arccos C * (sin (c.l.az - c.v.az) * c.v.rad / S)]) = some (c.rotZ (-c.l.az)).mirrorY := by
  have a1 : c.v.rad ^ 2 + c.v.z ^ 2 = 1 := by rw [c.v.rad_sq]; exact hc.1
  have a2 : c.l.rad ^ 2 + c.l.z ^ 2 = 1 := by rw [c.l.rad_sq]; exact hc.2
  have hrlp : 0 < c.l.rad := lt_of_le_of_ne c.l.rad_nonneg (Ne.symm hrl)
  rw [dot_xy_polar] at hC
  obtain ⟨hSp, htp, hsinC, hcosC, hab, hCv⟩ :=
    retro_scalar c.v.rad c.l.rad c.v.z c.l.z (c.l.az - c.v.az) C S a1 a2 hC hSd hS hrlp
  have hview := retro_view c hrlp hside S hSp
  generalize arccos C = T at *
  generalize (c.v.z - c.l.z * C) / (c.l.rad * S) = a at *
  generalize sin (c.l.az - c.v.az) * c.v.rad / S = b at *
  rw [retro_to _ T a b ?_ ?_ ?_ c.v.z c.v.rad ?_ (sqrt_min_rad hc.1)]
  · simp only [arr, List.getD_cons_zero, hc.2.cos_arccos, hc.2.sin_eq_rad, hsinC]
    congr 1
    apply Cart.ext
    · exact hview
    · ext
      · simp only [Cart.mirrorY, Cart.rotZ, rotZ_self_x]
      · simp only [Cart.mirrorY, Cart.rotZ, rotZ_self_y, neg_zero]
      · rfl
  · simp only [arr, List.getD_cons_zero, List.getD_cons_succ]
    rw [show T * a * (T * a) + T * b * (T * b) = T ^ 2 by linear_combination T ^ 2 * hab]
    exact sqrt_sq htp.le
  · simp only [arr, List.getD_cons_zero, List.getD_cons_succ]
    rw [if_pos htp, mul_div_cancel_left₀ _ htp.ne']
  · simp only [arr, List.getD_cons_zero, List.getD_cons_succ]
    rw [if_pos htp, mul_div_cancel_left₀ _ htp.ne']
  · simp only [arr, List.getD_cons_zero, hc.2.cos_arccos, hc.2.sin_eq_rad, hsinC, hcosC]
    exact hCv

theorem retro_normal_light (c : Cart) (hc : c.IsUnit) (hl : 0 ≤ c.l.z) (hrl : c.l.rad = 0) :
    toCartesian .RETRO_TL_TVL_PROJ_DPHI (arr [arccos c.l.z, arccos c.v.z - arccos c.l.z, 0])
      = some (c.rotZ (-c.v.az)).mirrorY := by
  have hlz : c.l.z = 1 := by
    have := c.l.rad_sq
    have h2 := hc.2
    unfold V3.IsUnit at h2
    rw [hrl] at this; nlinarith
  have hac : arccos c.v.z - arccos c.l.z = arccos c.v.z := by rw [hlz, arccos_one, sub_zero]
  have hsq : √(arccos c.v.z * arccos c.v.z + 0 * 0) = arccos c.v.z := by
    rw [mul_zero, add_zero]; exact sqrt_mul_self (arccos_nonneg _)
  rw [hac, hlz, arccos_one, retro_to _ (arccos c.v.z) (if arccos c.v.z > 0 then 1 else 0) 0
    (by simpa [arr] using hsq) ?_ ?_ c.v.z c.v.rad ?_ (sqrt_min_rad hc.1)]
  · simp only [arr, List.getD_cons_zero, mul_zero, zero_div, sin_zero, cos_zero]
    congr 1
    obtain ⟨hlx0, hly0⟩ := V3.rad_eq_zero hrl
    apply Cart.ext
    · by_cases h0 : c.v.rad ≠ 0
      · rw [if_pos h0]
        ext
        · simp only [Cart.mirrorY, Cart.rotZ, rotZ_self_x]; simp
        · simp only [Cart.mirrorY, Cart.rotZ, rotZ_self_y]; simp
        · rfl
      · have h0' : c.v.rad = 0 := not_not.1 h0
        rw [if_neg h0]
        ext
        · simp only [Cart.mirrorY, Cart.rotZ, rotZ_self_x, h0']
        · simp only [Cart.mirrorY, Cart.rotZ, rotZ_self_y, neg_zero]
        · rfl
    · ext
      · simp only [Cart.mirrorY, Cart.rotZ, V3.rotZ, hlx0, hly0]; simp
      · simp only [Cart.mirrorY, Cart.rotZ, V3.rotZ, hlx0, hly0]; simp
      · simp only [Cart.mirrorY, Cart.rotZ, V3.rotZ, hlz]
  · simp only [arr, List.getD_cons_zero, List.getD_cons_succ]
    split
    · rename_i h; exact div_self h.ne'
    · rfl
  · simp [arr]
  · simp only [arr, List.getD_cons_zero, sin_zero, cos_zero, mul_zero, zero_mul, add_zero, one_mul]
    exact hc.1.cos_arccos

theorem retro_equal (c : Cart) (hc : c.IsUnit) (heq : c.v = c.l) (hrl : c.l.rad ≠ 0) :
    toCartesian .RETRO_TL_TVL_PROJ_DPHI (arr [arccos c.l.z, arccos c.v.z - arccos c.l.z, 0])
      = some (c.rotZ (-c.l.az)).mirrorY := by
  rw [heq, sub_self, retro_to _ 0 0 0 (by simp [arr]) (by simp) (by simp) c.l.z c.l.rad
    (by simp [arr, hc.2.cos_arccos]) (sqrt_min_rad hc.2)]
  simp only [arr, List.getD_cons_zero, hc.2.cos_arccos, hc.2.sin_eq_rad, mul_zero, zero_div]
  rw [if_pos hrl]
  congr 1
  apply Cart.ext
  · ext
    · simp only [Cart.mirrorY, Cart.rotZ, heq, rotZ_self_x]; simp
    · simp only [Cart.mirrorY, Cart.rotZ, heq, rotZ_self_y]; simp
    · simp only [Cart.mirrorY, Cart.rotZ, heq, V3.rotZ]
  · ext
    · simp only [Cart.mirrorY, Cart.rotZ, rotZ_self_x]
    · simp only [Cart.mirrorY, Cart.rotZ, rotZ_self_y]; simp
    · rfl

/-- C09, limit of the code: when the view is on the same side as the light
    (`vx lx + vy ly ≥ 0`), `RETRO_TL_TVL_PROJ_DPHI` returns the mirror image of
    the configuration, up to a rotation about the normal. -/
theorem RETRO_TL_TVL_PROJ_DPHI_mirrors (c : Cart) (hc : c.IsUnit) (hv : 0 ≤ c.v.z)
    (hl : 0 ≤ c.l.z) (hside : 0 ≤ c.v.x * c.l.x + c.v.y * c.l.y) :
    ∃ o t, fromCartesian c .RETRO_TL_TVL_PROJ_DPHI = some o ∧
      toCartesian .RETRO_TL_TVL_PROJ_DPHI (arr o) = some (c.rotZ t).mirrorY := by
  rw [fromCartesian_eq _ _ (by linarith), retro_from c hc _ _ rfl rfl]
  split
  · rename_i h
    exact ⟨_, _, rfl, retro_general c hc hside _ _ rfl rfl h.1 h.2⟩
  · rename_i h
    by_cases hrl : c.l.rad = 0
    · exact ⟨_, _, rfl, retro_normal_light c hc hl hrl⟩
    · refine ⟨_, _, rfl, retro_equal c hc ?_ hrl⟩
      have hS : √(1 - (c.v.x * c.l.x + c.v.y * c.l.y + c.v.z * c.l.z) * (c.v.x * c.l.x + c.v.y * c.l.y + c.v.z * c.l.z)) = 0 := by
        by_contra h'; exact h ⟨h', hrl⟩
      have hvu := hc.1
      have hlu := hc.2
      unfold V3.IsUnit at hvu hlu
      have hCS : (c.v.x * c.l.x + c.v.y * c.l.y + c.v.z * c.l.z) ≤ 1 := by
        nlinarith [sq_nonneg (c.v.x - c.l.x), sq_nonneg (c.v.y - c.l.y), sq_nonneg (c.v.z - c.l.z)]
      have h3 : 0 ≤ c.v.x * c.l.x + c.v.y * c.l.y + c.v.z * c.l.z := by positivity
      have h2 := (sqrt_eq_zero (by nlinarith)).1 hS
      have hone : c.v.x * c.l.x + c.v.y * c.l.y + c.v.z * c.l.z = 1 := by nlinarith
      have h : (c.v.x - c.l.x) ^ 2 + (c.v.y - c.l.y) ^ 2 + (c.v.z - c.l.z) ^ 2 = 0 := by nlinarith
      ext <;> nlinarith [sq_nonneg (c.v.x - c.l.x), sq_nonneg (c.v.y - c.l.y), sq_nonneg (c.v.z - c.l.z)]

example : (⟨⟨0.6, 0, 0.8⟩, ⟨0.8, 0, 0.6⟩⟩ : Cart).IsUnit ∧
    (0 : ℝ) ≤ 0.6 * 0.8 + 0 * 0 := by
  simp only [Cart.IsUnit, V3.IsUnit]; norm_num

/-- whatever the coordinates, the view direction given by `to_cartesian` is on
    the side of the light -/
theorem retro_side (x : ℕ → ℝ) (c' : Cart) (hx : 0 ≤ sin (x 0))
    (h : toCartesian .RETRO_TL_TVL_PROJ_DPHI x = some c') :
    0 ≤ c'.v.x * c'.l.x + c'.v.y * c'.l.y := by
  obtain ⟨tvl, h1⟩ : ∃ t, √(x 1 * x 1 + x 2 * x 2) = t := ⟨_, rfl⟩
  obtain ⟨cp, hcp⟩ : ∃ t, (if tvl > 0 then x 1 / tvl else 0) = t := ⟨_, rfl⟩
  obtain ⟨sp, hsp⟩ : ∃ t, (if tvl > 0 then x 2 / tvl else 0) = t := ⟨_, rfl⟩
  obtain ⟨cv, hcv⟩ : ∃ t, cos (x 0) * cos tvl + cp * sin (x 0) * sin tvl = t := ⟨_, rfl⟩
  obtain ⟨sv, hsv⟩ : ∃ t, √(1 - min (cv * cv) 1) = t := ⟨_, rfl⟩
  rw [retro_to x tvl cp sp h1 hcp hsp cv sv hcv hsv, Option.some.injEq] at h
  subst h
  have hsv0 : 0 ≤ sv := hsv ▸ sqrt_nonneg _
  rw [mul_zero, add_zero]
  apply mul_nonneg _ hx
  split
  · exact mul_nonneg hsv0 (sqrt_nonneg _)
  · exact le_refl _

/-- C09, limit of the code: on the other side of the normal (`vx lx + vy ly < 0`,
    which includes every mirror configuration) `RETRO_TL_TVL_PROJ_DPHI` gives back
    neither a rotation nor a mirror image of the configuration. -/
theorem RETRO_TL_TVL_PROJ_DPHI_wrong_side (c : Cart)
    (hside : c.v.x * c.l.x + c.v.y * c.l.y < 0) (o : List ℝ) (c' : Cart)
    (ho : fromCartesian c .RETRO_TL_TVL_PROJ_DPHI = some o)
    (hc' : toCartesian .RETRO_TL_TVL_PROJ_DPHI (arr o) = some c') (t : ℝ) :
    c' ≠ c.rotZ t ∧ c' ≠ (c.rotZ t).mirrorY := by
  have hsin : 0 ≤ sin (arr o 0) := by
    unfold fromCartesian at ho
    split at ho
    · simp only [fromCartesianSwitch] at ho
      have : arr o 0 = arccos c.l.z := by
        split at ho <;> (simp only [Option.some.injEq] at ho; subst ho; rfl)
      rw [this]; exact sin_nonneg_of_mem_Icc ⟨arccos_nonneg _, arccos_le_pi _⟩
    · simp at ho
  have h := retro_side _ _ hsin hc'
  have e := sin_sq_add_cos_sq t
  have inv : (c.rotZ t).v.x * (c.rotZ t).l.x + (c.rotZ t).v.y * (c.rotZ t).l.y
      = c.v.x * c.l.x + c.v.y * c.l.y := by
    simp only [Cart.rotZ, V3.rotZ]
    linear_combination (c.v.x * c.l.x + c.v.y * c.l.y) * e
  constructor
  · rintro rfl
    rw [inv] at h; linarith
  · rintro rfl
    simp only [Cart.mirrorY, neg_mul_neg] at h
    rw [inv] at h; linarith

example : (⟨⟨0.6, 0, 0.8⟩, ⟨-0.6, 0, 0.8⟩⟩ : Cart).IsUnit ∧
    (0.6 : ℝ) * (-0.6) + 0 * 0 < 0 := by
  simp only [Cart.IsUnit, V3.IsUnit]; norm_num

end Alta
