import Verif.Proofs.Half
/-
Helper lemmas of C05: unit directions, one parametrization at a time.
-/
namespace Alta
open Real

theorem sqrt_sq_sum (a b : ℝ) : √(a * a + b * b) ^ 2 = a * a + b * b :=
  sq_sqrt (by nlinarith [sq_nonneg a, sq_nonneg b])

theorem proj_unit (a b : ℝ) (h : √(a * a + b * b) > 0) :
    (a / √(a * a + b * b)) ^ 2 + (b / √(a * a + b * b)) ^ 2 = 1 := by
  have h2 := sqrt_sq_sum a b
  rw [div_pow, div_pow, ← add_div, h2, div_eq_one_iff_eq] <;> nlinarith

theorem isUnit_proj_dir (a b : ℝ) (h : √(a * a + b * b) > 0) (t : ℝ)  :
    (a / √(a * a + b * b) * sin t) ^ 2 + (b / √(a * a + b * b) * sin t) ^ 2 + cos t ^ 2 = 1 := by
  linear_combination (sin t ^ 2) * proj_unit a b h + sin_sq_add_cos_sq t

theorem sqrt_not_pos (t : ℝ) (h : ¬ √t > 0) : √t = 0 :=
  le_antisymm (not_lt.1 h) (sqrt_nonneg _)

theorem unit_COS_TLV (x : ℕ → ℝ) (c : Cart) (hx : x 0 ^ 2 ≤ 1)
    (hc : toCartesian .COS_TLV x = some c) : c.IsUnit := by
  simp only [toCartesian, Option.some.injEq] at hc
  subst hc
  constructor <;> simp only [V3.IsUnit]
  · rw [sq_sqrt (by linarith)]; ring
  · norm_num

theorem unit_COS_TLR (x : ℕ → ℝ) (c : Cart) (hx : x 0 ^ 2 ≤ 1)
    (hc : toCartesian .COS_TLR x = some c) : c.IsUnit := by
  simp only [toCartesian, Option.some.injEq] at hc
  subst hc
  constructor <;> simp only [V3.IsUnit]
  · rw [neg_sq, sq_sqrt (by linarith)]; ring
  · norm_num

theorem unit_STARK_2D (x : ℕ → ℝ) (c : Cart) (hx : x 0 ^ 2 + x 1 ^ 2 ≤ 1)
    (hc : toCartesian .STARK_2D x = some c) : c.IsUnit := by
  simp only [toCartesian, Option.some.injEq] at hc
  subst hc
  have h : x 0 * x 0 + x 1 * x 1 ≤ 1 := by linarith
  constructor <;> simp only [V3.IsUnit, h, if_true, min_eq_left h] <;>
  · have := sq_sqrt (show 0 ≤ 1 - (x 0 * x 0 + x 1 * x 1) by linarith)
    linear_combination this

theorem unit_NEUMANN_2D (x : ℕ → ℝ) (c : Cart) (hx : x 0 ^ 2 + x 1 ^ 2 ≤ 1)
    (hc : toCartesian .NEUMANN_2D x = some c) : c.IsUnit := by
  simp only [toCartesian, Option.some.injEq] at hc
  subst hc
  constructor <;> simp only [V3.IsUnit]
  · rw [sq_sqrt (by linarith)]; ring
  · rw [sq_sqrt (by linarith)]; ring

theorem unit_ISOTROPIC_TV_PROJ_DPHI (x : ℕ → ℝ) (c : Cart)
    (hc : toCartesian .ISOTROPIC_TV_PROJ_DPHI x = some c) : c.IsUnit := by
  simp only [toCartesian, Option.some.injEq] at hc
  subst hc
  constructor <;> simp only [V3.IsUnit]
  · split
    · rename_i h; exact isUnit_proj_dir _ _ h _
    · rename_i h; simp [sqrt_not_pos _ h]
  · norm_num

theorem unit_ISOTROPIC_TL_TV_PROJ_DPHI (x : ℕ → ℝ) (c : Cart)
    (hc : toCartesian .ISOTROPIC_TL_TV_PROJ_DPHI x = some c) : c.IsUnit := by
  simp only [toCartesian, Option.some.injEq] at hc
  subst hc
  constructor <;> simp only [V3.IsUnit]
  · split
    · rename_i h; exact isUnit_proj_dir _ _ h _
    · rename_i h; simp [sqrt_not_pos _ h]
  · linear_combination sin_sq_add_cos_sq (x 0)

theorem sph_unit (t p : ℝ) : (cos p * sin t) ^ 2 + (sin p * sin t) ^ 2 + cos t ^ 2 = 1 := by
  linear_combination sin t ^ 2 * sin_sq_add_cos_sq p + sin_sq_add_cos_sq t

theorem unit_ISOTROPIC_TV_TL_DPHI (x : ℕ → ℝ) (c : Cart)
    (hc : toCartesian .ISOTROPIC_TV_TL_DPHI x = some c) : c.IsUnit := by
  simp only [toCartesian, Option.some.injEq, classicalToCartesian] at hc
  subst hc
  exact ⟨sph_unit _ _, sph_unit _ _⟩

theorem unit_SPHERICAL (x : ℕ → ℝ) (c : Cart)
    (hc : toCartesian .SPHERICAL_TL_PL_TV_PV x = some c) : c.IsUnit := by
  simp only [toCartesian, Option.some.injEq] at hc
  subst hc
  exact ⟨sph_unit _ _, sph_unit _ _⟩

/-- the projected half direction `K` of the SCHLICK coordinates is unit -/
theorem schlick_K_unit (a b : ℝ) :
    (if √(a * a + b * b) > 0 then a / √(a * a + b * b) * sin √(a * a + b * b) else 0) ^ 2
    + (if √(a * a + b * b) > 0 then b / √(a * a + b * b) * sin √(a * a + b * b) else 0) ^ 2
    + cos √(a * a + b * b) ^ 2 = 1 := by
  by_cases h : √(a * a + b * b) > 0
  · rw [if_pos h, if_pos h]; exact isUnit_proj_dir _ _ h _
  · rw [if_neg h, if_neg h, sqrt_not_pos _ h]; simp

theorem unit_SCHLICK_TL_TK_PROJ_DPHI (x : ℕ → ℝ) (c : Cart)
    (hc : toCartesian .SCHLICK_TL_TK_PROJ_DPHI x = some c) : c.IsUnit := by
  simp only [toCartesian, Option.some.injEq] at hc
  subst hc
  have hK := schlick_K_unit (x 1) (x 2)
  have e0 := sin_sq_add_cos_sq (x 0)
  constructor <;> simp only [V3.IsUnit]
  · generalize (if √(x 1 * x 1 + x 2 * x 2) > 0 then x 1 / √(x 1 * x 1 + x 2 * x 2) * sin √(x 1 * x 1 + x 2 * x 2) else 0) = kx at *
    generalize (if √(x 1 * x 1 + x 2 * x 2) > 0 then x 2 / √(x 1 * x 1 + x 2 * x 2) * sin √(x 1 * x 1 + x 2 * x 2) else 0) = ky at *
    generalize cos √(x 1 * x 1 + x 2 * x 2) = kz at *
    linear_combination 4 * (cos (x 0) * kz - sin (x 0) * kx) ^ 2 * hK + e0
  · linear_combination e0

theorem unit_STARK_3D (x : ℕ → ℝ) (c : Cart) (hx : x 0 ^ 2 + x 1 ^ 2 ≤ 1)
    (hc : toCartesian .STARK_3D x = some c) : c.IsUnit := by
  simp only [toCartesian, Option.some.injEq] at hc
  have hz2 := sq_sqrt (show 0 ≤ 1 - x 0 * x 0 - x 1 * x 1 by nlinarith)
  generalize √(1 - x 0 * x 0 - x 1 * x 1) = hz at *
  have hs := sqrt_mul_sin_atan2 (x 0 * cos (x 2)) (-hz)
  have hcs := sqrt_mul_cos_atan2 (x 0 * cos (x 2)) (-hz)
  have hr := sq_sqrt (show 0 ≤ (x 0 * cos (x 2)) ^ 2 + (-hz) ^ 2 by positivity)
  have hr0 := sqrt_nonneg ((x 0 * cos (x 2)) ^ 2 + (-hz) ^ 2)
  generalize √((x 0 * cos (x 2)) ^ 2 + (-hz) ^ 2) = r at *
  have et := sin_sq_add_cos_sq (atan2 (-hz) (x 0 * cos (x 2)))
  have ep := sin_sq_add_cos_sq (x 2)
  generalize sin (atan2 (-hz) (x 0 * cos (x 2))) = st at *
  generalize cos (atan2 (-hz) (x 0 * cos (x 2))) = ct at *
  have hperp : x 0 * cos (x 2) * st + hz * ct = 0 := by
    rcases eq_or_lt_of_le hr0 with h | h
    · rw [← h] at hs hcs
      have h1 : hz = 0 := by linarith
      have h2 : x 0 * cos (x 2) = 0 := by linarith
      rw [h1, h2]; ring
    · have : r * (x 0 * cos (x 2) * st + hz * ct) = 0 := by
        linear_combination (x 0 * cos (x 2)) * hs + hz * hcs
      rcases mul_eq_zero.1 this with h' | h'
      · exact absurd h' h.ne'
      · exact h'
  subst hc
  constructor <;> simp only [V3.IsUnit]
  · linear_combination hz2 + x 1 ^ 2 * st ^ 2 * ep + x 1 ^ 2 * et - 2 * x 1 * hperp
  · linear_combination hz2 + x 1 ^ 2 * st ^ 2 * ep + x 1 ^ 2 * et + 2 * x 1 * hperp

theorem unit_NEUMANN_3D (x : ℕ → ℝ) (c : Cart)
    (hc : toCartesian .NEUMANN_3D x = some c) : c.IsUnit := by
  simp only [toCartesian] at hc
  split at hc
  · simp only [Option.some.injEq] at hc
    subst hc
    simp [Cart.IsUnit, V3.IsUnit]
  · rename_i h
    simp only [Option.some.injEq] at hc
    subst hc
    push Not at h
    constructor <;> simp only [V3.IsUnit]
    · rw [sq_sqrt (by linarith [h.1])]; ring
    · rw [sq_sqrt (by linarith [h.2])]; ring

/-- spherical trigonometry behind the RETRO coordinates -/
theorem retro_unit (sL cL sT cT cp sp : ℝ) (eL : sL ^ 2 + cL ^ 2 = 1) (eT : sT ^ 2 + cT ^ 2 = 1)
    (h : cp ^ 2 + sp ^ 2 = 1 ∨ sT = 0) :
    (cL * cT + cp * sL * sT) ^ 2 + (sT * sp) ^ 2 + (sL * cT - cp * cL * sT) ^ 2 = 1 := by
  rcases h with h | h
  · linear_combination (cT ^ 2 + cp ^ 2 * sT ^ 2) * eL + sT ^ 2 * h + eT
  · subst h; linear_combination cT ^ 2 * eL + eT

theorem retro_v_unit (cv m : ℝ) (h : cv ^ 2 + m ^ 2 ≤ 1) :
    (if √(1 - min (cv * cv) 1) ≠ 0 then
      (⟨√(1 - min (cv * cv) 1) * √(1 - min (m / √(1 - min (cv * cv) 1) * (m / √(1 - min (cv * cv) 1))) 1),
        √(1 - min (cv * cv) 1) * (m / √(1 - min (cv * cv) 1)), cv⟩ : V3)
      else ⟨0, 0, cv⟩).IsUnit := by
  have hmin : min (cv * cv) 1 = cv ^ 2 := by
    rw [min_eq_left] <;> nlinarith [sq_nonneg m]
  rw [hmin]
  have hsv2 := sq_sqrt (show 0 ≤ 1 - cv ^ 2 by nlinarith [sq_nonneg m])
  generalize √(1 - cv ^ 2) = sv at *
  by_cases h0 : sv ≠ 0
  · rw [if_pos h0]
    have hpos : 0 < sv ^ 2 := by positivity
    have hsd : m / sv * (m / sv) ≤ 1 := by
      have : m / sv * (m / sv) = m ^ 2 / sv ^ 2 := by field_simp
      rw [this, div_le_one hpos]; linarith
    simp only [V3.IsUnit, mul_pow]
    rw [min_eq_left hsd, sq_sqrt (by linarith)]
    linear_combination hsv2
  · rw [if_neg h0]
    have h0' : sv = 0 := not_not.1 h0
    simp only [V3.IsUnit]
    rw [h0'] at hsv2
    linarith

theorem unit_RETRO_TL_TVL_PROJ_DPHI (x : ℕ → ℝ) (c : Cart)
    (hc : toCartesian .RETRO_TL_TVL_PROJ_DPHI x = some c) : c.IsUnit := by
  simp only [toCartesian, Option.some.injEq] at hc
  subst hc
  have e0 := sin_sq_add_cos_sq (x 0)
  constructor
  · have hp : (if √(x 1 * x 1 + x 2 * x 2) > 0 then x 1 / √(x 1 * x 1 + x 2 * x 2) else 0) ^ 2
        + (if √(x 1 * x 1 + x 2 * x 2) > 0 then x 2 / √(x 1 * x 1 + x 2 * x 2) else 0) ^ 2 = 1
        ∨ sin √(x 1 * x 1 + x 2 * x 2) = 0 := by
      by_cases h : √(x 1 * x 1 + x 2 * x 2) > 0
      · left; rw [if_pos h, if_pos h]; exact proj_unit _ _ h
      · right; rw [sqrt_not_pos _ h]; simp
    have := retro_unit _ _ _ _ _ _ e0 (sin_sq_add_cos_sq √(x 1 * x 1 + x 2 * x 2)) hp
    apply retro_v_unit
    nlinarith [sq_nonneg (sin (x 0) * cos √(x 1 * x 1 + x 2 * x 2) - (if √(x 1 * x 1 + x 2 * x 2) > 0 then x 1 / √(x 1 * x 1 + x 2 * x 2) else 0) * cos (x 0) * sin √(x 1 * x 1 + x 2 * x 2))]
  · simp only [V3.IsUnit]; linear_combination e0

end Alta
