import Verif.Proofs.Round
import Verif.Props.GeomConvert
/-
Properties C10 (coordinates survive a round trip through CARTESIAN) and C11
(reciprocity).
-/
namespace Alta
open Real

/-- Specification of C10: the canonical coordinates of the one and two
    dimensional parametrizations (and of RUSIN_VH). -/
def LossyCanonical (p : Input) (x : ℕ → ℝ) : Prop :=
  match p with
  -- cosine of the half angle, half vector above the surface
  | .COS_TH => 0 ≤ x 0 ∧ x 0 ≤ 1
  -- cosine of an angle between two directions
  | .COS_TLV => -1 ≤ x 0 ∧ x 0 ≤ 1
  -- cosines of the half and difference angles; `θd = π/2` has no half vector
  | .COS_TH_TD => (0 ≤ x 0 ∧ x 0 ≤ 1) ∧ (0 < x 1 ∧ x 1 ≤ 1)
  | .RUSIN_TH_TD => (0 ≤ x 0 ∧ x 0 ≤ π / 2) ∧ (0 ≤ x 1 ∧ x 1 < π / 2)
  -- a unit half vector above the surface
  | .RUSIN_VH => x 0 ^ 2 + x 1 ^ 2 + x 2 ^ 2 = 1 ∧ 0 ≤ x 2
  -- lengths of two orthogonal vectors of the unit disc
  | .STARK_2D => 0 ≤ x 0 ∧ 0 ≤ x 1 ∧ x 0 ^ 2 + x 1 ^ 2 ≤ 1
  | .NEUMANN_2D => 0 ≤ x 0 ∧ 0 ≤ x 1 ∧ x 0 ^ 2 + x 1 ^ 2 ≤ 1
  -- polar coordinates with radius the view angle
  | .ISOTROPIC_TV_PROJ_DPHI => x 0 ^ 2 + x 1 ^ 2 < π ^ 2
  | _ => False

/-- C10: for every canonical coordinate tuple of the parametrizations listed in
    `LossyCanonical`, converting to CARTESIAN and back gives the same tuple.
    Partial: the property ranges over all 1D/2D parametrizations and RUSIN_VH;
    it fails for `COS_TLR` and `COS_TK` (theorems below). -/
theorem lossy_round_trip_partial (p : Input) (x : ℕ → ℝ) (h : LossyCanonical p x) :
    ∃ c o, toCartesian p x = some c ∧ fromCartesian c p = some o ∧
      (o.length : ℤ) = inputDim p ∧ ∀ (i : ℕ) (hi : i < o.length), o[i] = x i := by
  have two : ∀ (a b : ℝ), a = x 0 → b = x 1 →
      ∀ (i : ℕ) (hi : i < [a, b].length), [a, b][i] = x i := by
    intro a b ha hb i hi
    match i, hi with
    | 0, _ => exact ha
    | 1, _ => exact hb
  have one : ∀ (a : ℝ), a = x 0 → ∀ (i : ℕ) (hi : i < [a].length), [a][i] = x i := by
    intro a ha i hi
    match i, hi with
    | 0, _ => exact ha
  have hpi := pi_pos
  cases p <;> simp only [LossyCanonical] at h
  case COS_TH =>
    have hc : cos (arccos (x 0)) = x 0 := cos_arccos (by linarith [h.1]) h.2
    obtain ⟨-, ⟨-, -, gz⟩, -, -⟩ := halfToCartesian_geometry (arccos (x 0)) 0 0 0
    refine ⟨_, _, rfl, fromCartesian_eq _ _ ?_, (by rw [inputDim_eq _ (by decide)]; rfl), one _ ?_⟩
    · rw [gz]; simp only [sph, hc, cos_zero]; linarith [h.1]
    · rw [halfVector_recovered _ _ _ _ (by rw [cos_zero]; norm_num)]; exact hc
  case COS_TLV =>
    refine ⟨_, _, rfl, fromCartesian_eq _ _ ?_, (by rw [inputDim_eq _ (by decide)]; rfl), one _ ?_⟩
    · simp only; linarith [h.1]
    · simp
  case COS_TH_TD =>
    have hc : cos (arccos (x 0)) = x 0 := cos_arccos (by linarith [h.1.1]) h.1.2
    have hd : cos (arccos (x 1)) = x 1 := cos_arccos (by linarith [h.2.1]) h.2.2
    obtain ⟨-, ⟨-, -, gz⟩, gv, -⟩ := halfToCartesian_geometry (arccos (x 0)) 0 (arccos (x 1)) 0
    have hh := halfVector_recovered (arccos (x 0)) 0 (arccos (x 1)) 0 (by rw [hd]; exact h.2.1)
    refine ⟨_, _, rfl, fromCartesian_eq _ _ ?_, (by rw [inputDim_eq _ (by decide)]; rfl), two _ _ ?_ ?_⟩
    · rw [gz]; simp only [sph, hc, hd]; nlinarith [h.1.1, h.2.1]
    · rw [hh]; exact hc
    · rw [hh]; rw [hd] at gv; simp only [V3.dot] at gv; linarith
  case RUSIN_TH_TD =>
    have hctd : 0 < cos (x 1) := cos_pos_of_mem_Ioo ⟨by linarith [h.2.1], h.2.2⟩
    have hcth : 0 ≤ cos (x 0) := cos_nonneg_of_mem_Icc ⟨by linarith [h.1.1], h.1.2⟩
    obtain ⟨-, ⟨-, -, gz⟩, gv, -⟩ := halfToCartesian_geometry (x 0) 0 (x 1) (1/2 * π)
    have hh := halfVector_recovered (x 0) 0 (x 1) (1/2 * π) hctd
    refine ⟨_, _, rfl, fromCartesian_eq _ _ ?_, (by rw [inputDim_eq _ (by decide)]; rfl), two _ _ ?_ ?_⟩
    · rw [gz]; simp only [sph]; positivity
    · rw [hh]; exact arccos_cos h.1.1 (by linarith [h.1.2])
    · rw [hh]
      have e : (sph (x 0) 0).x * (halfToCartesian (x 0) 0 (x 1) (1/2 * π)).v.x
          + (sph (x 0) 0).y * (halfToCartesian (x 0) 0 (x 1) (1/2 * π)).v.y
          + (sph (x 0) 0).z * (halfToCartesian (x 0) 0 (x 1) (1/2 * π)).v.z = cos (x 1) := by
        rw [← gv]; simp only [V3.dot]; ring
      rw [e, clampR, min_eq_left (cos_le_one _), max_eq_left (neg_one_le_cos _)]
      exact arccos_cos h.2.1 (by linarith [h.2.2])
  case RUSIN_VH =>
    obtain ⟨hu, hz⟩ := h
    have hs := sph_of_unit ⟨x 0, x 1, x 2⟩ hu
    obtain ⟨-, ⟨-, -, gz⟩, -, -⟩ := halfToCartesian_geometry (arccos (x 2)) (atan2 (x 1) (x 0)) 0 0
    have hh := halfVector_recovered (arccos (x 2)) (atan2 (x 1) (x 0)) 0 0 (by rw [cos_zero]; norm_num)
    simp only at hs
    rw [hs] at hh gz
    refine ⟨_, _, rfl, fromCartesian_eq _ _ ?_, (by rw [inputDim_eq _ (by decide)]; rfl), ?_⟩
    · rw [gz, cos_zero]; simp only; linarith
    · intro i hi
      rw [List.getElem_of_eq (by simp only [hh]; rfl)]
      match i, hi with
      | 0, _ => rfl
      | 1, _ => rfl
      | 2, _ => rfl
  case STARK_2D =>
    obtain ⟨h0, h1, h2⟩ := h
    have hs : x 0 * x 0 + x 1 * x 1 ≤ 1 := by linarith
    refine ⟨_, _, rfl, fromCartesian_eq _ _ ?_, (by rw [inputDim_eq _ (by decide)]; rfl), two _ _ ?_ ?_⟩
    · simp only [hs, if_true]; have := sqrt_nonneg (1 - min (x 0 * x 0 + x 1 * x 1) 1); linarith
    · simp only
      rw [show 1 / 2 * (x 0 - 0 + (x 0 + 0)) * (1 / 2 * (x 0 - 0 + (x 0 + 0))) +
        1 / 2 * (0 - x 1 + (0 + x 1)) * (1 / 2 * (0 - x 1 + (0 + x 1))) = x 0 ^ 2 by ring]
      exact sqrt_sq h0
    · simp only
      ring_nf
      exact sqrt_sq h1
  case NEUMANN_2D =>
    obtain ⟨h0, h1, h2⟩ := h
    refine ⟨_, _, rfl, fromCartesian_eq _ _ ?_, (by rw [inputDim_eq _ (by decide)]; rfl), two _ _ ?_ ?_⟩
    · exact add_nonneg (sqrt_nonneg _) (sqrt_nonneg _)
    · simp only
      ring_nf
      exact sqrt_sq h0
    · simp only
      ring_nf
      exact sqrt_sq h1
  case ISOTROPIC_TV_PROJ_DPHI =>
    have ht : √(x 0 * x 0 + x 1 * x 1) < π := by
      rw [show x 0 * x 0 + x 1 * x 1 = x 0 ^ 2 + x 1 ^ 2 by ring]
      exact (sqrt_lt' hpi).2 h
    refine ⟨_, _, rfl, fromCartesian_eq _ _ ?_, (by rw [inputDim_eq _ (by decide)]; rfl), ?_⟩
    · simp only
      split <;> simp only <;> linarith [neg_one_le_cos (√(x 0 * x 0 + x 1 * x 1))]
    · by_cases hp : √(x 0 * x 0 + x 1 * x 1) > 0
      · have hsin : 0 < sin √(x 0 * x 0 + x 1 * x 1) := sin_pos_of_pos_of_lt_pi hp ht
        have p1 := sqrt_mul_cos_atan2 (x 0) (x 1)
        have p2 := sqrt_mul_sin_atan2 (x 0) (x 1)
        rw [show x 0 ^ 2 + x 1 ^ 2 = x 0 * x 0 + x 1 * x 1 by ring] at p1 p2
        have hat : atan2 (x 1 / √(x 0 * x 0 + x 1 * x 1) * sin √(x 0 * x 0 + x 1 * x 1))
            (x 0 / √(x 0 * x 0 + x 1 * x 1) * sin √(x 0 * x 0 + x 1 * x 1)) = atan2 (x 1) (x 0) := by
          rw [show x 1 / √(x 0 * x 0 + x 1 * x 1) * sin √(x 0 * x 0 + x 1 * x 1)
                = sin √(x 0 * x 0 + x 1 * x 1) / √(x 0 * x 0 + x 1 * x 1) * x 1 by ring,
              show x 0 / √(x 0 * x 0 + x 1 * x 1) * sin √(x 0 * x 0 + x 1 * x 1)
                = sin √(x 0 * x 0 + x 1 * x 1) / √(x 0 * x 0 + x 1 * x 1) * x 0 by ring]
          exact atan2_scale _ _ (div_pos hsin hp)
        simp only [hp, if_true, hat, atan2_zero_zero, sub_zero, arccos_cos hp.le ht.le]
        exact two _ _ p1 p2
      · have h0 := sqrt_not_pos _ hp
        have h2 := sqrt_sq_sum (x 0) (x 1)
        rw [h0] at h2
        have hx0 : x 0 = 0 := by nlinarith [sq_nonneg (x 0), sq_nonneg (x 1)]
        have hx1 : x 1 = 0 := by nlinarith [sq_nonneg (x 0), sq_nonneg (x 1)]
        simp only [h0, lt_irrefl, if_false, cos_zero, arccos_one, zero_mul]
        exact two _ _ hx0.symm hx1.symm

/-- Non vacuity. -/
example : LossyCanonical .STARK_2D (arr [0.5, 0.25]) ∧ LossyCanonical .COS_TH_TD (arr [0.5, 0.25]) ∧
    LossyCanonical .RUSIN_VH (arr [0.6, 0, 0.8]) := by
  simp [LossyCanonical, arr]; norm_num

/-- C10, limit of the code: `COS_TLR` comes back with the opposite sign. -/
theorem COS_TLR_round_trip_negates (x : ℕ → ℝ) (h : -1 ≤ x 0) :
    ∃ c, toCartesian .COS_TLR x = some c ∧ fromCartesian c .COS_TLR = some [-(x 0)] := by
  refine ⟨_, rfl, ?_⟩
  rw [fromCartesian_eq _ _ (by simp only; linarith)]
  simp [fromCartesianSwitch]

/-- C10, limit of the code: `COS_TK` strictly inside `(0, 1)` never comes back. -/
theorem COS_TK_round_trip_fails (x : ℕ → ℝ) (h0 : 0 < x 0) (h1 : x 0 < 1) :
    ∃ c y, toCartesian .COS_TK x = some c ∧ fromCartesian c .COS_TK = some [y] ∧ x 0 < y := by
  refine ⟨_, _, rfl, fromCartesian_eq _ _ ?_, ?_⟩
  · simp only; linarith
  · simp only
    have e : (x 0 * x 0 - 1 - (1 - x 0 * x 0)) * (x 0 * x 0 - 1 - (1 - x 0 * x 0)) + (0 - 0) * (0 - 0)
        + (x 0 + x 0) * (x 0 + x 0) = (2 : ℝ) ^ 2 * (1 - x 0 ^ 2 * (1 - x 0 ^ 2)) := by ring
    rw [e, sqrt_mul (by norm_num), sqrt_sq (by norm_num)]
    have hlt : x 0 ^ 2 * (1 - x 0 ^ 2) < 1 := by nlinarith [sq_nonneg (x 0 ^ 2 - 1/2)]
    have hpos : 0 < x 0 ^ 2 * (1 - x 0 ^ 2) := by
      have : 0 < 1 - x 0 ^ 2 := by nlinarith
      positivity
    have hs0 : 0 < √(1 - x 0 ^ 2 * (1 - x 0 ^ 2)) := sqrt_pos.2 (by linarith)
    have hs1 : √(1 - x 0 ^ 2 * (1 - x 0 ^ 2)) < 1 := by
      rw [sqrt_lt' (by norm_num)]; linarith
    rw [lt_div_iff₀ (by positivity)]
    nlinarith

example : (0 : ℝ) < 1/2 ∧ (1/2 : ℝ) < 1 := by norm_num

/-- C10, limit of the code: `SCHLICK_VK` loses the azimuth: a half direction
    with a `y` component comes back without it. -/
theorem SCHLICK_VK_round_trip_fails (x : ℕ → ℝ) (h : 0 ≤ x 2) (c : Cart) (o : List ℝ)
    (hc : toCartesian .SCHLICK_VK x = some c) (ho : fromCartesian c .SCHLICK_VK = some o) :
    arr o 1 = 0 := by
  simp only [toCartesian, Option.some.injEq] at hc
  subst hc
  rw [fromCartesian_eq _ _ (by simp only; linarith)] at ho
  simp only [fromCartesianSwitch] at ho
  split at ho <;> (simp only [Option.some.injEq] at ho; subst ho; simp [arr])

/-- C10, limit of the code: the origin of `STEREOGRAPHIC` (both directions along
    the normal) comes back as (1/2, 1/2, 1/2, 1/2). -/
theorem STEREOGRAPHIC_round_trip_fails :
    ∃ c, toCartesian .STEREOGRAPHIC (fun _ => 0) = some c ∧
      fromCartesian c .STEREOGRAPHIC = some [1/2, 1/2, 1/2, 1/2] := by
  refine ⟨_, rfl, ?_⟩
  rw [fromCartesian_eq _ _ (by norm_num)]
  simp only [fromCartesianSwitch]; norm_num

/-- Specification of C11: the parametrizations that are meant to be symmetric
    in the two directions. -/
def SymmetricInput (p : Input) : Prop :=
  p = .COS_TH ∨ p = .COS_TK ∨ p = .COS_TLV ∨ p = .COS_TLR ∨ p = .COS_TH_TD ∨ p = .RUSIN_TH_TD ∨
  p = .RUSIN_VH ∨ p = .STARK_2D ∨ p = .NEUMANN_2D

/-- C11: exchanging view and light does not change the coordinates. -/
theorem reciprocity (p : Input) (hp : SymmetricInput p) (c : Cart) (hc : c.IsUnit)
    (hv : 0 ≤ c.v.z) (hl : 0 ≤ c.l.z) : fromCartesian c.swap p = fromCartesian c p := by
  rw [fromCartesian_eq _ _ (by simp only [Cart.swap]; linarith), fromCartesian_eq _ _ (by linarith)]
  have hd : (halfVector c).x * c.l.x + (halfVector c).y * c.l.y + (halfVector c).z * c.l.z
      = (halfVector c).x * c.v.x + (halfVector c).y * c.v.y + (halfVector c).z * c.v.z := by
    obtain ⟨mx, my, mz⟩ := light_is_mirror c hc (upper_sum c hv hl)
    have hu := halfVector_unit c
    simp only [V3.dot, V3.IsUnit] at *
    linear_combination (halfVector c).x * mx + (halfVector c).y * my + (halfVector c).z * mz
      + 2 * (c.v.x * (halfVector c).x + c.v.y * (halfVector c).y + c.v.z * (halfVector c).z) * hu
  have hs := halfVector_swap c
  rcases hp with rfl | rfl | rfl | rfl | rfl | rfl | rfl | rfl | rfl <;>
    simp only [fromCartesianSwitch, hs] <;> simp only [Cart.swap, hd] <;> ring_nf

example : SymmetricInput .RUSIN_TH_TD ∧ (⟨⟨0.6, 0, 0.8⟩, ⟨0, 1, 0⟩⟩ : Cart).IsUnit := by
  refine ⟨by simp [SymmetricInput], ?_⟩
  simp only [Cart.IsUnit, V3.IsUnit]; norm_num

/-- C11: for the parametrization by half and difference angles, exchanging view
    and light adds half a turn to `φd` and keeps the three other angles. -/
theorem reciprocity_half_angle (th ph td pd : ℝ) :
    halfToCartesian th ph td (pd + π) = (halfToCartesian th ph td pd).swap := by
  have e1 := sin_sq_add_cos_sq th
  have e2 := sin_sq_add_cos_sq ph
  have hv : (halfToCartesian th ph td (pd + π)).v = (halfToCartesian th ph td pd).l := by
    obtain ⟨-, ⟨gx, gy, gz⟩, -, -⟩ := halfToCartesian_geometry th ph td pd
    have hx : (halfToCartesian th ph td pd).l.x = 2 * cos td * (sph th ph).x - (halfToCartesian th ph td pd).v.x := by linarith
    have hy : (halfToCartesian th ph td pd).l.y = 2 * cos td * (sph th ph).y - (halfToCartesian th ph td pd).v.y := by linarith
    have hz : (halfToCartesian th ph td pd).l.z = 2 * cos td * (sph th ph).z - (halfToCartesian th ph td pd).v.z := by linarith
    ext
    · rw [hx]; simp only [halfToCartesian, rotateNormal, rotateBinormal, sph, cos_add_pi, sin_add_pi]; ring
    · rw [hy]; simp only [halfToCartesian, rotateNormal, rotateBinormal, sph, cos_add_pi, sin_add_pi]; ring
    · rw [hz]; simp only [halfToCartesian, rotateNormal, rotateBinormal, sph, cos_add_pi, sin_add_pi]; ring
  obtain ⟨-, ⟨gx, gy, gz⟩, -, -⟩ := halfToCartesian_geometry th ph td pd
  obtain ⟨-, ⟨kx, ky, kz⟩, -, -⟩ := halfToCartesian_geometry th ph td (pd + π)
  rw [hv] at kx ky kz
  apply Cart.ext
  · exact hv
  · ext <;> simp only [Cart.swap] <;> linarith

end Alta
