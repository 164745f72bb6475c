import Verif.Proofs.Iso
/-
Property C09, continued: `NEUMANN_3D`, `STARK_3D` (view and light come back
exchanged), `SCHLICK_TL_TK_PROJ_DPHI` and `RETRO_TL_TVL_PROJ_DPHI` (mirror
image).
-/
namespace Alta
open Real

/-- half sum and half difference of the projected directions -/
noncomputable def Cart.hvec (c : Cart) : V3 :=
  ⟨1/2 * (c.v.x + c.l.x), 1/2 * (c.v.y + c.l.y), 1/2 * (c.v.z + c.l.z)⟩
noncomputable def Cart.bvec (c : Cart) : V3 :=
  ⟨1/2 * (c.l.x - c.v.x), 1/2 * (c.l.y - c.v.y), 1/2 * (c.l.z - c.v.z)⟩

theorem rad_mul (a b : ℝ) (z : ℝ) : √(a * a + b * b) = (⟨a, b, z⟩ : V3).rad := by
  unfold V3.rad; congr 1; ring

/-- C09, limit of the code: `NEUMANN_3D` gives the directions back with view and
    light exchanged, up to a rotation about the normal. -/
theorem NEUMANN_3D_swaps (c : Cart) (hc : c.IsUnit) (hv : 0 ≤ c.v.z) (hl : 0 ≤ c.l.z) :
    ∃ o t, fromCartesian c .NEUMANN_3D = some o ∧
      toCartesian .NEUMANN_3D (arr o) = some (c.rotZ t).swap := by
  rw [fromCartesian_eq _ _ (by linarith)]
  refine ⟨_, -c.hvec.az, rfl, ?_⟩
  simp only [toCartesian, arr, List.getD_cons_zero, List.getD_cons_succ]
  rw [rad_mul _ _ c.hvec.z, rad_mul _ _ c.bvec.z]
  change (if (c.hvec.rad + cos (c.bvec.az - c.hvec.az) * c.bvec.rad) * (c.hvec.rad + cos (c.bvec.az - c.hvec.az) * c.bvec.rad)
      + (sin (c.bvec.az - c.hvec.az) * c.bvec.rad) * (sin (c.bvec.az - c.hvec.az) * c.bvec.rad) > 1 ∨
      (c.hvec.rad - cos (c.bvec.az - c.hvec.az) * c.bvec.rad) * (c.hvec.rad - cos (c.bvec.az - c.hvec.az) * c.bvec.rad)
      + (-sin (c.bvec.az - c.hvec.az) * c.bvec.rad) * (-sin (c.bvec.az - c.hvec.az) * c.bvec.rad) > 1 then
      some ⟨⟨0, 0, -1⟩, ⟨0, 0, -1⟩⟩ else
      some (⟨⟨c.hvec.rad + cos (c.bvec.az - c.hvec.az) * c.bvec.rad, sin (c.bvec.az - c.hvec.az) * c.bvec.rad,
        √(1 - (c.hvec.rad + cos (c.bvec.az - c.hvec.az) * c.bvec.rad) * (c.hvec.rad + cos (c.bvec.az - c.hvec.az) * c.bvec.rad)
          - (sin (c.bvec.az - c.hvec.az) * c.bvec.rad) * (sin (c.bvec.az - c.hvec.az) * c.bvec.rad))⟩,
       ⟨c.hvec.rad - cos (c.bvec.az - c.hvec.az) * c.bvec.rad, -sin (c.bvec.az - c.hvec.az) * c.bvec.rad,
        √(1 - (c.hvec.rad - cos (c.bvec.az - c.hvec.az) * c.bvec.rad) * (c.hvec.rad - cos (c.bvec.az - c.hvec.az) * c.bvec.rad)
          - (-sin (c.bvec.az - c.hvec.az) * c.bvec.rad) * (-sin (c.bvec.az - c.hvec.az) * c.bvec.rad))⟩⟩ : Cart)) = _
  have hx := V3.rotZ_x c.hvec (-c.hvec.az)
  have hy := V3.rotZ_y c.hvec (-c.hvec.az)
  have bx := V3.rotZ_x c.bvec (-c.hvec.az)
  have bY := V3.rotZ_y c.bvec (-c.hvec.az)
  rw [add_neg_cancel, cos_zero] at hx
  rw [add_neg_cancel, sin_zero] at hy
  rw [← sub_eq_add_neg] at bx bY
  generalize c.hvec.rad = rh at *
  generalize c.bvec.rad = rb at *
  generalize c.bvec.az - c.hvec.az = p at *
  generalize -c.hvec.az = t at *
  simp only [V3.rotZ, Cart.hvec, Cart.bvec] at hx hy bx bY
  have e := sin_sq_add_cos_sq t
  have l1 : rh + cos p * rb = (c.rotZ t).l.x := by simp only [Cart.rotZ, V3.rotZ]; linarith
  have l2 : sin p * rb = (c.rotZ t).l.y := by simp only [Cart.rotZ, V3.rotZ]; linarith
  have v1 : rh - cos p * rb = (c.rotZ t).v.x := by simp only [Cart.rotZ, V3.rotZ]; linarith
  have v2 : -sin p * rb = (c.rotZ t).v.y := by simp only [Cart.rotZ, V3.rotZ]; linarith
  rw [l1, l2, v1, v2]
  have ul : (c.rotZ t).l.x * (c.rotZ t).l.x + (c.rotZ t).l.y * (c.rotZ t).l.y = 1 - c.l.z ^ 2 := by
    have := hc.2; unfold V3.IsUnit at this
    simp only [Cart.rotZ, V3.rotZ]; linear_combination (c.l.x ^ 2 + c.l.y ^ 2) * e + this
  have uv : (c.rotZ t).v.x * (c.rotZ t).v.x + (c.rotZ t).v.y * (c.rotZ t).v.y = 1 - c.v.z ^ 2 := by
    have := hc.1; unfold V3.IsUnit at this
    simp only [Cart.rotZ, V3.rotZ]; linear_combination (c.v.x ^ 2 + c.v.y ^ 2) * e + this
  rw [if_neg (by rw [ul, uv]; push Not; constructor <;> nlinarith)]
  congr 1
  apply Cart.ext
  · ext
    · rfl
    · rfl
    · simp only; rw [sub_sub, ul, sub_sub_cancel, sqrt_sq hl]; rfl
  · ext
    · rfl
    · rfl
    · simp only; rw [sub_sub, uv, sub_sub_cancel, sqrt_sq hv]; rfl

/-- cosine and sine of the `STARK_3D` azimuth -/
theorem stark_angle (d : ℝ) : cos (if d < 0 then 2 * π + d else d) = cos d ∧
    sin (if d < 0 then 2 * π + d else d) = sin d := by
  split
  · rw [add_comm]; exact ⟨cos_add_two_pi d, sin_add_two_pi d⟩
  · exact ⟨rfl, rfl⟩

/-- C09, limit of the code: `STARK_3D` gives the directions back with view and
    light exchanged, up to a rotation about the normal (when they are not both
    grazing). -/
theorem STARK_3D_swaps (c : Cart) (hc : c.IsUnit) (hz : 0 < c.v.z + c.l.z) :
    ∃ o t, fromCartesian c .STARK_3D = some o ∧
      toCartesian .STARK_3D (arr o) = some (c.rotZ t).swap := by
  rw [fromCartesian_eq _ _ hz.le]
  refine ⟨_, -c.hvec.az, rfl, ?_⟩
  simp only [toCartesian, arr, List.getD_cons_zero, List.getD_cons_succ, Option.some.injEq]
  rw [(stark_angle _).1, (stark_angle _).2, rad_mul _ _ c.hvec.z]
  have hb : √(1/2 * (c.l.x - c.v.x) * (1/2 * (c.l.x - c.v.x)) + 1/2 * (c.l.y - c.v.y) * (1/2 * (c.l.y - c.v.y))
      + 1/2 * (c.l.z - c.v.z) * (1/2 * (c.l.z - c.v.z))) = √(c.bvec.rad ^ 2 + c.bvec.z ^ 2) := by
    congr 1; rw [c.bvec.rad_sq]; simp only [Cart.bvec]; ring
  rw [hb]
  have hb2 : √(c.bvec.rad ^ 2 + c.bvec.z ^ 2) ^ 2 = c.bvec.rad ^ 2 + c.bvec.z ^ 2 := sq_sqrt (by positivity)
  have hb0 := sqrt_nonneg (c.bvec.rad ^ 2 + c.bvec.z ^ 2)
  generalize √(c.bvec.rad ^ 2 + c.bvec.z ^ 2) = nb at *
  change (⟨⟨c.hvec.rad - nb * sin (atan2 (-√(1 - c.hvec.rad * c.hvec.rad - nb * nb)) (c.hvec.rad * cos (c.bvec.az - c.hvec.az))) * cos (c.bvec.az - c.hvec.az),
      0 - nb * sin (atan2 (-√(1 - c.hvec.rad * c.hvec.rad - nb * nb)) (c.hvec.rad * cos (c.bvec.az - c.hvec.az))) * sin (c.bvec.az - c.hvec.az),
      √(1 - c.hvec.rad * c.hvec.rad - nb * nb) - nb * cos (atan2 (-√(1 - c.hvec.rad * c.hvec.rad - nb * nb)) (c.hvec.rad * cos (c.bvec.az - c.hvec.az)))⟩,
     ⟨c.hvec.rad + nb * sin (atan2 (-√(1 - c.hvec.rad * c.hvec.rad - nb * nb)) (c.hvec.rad * cos (c.bvec.az - c.hvec.az))) * cos (c.bvec.az - c.hvec.az),
      0 + nb * sin (atan2 (-√(1 - c.hvec.rad * c.hvec.rad - nb * nb)) (c.hvec.rad * cos (c.bvec.az - c.hvec.az))) * sin (c.bvec.az - c.hvec.az),
      √(1 - c.hvec.rad * c.hvec.rad - nb * nb) + nb * cos (atan2 (-√(1 - c.hvec.rad * c.hvec.rad - nb * nb)) (c.hvec.rad * cos (c.bvec.az - c.hvec.az)))⟩⟩ : Cart) = _
  have hvu := hc.1
  have hlu := hc.2
  unfold V3.IsUnit at hvu hlu
  have hpos : 0 < c.hvec.z := by simp only [Cart.hvec]; linarith
  have hhz : √(1 - c.hvec.rad * c.hvec.rad - nb * nb) = c.hvec.z := by
    rw [show 1 - c.hvec.rad * c.hvec.rad - nb * nb = c.hvec.z ^ 2 by
      have h1 := c.hvec.rad_sq
      have h2 := c.bvec.rad_sq
      simp only [Cart.hvec, Cart.bvec] at *
      linear_combination -h1 - hb2 - h2 - 1/2 * hvu - 1/2 * hlu]
    exact sqrt_sq hpos.le
  rw [hhz]
  have hx := V3.rotZ_x c.hvec (-c.hvec.az)
  have hy := V3.rotZ_y c.hvec (-c.hvec.az)
  have bx := V3.rotZ_x c.bvec (-c.hvec.az)
  have bY := V3.rotZ_y c.bvec (-c.hvec.az)
  rw [add_neg_cancel, cos_zero] at hx
  rw [add_neg_cancel, sin_zero] at hy
  rw [← sub_eq_add_neg] at bx bY
  have hrb := c.bvec.rad_nonneg
  have e := sin_sq_add_cos_sq (-c.hvec.az)
  -- half sum and half difference are orthogonal
  have horth : c.hvec.rad * (c.bvec.rad * cos (c.bvec.az - c.hvec.az)) + c.hvec.z * c.bvec.z = 0 := by
    rw [← bx]
    have : c.hvec.rad = (c.hvec.rotZ (-c.hvec.az)).x := by rw [hx, mul_one]
    rw [this]
    have hy' : (c.hvec.rotZ (-c.hvec.az)).y * (c.bvec.rotZ (-c.hvec.az)).y = 0 := by rw [hy]; ring
    simp only [V3.rotZ, Cart.hvec, Cart.bvec] at *
    generalize cos (-atan2 _ _) = ct at *
    linear_combination 1/4 * (hlu - hvu) + (1/4) * (c.l.x^2 - c.v.x^2 + c.l.y^2 - c.v.y^2) * e - hy'
  generalize c.hvec.rad = rh at *
  generalize c.bvec.rad = rb at *
  generalize c.bvec.az - c.hvec.az = p at *
  generalize -c.hvec.az = t at *
  have hs := sqrt_mul_sin_atan2 (rh * cos p) (-c.hvec.z)
  have hcs := sqrt_mul_cos_atan2 (rh * cos p) (-c.hvec.z)
  have hr := sq_sqrt (show 0 ≤ (rh * cos p) ^ 2 + (-c.hvec.z) ^ 2 by positivity)
  have hr0 : 0 < √((rh * cos p) ^ 2 + (-c.hvec.z) ^ 2) := sqrt_pos.2 (by
    have : 0 < c.hvec.z ^ 2 := by positivity
    rw [neg_sq]; positivity)
  generalize √((rh * cos p) ^ 2 + (-c.hvec.z) ^ 2) = r at *
  generalize sin (atan2 (-c.hvec.z) (rh * cos p)) = st at *
  generalize cos (atan2 (-c.hvec.z) (rh * cos p)) = ct at *
  -- `nb * hz = rb * r`
  have hnb : nb * c.hvec.z = rb * r := by
    have h2 : (nb * c.hvec.z) ^ 2 = (rb * r) ^ 2 := by
      rw [mul_pow, mul_pow, hb2, hr]
      linear_combination (c.hvec.z * c.bvec.z - rh * (rb * cos p)) * horth
    exact (pow_left_inj₀ (by positivity) (by positivity) (by norm_num)).1 h2
  have e1 : nb * st = -rb := by
    have : (nb * st + rb) * r = 0 := by linear_combination nb * hs - hnb
    have := (mul_eq_zero.1 this).resolve_right hr0.ne'
    linarith
  have e2 : nb * ct = -c.bvec.z := by
    have : (nb * ct + c.bvec.z) * r = 0 := by
      have h1 : (nb * ct * r) * c.hvec.z = -(c.bvec.z * r) * c.hvec.z := by
        linear_combination (nb * c.hvec.z) * hcs + rh * cos p * hnb + r * horth
      have := mul_right_cancel₀ hpos.ne' h1
      linarith
    have := (mul_eq_zero.1 this).resolve_right hr0.ne'
    linarith
  rw [e1, e2]
  simp only [V3.rotZ, Cart.hvec, Cart.bvec] at hx hy bx bY
  apply Cart.ext
  · ext <;> simp only [Cart.rotZ, Cart.swap, V3.rotZ, Cart.hvec, Cart.bvec] <;> linarith
  · ext <;> simp only [Cart.rotZ, Cart.swap, V3.rotZ, Cart.hvec, Cart.bvec] <;> linarith

/-- C09 is false for `NEUMANN_3D` and `STARK_3D`: with the view along the normal
    and an oblique light no rotation about the normal gives the result. -/
theorem NEUMANN_STARK_not_rotation :
    ∃ c : Cart, c.IsUnit ∧ 0 ≤ c.v.z ∧ 0 ≤ c.l.z ∧
      (∀ o c', fromCartesian c .NEUMANN_3D = some o → toCartesian .NEUMANN_3D (arr o) = some c' →
        ∀ t, c' ≠ c.rotZ t) ∧
      (∀ o c', fromCartesian c .STARK_3D = some o → toCartesian .STARK_3D (arr o) = some c' →
        ∀ t, c' ≠ c.rotZ t) := by
  have hu : (⟨⟨0, 0, 1⟩, ⟨1, 0, 0⟩⟩ : Cart).IsUnit := by simp [Cart.IsUnit, V3.IsUnit]
  refine ⟨⟨⟨0, 0, 1⟩, ⟨1, 0, 0⟩⟩, hu, by simp, by simp, ?_, ?_⟩
  · intro o c' ho hc' t heq
    obtain ⟨o', t', ho', hc''⟩ := NEUMANN_3D_swaps _ hu (by simp) (by simp)
    rw [ho] at ho'
    obtain rfl := Option.some.inj ho'
    rw [hc', heq] at hc''
    have := congrArg (fun c : Cart => c.v.z) (Option.some.inj hc'')
    simp [Cart.rotZ, Cart.swap, V3.rotZ] at this
  · intro o c' ho hc' t heq
    obtain ⟨o', t', ho', hc''⟩ := STARK_3D_swaps _ hu (by simp)
    rw [ho] at ho'
    obtain rfl := Option.some.inj ho'
    rw [hc', heq] at hc''
    have := congrArg (fun c : Cart => c.v.z) (Option.some.inj hc'')
    simp [Cart.rotZ, Cart.swap, V3.rotZ] at this

/-- coordinates `(θ cos φ, θ sin φ)` have length `θ` -/
theorem sqrt_polar (t p : ℝ) (h : 0 ≤ t) :
    √(t * cos p * (t * cos p) + t * sin p * (t * sin p)) = t := by
  rw [show t * cos p * (t * cos p) + t * sin p * (t * sin p) = t ^ 2 by
    linear_combination t ^ 2 * sin_sq_add_cos_sq p]
  exact sqrt_sq h

/-- C09, limit of the code: `SCHLICK_TL_TK_PROJ_DPHI` returns the mirror image of
    the configuration, up to a rotation about the normal (the case excluded is
    the one where the code divides by zero). -/
theorem SCHLICK_TL_TK_PROJ_DPHI_mirrors (c : Cart) (hc : c.IsUnit) (hz : 0 < c.v.z + c.l.z) :
    ∃ o t, fromCartesian c .SCHLICK_TL_TK_PROJ_DPHI = some o ∧
      toCartesian .SCHLICK_TL_TK_PROJ_DPHI (arr o) = some (c.rotZ t).mirrorY := by
  rw [fromCartesian_eq _ _ hz.le]
  refine ⟨_, -c.l.az, rfl, ?_⟩
  simp only [toCartesian, arr, List.getD_cons_zero, List.getD_cons_succ, Option.some.injEq]
  -- the pair (view, light turned by half a turn) has the half vector K
  set r : Cart := ⟨c.v, ⟨-c.l.x, -c.l.y, c.l.z⟩⟩ with hr
  have hru : r.IsUnit := ⟨hc.1, by have := hc.2; simp only [V3.IsUnit, hr] at *; linarith⟩
  have hn : √((c.v.x - c.l.x) * (c.v.x - c.l.x) + (c.v.y - c.l.y) * (c.v.y - c.l.y)
      + (c.v.z + c.l.z) * (c.v.z + c.l.z)) = r.sumNorm := by
    unfold Cart.sumNorm; congr 1; simp only [Cart.sumX, Cart.sumY, Cart.sumZ, hr]; ring
  have hnpos : 0 < r.sumNorm := by
    rw [← hn]; apply sqrt_pos.2
    nlinarith [sq_nonneg (c.v.x - c.l.x), sq_nonneg (c.v.y - c.l.y), mul_pos hz hz]
  have hK := halfVector_pos r hnpos
  have hKu := halfVector_unit r
  obtain ⟨mx, my, mz⟩ := light_is_mirror r hru (Or.inl hnpos.ne')
  have kx : (c.v.x - c.l.x) / r.sumNorm = (halfVector r).x := by
    rw [hK]; simp only [Cart.sumX, hr]; rw [← sub_eq_add_neg]
  have ky : (c.v.y - c.l.y) / r.sumNorm = (halfVector r).y := by
    rw [hK]; simp only [Cart.sumY, hr]; rw [← sub_eq_add_neg]
  have kz : (c.v.z + c.l.z) / r.sumNorm = (halfVector r).z := by
    rw [hK]; simp only [Cart.sumZ, hr]
  rw [hn, kx, ky, kz]
  generalize halfVector r = K at *
  simp only [hr] at mx my mz
  -- both directions make the same angle with K
  have hdot : c.v.dot K = -c.l.x * K.x - c.l.y * K.y + c.l.z * K.z := by
    have hu := hKu
    simp only [V3.dot, V3.IsUnit] at *
    linear_combination -K.x * mx - K.y * my - K.z * mz
      - 2 * (c.v.x * K.x + c.v.y * K.y + c.v.z * K.z) * hu
  rw [sqrt_polar _ _ (arccos_nonneg _)]
  simp only [hc.2.cos_arccos, hc.2.sin_eq_rad, hKu.cos_arccos, hKu.sin_eq_rad]
  have hdelta : K.az + -c.l.az = -(atan2 c.l.y c.l.x - atan2 K.y K.x) := by
    simp only [V3.az]; ring
  have hKx : (if arccos K.z > 0 then arccos K.z * cos (atan2 c.l.y c.l.x - atan2 K.y K.x) / arccos K.z * K.rad else 0)
      = (K.rotZ (-c.l.az)).x := by
    rw [V3.rotZ_x, hdelta, cos_neg]
    split
    · rename_i h; field_simp
    · rename_i h
      have h0 : arccos K.z = 0 := le_antisymm (not_lt.1 h) (arccos_nonneg _)
      rw [← hKu.sin_eq_rad, h0, sin_zero, zero_mul]
  have hKy : (if arccos K.z > 0 then arccos K.z * sin (atan2 c.l.y c.l.x - atan2 K.y K.x) / arccos K.z * K.rad else 0)
      = -(K.rotZ (-c.l.az)).y := by
    rw [V3.rotZ_y, hdelta, sin_neg]
    split
    · rename_i h; field_simp; 
    · rename_i h
      have h0 : arccos K.z = 0 := le_antisymm (not_lt.1 h) (arccos_nonneg _)
      rw [← hKu.sin_eq_rad, h0, sin_zero]; ring
  rw [hKx, hKy]
  have lx := V3.rotZ_x c.l (-c.l.az)
  have ly := V3.rotZ_y c.l (-c.l.az)
  rw [add_neg_cancel, cos_zero, mul_one] at lx
  rw [add_neg_cancel, sin_zero, mul_zero] at ly
  have e := sin_sq_add_cos_sq (-c.l.az)
  have hD : c.l.z * K.z - c.l.rad * (K.rotZ (-c.l.az)).x = c.v.dot K := by
    rw [hdot, ← lx]
    have : (c.l.rotZ (-c.l.az)).y * (K.rotZ (-c.l.az)).y = 0 := by rw [ly]; ring
    simp only [V3.rotZ] at *
    linear_combination this - (c.l.x * K.x + c.l.y * K.y) * e
  rw [hD, ← lx]
  apply Cart.ext
  · ext <;> simp only [Cart.mirrorY, Cart.rotZ, V3.rotZ] at *
    · linear_combination -cos (-c.l.az) * mx + sin (-c.l.az) * my
    · linear_combination sin (-c.l.az) * mx + cos (-c.l.az) * my + ly
    · linear_combination -mz
  · ext <;> simp only [Cart.mirrorY, Cart.rotZ] at *
    · rw [ly]; ring
    · rfl

end Alta
