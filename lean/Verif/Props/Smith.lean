import Verif.Props.Fresnel
import Mathlib.Analysis.SpecialFunctions.Gaussian.GaussianIntegral
import Mathlib.MeasureTheory.Integral.IntegralEqImproper
import Mathlib.MeasureTheory.Integral.IntervalIntegral.FundThmCalculus
import Mathlib.Analysis.Calculus.Deriv.MeanValue
/-
C39: the Smith shadowing term, and the approximation of Walter.
-/
namespace Alta
noncomputable section
open Real Filter Topology MeasureTheory

theorem gauss_continuous : Continuous fun t : ℝ => exp (-t ^ 2) := by fun_prop

theorem gauss_integrable : Integrable fun t : ℝ => exp (-t ^ 2) := by
  simpa using integrable_exp_neg_mul_sq (b := 1) (by norm_num)

theorem gauss_Ioi : ∫ t in Set.Ioi (0:ℝ), exp (-t ^ 2) = √π / 2 := by
  simpa using integral_gaussian_Ioi 1

theorem gauss_primitive (z : ℝ) : HasDerivAt (fun u => ∫ t in (0:ℝ)..u, exp (-t ^ 2)) (exp (-z ^ 2)) z :=
  intervalIntegral.integral_hasDerivAt_right gauss_integrable.intervalIntegrable
    (gauss_continuous.stronglyMeasurableAtFilter _ _) gauss_continuous.continuousAt

/-- The bound of the tail of the Gaussian: `∫_z^∞ exp(-t²) ≤ exp(-z²) / (2 z)`. -/
theorem gauss_tail (z : ℝ) (hz : 0 < z) :
    √π / 2 - (∫ t in (0:ℝ)..z, exp (-t ^ 2)) ≤ exp (-z ^ 2) / (2 * z) := by
  set G : ℝ → ℝ := fun u => exp (-u ^ 2) / (2 * u) - (√π / 2 - ∫ t in (0:ℝ)..u, exp (-t ^ 2)) with hG
  have hder : ∀ u, 0 < u → HasDerivAt G (-(exp (-u ^ 2) / (2 * u ^ 2))) u := by
    intro u hu
    have h1 : HasDerivAt (fun u : ℝ => -u ^ 2) (-(2 * u)) u := by
      simpa using (hasDerivAt_pow 2 u).fun_neg
    have h2 : HasDerivAt (fun u : ℝ => 2 * u) 2 u := by simpa using (hasDerivAt_id u).const_mul 2
    have h3 := h1.exp.fun_div h2 (by positivity)
    have h4 := h3.sub ((gauss_primitive u).const_sub (√π / 2))
    refine h4.congr_deriv ?_
    field_simp
    ring
  have hanti : AntitoneOn G (Set.Ici z) := by
    apply antitoneOn_of_deriv_nonpos (convex_Ici z)
    · intro u hu
      exact (hder u (lt_of_lt_of_le hz hu)).continuousAt.continuousWithinAt
    · intro u hu
      rw [interior_Ici] at hu
      exact (hder u (hz.trans hu)).differentiableAt.differentiableWithinAt
    · intro u hu
      rw [interior_Ici] at hu
      rw [(hder u (hz.trans hu)).deriv]
      have : 0 ≤ exp (-u ^ 2) / (2 * u ^ 2) := by positivity
      linarith
  have hlim : Tendsto G atTop (𝓝 (0 - (√π / 2 - √π / 2))) := by
    apply Tendsto.sub
    · have h1 : Tendsto (fun u : ℝ => exp (-u ^ 2)) atTop (𝓝 0) := by
        apply Real.tendsto_exp_atBot.comp
        exact tendsto_neg_atTop_atBot.comp (tendsto_pow_atTop (by norm_num))
      have h2 : Tendsto (fun u : ℝ => 2 * u) atTop atTop := tendsto_id.const_mul_atTop (by norm_num)
      exact h1.div_atTop h2
    · apply Tendsto.const_sub
      have := intervalIntegral_tendsto_integral_Ioi (0:ℝ) gauss_integrable.integrableOn tendsto_id
      rw [gauss_Ioi] at this
      exact this
  have hge : 0 - (√π / 2 - √π / 2) ≤ G z := by
    apply le_of_tendsto hlim
    filter_upwards [eventually_ge_atTop z] with w hw
    exact hanti (Set.self_mem_Ici) hw hw
  have : G z = exp (-z ^ 2) / (2 * z) - (√π / 2 - ∫ t in (0:ℝ)..z, exp (-t ^ 2)) := rfl
  rw [this] at hge
  linarith

theorem one_sub_erf (z : ℝ) : 1 - erf z = 2 / √π * (√π / 2 - ∫ t in (0:ℝ)..z, exp (-t ^ 2)) := by
  have : √π ≠ 0 := (sqrt_pos.mpr pi_pos).ne'
  unfold erf
  field_simp

/-- `2 √π s c ≥ 1` for the two constants of the code. -/
theorem smith_constants : 1 ≤ 2 * √π * 0.70710678118655 * 0.398942280401439 := by
  have h : (1:ℝ) / (2 * 0.70710678118655 * 0.398942280401439) ≤ √π := by
    apply Real.le_sqrt_of_sq_le
    have := pi_gt_d20
    refine le_trans ?_ this.le
    norm_num
  have h2 : (0:ℝ) < 2 * 0.70710678118655 * 0.398942280401439 := by norm_num
  rw [div_le_iff₀ h2] at h
  linarith

/-- The auxiliary function of the Smith term is never negative. -/
theorem smithA_nonneg (r : ℝ) (hr : 0 < r) : 0 ≤ smithA r := by
  unfold smithA
  set z := 0.70710678118655 * r with hz
  have hz0 : 0 < z := by positivity
  have ht := gauss_tail z hz0
  have hpi : 0 < √π := sqrt_pos.mpr pi_pos
  have he : exp (-z ^ 2) ≤ exp (-0.5 * (r * r)) := by
    apply exp_le_exp.mpr
    rw [hz]
    nlinarith [mul_pos hr hr]
  rw [one_sub_erf]
  have h1 : 0.5 * (2 / √π * (√π / 2 - ∫ t in (0:ℝ)..z, exp (-t ^ 2))) ≤
      1 / √π * (exp (-z ^ 2) / (2 * z)) := by
    calc 0.5 * (2 / √π * (√π / 2 - ∫ t in (0:ℝ)..z, exp (-t ^ 2)))
        = 1 / √π * (√π / 2 - ∫ t in (0:ℝ)..z, exp (-t ^ 2)) := by ring
      _ ≤ _ := by apply mul_le_mul_of_nonneg_left ht; positivity
  have h2 : 1 / √π * (exp (-z ^ 2) / (2 * z)) ≤ 0.398942280401439 * exp (-0.5 * (r * r)) / r := by
    have hc := smith_constants
    have h3 : exp (-z ^ 2) ≤ exp (-0.5 * (r * r)) * (2 * √π * 0.70710678118655 * 0.398942280401439) := by
      calc exp (-z ^ 2) ≤ exp (-0.5 * (r * r)) * 1 := by rw [mul_one]; exact he
        _ ≤ _ := mul_le_mul_of_nonneg_left hc (exp_pos _).le
    rw [hz] at h3 ⊢
    rw [div_mul_div_comm, one_mul, div_le_div_iff₀ (by positivity) hr]
    calc exp (-(0.70710678118655 * r) ^ 2) * r ≤
        (exp (-0.5 * (r * r)) * (2 * √π * 0.70710678118655 * 0.398942280401439)) * r :=
          mul_le_mul_of_nonneg_right h3 hr.le
      _ = _ := by ring
  linarith

theorem smithTerm_range (z q w : ℝ) (hz : 0 ≤ z) (hq : 0 ≤ q) (hw : 0 < w) :
    0 ≤ smithTerm z q w ∧ smithTerm z q w ≤ 1 ∧ (0 < z → 0 < smithTerm z q w) := by
  unfold smithTerm
  split
  · norm_num
  · rename_i hq0
    split
    · rename_i hz0; subst hz0; norm_num
    · rename_i hz0
      have hq1 : 0 < q := lt_of_le_of_ne hq (Ne.symm hq0)
      have hz1 : 0 < z := lt_of_le_of_ne hz (Ne.symm hz0)
      have := smithA_nonneg (z / q / w) (by positivity)
      refine ⟨by positivity, ?_, fun _ => by positivity⟩
      rw [div_le_one (by linarith)]; linarith

/-- C39 (Smith, value).  For a light direction above the surface and a positive parameter, the term is
    in [0, 1], and it is 0 in the tangent plane only. -/
theorem smith_value (s : OneS) (x : List ℝ) (h5 : 0 ≤ arr x 5) :
    ∃ v, smithCls.value s x = some v ∧ v.length = s.par.dimY ∧ ∀ y < s.par.dimY,
      (0 < s.R y → 0 ≤ arr v y ∧ arr v y ≤ 1 ∧ (0 < arr x 5 → 0 < arr v y)) := by
  refine ⟨_, rfl, by simp, fun y hy hR => ?_⟩
  rw [arr_map_range _ _ _ hy]
  split
  · norm_num
  · exact smithTerm_range _ _ _ h5 (sqrt_nonneg _) hR

/-- a light direction at 45 degrees -/
example : ∃ v, smithCls.value ⟨⟨6, 1, .CARTESIAN, .INV_STERADIAN⟩, fun _ => 1 / 2⟩ [0, 0, 0.5, 1, 0, 1] = some v ∧
    0 < arr v 0 ∧ arr v 0 ≤ 1 := by
  obtain ⟨v, h1, _, h3⟩ := smith_value ⟨⟨6, 1, .CARTESIAN, .INV_STERADIAN⟩, fun _ => 1 / 2⟩ [0, 0, 0.5, 1, 0, 1]
    (by norm_num [arr])
  obtain ⟨-, h4, h5⟩ := h3 0 (by norm_num) (by norm_num)
  exact ⟨v, h1, h5 (by norm_num [arr]), h4⟩

theorem smithA_deriv (r : ℝ) (hr : r ≠ 0) : HasDerivAt smithA
    (-(0.398942280401439 * exp (-0.5 * (r * r)) * (1 + 1 / r ^ 2)) +
      0.70710678118655 / √π * exp (-(0.70710678118655 * r) ^ 2)) r := by
  have hpi : √π ≠ 0 := (sqrt_pos.mpr pi_pos).ne'
  have h1 : HasDerivAt (fun u : ℝ => -0.5 * (u * u)) (-r) r := by
    have := ((hasDerivAt_id r).fun_mul (hasDerivAt_id r)).const_mul (-0.5 : ℝ)
    refine this.congr_deriv ?_
    simp; ring
  have h2 := (h1.exp.const_mul 0.398942280401439).fun_div (hasDerivAt_id r) hr
  have h3 : HasDerivAt (fun u : ℝ => 0.70710678118655 * u) 0.70710678118655 r := by
    simpa using (hasDerivAt_id r).const_mul 0.70710678118655
  have h4 := (gauss_primitive (0.70710678118655 * r)).comp r h3
  have h5 := ((h4.const_mul (2 / √π)).const_sub 1).const_mul 0.5
  have h6 := h2.sub h5
  refine h6.congr_deriv ?_
  simp only [id]
  field_simp
  ring

/-- C39 (Smith, limit).  The Jacobian of the plugin is not the derivative of the value: it vanishes
    at `mu / w = √2`, where the derivative does not. -/
theorem smith_jacobian_wrong (s : OneS) (x : List ℝ) (h2 : arr x 2 < 1) (y : ℕ) (hy : y < s.par.dimY)
    (hr : arr x 5 / √(arr x 3 * arr x 3 + arr x 4 * arr x 4) / s.R y = √2) :
    ¬ (Fn.leaf smithCls s).IsJacobianAt x := by
  set mu := arr x 5 / √(arr x 3 * arr x 3 + arr x 4 * arr x 4) with hmu
  have hs2 : √2 ≠ 0 := by positivity
  have hsq : √2 * √2 = 2 := mul_self_sqrt (by norm_num)
  have hR : s.R y ≠ 0 := by
    intro h; rw [h, div_zero] at hr; exact hs2 hr.symm
  have hmu0 : mu ≠ 0 := by
    intro h; rw [h, zero_div] at hr; exact hs2 hr.symm
  have hq0 : √(arr x 3 * arr x 3 + arr x 4 * arr x 4) ≠ 0 := by
    intro h; rw [h, div_zero] at hmu; exact hmu0 hmu
  have hz0 : arr x 5 ≠ 0 := by
    intro h; rw [h, zero_div] at hmu; exact hmu0 hmu
  have hg : arr (smithCls.get s) y = s.R y := arr_map_range _ _ _ hy
  have hA : 0 ≤ smithA (√2) := smithA_nonneg _ (by positivity)
  set A' := -(0.398942280401439 * exp (-0.5 * (√2 * √2)) * (1 + 1 / √2 ^ 2)) +
      0.70710678118655 / √π * exp (-(0.70710678118655 * √2) ^ 2) with hA'
  have hA'neg : A' < 0 := by
    have h1 : exp (-(0.70710678118655 * √2) ^ 2) ≤ exp (-0.5 * (√2 * √2)) := by
      apply exp_le_exp.mpr
      rw [mul_pow, sq (√2), hsq]; norm_num
    have h2 : (0.70710678118655 : ℝ) / √π < 0.398942280401439 * (1 + 1 / √2 ^ 2) := by
      rw [sq (√2), hsq, div_lt_iff₀ (sqrt_pos.mpr pi_pos)]
      have : (1.2 : ℝ) < √π := by
        apply Real.lt_sqrt_of_sq_lt
        have := pi_gt_three
        norm_num; linarith
      nlinarith
    have h3 := exp_pos (-0.5 * (√2 * √2))
    have h4 : (0.70710678118655 : ℝ) / √π * exp (-(0.70710678118655 * √2) ^ 2) ≤
        0.70710678118655 / √π * exp (-0.5 * (√2 * √2)) := by
      apply mul_le_mul_of_nonneg_left h1; positivity
    have h5 := mul_lt_mul_of_pos_right h2 h3
    rw [hA']
    linarith
  have hd : HasDerivAt (fun w => if arr x 2 = 1 then 1 else 1 / (1 + smithA (mu / w)))
      (A' * mu / s.R y ^ 2 / (1 + smithA (√2)) ^ 2) (s.R y) := by
    simp only [if_neg h2.ne]
    have h1 := (hasDerivAt_const (s.R y) mu).fun_div (hasDerivAt_id (s.R y)) hR
    have h3 : HasDerivAt smithA A' (mu / s.R y) := by rw [hr]; exact smithA_deriv _ hs2
    have h4 := (h3.comp (s.R y) h1).const_add 1
    have h5 := (hasDerivAt_const (s.R y) (1:ℝ)).fun_div h4 (by
      simp only [Function.comp, hr]; linarith)
    refine h5.congr_deriv ?_
    simp only [Function.comp, id, hr]
    field_simp
    ring
  have := one_derivative smithCls smith_lawful s x rfl
    (fun w => if arr x 2 = 1 then 1 else 1 / (1 + smithA (mu / w)))
    (fun p hp => by
      refine ⟨_, rfl, fun y hy => (arr_map_range s.par.dimY _ y hy).trans ?_⟩
      have hy' : y < s.par.dimY := hy
      simp only [smithCls, readInto, if_pos hy', hmu, smithTerm, if_neg hq0, if_neg hz0]) y hy _ (by rw [hg]; exact hd)
  refine not_jacobian _ x _ rfl y y hy hy _ this ?_
  refine ne_of_eq_of_ne ((diagonal_entry s.par.dimY _ y y hy hy).trans (if_pos rfl)) ?_
  simp only [if_pos h2]
  rw [← hmu, hr]
  have : √2 * √2 * √2 / s.R y - 2 * √2 / s.R y = 0 := by rw [hsq]; ring
  rw [this, mul_zero, zero_div]
  have hne : A' * mu / s.R y ^ 2 / (1 + smithA (√2)) ^ 2 ≠ 0 := by
    apply div_ne_zero
    · exact div_ne_zero (mul_ne_zero hA'neg.ne hmu0) (pow_ne_zero 2 hR)
    · exact pow_ne_zero 2 (by linarith)
  exact hne.symm

/-! ### Walter -/

/-- C39 (Walter, value).  The term of one direction is never negative and exceeds 1 by less than
    0.0014; it does exceed 1 (`shadowTerm_exceeds_one`). -/
theorem shadowTerm_range (a : ℝ) (ha : 0 ≤ a) : 0 ≤ shadowTerm a ∧ shadowTerm a ≤ 1.0014 := by
  unfold shadowTerm
  split
  · norm_num
  · constructor
    · positivity
    · rw [div_le_iff₀ (by positivity)]
      nlinarith [sq_nonneg (a - 1.5826)]

theorem walterTerm_range (alpha t : ℝ) (ha : 0 < alpha) (ht : 0 ≤ t) :
    0 ≤ walterTerm alpha t ∧ walterTerm alpha t ≤ 1.0014 := by
  unfold walterTerm
  split
  · norm_num
  · exact shadowTerm_range _ (by positivity)

/-- C39 (Walter, limit). -/
theorem shadowTerm_exceeds_one : 1 < shadowTerm 1.58 := by
  unfold shadowTerm
  norm_num

/-- The rational function of Walter et al., with the coefficient 2.276 (the code has 2.267). -/
def walterRational (a : ℝ) : ℝ := ((3.535 + 2.181 * a) * a) / ((2.276 + 2.577 * a) * a + 1)

/-- The derivative formula of the plugin is the derivative of that other function. -/
theorem walterDerivative_of (alpha t : ℝ) (ha : 0 < alpha) (ht : 0 < t) :
    HasDerivAt (fun al => walterRational (1 / (al * t))) (walterDerivative alpha t) alpha := by
  have hat : 0 < alpha * t := mul_pos ha ht
  have h0 : HasDerivAt (fun al : ℝ => al * t) t alpha := by simpa using (hasDerivAt_id alpha).mul_const t
  have h1 := (hasDerivAt_const alpha (1:ℝ)).fun_div h0 hat.ne'
  set a := 1 / (alpha * t) with hadef
  have hapos : 0 < a := by positivity
  have hn : HasDerivAt (fun a : ℝ => (3.535 + 2.181 * a) * a) (3.535 + 2 * 2.181 * a) a := by
    have := (((hasDerivAt_id a).const_mul 2.181).const_add 3.535).fun_mul (hasDerivAt_id a)
    refine this.congr_deriv ?_
    simp only [id]; ring
  have hdn : HasDerivAt (fun a : ℝ => (2.276 + 2.577 * a) * a + 1) (2.276 + 2 * 2.577 * a) a := by
    have := ((((hasDerivAt_id a).const_mul 2.577).const_add 2.276).fun_mul (hasDerivAt_id a)).add_const 1
    refine this.congr_deriv ?_
    simp only [id]; ring
  have hden : (2.276 + 2.577 * a) * a + 1 ≠ 0 := by positivity
  have hq := hn.fun_div hdn hden
  have hq' : HasDerivAt walterRational _ ((fun al : ℝ => 1 / (al * t)) alpha) := hq
  have := hq'.comp alpha h1
  refine this.congr_deriv ?_
  unfold walterDerivative
  have hD : (1000 * (alpha * alpha * (t * t)) + 2276 * (alpha * t) + 2577 : ℝ) ≠ 0 := by positivity
  simp only [hadef]
  have hden2 : (2.276 + 2.577 * (1 / (alpha * t))) * (1 / (alpha * t)) + 1 ≠ 0 := hden
  have e1 : (2.276 + 2.577 * (1 / (alpha * t))) * (1 / (alpha * t)) + 1 =
      (1000 * (alpha * alpha * (t * t)) + 2276 * (alpha * t) + 2577) / (1000 * (alpha * t) ^ 2) := by
    field_simp; ring
  rw [e1]
  field_simp
  ring

/-- C39 (Walter, limit).  For small slopes (`alpha tan θ ≤ 1/2` for both directions) the term is
    constant (1), but the Jacobian of the plugin is not zero. -/
theorem walterSmith_jacobian_wrong (s : OneS) (x : List ℝ) (hx : walterVisible x) (y : ℕ)
    (hy : y < s.par.dimY) (hR : 0 < s.R y) (tv tl : ℝ)
    (htv : tv = √(1 - arr x 2 * arr x 2) / arr x 2) (htl : tl = √(1 - arr x 5 * arr x 5) / arr x 5)
    (hv : 0 < tv) (hl : 0 < tl) (hv1 : s.R y * tv ≤ 1 / 2) (hl1 : s.R y * tl ≤ 1 / 2) :
    ¬ (Fn.leaf walterSmithCls s).IsJacobianAt x := by
  have hg : arr (walterSmithCls.get s) y = s.R y := arr_map_range _ _ _ hy
  have big : ∀ t, 0 < t → s.R y * t ≤ 1 / 2 → ∀ᶠ w in 𝓝 (s.R y), walterTerm w t = 1 := by
    intro t ht h1
    have hlt : s.R y * t < 1 / 1.6 := lt_of_le_of_lt h1 (by norm_num)
    have c : ContinuousAt (fun w : ℝ => w * t) (s.R y) := by fun_prop
    filter_upwards [c.eventually_lt continuousAt_const hlt, lt_mem_nhds hR] with w hw hw0
    unfold walterTerm shadowTerm
    rw [if_neg ht.ne', if_pos]
    have hwt : 0 < w * t := mul_pos hw0 ht
    rw [ge_iff_le, le_div_iff₀ hwt]
    have := mul_le_mul_of_nonneg_left hw.le (by norm_num : (0:ℝ) ≤ 1.6)
    calc (1.6:ℝ) * (w * t) ≤ 1.6 * (1 / 1.6) := this
      _ = 1 := by norm_num
  have hd : HasDerivAt (fun w => walterTerm w tl * walterTerm w tv) 0 (s.R y) := by
    have he : (fun w => walterTerm w tl * walterTerm w tv) =ᶠ[𝓝 (s.R y)] fun _ => 1 := by
      filter_upwards [big tl hl hl1, big tv hv hv1] with w h1 h2
      rw [h1, h2, one_mul]
    exact (hasDerivAt_const _ (1:ℝ)).congr_of_eventuallyEq he
  have := one_derivative walterSmithCls walterSmith_lawful s x rfl
    (fun w => walterTerm w tl * walterTerm w tv)
    (fun p hp => by
      refine ⟨_, rfl, fun y hy => (arr_map_range s.par.dimY _ y hy).trans ?_⟩
      have hy' : y < s.par.dimY := hy
      simp only [walterSmithCls, readInto, if_pos hy', if_pos hx, htv, htl]) y hy _ (by rw [hg]; exact hd)
  refine not_jacobian _ x _ rfl y y hy hy _ this ?_
  refine ne_of_eq_of_ne ((arr_blocks s.par.dimY s.par.dimY _ (fun i _ => by simp) y y hy hy).trans
    (arr_map_range _ _ _ hy)) ?_
  rw [if_pos ⟨hx, rfl⟩, ← htv, ← htl]
  dsimp only
  rw [(big tl hl hl1).self_of_nhds, (big tv hv hv1).self_of_nhds]
  have pos : ∀ t, 0 < t → s.R y * t ≤ 1 / 2 → 0 < walterDerivative (s.R y) t := by
    intro t ht h1
    unfold walterDerivative
    have h2 : 0 < s.R y * t := mul_pos hR ht
    apply div_pos
    · have : 4362000 * (s.R y * t) - 4145739 + 3535000 * (s.R y * s.R y * (t * t)) < 0 := by
        nlinarith
      nlinarith
    · positivity
  have := pos tv hv hv1
  have := pos tl hl hl1
  rw [one_mul, mul_one]
  positivity

end
end Alta
