import Verif.Props.LobesJac
import Verif.Proofs.Half
import Mathlib.Analysis.SpecialFunctions.Gaussian.GaussianIntegral
import Mathlib.Analysis.Real.Pi.Bounds
import Mathlib.Tactic.Positivity
import Mathlib.Tactic.NormNum
import Mathlib.Tactic.Ring
/-
C38, C39: Fresnel factors and shadowing terms.
-/
namespace Alta
noncomputable section
open Real

theorem clampR_mem (d : ℝ) : 0 ≤ clampR d 0 1 ∧ clampR d 0 1 ≤ 1 := by
  unfold clampR; constructor <;> simp

/-! ### Schlick -/

/-- C38 (value).  `d` is the cosine between the view and the half vector.  The factor is Schlick's
    formula; for `R` in [0, 1] it lies between `R` and 1; it is `R` at normal incidence and 1 at
    grazing. -/
theorem schlickFresnel_value (s : OneS) (x : List ℝ) (d : ℝ) (hd : dotVH s.par.input x = some d) :
    ∃ v, schlickFresnelCls.value s x = some v ∧ v.length = s.par.dimY ∧ ∀ y < s.par.dimY,
      (0 ≤ d → d ≤ 1 → arr v y = s.R y + (1 - s.R y) * (1 - d) ^ 5) ∧
      (0 ≤ s.R y → s.R y ≤ 1 → s.R y ≤ arr v y ∧ arr v y ≤ 1) ∧
      (1 ≤ d → arr v y = s.R y) ∧ (d ≤ 0 → arr v y = 1) := by
  refine ⟨_, by simp only [schlickFresnelCls]; rw [hd]; rfl, by simp, fun y hy => ?_⟩
  rw [arr_map_range _ _ _ hy]
  obtain ⟨h0, h1⟩ := clampR_mem d
  have hp : 0 ≤ (1 - clampR d 0 1) ^ 5 := pow_nonneg (by linarith) 5
  have hp1 : (1 - clampR d 0 1) ^ 5 ≤ 1 := pow_le_one₀ (by linarith) (by linarith)
  refine ⟨fun a b => ?_, fun a b => ⟨?_, ?_⟩, fun a => ?_, fun a => ?_⟩
  · have : clampR d 0 1 = d := by simp [clampR, a, b]
    rw [this]
  · nlinarith [mul_nonneg (sub_nonneg.mpr b) hp]
  · nlinarith [mul_le_mul_of_nonneg_left hp1 (sub_nonneg.mpr b)]
  · have : clampR d 0 1 = 1 := by simp [clampR, a]
    rw [this]; ring
  · have : clampR d 0 1 = 0 := by simp [clampR, a, (by linarith : d ≤ (1:ℝ))]
    rw [this]; ring

/-- C38 (Jacobian). -/
theorem schlickFresnel_jacobian (s : OneS) (x : List ℝ) (d : ℝ) (hd : dotVH s.par.input x = some d) :
    (Fn.leaf schlickFresnelCls s).IsJacobianAt x := by
  refine one_jacobian schlickFresnelCls schlickFresnel_lawful s x rfl
    (fun R => R + (1 - R) * (1 - clampR d 0 1) ^ 5) ?_
    (diagonal s.par.dimY fun _ => 1 - (1 - clampR d 0 1) ^ 5)
    (by simp only [schlickFresnelCls]; rw [hd]; rfl) (diagonal_length _ _) ?_ ?_
  · intro p hp
    refine ⟨_, by simp only [schlickFresnelCls]; rw [hd]; rfl, fun y hy => ?_⟩
    have hy' : y < s.par.dimY := hy
    rw [arr_map_range _ _ _ hy']
    simp only [readInto, if_pos hy']
  · intro y hy i hi hne
    have e := diagonal_entry s.par.dimY (fun _ => 1 - (1 - clampR d 0 1) ^ 5) y i hy hi
    rw [if_neg (fun h => hne h.symm)] at e
    exact e
  · intro y hy
    have e := diagonal_entry s.par.dimY (fun _ => 1 - (1 - clampR d 0 1) ^ 5) y y hy hy
    rw [if_pos rfl] at e
    rw [show (schlickFresnelCls.par s).dimY = s.par.dimY from rfl, e]
    have := (hasDerivAt_id (arr (schlickFresnelCls.get s) y)).add
      (((hasDerivAt_id (arr (schlickFresnelCls.get s) y)).const_sub 1).mul_const ((1 - clampR d 0 1) ^ 5))
    refine this.congr_deriv ?_
    ring

/-- C38 (retro factor): value and Jacobian; there is no clamp, and the factor is in [R, 1] for a
    cosine in [0, 1]. -/
theorem retroSchlick_value (s : OneS) (x : List ℝ) (d : ℝ) (hd : dotRK s.par.input x = some d) :
    ∃ v, retroSchlickCls.value s x = some v ∧ v.length = s.par.dimY ∧ ∀ y < s.par.dimY,
      arr v y = s.R y + (1 - s.R y) * (1 - d) ^ 5 ∧
      (0 ≤ s.R y → s.R y ≤ 1 → 0 ≤ d → d ≤ 1 → s.R y ≤ arr v y ∧ arr v y ≤ 1) := by
  refine ⟨_, by simp only [retroSchlickCls]; rw [hd]; rfl, by simp, fun y hy => ?_⟩
  rw [arr_map_range _ _ _ hy]
  refine ⟨rfl, fun a b h0 h1 => ?_⟩
  have hp : 0 ≤ (1 - d) ^ 5 := pow_nonneg (by linarith) 5
  have hp1 : (1 - d) ^ 5 ≤ 1 := pow_le_one₀ (by linarith) (by linarith)
  constructor
  · nlinarith [mul_nonneg (sub_nonneg.mpr b) hp]
  · nlinarith [mul_le_mul_of_nonneg_left hp1 (sub_nonneg.mpr b)]

/-- C38 (retro factor, Jacobian). -/
theorem retroSchlick_jacobian (s : OneS) (x : List ℝ) (d : ℝ) (hd : dotRK s.par.input x = some d) :
    (Fn.leaf retroSchlickCls s).IsJacobianAt x := by
  have hent : ∀ y < s.par.dimY, ∀ i < s.par.dimY,
      arr (blocks s.par.dimY fun i => (List.range s.par.dimY).map fun j => if i = j then 1 - (1 - d) ^ 5 else 0)
        (y * s.par.dimY + i) = if y = i then 1 - (1 - d) ^ 5 else 0 := by
    intro y hy i hi
    rw [arr_blocks _ s.par.dimY _ (by simp) y i hy hi, arr_map_range _ _ _ hi]
  refine one_jacobian retroSchlickCls retroSchlick_lawful s x rfl (fun R => R + (1 - R) * (1 - d) ^ 5) ?_
    (blocks s.par.dimY fun i => (List.range s.par.dimY).map fun j => if i = j then 1 - (1 - d) ^ 5 else 0)
    (by simp only [retroSchlickCls]; rw [hd]; rfl) (blocks_length _ _ _ (by simp [retroSchlickCls])) ?_ ?_
  · intro p hp
    refine ⟨_, by simp only [retroSchlickCls]; rw [hd]; rfl, fun y hy => ?_⟩
    have hy' : y < s.par.dimY := hy
    rw [arr_map_range _ _ _ hy']
    simp only [readInto, if_pos hy']
  · intro y hy i hi hne
    exact (hent y hy i hi).trans (if_neg hne)
  · intro y hy
    rw [show (retroSchlickCls.par s).dimY = s.par.dimY from rfl, hent y hy y hy, if_pos rfl]
    have := (hasDerivAt_id (arr (retroSchlickCls.get s) y)).add
      (((hasDerivAt_id (arr (retroSchlickCls.get s) y)).const_sub 1).mul_const ((1 - d) ^ 5))
    refine this.congr_deriv ?_
    ring

/-- C38.  The cosine `d` of the theorems above: for unit directions that are not opposite it is
    the cosine of half the angle between them. -/
theorem dotVH_cartesian (c : Cart) (hc : c.IsUnit) (hz : 0 ≤ c.v.z + c.l.z) (hs : 0 < c.sumNorm) :
    ∃ d, dotVH .CARTESIAN c.toList = some d ∧ 0 ≤ d ∧ d ≤ 1 ∧ 2 * d ^ 2 = 1 + c.v.dot c.l := by
  obtain ⟨hv, hl⟩ := hc
  unfold V3.IsUnit at hv hl
  have hn := c.sumNorm_sq
  have hn2 : c.sumNorm ^ 2 = 2 * (1 + c.v.dot c.l) := by
    rw [hn]; simp only [Cart.sumX, Cart.sumY, Cart.sumZ, V3.dot]; linarith
  have e : dotVH .CARTESIAN c.toList = some (c.sumNorm / 2) := by
    have h1 : convertInput (arr c.toList) .CARTESIAN .RUSIN_VH =
        some [(halfVector c).x, (halfVector c).y, (halfVector c).z] := by
      have : Cart.ofFun (arr c.toList) = c := rfl
      simp only [convertInput, if_neg (by decide : ¬ (Input.CARTESIAN = Input.RUSIN_VH)), if_true, this,
        fromCartesian_eq c _ hz]
      rfl
    have h2 : convertInput (arr c.toList) .CARTESIAN .CARTESIAN = some c.toList := rfl
    simp only [dotVH, h1, h2, Option.map_some, Option.some.injEq]
    rw [halfVector_pos c hs]
    show c.sumX / c.sumNorm * c.v.x + c.sumY / c.sumNorm * c.v.y + c.sumZ / c.sumNorm * c.v.z = _
    have h3 : c.sumX * c.v.x + c.sumY * c.v.y + c.sumZ * c.v.z = 1 + c.v.dot c.l := by
      simp only [Cart.sumX, Cart.sumY, Cart.sumZ, V3.dot]; linarith
    have h4 : c.sumX / c.sumNorm * c.v.x + c.sumY / c.sumNorm * c.v.y + c.sumZ / c.sumNorm * c.v.z =
        (c.sumX * c.v.x + c.sumY * c.v.y + c.sumZ * c.v.z) / c.sumNorm := by ring
    rw [h4, h3, div_eq_div_iff hs.ne' (by norm_num)]
    linarith
  have hdot : c.v.dot c.l ≤ 1 := by
    simp only [V3.dot]
    nlinarith [sq_nonneg (c.v.x - c.l.x), sq_nonneg (c.v.y - c.l.y), sq_nonneg (c.v.z - c.l.z)]
  refine ⟨_, e, by positivity, by nlinarith, by linarith⟩

/-- the factor of view and light 60 degrees apart -/
example : ∃ d, dotVH .CARTESIAN (Cart.mk ⟨0.6, 0, 0.8⟩ ⟨-0.6, 0, 0.8⟩).toList = some d ∧ 0 ≤ d ∧ d ≤ 1 ∧
    2 * d ^ 2 = 1 + V3.dot ⟨0.6, 0, 0.8⟩ ⟨-0.6, 0, 0.8⟩ := by
  apply dotVH_cartesian
  · constructor <;> norm_num [V3.IsUnit]
  · norm_num
  · unfold Cart.sumNorm
    apply Real.sqrt_pos.mpr
    norm_num [Cart.sumX, Cart.sumY, Cart.sumZ]

/-! ### Normalised Schlick -/

/-- C38 (normalised factor).  The derivative of the value with respect to `R`. -/
theorem normalizedSchlick_derivative (s : OneS) (x : List ℝ) (d : ℝ) (hd : dotVH s.par.input x = some d)
    (y : ℕ) (hy : y < s.par.dimY) (hR : s.R y ≠ 0) :
    HasDerivAt (fun t => ((Fn.leaf normalizedSchlickCls s).set
        ((Fn.leaf normalizedSchlickCls s).params.set y t)).valueAt x y)
      (-(1 / s.R y ^ 2) * (1 - clampR d 0 1) ^ 5) (s.R y) := by
  have hg : arr (normalizedSchlickCls.get s) y = s.R y := arr_map_range _ _ _ hy
  have := one_derivative normalizedSchlickCls normalizedSchlick_lawful s x rfl
    (fun R => 1 + (1 / R - 1) * (1 - clampR d 0 1) ^ 5)
    (fun p hp => by
      refine ⟨_, by simp only [normalizedSchlickCls]; rw [hd]; rfl, fun y hy => ?_⟩
      have hy' : y < s.par.dimY := hy
      refine (arr_map_range _ _ _ hy').trans ?_
      simp only [readInto, if_pos hy'])
    y hy (-(1 / s.R y ^ 2) * (1 - clampR d 0 1) ^ 5)
    (by
      rw [hg]
      have h2 := (((hasDerivAt_inv hR).sub_const 1).mul_const ((1 - clampR d 0 1) ^ 5)).const_add 1
      simp only [one_div]
      refine h2.congr_deriv ?_
      ring)
  have hp : arr (Fn.leaf normalizedSchlickCls s).params y = s.R y := by
    rw [leaf_params _ _ (by simp [normalizedSchlickCls]), hg]
  rwa [hp] at this

/-- C38 (normalised factor, limit).  The Jacobian of the plugin has `1/R` where the derivative has
    `1/R²`: it is wrong unless `R` is 1 or the factor is constant. -/
theorem normalizedSchlick_jacobian_wrong (s : OneS) (x : List ℝ) (d : ℝ) (hd : dotVH s.par.input x = some d)
    (hd1 : d < 1) (y : ℕ) (hy : y < s.par.dimY) (hR : s.R y ≠ 0) (hR1 : s.R y ≠ 1) :
    ¬ (Fn.leaf normalizedSchlickCls s).IsJacobianAt x := by
  have hp : arr (Fn.leaf normalizedSchlickCls s).params y = s.R y := by
    rw [leaf_params _ _ (by simp [normalizedSchlickCls])]; exact arr_map_range _ _ _ hy
  refine not_jacobian _ x (diagonal s.par.dimY fun i => -(1 / s.R i) * (1 - clampR d 0 1) ^ 5)
    (by simp only [Fn.jac, normalizedSchlickCls]; rw [hd]; rfl) y y hy hy _
    (by rw [hp]; exact normalizedSchlick_derivative s x d hd y hy hR) ?_
  have e := diagonal_entry s.par.dimY (fun i => -(1 / s.R i) * (1 - clampR d 0 1) ^ 5) y y hy hy
  rw [if_pos rfl] at e
  rw [show (Fn.leaf normalizedSchlickCls s).nb = s.par.dimY from rfl, e]
  have hc : 0 < 1 - clampR d 0 1 := by
    have : clampR d 0 1 < 1 := by unfold clampR; simp [hd1]
    linarith
  intro h
  have h2 := mul_right_cancel₀ (pow_pos hc 5).ne' h
  field_simp at h2
  apply hR1
  linarith

/-! ### Schlick masking -/

/-- C39 (Schlick masking, value).  For directions above the surface and a non negative parameter
    the term is in [0, 1]; it is 1 when both directions are the normal. -/
theorem schlickMasking_value (s : OneS) (x : List ℝ) (hu : 0 < arr x 5) (hu1 : arr x 5 ≤ 1)
    (hv : 0 < arr x 2) (hv1 : arr x 2 ≤ 1) :
    ∃ v, schlickMaskingCls.value s x = some v ∧ v.length = s.par.dimY ∧ ∀ y < s.par.dimY,
      (0 ≤ s.R y → 0 < arr v y ∧ arr v y ≤ 1) ∧ (arr x 5 = 1 → arr x 2 = 1 → arr v y = 1) := by
  refine ⟨_, rfl, by simp, fun y hy => ?_⟩
  rw [arr_map_range _ _ _ hy]
  have key : ∀ u : ℝ, 0 < u → u ≤ 1 → 0 ≤ s.R y →
      0 < u / (u + s.R y * (1 - u)) ∧ u / (u + s.R y * (1 - u)) ≤ 1 := by
    intro u h0 h1 hR
    have : 0 ≤ s.R y * (1 - u) := mul_nonneg hR (by linarith)
    exact ⟨div_pos h0 (by linarith), (div_le_one (by linarith)).mpr (by linarith)⟩
  refine ⟨fun hR => ?_, fun h5 h2 => ?_⟩
  · obtain ⟨a, b⟩ := key _ hu hu1 hR
    obtain ⟨c, d⟩ := key _ hv hv1 hR
    exact ⟨mul_pos a c, mul_le_one₀ b c.le d⟩
  · simp [h5, h2]

/-- C39 (Schlick masking, Jacobian), where the term is defined. -/
theorem schlickMasking_jacobian (s : OneS) (x : List ℝ)
    (hu : ∀ y < s.par.dimY, arr x 5 + s.R y * (1 - arr x 5) ≠ 0)
    (hv : ∀ y < s.par.dimY, arr x 2 + s.R y * (1 - arr x 2) ≠ 0) :
    (Fn.leaf schlickMaskingCls s).IsJacobianAt x := by
  refine one_jacobian schlickMaskingCls schlickMasking_lawful s x rfl
    (fun w => arr x 5 / (arr x 5 + w * (1 - arr x 5)) * (arr x 2 / (arr x 2 + w * (1 - arr x 2)))) ?_
    _ rfl (diagonal_length _ _) ?_ ?_
  · intro p hp
    refine ⟨_, rfl, fun y hy => ?_⟩
    have hy' : y < s.par.dimY := hy
    refine (arr_map_range s.par.dimY _ y hy').trans ?_
    simp only [schlickMaskingCls, readInto, if_pos hy']
  · intro y hy i hi hne
    refine (diagonal_entry s.par.dimY _ y i hy hi).trans ?_
    rw [if_neg (fun h => hne h.symm)]
  · intro y hy
    refine HasDerivAt.congr_deriv ?_ ((diagonal_entry s.par.dimY _ y y hy hy).trans (if_pos rfl)).symm
    have hg : arr (schlickMaskingCls.get s) y = s.R y := arr_map_range _ _ _ hy
    rw [hg]
    have hu' := hu y hy
    have hv' := hv y hy
    have lin : ∀ u : ℝ, HasDerivAt (fun w : ℝ => u + w * (1 - u)) (1 - u) (s.R y) := by
      intro u; simpa using ((hasDerivAt_id (s.R y)).mul_const (1 - u)).const_add u
    have du := (hasDerivAt_const (s.R y) (arr x 5)).fun_div (lin (arr x 5)) hu'
    have dv := (hasDerivAt_const (s.R y) (arr x 2)).fun_div (lin (arr x 2)) hv'
    refine (du.fun_mul dv).congr_deriv ?_
    field_simp
    ring

end
end Alta
