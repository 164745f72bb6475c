import Verif.Props.ReciprocityTree
import Verif.Props.Smith
/-
C63, limits of the code: plugin objects that are not reciprocal.
-/
namespace Alta
open Real
noncomputable section

theorem not_reciprocal_of (o : LobeObj) (hi : o.par.input = .CARTESIAN) (c : Cart)
    (h : o.toFn.value c.swap.toList ≠ o.toFn.value c.toList) : ¬ o.toFn.ReciprocalAt c := by
  unfold Fn.ReciprocalAt
  rw [reflect_cartesian _ hi, reflect_cartesian _ hi]
  exact h

/-- parameters of one channel on the directions -/
def oneChannel : Par := ⟨6, 1, .CARTESIAN, .INV_STERADIAN⟩

theorem erf_range (z : ℝ) (hz : 0 < z) : 0 ≤ erf z ∧ erf z ≤ 1 := by
  have h0 : 0 ≤ ∫ t in (0:ℝ)..z, exp (-t ^ 2) :=
    intervalIntegral.integral_nonneg hz.le fun t _ => (exp_pos _).le
  constructor
  · unfold erf; positivity
  · have h1 := one_sub_erf z
    have h2 : (∫ t in (0:ℝ)..z, exp (-t ^ 2)) ≤ √π / 2 := by
      rw [intervalIntegral.integral_of_le hz.le, ← gauss_Ioi]
      apply MeasureTheory.setIntegral_mono_set gauss_integrable.integrableOn
      · exact Filter.Eventually.of_forall fun t => (exp_pos _).le
      · exact Filter.Eventually.of_forall fun t ht => ht.1
    have h3 : 0 ≤ 2 / √π * (√π / 2 - ∫ t in (0:ℝ)..z, exp (-t ^ 2)) :=
      mul_nonneg (by positivity) (by linarith)
    linarith

/-- C63 (limit): the Smith term takes its cosine from one of the directions only. -/
theorem smith_not_reciprocal :
    ∃ c : Cart, c.Above ∧ 0 < c.v.z ∧ 0 < c.l.z ∧
      ¬ (LobeObj.smith ⟨oneChannel, fun _ => 7.5⟩).toFn.ReciprocalAt c := by
  refine ⟨⟨⟨3 / 5, 0, 4 / 5⟩, ⟨4 / 5, 0, 3 / 5⟩⟩, ⟨⟨?_, ?_⟩, ?_, ?_⟩, by norm_num, by norm_num, ?_⟩
  · unfold V3.IsUnit; norm_num
  · unfold V3.IsUnit; norm_num
  · norm_num
  · norm_num
  apply not_reciprocal_of _ rfl
  simp only [LobeObj.toFn, Fn.value, smithCls, oneChannel, Cart.swap, Cart.toList, arr, List.getD_cons_zero,
    List.getD_cons_succ, List.range_one, List.map_cons, List.map_nil, ne_eq, Option.some.injEq, List.cons.injEq,
    and_true]
  rw [if_neg (by norm_num), if_neg (by norm_num)]
  have q1 : √(3 / 5 * (3 / 5) + 0 * 0 : ℝ) ≠ 0 := (sqrt_pos.mpr (by norm_num)).ne'
  have q2 : √(4 / 5 * (4 / 5) + 0 * 0 : ℝ) ≠ 0 := (sqrt_pos.mpr (by norm_num)).ne'
  unfold smithTerm
  rw [if_neg q1, if_neg q2, if_neg (by norm_num), if_neg (by norm_num)]
  have e1 : (4 / 5 : ℝ) / √(3 / 5 * (3 / 5) + 0 * 0) / 7.5 = 8 / 45 := by
    rw [show (3 / 5 * (3 / 5) + 0 * 0 : ℝ) = (3 / 5) ^ 2 by norm_num, sqrt_sq (by norm_num)]; norm_num
  have e2 : (3 / 5 : ℝ) / √(4 / 5 * (4 / 5) + 0 * 0) / 7.5 = 1 / 10 := by
    rw [show (4 / 5 * (4 / 5) + 0 * 0 : ℝ) = (4 / 5) ^ 2 by norm_num, sqrt_sq (by norm_num)]; norm_num
  rw [e1, e2]
  have a1 : smithA (8 / 45) ≤ 2.3 := by
    unfold smithA
    have h := (erf_range (0.70710678118655 * (8 / 45)) (by norm_num)).2
    have h2 : exp (-0.5 * (8 / 45 * (8 / 45))) ≤ 1 := exp_le_one_iff.mpr (by norm_num)
    have h3 : 0.398942280401439 * exp (-0.5 * (8 / 45 * (8 / 45))) / (8 / 45) ≤ (2.3 : ℝ) := by
      rw [div_le_iff₀ (by norm_num)]; nlinarith
    linarith
  have a2 : 3 ≤ smithA (1 / 10) := by
    unfold smithA
    have h := (erf_range (0.70710678118655 * (1 / 10)) (by norm_num)).1
    have h2 : 0.99 ≤ exp (-0.5 * (1 / 10 * (1 / 10))) := by
      have := add_one_le_exp (-0.5 * (1 / 10 * (1 / 10)) : ℝ)
      norm_num at this ⊢
      linarith
    have h3 : (3.5 : ℝ) ≤ 0.398942280401439 * exp (-0.5 * (1 / 10 * (1 / 10))) / (1 / 10) := by
      rw [le_div_iff₀ (by norm_num)]; nlinarith
    linarith
  have p1 := smithA_nonneg (8 / 45) (by norm_num)
  intro h
  rw [div_eq_div_iff (by linarith) (by linarith)] at h
  linarith

/-- C63 (limit): the default cosine of the retro-reflecting Beckmann lobe multiplies the third
    coordinate of one direction by the second of the other. -/
theorem retrobeckmann_not_reciprocal :
    ∃ c : Cart, c.Above ∧ 0 < c.v.z ∧ 0 < c.l.z ∧
      ¬ (LobeObj.retrobeckmann ⟨oneChannel, fun _ => 1, fun _ => 1, false⟩).toFn.ReciprocalAt c := by
  refine ⟨⟨⟨0, 3 / 5, 4 / 5⟩, ⟨0, 0, 1⟩⟩, ⟨⟨?_, ?_⟩, ?_, ?_⟩, by norm_num, by norm_num, ?_⟩
  · unfold V3.IsUnit; norm_num
  · unfold V3.IsUnit; norm_num
  · norm_num
  · norm_num
  apply not_reciprocal_of _ rfl
  simp only [LobeObj.toFn, Fn.value, retrobeckmannCls, retroDot, oneChannel, Cart.swap, Cart.toList, arr,
    List.getD_cons_zero, List.getD_cons_succ, List.range_one, List.map_cons, List.map_nil, ne_eq, Option.some.injEq,
    List.cons.injEq, and_true, Bool.false_eq_true, if_false, Option.map_some]
  have e1 : max (0 * 0 + 1 * (3 / 5) + 1 * (4 / 5) : ℝ) 0 = 7 / 5 := by norm_num
  have e2 : max (0 * 0 + 4 / 5 * 0 + 4 / 5 * 1 : ℝ) 0 = 4 / 5 := by norm_num
  rw [e1, e2, if_pos (by norm_num), if_pos (by norm_num)]
  unfold beckmannLobe
  have h1 : exp (((7 / 5 : ℝ) * (7 / 5) - 1) / (1 * 1 * (7 / 5 * (7 / 5)))) ≤ 2 := by
    have h0 : ((7 / 5 : ℝ) * (7 / 5) - 1) / (1 * 1 * (7 / 5 * (7 / 5))) = 24 / 49 := by norm_num
    rw [h0]
    have := exp_bound_div_one_sub_of_interval (x := 24 / 49) (by norm_num) (by norm_num)
    norm_num at this
    linarith
  have h2 : (7 / 16 : ℝ) ≤ exp (((4 / 5 : ℝ) * (4 / 5) - 1) / (1 * 1 * (4 / 5 * (4 / 5)))) := by
    have h0 : ((4 / 5 : ℝ) * (4 / 5) - 1) / (1 * 1 * (4 / 5 * (4 / 5))) = -9 / 16 := by norm_num
    rw [h0]
    have := add_one_le_exp (-9 / 16 : ℝ)
    linarith
  generalize exp (((7 / 5 : ℝ) * (7 / 5) - 1) / (1 * 1 * (7 / 5 * (7 / 5)))) = a at *
  generalize exp (((4 / 5 : ℝ) * (4 / 5) - 1) / (1 * 1 * (4 / 5 * (4 / 5)))) = b at *
  have hp := pi_pos
  intro h
  have h3 : a * (4 * π * (1 * 1) * (4 / 5 * (4 / 5)) * (4 / 5 * (4 / 5))) =
      b * (4 * π * (1 * 1) * (7 / 5 * (7 / 5)) * (7 / 5 * (7 / 5))) := by
    field_simp at h
    linarith
  have h4 : a * 256 = b * 2401 := by
    have : π * (a * 256) = π * (b * 2401) := by linarith
    exact mul_left_cancel₀ hp.ne' this
  linarith

theorem sgTurn_const (c : Cart) (hc : c.Above) (f : ℝ → ℝ) (hf : ∀ p, f p = π) :
    sgTurn f c.toList = some (c.v.z * c.l.z - c.v.x * sin (arccos c.l.z)) := by
  have hv := sph_of_unit c.v hc.unit.1
  have hz : cos (arccos c.v.z) = c.v.z := congrArg V3.z hv
  have hx : sin (arccos c.v.z) * cos (atan2 c.v.y c.v.x) = c.v.x := congrArg V3.x hv
  have hl : cos (arccos c.l.z) = c.l.z := congrArg V3.z (sph_of_unit c.l hc.unit.2)
  unfold sgTurn
  rw [convert_from_cartesian _ _ (by decide), fromCartesian_eq _ _ hc.sum]
  simp only [fromCartesianSwitch, convertInput,
    if_neg (by decide : ¬ (Input.SPHERICAL_TL_PL_TV_PV = Input.CARTESIAN)), if_true,
    toCartesian, Option.map_some, Option.some.injEq, hf]
  show cos (atan2 c.v.y c.v.x) * sin (arccos c.v.z) * (cos π * sin (arccos c.l.z)) +
    sin (atan2 c.v.y c.v.x) * sin (arccos c.v.z) * (sin π * sin (arccos c.l.z)) +
      cos (arccos c.v.z) * cos (arccos c.l.z) = _
  rw [cos_pi, sin_pi, hz, hl]
  linear_combination (-sin (arccos c.l.z)) * hx

/-- C63 (limit): the moment version of the spherical Gaussian turns the light about the normal. -/
theorem sg_moment_not_reciprocal :
    ∃ c : Cart, c.Above ∧ 0 < c.v.z ∧ 0 < c.l.z ∧
      ¬ (LobeObj.sg ⟨oneChannel, fun _ => 1, fun _ => 1, 0, .Moment⟩).toFn.ReciprocalAt c := by
  have hab : Cart.Above ⟨⟨0, 3 / 5, 4 / 5⟩, ⟨3 / 5, 0, 4 / 5⟩⟩ := by
    refine ⟨⟨?_, ?_⟩, ?_, ?_⟩
    · unfold V3.IsUnit; norm_num
    · unfold V3.IsUnit; norm_num
    · norm_num
    · norm_num
  refine ⟨_, hab, by norm_num, by norm_num, ?_⟩
  apply not_reciprocal_of _ rfl
  have h1 := sgTurn_const _ hab (fun p => p * 0 + π) (by intro p; ring)
  have h2 := sgTurn_const _ hab.swap (fun p => p * 0 + π) (by intro p; ring)
  simp only [LobeObj.toFn, Fn.value, sgCls, sgDot]
  rw [h1, h2]
  simp only [oneChannel, Option.map_some, List.range_one, List.map_cons,
    List.map_nil, ne_eq, Option.some.injEq, List.cons.injEq, and_true, Cart.swap, one_mul]
  intro h
  have h3 := exp_injective h
  have h4 : sin (arccos (4 / 5)) = 3 / 5 := by
    rw [sin_arccos, show (1 - (4 / 5) ^ 2 : ℝ) = (3 / 5) ^ 2 by norm_num, sqrt_sq (by norm_num)]
  rw [h4] at h3
  norm_num at h3

/-- C63 (limit): within 1e-10 of the surface the retro Schlick term replaces its back vector by the
    normal, and depends on one of the directions only. -/
theorem retroSchlick_not_reciprocal :
    ∃ c : Cart, c.Above ∧ ¬ (LobeObj.retroSchlick ⟨oneChannel, fun _ => 0⟩).toFn.ReciprocalAt c := by
  have hsq : √(1 - (1e-11) ^ 2 : ℝ) ^ 2 = 1 - (1e-11) ^ 2 := sq_sqrt (by norm_num)
  have hnn : 0 ≤ √(1 - (1e-11) ^ 2 : ℝ) := sqrt_nonneg _
  have hle : √(1 - (1e-11) ^ 2 : ℝ) ≤ 1 := sqrt_le_one.mpr (by norm_num)
  have hge : 1 - (1e-11) ^ 2 ≤ √(1 - (1e-11) ^ 2 : ℝ) := by nlinarith
  generalize √(1 - (1e-11) ^ 2 : ℝ) = q at *
  have hab : Cart.Above ⟨⟨q, 0, 1e-11⟩, ⟨1, 0, 0⟩⟩ := by
    refine ⟨⟨?_, ?_⟩, ?_, ?_⟩
    · unfold V3.IsUnit; simp only; rw [hsq]; norm_num
    · unfold V3.IsUnit; norm_num
    · norm_num
    · norm_num
  refine ⟨_, hab, ?_⟩
  apply not_reciprocal_of _ rfl
  have small : ∀ a : ℝ, a ^ 2 = (1 - q) ^ 2 → ¬ √(a * a + (0 - 0) * (0 - 0) + (0 + 1e-11) * (0 + 1e-11)) > 1e-10 := by
    intro a ha
    rw [not_lt, sqrt_le_left (by norm_num)]
    have : (1 - q) ^ 2 ≤ 1e-22 := by nlinarith
    nlinarith
  have d1 : dotRK .CARTESIAN (Cart.mk ⟨q, 0, 1e-11⟩ ⟨1, 0, 0⟩).toList = some 1e-11 := by
    have h3 : ∀ c : Cart, convertInput (arr c.toList) .CARTESIAN .CARTESIAN = some c.toList := fun _ => rfl
    unfold dotRK
    rw [h3, convert_from_cartesian _ _ (by decide), fromCartesian_eq _ _ hab.sum]
    simp only [fromCartesianSwitch]
    rw [if_neg (small _ (by ring))]
    simp [arr, Cart.toList]
  have d2 : dotRK .CARTESIAN (Cart.mk ⟨1, 0, 0⟩ ⟨q, 0, 1e-11⟩).toList = some 0 := by
    have h3 : ∀ c : Cart, convertInput (arr c.toList) .CARTESIAN .CARTESIAN = some c.toList := fun _ => rfl
    unfold dotRK
    rw [h3, convert_from_cartesian _ _ (by decide), fromCartesian_eq _ _ (by norm_num)]
    simp only [fromCartesianSwitch]
    rw [if_neg (by rw [add_comm (1e-11) (0:ℝ)]; exact small _ (by ring))]
    simp [arr, Cart.toList]
  simp only [LobeObj.toFn, Fn.value, retroSchlickCls, oneChannel, Cart.swap]
  rw [d1, d2]
  simp only [Option.map_some, List.range_one, List.map_cons,
    List.map_nil, ne_eq, Option.some.injEq, List.cons.injEq, and_true]
  norm_num

/-- a sum of a diffuse term and of a Beckmann lobe with its Fresnel and masking terms -/
def reciprocalSum : FT LobeObj :=
  .compound oneChannel (.cons [] (.leaf (.diffuse ⟨oneChannel, fun _ => 1 / 10, 0⟩))
    (.cons [] (.product oneChannel (.leaf (.schlickFresnel ⟨oneChannel, fun _ => 1 / 2⟩))
      (.product oneChannel (.leaf (.beckmann ⟨oneChannel, fun _ => 1, fun _ => 1 / 3⟩))
        (.leaf (.walterSmith ⟨oneChannel, fun _ => 1 / 3⟩)) false false) false false) .nil))

/-- it is reciprocal -/
example : reciprocalSum.toFn.Reciprocal := by
  intro c hc
  apply composition_reciprocal _ c hc
  · simp only [reciprocalSum, FT.AllObjects, FTs.AllObjects, LobeObj.MeantReciprocal, ReciprocalOnDirections, and_true]
    exact ⟨.inr rfl, .inr rfl, .inr rfl, .inr rfl⟩
  · simp only [reciprocalSum, FT.toFn, FTs.toFns, Fn.SharedInput, Fns.SharedInput, and_true]
    exact ⟨⟨trivial, .inl rfl⟩, ⟨⟨trivial, .inl rfl⟩, ⟨⟨trivial, .inl rfl⟩, trivial, .inl rfl⟩, .inl rfl⟩, .inl rfl⟩

/-- and it has a value: two directions, above the surface -/
example : Cart.Above ⟨⟨0, 3 / 5, 4 / 5⟩, ⟨3 / 5, 0, 4 / 5⟩⟩ := by
  refine ⟨⟨?_, ?_⟩, ?_, ?_⟩
  · unfold V3.IsUnit; norm_num
  · unfold V3.IsUnit; norm_num
  · norm_num
  · norm_num

end
end Alta
