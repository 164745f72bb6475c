import Verif.Props.Isotropy
import Verif.Props.ReciprocityLimits
/-
C86, limits of the code: two plugin objects whose value changes when the directions turn together about the normal; and
examples of compositions that meet the hypotheses of `composition_isotropic`.
-/
namespace Alta
open Real
noncomputable section

theorem rotZ_quarter (c : Cart) : c.rotZ (π / 2) = ⟨⟨-c.v.y, c.v.x, c.v.z⟩, ⟨-c.l.y, c.l.x, c.l.z⟩⟩ := by
  simp [Cart.rotZ, V3.rotZ]

theorem not_isotropic_of (o : LobeObj) (hi : o.par.input = .CARTESIAN) (c : Cart) (t : ℝ)
    (h : o.toFn.value (c.rotZ t).toList ≠ o.toFn.value c.toList) : ¬ o.toFn.IsotropicAt c t := by
  unfold Fn.IsotropicAt
  rw [reflect_cartesian _ hi, reflect_cartesian _ hi]
  exact h

/-- C86 (limit): the default cosine of the retro-reflecting Beckmann lobe multiplies the third coordinate of one direction by
    the second of the other, and is not isotropic. -/
theorem retrobeckmann_not_isotropic :
    ∃ c : Cart, c.Above ∧ 0 < c.v.z ∧ 0 < c.l.z ∧
      ¬ (LobeObj.retrobeckmann ⟨oneChannel, fun _ => 1, fun _ => 1, false⟩).toFn.IsotropicAt c (π / 2) := by
  refine ⟨⟨⟨0, 0, 1⟩, ⟨0, 3 / 5, 4 / 5⟩⟩, ⟨⟨?_, ?_⟩, ?_, ?_⟩, by norm_num, by norm_num, ?_⟩
  · unfold V3.IsUnit; norm_num
  · unfold V3.IsUnit; norm_num
  · norm_num
  · norm_num
  apply not_isotropic_of _ rfl
  rw [rotZ_quarter]
  simp only [LobeObj.toFn, Fn.value, retrobeckmannCls, retroDot, oneChannel, Cart.toList, arr,
    List.getD_cons_zero, List.getD_cons_succ, List.range_one, List.map_cons, List.map_nil, ne_eq, Option.some.injEq,
    List.cons.injEq, and_true, Bool.false_eq_true, if_false, Option.map_some]
  have e1 : max (0 * 0 + 1 * (3 / 5) + 1 * (4 / 5) : ℝ) 0 = 7 / 5 := by norm_num
  have e2 : max (-0 * -(3 / 5) + 1 * 0 + 1 * (4 / 5) : ℝ) 0 = 4 / 5 := by norm_num
  rw [e1, e2, if_pos (by norm_num), if_pos (by norm_num)]
  unfold beckmannLobe
  have h1 : exp (((7 / 5 : ℝ) * (7 / 5) - 1) / (1 * 1 * (7 / 5 * (7 / 5)))) ≤ 2 := by
    have h0 : ((7 / 5 : ℝ) * (7 / 5) - 1) / (1 * 1 * (7 / 5 * (7 / 5))) = 24 / 49 := by norm_num
    rw [h0]
    have := exp_bound_div_one_sub_of_interval (x := 24 / 49) (by norm_num) (by norm_num)
    norm_num at this
    linarith
  have h2 : (7 / 16 : ℝ) ≤ exp (((4 / 5 : ℝ) * (4 / 5) - 1) / (1 * 1 * (4 / 5 * (4 / 5)))) := by
    have h0 : ((4 / 5 : ℝ) * (4 / 5) - 1) / (1 * 1 * (4 / 5 * (4 / 5))) = -9 / 16 := by norm_num
    rw [h0]
    have := add_one_le_exp (-9 / 16 : ℝ)
    linarith
  generalize exp (((7 / 5 : ℝ) * (7 / 5) - 1) / (1 * 1 * (7 / 5 * (7 / 5)))) = a at *
  generalize exp (((4 / 5 : ℝ) * (4 / 5) - 1) / (1 * 1 * (4 / 5 * (4 / 5)))) = b at *
  have hp := pi_pos
  intro h
  have h3 : b * (4 * π * (1 * 1) * (7 / 5 * (7 / 5)) * (7 / 5 * (7 / 5))) =
      a * (4 * π * (1 * 1) * (4 / 5 * (4 / 5)) * (4 / 5 * (4 / 5))) := by
    field_simp at h
    linarith
  have h4 : a * 256 = b * 2401 := by
    have : π * (a * 256) = π * (b * 2401) := by linarith
    exact mul_left_cancel₀ hp.ne' this
  linarith

/-- C86 (limit): the moment version of the spherical Gaussian puts the light at the azimuth `a·p + π`, and is not
    isotropic. -/
theorem sg_moment_not_isotropic :
    ∃ c : Cart, c.Above ∧ 0 < c.v.z ∧ 0 < c.l.z ∧
      ¬ (LobeObj.sg ⟨oneChannel, fun _ => 1, fun _ => 1, 0, .Moment⟩).toFn.IsotropicAt c (π / 2) := by
  have hab : Cart.Above ⟨⟨0, 3 / 5, 4 / 5⟩, ⟨3 / 5, 0, 4 / 5⟩⟩ := by
    refine ⟨⟨?_, ?_⟩, ?_, ?_⟩
    · unfold V3.IsUnit; norm_num
    · unfold V3.IsUnit; norm_num
    · norm_num
    · norm_num
  have hab' : Cart.Above ⟨⟨-(3 / 5), 0, 4 / 5⟩, ⟨-0, 3 / 5, 4 / 5⟩⟩ := by
    refine ⟨⟨?_, ?_⟩, ?_, ?_⟩
    · unfold V3.IsUnit; norm_num
    · unfold V3.IsUnit; norm_num
    · norm_num
    · norm_num
  refine ⟨_, hab, by norm_num, by norm_num, ?_⟩
  apply not_isotropic_of _ rfl
  rw [rotZ_quarter]
  have h1 := sgTurn_const _ hab (fun p => p * 0 + π) (by intro p; ring)
  have h2 := sgTurn_const _ hab' (fun p => p * 0 + π) (by intro p; ring)
  simp only [LobeObj.toFn, Fn.value, sgCls, sgDot]
  rw [h1, h2]
  simp only [oneChannel, Option.map_some, List.range_one, List.map_cons,
    List.map_nil, ne_eq, Option.some.injEq, List.cons.injEq, and_true, one_mul]
  intro h
  have h3 := exp_injective h
  have h4 : sin (arccos (4 / 5)) = 3 / 5 := by
    rw [sin_arccos, show (1 - (4 / 5) ^ 2 : ℝ) = (3 / 5) ^ 2 by norm_num, sqrt_sq (by norm_num)]
  rw [h4] at h3
  norm_num at h3

/-- diffuse + Fresnel × (Beckmann × Walter–Smith) of `reciprocalSum`, plus a Ward lobe with equal coefficients and a
    Lafortune lobe with equal coefficients along the two axes. -/
def isotropicSum : FT LobeObj :=
  .compound oneChannel (.cons [] reciprocalSum
    (.cons [] (.leaf (.ward ⟨oneChannel, fun _ => 1, fun _ => 1 / 3, fun _ => 1 / 3⟩))
      (.cons [] (.leaf (.lafortune ⟨oneChannel, 1, fun k => if k = 2 then 1 else -1, fun _ => 5, fun _ => 0⟩)) .nil)))

/-- it is isotropic -/
example (c : Cart) (hc : c.Above) (t : ℝ) : isotropicSum.toFn.IsotropicAt c t := by
  apply composition_isotropic _ c hc
  · simp only [isotropicSum, reciprocalSum, FT.AllObjects, FTs.AllObjects, LobeObj.MeantIsotropic, IsotropicOnDirections,
      and_true]
    refine ⟨⟨.inr rfl, .inr rfl, .inr rfl, .inr rfl⟩, .inr ⟨rfl, fun i _ => trivial⟩, .inr ⟨rfl, ?_⟩⟩
    intro n hn i hi
    have h0 : n = 0 := by have : n < 1 := hn; omega
    have h1 : i = 0 := by have : i < 1 := hi; omega
    subst h0 h1
    norm_num
  · simp only [isotropicSum, reciprocalSum, FT.toFn, FTs.toFns, Fn.SharedInput, Fns.SharedInput, and_true]
    exact ⟨⟨⟨⟨trivial, .inl rfl⟩, ⟨⟨trivial, .inl rfl⟩, ⟨⟨trivial, .inl rfl⟩, trivial, .inl rfl⟩, .inl rfl⟩, .inl rfl⟩, .inl rfl⟩,
      ⟨trivial, .inl rfl⟩, trivial, .inl rfl⟩

/-- and a lobe that reads one cosine: Blinn's, of the cosine of the half vector -/
example (c : Cart) (hc : c.Above) (t : ℝ) (ks n : ℕ → ℝ) :
    (LobeObj.blinn ⟨⟨1, 1, .COS_TH, .INV_STERADIAN⟩, ks, n⟩).toFn.IsotropicAt c t :=
  lobe_isotropic _ c hc t (.inl (.inl (.inl rfl)))

end
end Alta
