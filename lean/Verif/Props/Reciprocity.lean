import Verif.Spec.Reciprocity
import Verif.Props.GeomConvert
import Verif.Props.GeomRoundTrip
import Verif.Props.FunctionJac
import Verif.Props.Fresnel
/-
C63: Helmholtz reciprocity of the plugin objects and of their compositions.
-/
namespace Alta
open Real
noncomputable section

theorem Cart.Above.swap {c : Cart} (h : c.Above) : c.swap.Above := ⟨⟨h.unit.2, h.unit.1⟩, h.light, h.view⟩

theorem Cart.Above.sum {c : Cart} (h : c.Above) : 0 ≤ c.v.z + c.l.z := add_nonneg h.view h.light

theorem reflect_cartesian (f : Fn) (h : f.par.input = .CARTESIAN) (c : Cart) : f.reflect c = f.value c.toList := by
  unfold Fn.reflect; rw [h]; rfl

theorem convert_from_cartesian (c : Cart) (p : Input) (hp : p ≠ .CARTESIAN) :
    convertInput (arr c.toList) .CARTESIAN p = fromCartesian c p := by
  unfold convertInput
  rw [if_neg (fun h => hp h.symm), if_pos rfl]
  rfl

/-- C63.  A function, of any kind, evaluated on coordinates that are symmetric in the two directions
    (C11) is reciprocal. -/
theorem reciprocal_of_coordinates (f : Fn) (hf : SymmetricInput f.par.input) : f.Reciprocal := by
  intro c hc
  have hn : f.par.input ≠ .CARTESIAN := by
    intro h; rw [h] at hf; unfold SymmetricInput at hf; simp at hf
  unfold Fn.ReciprocalAt Fn.reflect
  rw [convert_from_cartesian _ _ hn, convert_from_cartesian _ _ hn,
    reciprocity _ hf c hc.unit hc.view hc.light]

theorem vhOf_swap (c : Cart) (hc : c.Above) : vhOf c.swap.toList = vhOf c.toList := by
  unfold vhOf
  rw [convert_from_cartesian _ _ (by decide), convert_from_cartesian _ _ (by decide),
    reciprocity _ (by simp [SymmetricInput]) c hc.unit hc.view hc.light]

theorem vhOf_above (c : Cart) (hc : c.Above) :
    vhOf c.toList = some [(halfVector c).x, (halfVector c).y, (halfVector c).z] := by
  unfold vhOf
  rw [convert_from_cartesian _ _ (by decide), fromCartesian_eq _ _ hc.sum]
  rfl

/-- the half vector makes the same angle with the two directions -/
theorem half_dot_eq (c : Cart) (hc : c.Above) :
    (halfVector c).x * c.l.x + (halfVector c).y * c.l.y + (halfVector c).z * c.l.z
      = (halfVector c).x * c.v.x + (halfVector c).y * c.v.y + (halfVector c).z * c.v.z := by
  obtain ⟨mx, my, mz⟩ := light_is_mirror c hc.unit (upper_sum c hc.view hc.light)
  have hu := halfVector_unit c
  simp only [V3.dot, V3.IsUnit] at *
  linear_combination (halfVector c).x * mx + (halfVector c).y * my + (halfVector c).z * mz
    + 2 * (c.v.x * (halfVector c).x + c.v.y * (halfVector c).y + c.v.z * (halfVector c).z) * hu

theorem dotVH_swap (c : Cart) (hc : c.Above) : dotVH .CARTESIAN c.swap.toList = dotVH .CARTESIAN c.toList := by
  have h1 := vhOf_above c hc
  have h2 := vhOf_above c.swap hc.swap
  unfold vhOf at h1 h2
  unfold dotVH
  rw [h1, h2, halfVector_swap]
  have h3 : convertInput (arr c.toList) .CARTESIAN .CARTESIAN = some c.toList := rfl
  have h4 : convertInput (arr c.swap.toList) .CARTESIAN .CARTESIAN = some c.swap.toList := rfl
  rw [h3, h4]
  have := half_dot_eq c hc
  simp only [Option.map_some, Option.some.injEq]
  exact this

theorem vk_swap_z (c : Cart) (hc : c.Above) :
    ((convertInput (arr c.swap.toList) .CARTESIAN .SCHLICK_VK).map fun h => arr h 2) =
      (convertInput (arr c.toList) .CARTESIAN .SCHLICK_VK).map fun h => arr h 2 := by
  rw [convert_from_cartesian _ _ (by decide), convert_from_cartesian _ _ (by decide),
    fromCartesian_eq _ _ hc.sum, fromCartesian_eq _ _ hc.swap.sum]
  have e : (c.v.x - c.l.x) * (c.v.x - c.l.x) + (c.v.y - c.l.y) * (c.v.y - c.l.y) + (c.v.z + c.l.z) * (c.v.z + c.l.z) =
      (c.l.x - c.v.x) * (c.l.x - c.v.x) + (c.l.y - c.v.y) * (c.l.y - c.v.y) + (c.l.z + c.v.z) * (c.l.z + c.v.z) := by ring
  simp only [fromCartesianSwitch, Cart.swap, e]
  split
  · simp only [Option.map_some, arr, Option.some.injEq]
    show (c.v.z + c.l.z) / _ = (c.l.z + c.v.z) / _
    rw [add_comm]
  · rfl

theorem dotRK_swap (c : Cart) (hc : c.Above) (hg : 1e-10 < c.v.z + c.l.z) :
    dotRK .CARTESIAN c.swap.toList = dotRK .CARTESIAN c.toList := by
  have h3 : convertInput (arr c.toList) .CARTESIAN .CARTESIAN = some c.toList := rfl
  have h4 : convertInput (arr c.swap.toList) .CARTESIAN .CARTESIAN = some c.swap.toList := rfl
  unfold dotRK
  rw [h3, h4, convert_from_cartesian _ _ (by decide), convert_from_cartesian _ _ (by decide),
    fromCartesian_eq _ _ hc.sum, fromCartesian_eq _ _ hc.swap.sum]
  have e : (c.v.x - c.l.x) * (c.v.x - c.l.x) + (c.v.y - c.l.y) * (c.v.y - c.l.y) + (c.v.z + c.l.z) * (c.v.z + c.l.z) =
      (c.l.x - c.v.x) * (c.l.x - c.v.x) + (c.l.y - c.v.y) * (c.l.y - c.v.y) + (c.l.z + c.v.z) * (c.l.z + c.v.z) := by ring
  obtain ⟨hv, hl⟩ := hc.unit
  unfold V3.IsUnit at hv hl
  simp only [fromCartesianSwitch, Cart.swap, e]
  have hn : √((c.l.x - c.v.x) * (c.l.x - c.v.x) + (c.l.y - c.v.y) * (c.l.y - c.v.y) +
      (c.l.z + c.v.z) * (c.l.z + c.v.z)) > 1e-10 := by
    refine hg.trans_le ?_
    apply Real.le_sqrt_of_sq_le
    nlinarith [sq_nonneg (c.l.x - c.v.x), sq_nonneg (c.l.y - c.v.y)]
  generalize √((c.l.x - c.v.x) * (c.l.x - c.v.x) + (c.l.y - c.v.y) * (c.l.y - c.v.y) +
    (c.l.z + c.v.z) * (c.l.z + c.v.z)) = n at *
  have hn0 : n ≠ 0 := by
    intro h; rw [h] at hn; norm_num at hn
  rw [if_pos hn, if_pos hn]
  simp only [Option.map_some, Option.some.injEq]
  show (c.v.z + c.l.z) / n * c.l.z - ((c.v.x - c.l.x) / n * c.l.x + (c.v.y - c.l.y) / n * c.l.y) =
    (c.l.z + c.v.z) / n * c.v.z - ((c.l.x - c.v.x) / n * c.v.x + (c.l.y - c.v.y) / n * c.v.y)
  field_simp
  linarith

/-- the cosine of the mirror versions of the spherical Gaussian -/
theorem sgTurn_pi (c : Cart) (hc : c.Above) :
    sgTurn (fun p => p + π) c.toList = some (c.v.z * c.l.z - c.v.x * c.l.x - c.v.y * c.l.y) := by
  obtain ⟨o, ho, hr⟩ := SPHERICAL_directions_round_trip c hc.unit hc.sum
  unfold sgTurn
  rw [convert_from_cartesian _ _ (by decide), ho]
  simp only [toCartesian, Option.some.injEq] at hr
  rw [← hr]
  simp only [convertInput, if_neg (by decide : ¬ (Input.SPHERICAL_TL_PL_TV_PV = Input.CARTESIAN)), if_true,
    toCartesian, Option.map_some, Option.some.injEq]
  show cos (arr o 3) * sin (arr o 2) * (cos (arr o 1 + π) * sin (arr o 0)) +
    sin (arr o 3) * sin (arr o 2) * (sin (arr o 1 + π) * sin (arr o 0)) + cos (arr o 2) * cos (arr o 0) = _
  rw [cos_add_pi, sin_add_pi]
  ring

theorem sgDot_swap (t : SgType) (a : ℝ) (ht : t ≠ .Moment) (c : Cart) (hc : c.Above) :
    sgDot t a c.swap.toList = sgDot t a c.toList := by
  have hturn : sgTurn (fun p => p + π) c.swap.toList = sgTurn (fun p => p + π) c.toList := by
    rw [sgTurn_pi c hc, sgTurn_pi _ hc.swap]
    simp only [Cart.swap, Option.some.injEq]
    ring
  have h1 : convertInput (arr c.swap.toList) .CARTESIAN .COS_TH = convertInput (arr c.toList) .CARTESIAN .COS_TH := by
    rw [convert_from_cartesian _ _ (by decide), convert_from_cartesian _ _ (by decide),
      reciprocity _ (by simp [SymmetricInput]) c hc.unit hc.view hc.light]
  have h2 : convertInput (arr c.swap.toList) .CARTESIAN .COS_TK = convertInput (arr c.toList) .CARTESIAN .COS_TK := by
    rw [convert_from_cartesian _ _ (by decide), convert_from_cartesian _ _ (by decide),
      reciprocity _ (by simp [SymmetricInput]) c hc.unit hc.view hc.light]
  cases t <;> simp only [sgDot, h1, h2, hturn]
  exact absurd rfl ht

theorem walterVisible_swap (c : Cart) : walterVisible c.swap.toList ↔ walterVisible c.toList := by
  unfold walterVisible
  simp only [Cart.swap, Cart.toList, arr]
  simp only [List.getD_cons_zero, List.getD_cons_succ, add_comm c.l.x, add_comm c.l.y, add_comm c.l.z]
  exact and_comm

theorem sgdChannel_symm (q : ℕ → ℝ) (i nh nl nv vh : ℝ) :
    sgdChannel q i nh nl nv vh = sgdChannel q i nh nv nl vh := by
  have key : ∀ a b d e f g : ℝ, a * (b + d * e * f * g) = a * (b + d * f * e * g) := by intros; ring
  exact key _ _ _ _ _ _

/-- C63.  The plugin objects that are meant to be reciprocal are. -/
theorem lobe_reciprocal (o : LobeObj) (c : Cart) (hc : c.Above) (ho : o.MeantReciprocal c) :
    o.toFn.ReciprocalAt c := by
  rcases ho with ho | ⟨hi, ho⟩
  · exact reciprocal_of_coordinates _ ho c hc
  unfold Fn.ReciprocalAt
  have hi' : o.toFn.par.input = .CARTESIAN := hi
  rw [reflect_cartesian _ hi', reflect_cartesian _ hi']
  have e0 : ∀ k, arr c.swap.toList k = arr [c.l.x, c.l.y, c.l.z, c.v.x, c.v.y, c.v.z] k := fun _ => rfl
  cases o with
  | blinn s => exact ho.elim
  | retroblinn s => exact ho.elim
  | abc s => exact ho.elim
  | smith s => exact ho.elim
  | beckmann s =>
    simp only [LobeObj.toFn, Fn.value, beckmannCls, vhOf_swap c hc]
    have : arr c.swap.toList 2 * arr c.swap.toList 5 = arr c.toList 2 * arr c.toList 5 := mul_comm _ _
    rw [this]
  | retrobeckmann s =>
    have hb : s.useBack = true := ho
    have : retroDot s.useBack c.swap.toList = retroDot s.useBack c.toList := by
      simp only [retroDot, hb, if_true]
      exact vk_swap_z c hc
    simp only [LobeObj.toFn, Fn.value, retrobeckmannCls, this]
  | ward s =>
    simp only [LobeObj.toFn, Fn.value, wardCls, vhOf_swap c hc]
    have : arr c.swap.toList 2 * arr c.swap.toList 5 = arr c.toList 2 * arr c.toList 5 := mul_comm _ _
    rw [this]
  | diffuse s => rfl
  | sg s => simp only [LobeObj.toFn, Fn.value, sgCls, sgDot_swap _ _ ho c hc]
  | isoLafortune s =>
    have h1 : arr c.swap.toList 0 * arr c.swap.toList 3 = arr c.toList 0 * arr c.toList 3 := mul_comm _ _
    have h2 : arr c.swap.toList 1 * arr c.swap.toList 4 = arr c.toList 1 * arr c.toList 4 := mul_comm _ _
    have h3 : arr c.swap.toList 2 * arr c.swap.toList 5 = arr c.toList 2 * arr c.toList 5 := mul_comm _ _
    simp only [LobeObj.toFn, Fn.value, isoLafortuneCls, h1, h2, h3]
  | lafortune s =>
    have h1 : arr c.swap.toList 0 * arr c.swap.toList 3 = arr c.toList 0 * arr c.toList 3 := mul_comm _ _
    have h2 : arr c.swap.toList 1 * arr c.swap.toList 4 = arr c.toList 1 * arr c.toList 4 := mul_comm _ _
    have h3 : arr c.swap.toList 2 * arr c.swap.toList 5 = arr c.toList 2 * arr c.toList 5 := mul_comm _ _
    simp only [LobeObj.toFn, Fn.value, lafortuneCls, h1, h2, h3]
  | schlickFresnel s =>
    have hi2 : s.par.input = .CARTESIAN := hi
    simp only [LobeObj.toFn, Fn.value, schlickFresnelCls, hi2, dotVH_swap c hc]
  | normalizedSchlick s =>
    have hi2 : s.par.input = .CARTESIAN := hi
    simp only [LobeObj.toFn, Fn.value, normalizedSchlickCls, hi2, dotVH_swap c hc]
  | retroSchlick s =>
    have hi2 : s.par.input = .CARTESIAN := hi
    simp only [LobeObj.toFn, Fn.value, retroSchlickCls, hi2, dotRK_swap c hc ho]
  | schlickMasking s =>
    simp only [LobeObj.toFn, Fn.value, schlickMaskingCls, Option.some.injEq]
    apply List.map_congr_left
    intro i _
    exact mul_comm _ _
  | walterSmith s =>
    simp only [LobeObj.toFn, Fn.value, walterSmithCls, Option.some.injEq]
    apply List.map_congr_left
    intro i _
    by_cases h : walterVisible c.toList
    · rw [if_pos h, if_pos ((walterVisible_swap c).mpr h)]
      exact mul_comm (walterTerm _ _) (walterTerm _ _)
    · rw [if_neg h, if_neg (fun h' => h ((walterVisible_swap c).mp h'))]
  | sgd s =>
    have hl : ¬ c.l.z < 0 := not_lt.mpr hc.light
    have hv : ¬ c.v.z < 0 := not_lt.mpr hc.view
    obtain ⟨uv, ul⟩ := hc.unit
    unfold V3.IsUnit at uv ul
    have e3 : c.v.x * (c.v.x + c.l.x) + c.v.y * (c.v.y + c.l.y) + c.v.z * (c.v.z + c.l.z) =
        c.l.x * (c.v.x + c.l.x) + c.l.y * (c.v.y + c.l.y) + c.l.z * (c.v.z + c.l.z) := by linarith
    simp only [LobeObj.toFn, Fn.value, sgdCls, Option.some.injEq]
    apply List.map_congr_left
    intro i _
    simp only [Cart.swap, Cart.toList, arr, List.getD_cons_zero, List.getD_cons_succ, if_neg hl, if_neg hv,
      add_comm c.l.x, add_comm c.l.y, add_comm c.l.z]
    rw [e3]
    exact sgdChannel_symm _ _ _ _ _ _

end
end Alta
