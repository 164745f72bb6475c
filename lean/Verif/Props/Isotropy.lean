import Verif.Spec.Isotropy
import Verif.Proofs.Composition
/-
C86: isotropy of the functions.
-/
namespace Alta
open Real
noncomputable section

theorem Cart.Above.rotZ {c : Cart} (h : c.Above) (t : ℝ) : (c.rotZ t).Above := by
  have e := sin_sq_add_cos_sq t
  obtain ⟨⟨h1, h2⟩, h3, h4⟩ := h
  unfold V3.IsUnit at h1 h2
  refine ⟨⟨?_, ?_⟩, h3, h4⟩
  · simp only [V3.IsUnit, Cart.rotZ, V3.rotZ]
    linear_combination h1 + (c.v.x ^ 2 + c.v.y ^ 2) * e
  · simp only [V3.IsUnit, Cart.rotZ, V3.rotZ]
    linear_combination h2 + (c.l.x ^ 2 + c.l.y ^ 2) * e

theorem isotropicInput_not_cartesian {c : Cart} {p : Input} (h : IsotropicInput c p) : p ≠ .CARTESIAN := by
  rintro rfl
  unfold IsotropicInput NoAzimuth AzimuthReduced at h
  simp at h

theorem convert_isotropic (c : Cart) (p : Input) (hp : IsotropicInput c p) (t : ℝ) :
    convertInput (arr (c.rotZ t).toList) .CARTESIAN p = convertInput (arr c.toList) .CARTESIAN p := by
  have hn := isotropicInput_not_cartesian hp
  rw [convert_from_cartesian _ _ hn, convert_from_cartesian _ _ hn]
  rcases hp with hp | ⟨hp, ha⟩
  · exact rotation_invariant p hp c t
  · exact rotation_invariant_azimuth p hp c ha t

/-- C86.  A function of any kind that is evaluated on the coordinates of isotropic materials is isotropic. -/
theorem isotropic_of_coordinates (f : Fn) (c : Cart) (hf : IsotropicInput c f.par.input) (t : ℝ) : f.IsotropicAt c t := by
  unfold Fn.IsotropicAt Fn.reflect
  rw [convert_isotropic c _ hf t]

theorem convert_rotZ_isSome (c : Cart) (hc : c.Above) (t : ℝ) (p : Input) :
    (convertInput (arr (c.rotZ t).toList) .CARTESIAN p).isSome = (convertInput (arr c.toList) .CARTESIAN p).isSome := by
  by_cases hp : p = .CARTESIAN
  · subst hp; rfl
  rw [convert_from_cartesian _ _ hp, convert_from_cartesian _ _ hp, fromCartesian_eq _ _ hc.sum,
    fromCartesian_eq _ _ (hc.rotZ t).sum]
  cases p <;> simp only [fromCartesianSwitch] <;> (repeat' split) <;> rfl

theorem vhOf_rotZ (c : Cart) (hc : c.Above) (t : ℝ) :
    vhOf (c.rotZ t).toList = some [((halfVector c).rotZ t).x, ((halfVector c).rotZ t).y, (halfVector c).z] := by
  rw [vhOf_above _ (hc.rotZ t), halfVector_rotZ]
  rfl

theorem dotVH_rotZ (c : Cart) (hc : c.Above) (t : ℝ) :
    dotVH .CARTESIAN (c.rotZ t).toList = dotVH .CARTESIAN c.toList := by
  have h1 := vhOf_above c hc
  have h2 := vhOf_rotZ c hc t
  unfold vhOf at h1 h2
  unfold dotVH
  rw [h1, h2]
  have h3 : convertInput (arr c.toList) .CARTESIAN .CARTESIAN = some c.toList := rfl
  have h4 : convertInput (arr (c.rotZ t).toList) .CARTESIAN .CARTESIAN = some (c.rotZ t).toList := rfl
  rw [h3, h4]
  simp only [Option.map_some, Option.some.injEq]
  exact dot_rotZ (halfVector c) c.v t

/-- The back vector turns with the directions. -/
theorem vk_rotZ (c : Cart) (hc : c.Above) (t : ℝ) :
    ∃ k : V3, convertInput (arr c.toList) .CARTESIAN .SCHLICK_VK = some [k.x, k.y, k.z] ∧
      convertInput (arr (c.rotZ t).toList) .CARTESIAN .SCHLICK_VK = some [(k.rotZ t).x, (k.rotZ t).y, k.z] := by
  have e := sin_sq_add_cos_sq t
  rw [convert_from_cartesian _ _ (by decide), convert_from_cartesian _ _ (by decide),
    fromCartesian_eq _ _ hc.sum, fromCartesian_eq _ _ (hc.rotZ t).sum]
  have hx : (c.rotZ t).l.x - (c.rotZ t).v.x = cos t * (c.l.x - c.v.x) - sin t * (c.l.y - c.v.y) := by
    simp only [Cart.rotZ, V3.rotZ]; ring
  have hy : (c.rotZ t).l.y - (c.rotZ t).v.y = sin t * (c.l.x - c.v.x) + cos t * (c.l.y - c.v.y) := by
    simp only [Cart.rotZ, V3.rotZ]; ring
  have hz : (c.rotZ t).l.z + (c.rotZ t).v.z = c.l.z + c.v.z := rfl
  have hn : √(((c.rotZ t).l.x - (c.rotZ t).v.x) * ((c.rotZ t).l.x - (c.rotZ t).v.x) +
      ((c.rotZ t).l.y - (c.rotZ t).v.y) * ((c.rotZ t).l.y - (c.rotZ t).v.y) +
      ((c.rotZ t).l.z + (c.rotZ t).v.z) * ((c.rotZ t).l.z + (c.rotZ t).v.z)) =
      √((c.l.x - c.v.x) * (c.l.x - c.v.x) + (c.l.y - c.v.y) * (c.l.y - c.v.y) + (c.l.z + c.v.z) * (c.l.z + c.v.z)) := by
    congr 1
    rw [hx, hy, hz]
    linear_combination ((c.l.x - c.v.x) ^ 2 + (c.l.y - c.v.y) ^ 2) * e
  simp only [fromCartesianSwitch]
  by_cases h : √((c.l.x - c.v.x) * (c.l.x - c.v.x) + (c.l.y - c.v.y) * (c.l.y - c.v.y) +
      (c.l.z + c.v.z) * (c.l.z + c.v.z)) > 1e-10
  · rw [if_pos h, if_pos (by rw [hn]; exact h)]
    refine ⟨⟨_, _, _⟩, rfl, ?_⟩
    rw [hn, hx, hy, hz]
    simp only [Option.some.injEq, List.cons.injEq, and_true, V3.rotZ]
    constructor <;> ring
  · rw [if_neg h, if_neg (by rw [hn]; exact h)]
    refine ⟨⟨0, 0, 1⟩, rfl, ?_⟩
    simp [V3.rotZ]

theorem dotRK_rotZ (c : Cart) (hc : c.Above) (t : ℝ) :
    dotRK .CARTESIAN (c.rotZ t).toList = dotRK .CARTESIAN c.toList := by
  obtain ⟨k, h1, h2⟩ := vk_rotZ c hc t
  have h3 : convertInput (arr c.toList) .CARTESIAN .CARTESIAN = some c.toList := rfl
  have h4 : convertInput (arr (c.rotZ t).toList) .CARTESIAN .CARTESIAN = some (c.rotZ t).toList := rfl
  unfold dotRK
  rw [h1, h2, h3, h4]
  simp only [Option.map_some, Option.some.injEq]
  have := dot_rotZ k c.v t
  simp only [V3.dot] at this
  show k.z * c.v.z - ((k.rotZ t).x * (c.v.rotZ t).x + (k.rotZ t).y * (c.v.rotZ t).y) = k.z * c.v.z - (k.x * c.v.x + k.y * c.v.y)
  have hz : (k.rotZ t).z * (c.v.rotZ t).z = k.z * c.v.z := rfl
  linarith

theorem sgDot_rotZ (ty : SgType) (a : ℝ) (ht : ty ≠ .Moment) (c : Cart) (hc : c.Above) (t : ℝ) :
    sgDot ty a (c.rotZ t).toList = sgDot ty a c.toList := by
  have hturn : sgTurn (fun p => p + π) (c.rotZ t).toList = sgTurn (fun p => p + π) c.toList := by
    rw [sgTurn_pi c hc, sgTurn_pi _ (hc.rotZ t)]
    have := dot_rotZ c.v c.l t
    simp only [V3.dot] at this
    simp only [Cart.rotZ, Option.some.injEq]
    have hz : (c.v.rotZ t).z * (c.l.rotZ t).z = c.v.z * c.l.z := rfl
    linarith
  have h1 := convert_isotropic c .COS_TH (.inl (by simp [NoAzimuth])) t
  have h2 := convert_isotropic c .COS_TK (.inl (by simp [NoAzimuth])) t
  cases ty <;> simp only [sgDot, h1, h2, hturn]
  exact absurd rfl ht

theorem sum_sq_rotZ (a : V3) (t : ℝ) :
    (cos t * a.x - sin t * a.y) * (cos t * a.x - sin t * a.y) + (sin t * a.x + cos t * a.y) * (sin t * a.x + cos t * a.y) =
      a.x * a.x + a.y * a.y := by
  have e := sin_sq_add_cos_sq t
  linear_combination (a.x ^ 2 + a.y ^ 2) * e

theorem walterVisible_rotZ (c : Cart) (t : ℝ) : walterVisible (c.rotZ t).toList ↔ walterVisible c.toList := by
  have e := sin_sq_add_cos_sq t
  unfold walterVisible
  simp only [Cart.rotZ, V3.rotZ, Cart.toList, arr, List.getD_cons_zero, List.getD_cons_succ]
  have hn : (cos t * c.v.x - sin t * c.v.y + (cos t * c.l.x - sin t * c.l.y)) *
      (cos t * c.v.x - sin t * c.v.y + (cos t * c.l.x - sin t * c.l.y)) +
      (sin t * c.v.x + cos t * c.v.y + (sin t * c.l.x + cos t * c.l.y)) *
      (sin t * c.v.x + cos t * c.v.y + (sin t * c.l.x + cos t * c.l.y)) + (c.v.z + c.l.z) * (c.v.z + c.l.z) =
      (c.v.x + c.l.x) * (c.v.x + c.l.x) + (c.v.y + c.l.y) * (c.v.y + c.l.y) + (c.v.z + c.l.z) * (c.v.z + c.l.z) := by
    linear_combination ((c.v.x + c.l.x) ^ 2 + (c.v.y + c.l.y) ^ 2) * e
  rw [hn]
  generalize √((c.v.x + c.l.x) * (c.v.x + c.l.x) + (c.v.y + c.l.y) * (c.v.y + c.l.y) + (c.v.z + c.l.z) * (c.v.z + c.l.z)) = n
  split
  · simp
  · have k1 : (cos t * c.v.x - sin t * c.v.y) * ((cos t * c.v.x - sin t * c.v.y + (cos t * c.l.x - sin t * c.l.y)) / n) +
        (sin t * c.v.x + cos t * c.v.y) * ((sin t * c.v.x + cos t * c.v.y + (sin t * c.l.x + cos t * c.l.y)) / n) =
        c.v.x * ((c.v.x + c.l.x) / n) + c.v.y * ((c.v.y + c.l.y) / n) := by
      linear_combination ((c.v.x * (c.v.x + c.l.x) + c.v.y * (c.v.y + c.l.y)) / n) * e
    have k2 : (cos t * c.l.x - sin t * c.l.y) * ((cos t * c.v.x - sin t * c.v.y + (cos t * c.l.x - sin t * c.l.y)) / n) +
        (sin t * c.l.x + cos t * c.l.y) * ((sin t * c.v.x + cos t * c.v.y + (sin t * c.l.x + cos t * c.l.y)) / n) =
        c.l.x * ((c.v.x + c.l.x) / n) + c.l.y * ((c.v.y + c.l.y) / n) := by
      linear_combination ((c.l.x * (c.v.x + c.l.x) + c.l.y * (c.v.y + c.l.y)) / n) * e
    rw [k1, k2]

theorem wardLobe_rotZ (ks a : ℝ) (h : V3) (d t : ℝ) :
    wardLobe ks a a [(h.rotZ t).x, (h.rotZ t).y, h.z] d = wardLobe ks a a [h.x, h.y, h.z] d := by
  have e := sin_sq_add_cos_sq t
  have k : (cos t * h.x - sin t * h.y) / a * ((cos t * h.x - sin t * h.y) / a) +
      (sin t * h.x + cos t * h.y) / a * ((sin t * h.x + cos t * h.y) / a) = h.x / a * (h.x / a) + h.y / a * (h.y / a) := by
    linear_combination ((h.x ^ 2 + h.y ^ 2) / a ^ 2) * e
  unfold wardLobe
  simp only [arr, List.getD_cons_zero, List.getD_cons_succ, V3.rotZ]
  first
    | rw [k]
    | (simp only [k])

theorem sgd_rotZ (s : SgdS) (c : Cart) (t : ℝ) : sgdCls.value s (c.rotZ t).toList = sgdCls.value s c.toList := by
  have e := sin_sq_add_cos_sq t
  have hx : (c.rotZ t).v.x + (c.rotZ t).l.x = cos t * (c.v.x + c.l.x) - sin t * (c.v.y + c.l.y) := by
    simp only [Cart.rotZ, V3.rotZ]; ring
  have hy : (c.rotZ t).v.y + (c.rotZ t).l.y = sin t * (c.v.x + c.l.x) + cos t * (c.v.y + c.l.y) := by
    simp only [Cart.rotZ, V3.rotZ]; ring
  have hn : ((c.rotZ t).v.x + (c.rotZ t).l.x) * ((c.rotZ t).v.x + (c.rotZ t).l.x) +
      ((c.rotZ t).v.y + (c.rotZ t).l.y) * ((c.rotZ t).v.y + (c.rotZ t).l.y) =
      (c.v.x + c.l.x) * (c.v.x + c.l.x) + (c.v.y + c.l.y) * (c.v.y + c.l.y) := by
    rw [hx, hy]
    linear_combination ((c.v.x + c.l.x) ^ 2 + (c.v.y + c.l.y) ^ 2) * e
  have hd : (c.rotZ t).l.x * ((c.rotZ t).v.x + (c.rotZ t).l.x) + (c.rotZ t).l.y * ((c.rotZ t).v.y + (c.rotZ t).l.y) =
      c.l.x * (c.v.x + c.l.x) + c.l.y * (c.v.y + c.l.y) := by
    rw [hx, hy]
    simp only [Cart.rotZ, V3.rotZ]
    linear_combination (c.l.x * (c.v.x + c.l.x) + c.l.y * (c.v.y + c.l.y)) * e
  have hv : (c.rotZ t).v.z = c.v.z := rfl
  have hl : (c.rotZ t).l.z = c.l.z := rfl
  simp only [sgdCls, Cart.toList, arr, List.getD_cons_zero, List.getD_cons_succ, hn, hd, hv, hl]

/-- C86.  The plugin objects that are meant to be isotropic are. -/
theorem lobe_isotropic (o : LobeObj) (c : Cart) (hc : c.Above) (t : ℝ) (ho : o.MeantIsotropic c) :
    o.toFn.IsotropicAt c t := by
  rcases ho with ho | ⟨hi, ho⟩
  · exact isotropic_of_coordinates _ c ho t
  unfold Fn.IsotropicAt
  have hi' : o.toFn.par.input = .CARTESIAN := hi
  rw [reflect_cartesian _ hi', reflect_cartesian _ hi']
  have z1 : arr (c.rotZ t).toList 2 = arr c.toList 2 := rfl
  have z2 : arr (c.rotZ t).toList 5 = arr c.toList 5 := rfl
  have hxy : arr (c.rotZ t).toList 0 * arr (c.rotZ t).toList 3 + arr (c.rotZ t).toList 1 * arr (c.rotZ t).toList 4 =
      arr c.toList 0 * arr c.toList 3 + arr c.toList 1 * arr c.toList 4 := by
    have := dot_rotZ c.v c.l t
    simp only [V3.dot] at this
    have hz : (c.v.rotZ t).z * (c.l.rotZ t).z = c.v.z * c.l.z := rfl
    show (c.v.rotZ t).x * (c.l.rotZ t).x + (c.v.rotZ t).y * (c.l.rotZ t).y = c.v.x * c.l.x + c.v.y * c.l.y
    linarith
  cases o with
  | blinn s => exact ho.elim
  | retroblinn s => exact ho.elim
  | abc s => exact ho.elim
  | smith s =>
    have : arr (c.rotZ t).toList 3 * arr (c.rotZ t).toList 3 + arr (c.rotZ t).toList 4 * arr (c.rotZ t).toList 4 =
        arr c.toList 3 * arr c.toList 3 + arr c.toList 4 * arr c.toList 4 := sum_sq_rotZ c.l t
    simp only [LobeObj.toFn, Fn.value, smithCls, z1, z2, this]
  | beckmann s =>
    simp only [LobeObj.toFn, Fn.value, beckmannCls, vhOf_rotZ c hc t, vhOf_above c hc, z1, z2]
    rfl
  | retrobeckmann s =>
    have hb : s.useBack = true := ho
    have : retroDot s.useBack (c.rotZ t).toList = retroDot s.useBack c.toList := by
      obtain ⟨k, h1, h2⟩ := vk_rotZ c hc t
      simp only [retroDot, hb, if_true, h1, h2]
      rfl
    simp only [LobeObj.toFn, Fn.value, retrobeckmannCls, this]
  | ward s =>
    have hw : ∀ i < s.par.dimY, s.ax i = s.ay i := ho
    simp only [LobeObj.toFn, Fn.value, wardCls, vhOf_rotZ c hc t, vhOf_above c hc, z1, z2, Option.map_some, Option.some.injEq]
    apply List.map_congr_left
    intro i hi
    rw [hw i (List.mem_range.1 hi), wardLobe_rotZ]
  | diffuse s => rfl
  | sg s => simp only [LobeObj.toFn, Fn.value, sgCls, sgDot_rotZ _ _ ho c hc t]
  | isoLafortune s => simp only [LobeObj.toFn, Fn.value, isoLafortuneCls, z1, z2, hxy]
  | lafortune s =>
    have hw : ∀ n < s.n, ∀ i < s.par.dimY,
      s.C ((n * s.par.dimY + i) * 3 + 0) = s.C ((n * s.par.dimY + i) * 3 + 1) := ho
    simp only [LobeObj.toFn, Fn.value, lafortuneCls, Option.some.injEq]
    apply List.map_congr_left
    intro i hi
    apply List.foldl_ext
    intro res n hn
    have hq := hw n (List.mem_range.1 hn) i (List.mem_range.1 hi)
    have : s.C ((n * s.par.dimY + i) * 3 + 0) * (arr (c.rotZ t).toList 0 * arr (c.rotZ t).toList 3) +
        s.C ((n * s.par.dimY + i) * 3 + 1) * (arr (c.rotZ t).toList 1 * arr (c.rotZ t).toList 4) =
        s.C ((n * s.par.dimY + i) * 3 + 0) * (arr c.toList 0 * arr c.toList 3) +
        s.C ((n * s.par.dimY + i) * 3 + 1) * (arr c.toList 1 * arr c.toList 4) := by
      rw [← hq, ← mul_add, ← mul_add, hxy]
    rw [this, z1, z2]
  | schlickFresnel s =>
    have hi2 : s.par.input = .CARTESIAN := hi
    simp only [LobeObj.toFn, Fn.value, schlickFresnelCls, hi2, dotVH_rotZ c hc t]
  | normalizedSchlick s =>
    have hi2 : s.par.input = .CARTESIAN := hi
    simp only [LobeObj.toFn, Fn.value, normalizedSchlickCls, hi2, dotVH_rotZ c hc t]
  | retroSchlick s =>
    have hi2 : s.par.input = .CARTESIAN := hi
    simp only [LobeObj.toFn, Fn.value, retroSchlickCls, hi2, dotRK_rotZ c hc t]
  | schlickMasking s => rfl
  | walterSmith s =>
    have hw := walterVisible_rotZ c t
    simp only [LobeObj.toFn, Fn.value, walterSmithCls, Option.some.injEq, z1, z2]
    apply List.map_congr_left
    intro i _
    by_cases h : walterVisible c.toList
    · rw [if_pos h, if_pos (hw.2 h)]
    · rw [if_neg h, if_neg (fun h' => h (hw.1 h'))]
  | sgd s =>
    simp only [LobeObj.toFn, Fn.value]
    exact sgd_rotZ s c t

/-- C86.  A sum or product of objects that are meant to be isotropic is isotropic. -/
theorem composition_isotropic (f : FT LobeObj) (c : Cart) (hc : c.Above) (t : ℝ)
    (hf : f.AllObjects (LobeObj.MeantIsotropic c)) (hs : f.toFn.SharedInput) : f.toFn.IsotropicAt c t :=
  composition_same (LobeObj.MeantIsotropic c) c (c.rotZ t) (convert_rotZ_isSome c hc t)
    (fun l hl => lobe_isotropic l c hc t hl) f hf hs

end
end Alta
