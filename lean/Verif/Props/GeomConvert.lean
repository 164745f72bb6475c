import Verif.Proofs.Half
import Verif.Props.ParamNames
/-
Properties C03 (dimensions) and C04 (same parametrization, composition).
-/
namespace Alta
open Real

/-- Dimensions of the registry (specification side: written from the
    documentation of the enumeration, not from the table). -/
def Input.coordCount : Input → ℕ
  | .COS_TH | .COS_TK | .COS_TLV | .COS_TLR => 1
  | .RUSIN_TH_TD | .COS_TH_TD | .ISOTROPIC_TV_PROJ_DPHI | .STARK_2D | .NEUMANN_2D
  | .SCHLICK_TK_PK | .ISOTROPIC_TV_TL | .ISOTROPIC_TD_PD => 2
  | .RUSIN_TH_PH_TD_PD | .SPHERICAL_TL_PL_TV_PV | .STEREOGRAPHIC => 4
  | .CARTESIAN | .RUSIN_VH_VD => 6
  | .UNKNOWN_INPUT => 0
  | _ => 3

/-- C03: the reported dimension of a named parametrization. -/
theorem inputDim_eq (p : Input) (h : p.Named) : inputDim p = p.coordCount := by
  revert h; cases p <;> simp [Input.Named] <;> decide +kernel

/-- C03: a conversion from CARTESIAN writes exactly `dimension(p)` values. -/
theorem fromCartesian_length (c : Cart) (p : Input) (h : p.Named) (o : List ℝ)
    (ho : fromCartesian c p = some o) : (o.length : ℤ) = inputDim p := by
  rw [inputDim_eq p h]
  unfold fromCartesian at ho
  split at ho <;> [skip; simp at ho]
  cases p <;> simp only [fromCartesianSwitch] at ho <;>
    first
    | (simp only [Option.some.injEq] at ho; subst ho; rfl)
    | (exfalso; revert h; simp [Input.Named]; done)
    | (split at ho <;> (simp only [Option.some.injEq] at ho; subst ho; rfl))

/-- C03: any conversion writes exactly `dimension(outtype)` values. -/
theorem convertInput_length (x : ℕ → ℝ) (a b : Input) (hb : b.Named) (o : List ℝ)
    (ho : convertInput x a b = some o) : (o.length : ℤ) = inputDim b := by
  unfold convertInput at ho
  split at ho
  · simp only [Option.some.injEq] at ho
    subst ho
    rw [inputDim_eq b hb]; simp
  · split at ho
    · exact fromCartesian_length _ b hb o ho
    · split at ho
      · rename_i h
        subst h
        rw [inputDim_eq _ hb]
        cases hc : toCartesian a x with
        | none => rw [hc] at ho; simp at ho
        | some c => rw [hc] at ho; simp at ho; subst ho; rfl
      · split at ho
        · exact fromCartesian_length _ b hb o ho
        · simp at ho

/-- C03: a conversion reads the `dimension(p)` coordinates only. -/
theorem toCartesian_congr (p : Input) (h : p.Named) (x y : ℕ → ℝ)
    (hxy : ∀ k < (inputDim p).toNat, x k = y k) : toCartesian p x = toCartesian p y := by
  rw [inputDim_eq p h, Int.toNat_natCast] at hxy
  cases p <;> simp only [Input.coordCount] at hxy <;> simp [toCartesian, Cart.ofFun, hxy]

/-- C03: a conversion reads the `dimension(intype)` coordinates only. -/
theorem convertInput_congr (a b : Input) (h : a.Named) (x y : ℕ → ℝ)
    (hxy : ∀ k < (inputDim a).toNat, x k = y k) : convertInput x a b = convertInput y a b := by
  have h1 := toCartesian_congr a h x y hxy
  unfold convertInput
  rw [h1]
  split
  · rename_i hab
    subst hab
    congr 1
    apply List.map_congr_left
    intro k hk
    exact hxy k (by simpa using hk)
  · split
    · rename_i hc
      subst hc
      have : Cart.ofFun x = Cart.ofFun y := by
        have h6 : (inputDim .CARTESIAN).toNat = 6 := by decide +kernel
        rw [h6] at hxy
        simp [Cart.ofFun, hxy]
      rw [this]
    · rfl

/-- Non vacuity: a conversion that succeeds. -/
example : ∃ o, convertInput (fun _ => 0) .SPHERICAL_TL_PL_TV_PV .RUSIN_TH_TD = some o := by
  simp [convertInput, toCartesian, fromCartesian, halfAsserts_iff, fromCartesianSwitch]

/-- C03: coordinates beyond `dimension(p)` are never read. -/
theorem toCartesian_reads (p : Input) (h : p.Named) (x y : ℕ → ℝ)
    (hxy : ∀ i : ℕ, (i : ℤ) < inputDim p → x i = y i) : toCartesian p x = toCartesian p y := by
  rw [inputDim_eq p h] at hxy
  have h0 : 0 < p.coordCount → x 0 = y 0 := fun h => hxy 0 (by exact_mod_cast h)
  have h1 : 1 < p.coordCount → x 1 = y 1 := fun h => hxy 1 (by exact_mod_cast h)
  have h2 : 2 < p.coordCount → x 2 = y 2 := fun h => hxy 2 (by exact_mod_cast h)
  have h3 : 3 < p.coordCount → x 3 = y 3 := fun h => hxy 3 (by exact_mod_cast h)
  have h4 : 4 < p.coordCount → x 4 = y 4 := fun h => hxy 4 (by exact_mod_cast h)
  have h5 : 5 < p.coordCount → x 5 = y 5 := fun h => hxy 5 (by exact_mod_cast h)
  clear hxy
  cases p <;> simp [Input.coordCount] at h0 h1 h2 h3 h4 h5 <;>
    simp_all [toCartesian, Cart.ofFun]

/-- C03/C04: the conversions accept exactly the named parametrizations, plus
    `RUSIN_TH_PH_TD`; for the other enumerators the program ends. -/
theorem toCartesian_isSome (p : Input) (x : ℕ → ℝ) :
    (toCartesian p x).isSome ↔ p.Named ∨ p = .RUSIN_TH_PH_TD := by
  cases p <;> simp only [toCartesian, Input.Named] <;> (try split) <;> simp

/-- C03, limit of the code: `RUSIN_TH_PH_TD` is converted (three values are
    written) although its dimension is -1. -/
theorem RUSIN_TH_PH_TD_dimension :
    inputDim .RUSIN_TH_PH_TD = -1 ∧
    ∀ c : Cart, halfAsserts c → ∃ o, fromCartesian c .RUSIN_TH_PH_TD = some o ∧ o.length = 3 := by
  refine ⟨by decide +kernel, fun c hc => ?_⟩
  simp [fromCartesian, hc, fromCartesianSwitch]

/-- C04: same-type conversion copies the coordinates. -/
theorem convertInput_self (x : ℕ → ℝ) (p : Input) (h : p.Named) :
    ∃ o, convertInput x p p = some o ∧ (o.length : ℤ) = inputDim p ∧
      ∀ (i : ℕ) (hi : i < o.length), o[i] = x i := by
  refine ⟨(List.range (inputDim p).toNat).map x, by simp only [convertInput, if_true], ?_, ?_⟩
  · rw [inputDim_eq p h]; simp
  · intro i hi; simp

/-- C04: a conversion between two different parametrizations is the conversion
    to CARTESIAN followed by the conversion from CARTESIAN; the program ends
    exactly when one of the two does. -/
theorem convertInput_via_cartesian (x : ℕ → ℝ) (a b : Input) (hab : a ≠ b) :
    convertInput x a b =
      (convertInput x a .CARTESIAN).bind fun o => convertInput (arr o) .CARTESIAN b := by
  have hdim : (inputDim .CARTESIAN).toNat = 6 := by decide +kernel
  have key : ∀ c : Cart, Cart.ofFun (arr c.toList) = c := fun c => by
    simp [Cart.ofFun, arr, Cart.toList]
  have hsix : ∀ y : ℕ → ℝ, Cart.ofFun (arr ((List.range 6).map y)) = Cart.ofFun y := fun y => by
    simp [Cart.ofFun, arr, List.range, List.range.loop]
  by_cases ha : a = .CARTESIAN
  · subst ha
    simp [convertInput, hab, hdim, hsix]
  · by_cases hb : b = .CARTESIAN
    · subst hb
      simp only [convertInput, ha, if_false, if_true, hdim]
      cases toCartesian a x with
      | none => rfl
      | some c => simp [Cart.toList, arr, List.range, List.range.loop]
    · have hb' : Input.CARTESIAN ≠ b := fun h => hb h.symm
      simp only [convertInput, ha, hb, hab, hb', if_false, if_true]
      cases toCartesian a x with
      | none => rfl
      | some c => simp [key]

/-- C04, limit of the code: for an enumerator without entry in the table the
    same-type conversion writes nothing. -/
theorem convertInput_self_unregistered (x : ℕ → ℝ) (p : Input) (h : ¬ p.Named) :
    convertInput x p p = some [] := by
  have := (inputName_unregistered p h).2.2
  simp [convertInput, this]

end Alta
