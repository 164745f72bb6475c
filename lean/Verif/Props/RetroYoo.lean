import Verif.Model.RetroYoo
import Verif.Props.LobesLawful
import Verif.Props.FunctionFileLimits
import Verif.Spec.Geometry
import Verif.Props.Bounds
import Mathlib.Analysis.SpecialFunctions.ExpDeriv
import Mathlib.Analysis.Calculus.Deriv.Inv
/-
C77: the lobe retroyoo.
-/
namespace Alta
noncomputable section

/-- C77: the parameters of the lobe can be set and read: the class respects the contract of functions
    (the vector returned has entries after the parameters, which are memory). -/
theorem yoo_lawful (mem tail : ℕ → ℝ) : (yooCls mem tail).Lawful where
  par_set _ _ := rfl
  nb_set _ _ := rfl
  nb_le s := by simp [yooCls, blocks_length _ 2, mul_comm]
  get_set s p hp := by
    have hl : (blocks s.par.dimY fun i => [readInto s.par.dimY p (fun i => i * 2 + 0) s.kr i,
        readInto s.par.dimY p (fun i => i * 2 + 1) s.lt i]).length = 2 * s.par.dimY := by
      rw [blocks_length _ 2 _ (fun i _ => rfl), mul_comm]
    show List.take (2 * s.par.dimY) ((blocks s.par.dimY fun i => [readInto s.par.dimY p (fun i => i * 2 + 0) s.kr i,
        readInto s.par.dimY p (fun i => i * 2 + 1) s.lt i]) ++ _) = p
    rw [List.take_append_of_le_length hl.ge]
    apply get_of_blocks _ 2 (by norm_num) _ _ hp (fun _ _ => rfl)
    intro i hi a ha
    interval_cases a <;> simp [readInto, hi, arr]
  set_get s := by
    have hl : (blocks s.par.dimY fun i => [s.kr i, s.lt i]).length = 2 * s.par.dimY := by
      rw [blocks_length _ 2 _ (fun i _ => rfl), mul_comm]
    have e : ((yooCls mem tail).get s).take ((yooCls mem tail).nb s) =
        (blocks s.par.dimY fun i => [s.kr i, s.lt i]).take (2 * s.par.dimY) := by
      show List.take (2 * s.par.dimY) (blocks _ _ ++ _) = _
      rw [List.take_append_of_le_length hl.ge]
    rw [e]
    refine YooS.ext (by rfl) ?_ ?_
    · apply readInto_self; intro i hi
      exact arr_take_blocks _ 2 _ (fun _ _ => rfl) _ 0 hi (by norm_num)
    · apply readInto_self; intro i hi
      exact arr_take_blocks _ 2 _ (fun _ _ => rfl) _ 1 hi (by norm_num)
  set_set s p q _ _ := by
    refine YooS.ext (by rfl) ?_ ?_ <;> exact readInto_readInto _ _ _ _ _
  value_length s x v h := by
    simp only [yooCls, Option.some.injEq] at h ⊢; subst h; simp
  value_def _ _ _ := rfl

/-- The profile of the lobe: a function of the first coordinate of its argument. -/
theorem yoo_value (tail : ℕ → ℝ) (s : YooS) (x : List ℝ) (i : ℕ) (hi : i < s.par.dimY) (mem : ℕ → ℝ) :
    (Fn.leaf (yooCls mem tail) s).valueAt x i = mem i * (s.kr i * yooBase (arr x 0) (s.lt i)) := by
  simp [Fn.valueAt, Fn.value, yooCls, arr, hi]

/-- C77, limit: the value is multiplied by what memory holds: it can be any number. -/
theorem yoo_value_undefined (tail : ℕ → ℝ) (s : YooS) (x : List ℝ) (i : ℕ) (hi : i < s.par.dimY)
    (h : s.kr i * yooBase (arr x 0) (s.lt i) ≠ 0) (a : ℝ) :
    ∃ mem, (Fn.leaf (yooCls mem tail) s).valueAt x i = a := by
  refine ⟨fun _ => a / (s.kr i * yooBase (arr x 0) (s.lt i)), ?_⟩
  rw [yoo_value tail s x i hi, div_mul_cancel₀ a h]

/-- C77, limit: the lobe does not depend on the light, and of the view it only reads the first coordinate, so
    that it is no retro-reflection. -/
theorem yoo_ignores_light (mem tail : ℕ → ℝ) (s : YooS) (c c' : Cart) (h : c.v.x = c'.v.x) :
    (yooCls mem tail).value s c.toList = (yooCls mem tail).value s c'.toList := by
  have e : arr c.toList 0 = arr c'.toList 0 := by simpa [Cart.toList, arr] using h
  simp only [yooCls, e]

/-- the profile when q = 1 -/
theorem yooBase_one (lt : ℝ) : yooBase (633 / (2 * Real.pi)) lt =
    3 / (16 * Real.pi) * (2.4 + 1 / (1 + lt * lt)) * (2 - Real.exp (-1.4 * lt) / lt) := by
  have hpi := Real.pi_pos
  have q : 2 * Real.pi * (633 / (2 * Real.pi)) / 633 = 1 := by field_simp
  simp only [yooBase, q]
  rw [show (-2 * 1 * 0.7 * lt : ℝ) = -1.4 * lt by ring]
  ring

theorem exp_lower : (0.86 : ℝ) ≤ Real.exp (-0.14) := by
  have := Real.add_one_le_exp (-0.14 : ℝ)
  norm_num at this ⊢
  linarith

/-- C77, limit: the coefficients kr = 1, lt = 0.1 are within the bounds of the class, and the profile is
    negative. -/
theorem yoo_negative (tail : ℕ → ℝ) (p : Par) (hp : p.dimY = 1) (x : List ℝ) (hx : arr x 0 = 633 / (2 * Real.pi)) :
    let s : YooS := mkYoo p (fun _ => 1) (fun _ => 0.1)
    (∀ i < 2, arr ((yooCls (fun _ => 1) tail).lo s) i ≤ arr ((yooCls (fun _ => 1) tail).get s) i ∧
      arr ((yooCls (fun _ => 1) tail).get s) i ≤ arr ((yooCls (fun _ => 1) tail).hi s) i) ∧
    (Fn.leaf (yooCls (fun _ => 1) tail) s).valueAt x 0 < 0 := by
  intro s
  have hs : s.par.dimY = 1 := hp
  constructor
  · have h1 : (1 : ℝ) ≤ maxDouble := by have := maxDouble_large; linarith
    intro i hi
    interval_cases i
    · simp [yooCls, hs, blocks, arr, defaultMax, s, mkYoo, hp]
      exact h1
    · simp [yooCls, hs, blocks, arr, defaultMax, s, mkYoo, hp]
      constructor
      · norm_num
      · refine le_trans ?_ h1
        norm_num
  · rw [yoo_value tail s x 0 (by omega), hx]
    show 1 * (1 * yooBase _ 0.1) < 0
    rw [yooBase_one]
    have h := exp_lower
    rw [show (-1.4 * 0.1 : ℝ) = -0.14 by norm_num]
    have hpi := Real.pi_pos
    have h2 : 2 - Real.exp (-0.14) / 0.1 < 0 := by
      rw [show Real.exp (-0.14) / (0.1:ℝ) = 10 * Real.exp (-0.14) by norm_num; ring]
      linarith
    have h3 : 0 < 3 / (16 * Real.pi) * (2.4 + 1 / (1 + 0.1 * 0.1)) := by positivity
    nlinarith

/-- C77, limit: the derivative with respect to the mean free path is not the one returned by
    `parametersJacobian`, even if memory holds ones. -/
theorem yoo_wrong_jacobian (tail : ℕ → ℝ) (p : Par) (hp : p.dimY = 1) (x : List ℝ) (hx : arr x 0 = 633 / (2 * Real.pi)) :
    ¬ (Fn.leaf (yooCls (fun _ => 1) tail) (mkYoo p (fun _ => 1) (fun _ => 1))).IsJacobianAt x := by
  rintro ⟨j, h1, -, h3⟩
  have hj : j = [yooBase (arr x 0) 1, 1 * yooBase (arr x 0) 1] := by
    have : (Fn.leaf (yooCls (fun _ => 1) tail) (mkYoo p (fun _ => 1) (fun _ => 1))).jac x =
      some [yooBase (arr x 0) 1, 1 * yooBase (arr x 0) 1] := by simp [Fn.jac, yooCls, mkYoo, hp, blocks]
    rw [this] at h1
    exact (Option.some.inj h1).symm
  have hpar : (Fn.leaf (yooCls (fun _ => 1) tail) (mkYoo p (fun _ => 1) (fun _ => 1))).params = [1, 1] := by
    simp [Fn.params, Fn.get, Fn.nb, yooCls, mkYoo, hp, blocks]
  have d := h3 0 (by show 0 < p.dimY; omega) 1 (by show 1 < 2 * p.dimY; omega)
  have hnb : (Fn.leaf (yooCls (fun _ => 1) tail) (mkYoo p (fun _ => 1) (fun _ => 1))).nb = 2 := by
    show 2 * p.dimY = 2; omega
  rw [hpar, hnb, hj, hx] at d
  have hf : (fun t => ((Fn.leaf (yooCls (fun _ => 1) tail) (mkYoo p (fun _ => 1) (fun _ => 1))).set ([1, 1].set 1 t)).valueAt x 0) =
      fun t => 3 / (16 * Real.pi) * (2.4 + 1 / (1 + t * t)) * (2 - Real.exp (-1.4 * t) / t) := by
    funext t
    rw [← yooBase_one, ← hx]
    simp [Fn.valueAt, Fn.value, Fn.set, yooCls, mkYoo, hp, readInto, arr]
  rw [hf] at d
  have e : HasDerivAt (fun t : ℝ => 3 / (16 * Real.pi) * (2.4 + 1 / (1 + t * t)) * (2 - Real.exp (-1.4 * t) / t))
      (3 / (16 * Real.pi) * (-0.5) * (2 - Real.exp (-1.4)) +
        3 / (16 * Real.pi) * 2.9 * (2.4 * Real.exp (-1.4))) 1 := by
    have a1 : HasDerivAt (fun t : ℝ => 1 / (1 + t * t)) (-0.5) 1 := by
      have h0 : HasDerivAt (fun t : ℝ => 1 + t * t) (1 * 1 + 1 * 1) 1 :=
        ((hasDerivAt_id' (1:ℝ)).fun_mul (hasDerivAt_id' (1:ℝ))).const_add 1
      refine ((hasDerivAt_const (1:ℝ) (1:ℝ)).fun_div h0 (by norm_num)).congr_deriv ?_
      norm_num
    have a2 : HasDerivAt (fun t : ℝ => Real.exp (-1.4 * t)) (-1.4 * Real.exp (-1.4)) 1 := by
      refine (((hasDerivAt_id' (1:ℝ)).const_mul (-1.4)).exp).congr_deriv ?_
      rw [mul_one, mul_comm]
    have a3 : HasDerivAt (fun t : ℝ => Real.exp (-1.4 * t) / t) (-2.4 * Real.exp (-1.4)) 1 := by
      refine (a2.fun_div (hasDerivAt_id' (1:ℝ)) (by norm_num)).congr_deriv ?_
      rw [mul_one]
      ring
    refine (((a1.const_add 2.4).const_mul (3 / (16 * Real.pi))).fun_mul (a3.const_sub 2)).congr_deriv ?_
    rw [mul_one, div_one]
    ring
  have u := d.unique e
  have hpi := Real.pi_pos
  have hv : arr [yooBase (633 / (2 * Real.pi)) 1, 1 * yooBase (633 / (2 * Real.pi)) 1] (0 * 2 + 1) =
      3 / (16 * Real.pi) * (2.9 * (2 - Real.exp (-1.4))) := by
    show 1 * yooBase (633 / (2 * Real.pi)) 1 = _
    rw [yooBase_one]
    norm_num
    ring
  have hy : arr [(1:ℝ), 1] 1 = 1 := rfl
  rw [hv] at u
  have c : 0 < 3 / (16 * Real.pi) := by positivity
  have u2 : 3 / (16 * Real.pi) * (6.8 - 10.36 * Real.exp (-1.4)) = 0 := by linear_combination u
  rcases mul_eq_zero.1 u2 with h | h
  · exact c.ne' h
  · have h5 : Real.exp (-1.4) * Real.exp 1.4 = 1 := by rw [← Real.exp_add]; norm_num
    have h6 := Real.add_one_le_exp (1.4 : ℝ)
    have h7 : Real.exp (-1.4) = 6.8 / 10.36 := by linarith
    rw [h7] at h5
    nlinarith

/-- C77, limit: the file that the lobe writes is read without an error, but its coefficients are lost: the first
    one becomes 0 and the others are those that the object had before. -/
theorem yoo_not_read_back (fmt : ℝ → Decimal) (s0 s : YooS) (h : s0.par = s.par) (hd : 0 < s.par.dimY) (rest : Str) :
    ∃ s1, s0.load (some (s.saveCall fmt ++ rest)) = (true, s1, none) ∧ s1.par = s.par ∧ s1.kr 0 = 0 ∧
      (∀ i, i ≠ 0 → s1.kr i = s0.kr i) ∧ s1.lt = s0.lt := by
  have e : s.saveCall fmt ++ rest = [] ++ (funcLine "nonlinear_function_retroyoo".toList ++ ("#TYPE ".toList ++
      ((channelLines s.par.dimY fun i => line fmt "Kr ".toList (s.kr i) ++ line fmt "Lt ".toList (s.lt i)) ++ rest))) := by
    unfold YooS.saveCall
    simp only [List.append_assoc, List.nil_append]
  obtain ⟨n, hn⟩ : ∃ n, s.par.dimY = n + 1 := ⟨s.par.dimY - 1, by omega⟩
  have hc : ∃ t, (channelLines s.par.dimY fun i => line fmt "Kr ".toList (s.kr i) ++ line fmt "Lt ".toList (s.lt i)) ++ rest =
      'K' :: t := by
    rw [hn, channelLines, List.range_succ_eq_map, List.flatMap_cons]
    exact ⟨_, rfl⟩
  obtain ⟨t, ht⟩ := hc
  have hr : readHead "nonlinear_function_retroyoo".toList (some (s.saveCall fmt ++ rest)) =
      (true, some ('\n' :: ("#TYPE ".toList ++ 'K' :: t))) := by
    rw [e, ht, readHead_saved Skippable.nil _ _ _ ⟨by decide, by decide⟩]
    simp
  have hw : readWord ('\n' :: ("#TYPE ".toList ++ 'K' :: t)) = ("#TYPE".toList, ' ' :: 'K' :: t) := rfl
  have hs : strtod (' ' :: 'K' :: t) = none := rfl
  have hb : (blocks s0.par.dimY fun i => [s0.kr i, s0.lt i]) = s0.kr 0 :: (blocks s0.par.dimY fun i => [s0.kr i, s0.lt i]).drop 1 := by
    rw [h, hn, blocks, List.range_succ_eq_map, List.flatMap_cons]
    rfl
  have hf : readFields (blocks s0.par.dimY fun i => [s0.kr i, s0.lt i]) (some ('\n' :: ("#TYPE ".toList ++ 'K' :: t))) =
      (0 :: (blocks s0.par.dimY fun i => [s0.kr i, s0.lt i]).drop 1, none) := by
    generalize hB : (blocks s0.par.dimY fun i => [s0.kr i, s0.lt i]).drop 1 = B at hb
    rw [hb]
    have h4 : ("#TYPE".toList : Str) ≠ [] := by decide
    have h5 : (' ' :: 'K' :: t).all isSpace = false := rfl
    simp only [readFields, readField, hw, hs, if_neg h4, readFields_failed, h5, Bool.false_eq_true, if_false]
  have hv : ∀ k, k ≠ 0 → arr (0 :: (blocks s0.par.dimY fun i => [s0.kr i, s0.lt i]).drop 1) k =
      arr (blocks s0.par.dimY fun i => [s0.kr i, s0.lt i]) k := by
    intro k hk
    conv_rhs => rw [hb]
    obtain ⟨m, rfl⟩ : ∃ m, k = m + 1 := ⟨k - 1, by omega⟩
    simp [arr]
  have key := fun old i (hi : i < s0.par.dimY) => arr_two s0.par.dimY s0.par.dimY rfl s0.kr s0.lt old i hi
  unfold YooS.load readBlock
  rw [hr]
  simp only [if_true]
  rw [hf]
  refine ⟨_, rfl, h, ?_, ?_, ?_⟩
  · have : 0 < s0.par.dimY := by rw [h]; exact hd
    simp [readInto, this, arr]
  · intro i hi
    show readInto _ _ _ _ i = _
    by_cases hid : i < s0.par.dimY
    · rw [readInto_lt _ _ _ _ _ hid]
      show arr (0 :: _) (i * 2 + 0) = _
      rw [hv (i * 2 + 0) (by omega), ← readInto_lt _ _ (fun i => i * 2 + 0) s0.kr _ hid]
      exact (key s0.kr i hid).1
    · simp [readInto, hid]
  · funext i
    show readInto _ _ _ _ i = _
    by_cases hid : i < s0.par.dimY
    · rw [readInto_lt _ _ _ _ _ hid]
      show arr (0 :: _) (i * 2 + 1) = _
      rw [hv (i * 2 + 1) (by omega), ← readInto_lt _ _ (fun i => i * 2 + 1) s0.lt _ hid]
      exact (key s0.lt i hid).2
    · simp [readInto, hid]

/-- C77: whatever memory held when the lobe was made, its argument is Cartesian and, after `bootstrap`, all its
    parameters are 1. -/
theorem yoo_bootstrap (mem tail : ℕ → ℝ) (p : Par) (kr lt : ℕ → ℝ) :
    (Fn.leaf (yooCls mem tail) (mkYoo p kr lt).bootstrap).par = ⟨6, p.dimY, .CARTESIAN, p.output⟩ ∧
    (Fn.leaf (yooCls mem tail) (mkYoo p kr lt).bootstrap).nb = 2 * p.dimY ∧
    ∀ k < 2 * p.dimY, arr (Fn.leaf (yooCls mem tail) (mkYoo p kr lt).bootstrap).params k = 1 := by
  refine ⟨rfl, rfl, fun k hk => ?_⟩
  have hb : (blocks p.dimY fun i => [(mkYoo p kr lt).bootstrap.kr i, (mkYoo p kr lt).bootstrap.lt i]).length = 2 * p.dimY := by
    rw [blocks_length _ 2 _ (fun i _ => rfl), mul_comm]
  have e : (Fn.leaf (yooCls mem tail) (mkYoo p kr lt).bootstrap).params =
      (blocks p.dimY fun i => [(mkYoo p kr lt).bootstrap.kr i, (mkYoo p kr lt).bootstrap.lt i]).take (2 * p.dimY) := by
    show List.take (2 * p.dimY) (blocks p.dimY _ ++ _) = _
    rw [List.take_append_of_le_length hb.ge]
  rw [e]
  obtain ⟨i, a, ha, rfl⟩ : ∃ i a, a < 2 ∧ k = i * 2 + a := ⟨k / 2, k % 2, by omega, by omega⟩
  have hi : i < p.dimY := by omega
  rw [arr_take_blocks p.dimY 2 _ (fun _ _ => rfl) i a hi ha]
  interval_cases a <;> simp [YooS.bootstrap, mkYoo, arr, hi]

/-! ### Examples -/

/-- a lobe with one channel -/
def yooExample : YooS := mkYoo ⟨6, 1, .CARTESIAN, .INV_STERADIAN⟩ (fun _ => 1) (fun _ => 1)

example : (Fn.leaf (yooCls (fun _ => 1) fun _ => 0) yooExample).set [2, 3] =
    Fn.leaf (yooCls (fun _ => 1) fun _ => 0) ((yooCls (fun _ => 1) fun _ => 0).set yooExample [2, 3]) ∧
    (((yooCls (fun _ => 1) fun _ => 7).get ((yooCls (fun _ => 1) fun _ => 7).set yooExample [2, 3])).take 2 = [2, 3]) :=
  ⟨rfl, (yoo_lawful (fun _ => 1) fun _ => 7).get_set yooExample [2, 3] rfl⟩

example : ∃ mem, (Fn.leaf (yooCls mem fun _ => 0) yooExample).valueAt [633 / (2 * Real.pi)] 0 = -5 := by
  apply yoo_value_undefined (fun _ => 0) yooExample _ 0 (by decide)
  show 1 * yooBase (633 / (2 * Real.pi)) 1 ≠ 0
  rw [yooBase_one, one_mul]
  have h6 := Real.add_one_le_exp (1.4 : ℝ)
  have h5 : Real.exp (-1.4) < 1 := by rw [Real.exp_lt_one_iff]; norm_num
  have hpi := Real.pi_pos
  have : 0 < 2 - Real.exp (-1.4 * 1) / 1 := by rw [mul_one, div_one]; linarith
  positivity

end
end Alta
