import Verif.Proofs.ShaderProgram
import Verif.Props.RationalFile
/-
What the functions of the exported shaders compute.
-/
namespace Alta
open Glsl Real
noncomputable section

/-! ### Numbers -/

theorem unsigned_last (d : Decimal) (h : d.ip ≠ []) : d.unsigned.getLast? ≠ some 'f' := by
  intro hl
  have hm : 'f' ∈ d.unsigned := List.mem_of_getLast? hl
  unfold Decimal.unsigned at hm
  have h1 : ∀ l, 'f' ∉ showDigits l := fun l h => by
    have := isDigit_showDigits l 'f' h
    revert this; decide
  have h2 : ∀ n, 'f' ∉ showNat n := fun n h => by
    have := showNat_all_digit n 'f' h
    revert this; decide
  have h3 : 'f' ∉ expText d.exp := by
    cases d.exp with
    | none => simp [expText]
    | some e =>
      show 'f' ∉ 'e' :: showInt e
      unfold showInt
      split <;> simp [h2]
  simp only [List.mem_append] at hm
  rcases hm with (hm | hm) | hm
  · exact h1 _ hm
  · split at hm
    · cases hm
    · simp [h1] at hm
  · exact h3 hm

theorem numVal_unsigned (d : Decimal) (h : d.ip ≠ []) : numVal d.unsigned = some (({ d with neg := false } : Decimal).value : ℝ) := by
  unfold numVal
  rw [if_neg (unsigned_last d h)]
  have e : d.unsigned = [] ++ (({ d with neg := false } : Decimal).text ++ []) := by
    rw [Decimal.text_unsigned]
    simp [Decimal.unsigned]
  rw [e, strtod_text [] [] ({ d with neg := false } : Decimal) (by simp) (.inl h) (by simp [NumberEnds])]

theorem eval_numE (fs : List Fun) (env : Env) (d : Decimal) (h : d.ip ≠ []) :
    eval fs env (numE d) = some (.f (d.value : ℝ)) := by
  unfold numE
  have hv := numVal_unsigned d h
  cases hd : d.neg with
  | false =>
    simp only [Bool.false_eq_true, if_false, eval, hv, Option.map_some]
    have : ({ d with neg := false } : Decimal) = d := by cases d; simp_all
    rw [this]
  | true =>
    simp only [if_true, eval, hv, Option.map_some, Option.bind_some, arith]
    have : d.value = - ({ d with neg := false } : Decimal).value := by
      unfold Decimal.value
      simp [hd]
    rw [this]
    simp

/-! ### Functions of the language -/

/-- the names of the functions of the language -/
def builtinNames : List Str :=
  [['d', 'o', 't'], ['n', 'o', 'r', 'm', 'a', 'l', 'i', 'z', 'e'], ['p', 'o', 'w'], ['m', 'a', 'x'],
   ['c', 'l', 'a', 'm', 'p'], ['e', 'x', 'p'], ['s', 'q', 'r', 't'], ['v', 'e', 'c', '3']]

/-- no function of the program has the name of a function of the language -/
def NoBuiltin (fs : List Fun) : Prop := ∀ g ∈ fs, g.name ∉ builtinNames

theorem callFun_builtin (fs : List Fun) (h : NoBuiltin fs) (f : Str) (hf : f ∈ builtinNames) (args : List Val) :
    callFun fs f args = builtin f args := by
  unfold callFun
  have : (fs.find? fun g => decide (g.name = f ∧ args.map Val.ty = g.params.map some)) = none := by
    rw [List.find?_eq_none]
    intro g hg
    simp only [decide_eq_true_eq, not_and]
    intro he
    exact absurd (he ▸ hf) (h g hg)
  simp only [this]

section
variable (fs : List Fun) (h : NoBuiltin fs)
include h

theorem call_dot (a b : V3) : callFun fs ['d', 'o', 't'] [.v a, .v b] = some (.f (dotV a b)) := by
  rw [callFun_builtin fs h _ (by decide)]; simp [builtin]

theorem call_normalize (a : V3) (ha : √(dotV a a) ≠ 0) :
    callFun fs ['n', 'o', 'r', 'm', 'a', 'l', 'i', 'z', 'e'] [.v a] =
      some (.v ⟨a.x / √(dotV a a), a.y / √(dotV a a), a.z / √(dotV a a)⟩) := by
  rw [callFun_builtin fs h _ (by decide)]; simp [builtin, ha]

theorem call_pow_f (x y : ℝ) : callFun fs ['p', 'o', 'w'] [.f x, .f y] = (powOp x y).map .f := by
  rw [callFun_builtin fs h _ (by decide)]; simp [builtin]

theorem call_pow_v (a b : V3) : callFun fs ['p', 'o', 'w'] [.v a, .v b] = (V3.map2 powOp a b).map .v := by
  rw [callFun_builtin fs h _ (by decide)]; simp [builtin]

theorem call_max (a b : V3) : callFun fs ['m', 'a', 'x'] [.v a, .v b] = some (.v ⟨max a.x b.x, max a.y b.y, max a.z b.z⟩) := by
  rw [callFun_builtin fs h _ (by decide)]; simp [builtin]

theorem call_clamp (x lo hi : ℝ) : callFun fs ['c', 'l', 'a', 'm', 'p'] [.f x, .f lo, .f hi] = some (.f (min (max x lo) hi)) := by
  rw [callFun_builtin fs h _ (by decide)]; simp [builtin]

theorem call_exp (a : V3) : callFun fs ['e', 'x', 'p'] [.v a] = some (.v ⟨exp a.x, exp a.y, exp a.z⟩) := by
  rw [callFun_builtin fs h _ (by decide)]; simp [builtin]

theorem call_sqrt (x : ℝ) (hx : 0 ≤ x) : callFun fs ['s', 'q', 'r', 't'] [.f x] = some (.f (√x)) := by
  rw [callFun_builtin fs h _ (by decide)]; simp [builtin, not_lt.mpr hx]

theorem call_vec3_f (x : ℝ) : callFun fs ['v', 'e', 'c', '3'] [.f x] = some (.v ⟨x, x, x⟩) := by
  rw [callFun_builtin fs h _ (by decide)]; simp [builtin]

theorem call_vec3_v (a : V3) : callFun fs ['v', 'e', 'c', '3'] [.v a] = some (.v a) := by
  rw [callFun_builtin fs h _ (by decide)]; simp [builtin]

theorem call_vec3_fff (x y z : ℝ) : callFun fs ['v', 'e', 'c', '3'] [.f x, .f y, .f z] = some (.v ⟨x, y, z⟩) := by
  rw [callFun_builtin fs h _ (by decide)]; simp [builtin]

end

theorem numVal_0 : numVal ['0'] = some 0 := by
  have : strtod ['0'] = some (0, []) := by decide +kernel
  simp [numVal, this]
theorem numVal_1 : numVal ['1'] = some 1 := by
  have : strtod ['1'] = some (1, []) := by decide +kernel
  simp [numVal, this]
theorem numVal_2 : numVal ['2'] = some 2 := by
  have : strtod ['2'] = some (2, []) := by decide +kernel
  simp [numVal, this]
theorem numVal_4 : numVal ['4'] = some 4 := by
  have : strtod ['4'] = some (4, []) := by decide +kernel
  simp [numVal, this]
theorem numVal_5 : numVal ['5'] = some 5 := by
  have : strtod ['5'] = some (5, []) := by decide +kernel
  simp [numVal, this]
theorem numVal_1_0 : numVal ['1', '.', '0'] = some 1 := by
  have : strtod ['1', '.', '0'] = some (1, []) := by decide +kernel
  simp [numVal, this]
theorem numVal_0_0f : numVal ['0', '.', '0', 'f'] = some 0 := by
  have : strtod ['0', '.', '0'] = some (0, []) := by decide +kernel
  simp [numVal, this]
theorem numVal_1_0f : numVal ['1', '.', '0', 'f'] = some 1 := by
  have : strtod ['1', '.', '0'] = some (1, []) := by decide +kernel
  simp [numVal, this]
theorem numVal_2_0f : numVal ['2', '.', '0', 'f'] = some 2 := by
  have : strtod ['2', '.', '0'] = some (2, []) := by decide +kernel
  simp [numVal, this]
theorem numVal_5_0f : numVal ['5', '.', '0', 'f'] = some 5 := by
  have : strtod ['5', '.', '0'] = some (5, []) := by decide +kernel
  simp [numVal, this]

/-- the three directions of the frame -/
def axisZ : V3 := ⟨0, 0, 1⟩
/-- first direction -/
def axisX : V3 := ⟨1, 0, 0⟩
/-- second direction -/
def axisY : V3 := ⟨0, 1, 0⟩

theorem dot_Z (a : V3) : dotV a axisZ = a.z := by simp [dotV, axisZ]
theorem dot_X (a : V3) : dotV a axisX = a.x := by simp [dotV, axisX]
theorem dot_Y (a : V3) : dotV a axisY = a.y := by simp [dotV, axisY]
theorem Z_dot (a : V3) : dotV axisZ a = a.z := by simp [dotV, axisZ]

theorem powOp_pos (x : ℝ) (hx : 0 < x) (y : ℝ) : powOp x y = some (x ^ y) := by
  unfold powOp
  rw [if_neg]
  rintro (h | h)
  · exact absurd hx (not_lt.mpr h.le)
  · exact hx.ne' h.1

theorem powOp_exp (x y : ℝ) (hx : 0 ≤ x) (hy : 0 < y) : powOp x y = some (x ^ y) := by
  unfold powOp
  rw [if_neg]
  rintro (h | h)
  · exact absurd hx (not_le.mpr h)
  · exact absurd hy (not_lt.mpr h.2)

/-- the length of the sum of the directions -/
def sumLen (L V : V3) : ℝ := √((L.x + V.x) * (L.x + V.x) + (L.y + V.y) * (L.y + V.y) + (L.z + V.z) * (L.z + V.z))

theorem normalize_sum (fs : List Fun) (h : NoBuiltin fs) (L V : V3) (h0 : sumLen L V ≠ 0) :
    callFun fs ['n', 'o', 'r', 'm', 'a', 'l', 'i', 'z', 'e'] [.v ⟨L.x + V.x, L.y + V.y, L.z + V.z⟩] =
      some (.v ⟨(L.x + V.x) / sumLen L V, (L.y + V.y) / sumLen L V, (L.z + V.z) / sumLen L V⟩) :=
  call_normalize fs h ⟨L.x + V.x, L.y + V.y, L.z + V.z⟩ h0

/-- the mirrored direction -/
def mirrored (V : V3) : V3 := ⟨-V.x, -V.y, V.z⟩

theorem two_sub (a : ℝ) : 2 * a - a = a := by ring

theorem normalize_back (fs : List Fun) (h : NoBuiltin fs) (L V : V3) (h0 : sumLen L (mirrored V) ≠ 0) :
    callFun fs ['n', 'o', 'r', 'm', 'a', 'l', 'i', 'z', 'e'] [.v ⟨L.x + -V.x, L.y + -V.y, L.z + V.z⟩] =
      some (.v ⟨(L.x + -V.x) / sumLen L (mirrored V), (L.y + -V.y) / sumLen L (mirrored V),
        (L.z + V.z) / sumLen L (mirrored V)⟩) :=
  normalize_sum fs h L (mirrored V) h0

theorem blinn_run (fs : List Fun) (h : NoBuiltin fs) (L V ks n : V3) (h0 : sumLen L V ≠ 0)
    (hz : 0 < (L.z + V.z) / sumLen L V) :
    (blinnDef.toFun fs).run [.v L, .v V, .v axisZ, .v axisX, .v axisY, .v ks, .v n] =
      some (.v ⟨ks.x * ((L.z + V.z) / sumLen L V) ^ n.x, ks.y * ((L.z + V.z) / sumLen L V) ^ n.y,
        ks.z * ((L.z + V.z) / sumLen L V) ^ n.z⟩) := by
  simp [FunDef.toFun, blinnDef, execs, exec, eval, evals, Env.get, binVal, arith, V3.map2, normalize_sum fs h L V h0,
    call_dot fs h, call_vec3_f fs h, call_vec3_fff fs h, call_max fs h, call_pow_v fs h, numVal_0, Val.HasTy, dot_Z,
    max_eq_left hz.le, powOp_pos _ hz]

theorem retroblinn_run (fs : List Fun) (h : NoBuiltin fs) (L V ks n : V3) (h0 : sumLen L (mirrored V) ≠ 0)
    (hz : 0 < (L.z + V.z) / sumLen L (mirrored V)) :
    (retroblinnDef.toFun fs).run [.v L, .v V, .v axisZ, .v axisX, .v axisY, .v ks, .v n] =
      some (.v ⟨((L.z + V.z) / sumLen L (mirrored V)) ^ n.x, ((L.z + V.z) / sumLen L (mirrored V)) ^ n.y,
        ((L.z + V.z) / sumLen L (mirrored V)) ^ n.z⟩) := by
  have e1 : axisZ.x = 0 := rfl
  have e2 : axisZ.y = 0 := rfl
  have e3 : axisZ.z = 1 := rfl
  simp [FunDef.toFun, retroblinnDef, execs, exec, eval, evals, Env.get, binVal, arith, V3.map2,
    normalize_back fs h L V h0, e1, e2, e3,
    call_dot fs h, call_vec3_f fs h, call_vec3_fff fs h, call_max fs h, call_pow_v fs h, numVal_0, numVal_2_0f,
    Val.HasTy, dot_Z, Z_dot, two_sub, max_eq_left hz.le, powOp_pos _ hz]

theorem lafortune_run (fs : List Fun) (h : NoBuiltin fs) (L V cx cy cz n : V3) (hx : 0 < n.x) (hy : 0 < n.y)
    (hz : 0 < n.z) :
    (lafortuneDef.toFun fs).run [.v L, .v V, .v axisZ, .v axisX, .v axisY, .v cx, .v cy, .v cz, .v n] =
      some (.v ⟨(max (cx.x * L.x * V.x + cy.x * L.y * V.y + cz.x * L.z * V.z) 0) ^ n.x,
        (max (cx.y * L.x * V.x + cy.y * L.y * V.y + cz.y * L.z * V.z) 0) ^ n.y,
        (max (cx.z * L.x * V.x + cy.z * L.y * V.y + cz.z * L.z * V.z) 0) ^ n.z⟩) := by
  simp [FunDef.toFun, lafortuneDef, execs, exec, eval, evals, Env.get, binVal, arith, V3.map2,
    call_dot fs h, call_vec3_f fs h, call_vec3_fff fs h, call_max fs h, call_pow_v fs h, numVal_0, Val.HasTy, dot_Z,
    dot_X, dot_Y, powOp_exp _ _ (le_max_right _ _) hx, powOp_exp _ _ (le_max_right _ _) hy,
    powOp_exp _ _ (le_max_right _ _) hz]

theorem isoLafortune_run (fs : List Fun) (h : NoBuiltin fs) (L V cx cz n : V3) (hx : 0 < n.x) (hy : 0 < n.y)
    (hz : 0 < n.z) :
    (isoLafortuneDef.toFun fs).run [.v L, .v V, .v axisZ, .v axisX, .v axisY, .v cx, .v cz, .v n] =
      some (.v ⟨(max (cx.x * (L.x * V.x + L.y * V.y) + cz.x * L.z * V.z) 0) ^ n.x,
        (max (cx.y * (L.x * V.x + L.y * V.y) + cz.y * L.z * V.z) 0) ^ n.y,
        (max (cx.z * (L.x * V.x + L.y * V.y) + cz.z * L.z * V.z) 0) ^ n.z⟩) := by
  simp [FunDef.toFun, isoLafortuneDef, execs, exec, eval, evals, Env.get, binVal, arith, V3.map2,
    call_dot fs h, call_vec3_f fs h, call_vec3_fff fs h, call_max fs h, call_pow_v fs h, numVal_0, Val.HasTy, dot_Z,
    dot_X, dot_Y, powOp_exp _ _ (le_max_right _ _) hx, powOp_exp _ _ (le_max_right _ _) hy,
    powOp_exp _ _ (le_max_right _ _) hz]

/-- the fifth power -/
theorem pow_five (x : ℝ) : powOp (1 - min (max x 0) 1) 5 = some ((1 - min (max x 0) 1) ^ (5 : ℕ)) := by
  rw [powOp_exp _ _ (by have := min_le_right (max x 0) 1; linarith) (by norm_num)]
  congr 1
  exact_mod_cast Real.rpow_natCast _ 5

theorem schlick_run (fs : List Fun) (h : NoBuiltin fs) (L V R : V3) (h0 : sumLen L V ≠ 0) (d p : ℝ)
    (hd : d = (L.x + V.x) / sumLen L V * V.x + (L.y + V.y) / sumLen L V * V.y + (L.z + V.z) / sumLen L V * V.z)
    (hp : p = (1 - min (max d 0) 1) ^ 5) :
    (schlickDef.toFun fs).run [.v L, .v V, .v axisZ, .v axisX, .v axisY, .v R] =
      some (.v ⟨R.x + (1 - R.x) * p, R.y + (1 - R.y) * p, R.z + (1 - R.z) * p⟩) := by
  have hh := normalize_sum fs h L V h0
  have hdd : dotV ⟨(L.x + V.x) / sumLen L V, (L.y + V.y) / sumLen L V, (L.z + V.z) / sumLen L V⟩ V = d := hd.symm
  rw [hp]
  simp [FunDef.toFun, schlickDef, execs, exec, eval, evals, Env.get, binVal, arith, V3.map2, hh,
    call_dot fs h, call_vec3_f fs h, call_clamp fs h, call_pow_f fs h, numVal_0_0f, numVal_1_0, numVal_1_0f, numVal_5,
    Val.HasTy, hdd, pow_five]

theorem normalizedSchlick_run (fs : List Fun) (h : NoBuiltin fs) (L V R : V3) (h0 : sumLen L V ≠ 0) (d p : ℝ)
    (hd : d = (L.x + V.x) / sumLen L V * V.x + (L.y + V.y) / sumLen L V * V.y + (L.z + V.z) / sumLen L V * V.z)
    (hp : p = (1 - min (max d 0) 1) ^ 5) (hx : R.x ≠ 0) (hy : R.y ≠ 0) (hz : R.z ≠ 0) :
    (normalizedSchlickDef.toFun fs).run [.v L, .v V, .v axisZ, .v axisX, .v axisY, .v R] =
      some (.v ⟨1 + (1 / R.x - 1) * p, 1 + (1 / R.y - 1) * p, 1 + (1 / R.z - 1) * p⟩) := by
  have hh := normalize_sum fs h L V h0
  have hdd : dotV ⟨(L.x + V.x) / sumLen L V, (L.y + V.y) / sumLen L V, (L.z + V.z) / sumLen L V⟩ V = d := hd.symm
  rw [hp]
  simp [FunDef.toFun, normalizedSchlickDef, execs, exec, eval, evals, Env.get, binVal, arith, V3.map2, hh, divOp, hx, hy, hz,
    call_dot fs h, call_vec3_f fs h, call_clamp fs h, call_pow_f fs h, numVal_0_0f, numVal_1_0f, numVal_5,
    Val.HasTy, hdd, pow_five]

theorem retroSchlick_run (fs : List Fun) (h : NoBuiltin fs) (L V R : V3) (h0 : sumLen L (mirrored V) ≠ 0) (d p : ℝ)
    (hd : d = (L.x + -V.x) / sumLen L (mirrored V) * -V.x + (L.y + -V.y) / sumLen L (mirrored V) * -V.y +
      (L.z + V.z) / sumLen L (mirrored V) * V.z)
    (hp : p = (1 - min (max d 0) 1) ^ 5) :
    (retroSchlickDef.toFun fs).run [.v L, .v V, .v axisZ, .v axisX, .v axisY, .v R] =
      some (.v ⟨R.x + (1 - R.x) * p, R.y + (1 - R.y) * p, R.z + (1 - R.z) * p⟩) := by
  have e1 : axisZ.x = 0 := rfl
  have e2 : axisZ.y = 0 := rfl
  have e3 : axisZ.z = 1 := rfl
  have hdd : dotV ⟨(L.x + -V.x) / sumLen L (mirrored V), (L.y + -V.y) / sumLen L (mirrored V),
      (L.z + V.z) / sumLen L (mirrored V)⟩ ⟨-V.x, -V.y, V.z⟩ = d := hd.symm
  rw [hp]
  simp [FunDef.toFun, retroSchlickDef, execs, exec, eval, evals, Env.get, binVal, arith, V3.map2,
    normalize_back fs h L V h0, e1, e2, e3,
    call_dot fs h, call_vec3_f fs h, call_vec3_v fs h, call_clamp fs h, call_pow_f fs h, numVal_0_0f, numVal_1_0f,
    numVal_2_0f, numVal_5_0f, Val.HasTy, dot_Z, Z_dot, two_sub, hdd, pow_five]

theorem sgHalf_run (fs : List Fun) (h : NoBuiltin fs) (L V ks n : V3) (h0 : sumLen L V ≠ 0) (d : ℝ)
    (hd : d = (L.z + V.z) / sumLen L V) :
    (sgHalfDef.toFun fs).run [.v L, .v V, .v axisZ, .v axisX, .v axisY, .v ks, .v n] =
      some (.v ⟨ks.x * exp (n.x * (d - 1)), ks.y * exp (n.y * (d - 1)), ks.z * exp (n.z * (d - 1))⟩) := by
  rw [hd]
  simp [FunDef.toFun, sgHalfDef, execs, exec, eval, evals, Env.get, binVal, arith, V3.map2, normalize_sum fs h L V h0,
    call_dot fs h, call_vec3_f fs h, call_exp fs h, numVal_1, Val.HasTy, dot_Z]

theorem sgBack_run (fs : List Fun) (h : NoBuiltin fs) (L V ks n : V3) (h0 : sumLen L (mirrored V) ≠ 0) (d : ℝ)
    (hd : d = (L.z + V.z) / sumLen L (mirrored V)) :
    (sgBackDef.toFun fs).run [.v L, .v V, .v axisZ, .v axisX, .v axisY, .v ks, .v n] =
      some (.v ⟨ks.x * exp (n.x * (d - 1)), ks.y * exp (n.y * (d - 1)), ks.z * exp (n.z * (d - 1))⟩) := by
  have e1 : axisZ.x = 0 := rfl
  have e2 : axisZ.y = 0 := rfl
  have e3 : axisZ.z = 1 := rfl
  rw [hd]
  simp [FunDef.toFun, sgBackDef, execs, exec, eval, evals, Env.get, binVal, arith, V3.map2,
    normalize_back fs h L V h0, e1, e2, e3, numVal_2_0f, Z_dot, two_sub,
    call_dot fs h, call_vec3_f fs h, call_exp fs h, numVal_1, Val.HasTy, dot_Z]

theorem sgMirror_run (fs : List Fun) (h : NoBuiltin fs) (L V ks n : V3) (d : ℝ)
    (hd : d = L.x * -V.x + L.y * -V.y + L.z * V.z) :
    (sgMirrorDef.toFun fs).run [.v L, .v V, .v axisZ, .v axisX, .v axisY, .v ks, .v n] =
      some (.v ⟨ks.x * exp (n.x * (d - 1)), ks.y * exp (n.y * (d - 1)), ks.z * exp (n.z * (d - 1))⟩) := by
  have e1 : axisZ.x = 0 := rfl
  have e2 : axisZ.y = 0 := rfl
  have e3 : axisZ.z = 1 := rfl
  have hdd : dotV L ⟨-V.x, -V.y, V.z⟩ = d := hd.symm
  simp [FunDef.toFun, sgMirrorDef, execs, exec, eval, evals, Env.get, binVal, arith, V3.map2, e1, e2, e3, numVal_2,
    two_sub, hdd, call_dot fs h, call_vec3_f fs h, call_exp fs h, numVal_1, Val.HasTy, dot_Z]

/-- the value of the Ward lobe of the shader: `q` is the number written for π -/
def wardShade (q ks ax ay hx hy hz c : ℝ) : ℝ :=
  ks / (4 * q * ax * ay * √c) * exp (-(hx / ax * (hx / ax) + hy / ay * (hy / ay)) / (hz * hz))

theorem execs_decl (fs : List Fun) (env : Env) (t : Ty) (x : Str) (e : Expr) (rest : Stmts) (u : Val)
    (he : eval fs env e = some u) (hu : u.HasTy t) :
    execs fs env (.cons (.decl t x e) rest) = execs fs ((x, u) :: env) rest := by
  simp [execs, exec, he, hu]

theorem ward_result (fs : List Fun) (h : NoBuiltin fs) (env : Env) (w : Str) (q : ℝ) (hw : numVal w = some q)
    (hq : q ≠ 0) (ks ax ay hax hay : V3) (c ln vn : ℝ)
    (hx : ax.x ≠ 0 ∧ ax.y ≠ 0 ∧ ax.z ≠ 0) (hy : ay.x ≠ 0 ∧ ay.y ≠ 0 ∧ ay.z ≠ 0) (hlv : 0 < ln * vn) (hc : c ≠ 0)
    (h1 : env.get ['k', 's'] = some (.v ks)) (h2 : env.get ['a', 'x'] = some (.v ax))
    (h3 : env.get ['a', 'y'] = some (.v ay)) (h4 : env.get ['h', 'a', 'x'] = some (.v hax))
    (h5 : env.get ['h', 'a', 'y'] = some (.v hay)) (h6 : env.get ['h', 'n'] = some (.f c))
    (h7 : env.get ['l', 'n'] = some (.f ln)) (h8 : env.get ['v', 'n'] = some (.f vn)) :
    eval fs env (.bin .mul (.bin .div (.var ['k', 's']) (.bin .mul (.bin .mul (.bin .mul (.bin .mul (.num ['4'])
      (.num w)) (.var ['a', 'x'])) (.var ['a', 'y'])) (.call ['s', 'q', 'r', 't'] (.cons (.bin .mul (.var ['l', 'n'])
      (.var ['v', 'n'])) .nil)))) (.call ['e', 'x', 'p'] (.cons (.bin .div (.neg (.bin .add (.bin .mul
      (.var ['h', 'a', 'x']) (.var ['h', 'a', 'x'])) (.bin .mul (.var ['h', 'a', 'y']) (.var ['h', 'a', 'y']))))
      (.bin .mul (.var ['h', 'n']) (.var ['h', 'n']))) .nil))) =
    some (.v ⟨ks.x / (4 * q * ax.x * ay.x * √(ln * vn)) * exp (-(hax.x * hax.x + hay.x * hay.x) / (c * c)),
      ks.y / (4 * q * ax.y * ay.y * √(ln * vn)) * exp (-(hax.y * hax.y + hay.y * hay.y) / (c * c)),
      ks.z / (4 * q * ax.z * ay.z * √(ln * vn)) * exp (-(hax.z * hax.z + hay.z * hay.z) / (c * c))⟩) := by
  obtain ⟨hx1, hx2, hx3⟩ := hx
  obtain ⟨hy1, hy2, hy3⟩ := hy
  have hs : √(ln * vn) ≠ 0 := (Real.sqrt_pos.mpr hlv).ne'
  have hl0 : ln ≠ 0 := by rintro rfl; simp at hlv
  have hv0 : vn ≠ 0 := by rintro rfl; simp at hlv
  have d1 : ∀ a b : ℝ, a ≠ 0 → b ≠ 0 → 4 * q * a * b * √(ln * vn) ≠ 0 := fun a b ha hb =>
    mul_ne_zero (mul_ne_zero (mul_ne_zero (mul_ne_zero (by norm_num) hq) ha) hb) hs
  have d2 : c * c ≠ 0 := mul_ne_zero hc hc
  simp only [eval, evals, binVal, arith, V3.map2, h1, h2, h3, h4, h5, h6, h7, h8, hw, numVal_4, Option.map_some,
    Option.bind_some, call_sqrt fs h _ hlv.le, call_exp fs h, divOp, if_neg (d1 _ _ hx1 hy1), if_neg (d1 _ _ hx2 hy2),
    if_neg (d1 _ _ hx3 hy3), if_neg d2, zero_sub]

theorem ward_run (fs : List Fun) (h : NoBuiltin fs) (w : Str) (q : ℝ) (hw : numVal w = some q) (hq : q ≠ 0)
    (L V ks ax ay : V3) (h0 : sumLen L V ≠ 0) (hl : 0 < L.z) (hv : 0 < V.z)
    (hx : ax.x ≠ 0 ∧ ax.y ≠ 0 ∧ ax.z ≠ 0) (hy : ay.x ≠ 0 ∧ ay.y ≠ 0 ∧ ay.z ≠ 0) (a b c : ℝ)
    (ha : a = (L.x + V.x) / sumLen L V) (hb : b = (L.y + V.y) / sumLen L V) (hc : c = (L.z + V.z) / sumLen L V)
    (hc0 : c ≠ 0) :
    ((wardDef w).toFun fs).run [.v L, .v V, .v axisZ, .v axisX, .v axisY, .v ks, .v ax, .v ay] =
      some (.v ⟨wardShade q ks.x ax.x ay.x a b c (L.z * V.z), wardShade q ks.y ax.y ay.y a b c (L.z * V.z),
        wardShade q ks.z ax.z ay.z a b c (L.z * V.z)⟩) := by
  have hlv : 0 < L.z * V.z := mul_pos hl hv
  have hh := normalize_sum fs h L V h0
  rw [← ha, ← hb, ← hc] at hh
  unfold wardDef FunDef.toFun
  simp only [List.zipWith_cons_cons, List.zipWith_nil_left]
  rw [execs_decl _ _ _ _ _ _ (.v ⟨a, b, c⟩) (by
      simp [eval, evals, Env.get, binVal, arith, V3.map2, hh]) (by trivial),
    execs_decl _ _ _ _ _ _ (.v ⟨a / ax.x, a / ax.y, a / ax.z⟩) (by
      simp [eval, evals, Env.get, binVal, arith, V3.map2, call_dot fs h, dot_X, divOp, hx]) (by trivial),
    execs_decl _ _ _ _ _ _ (.v ⟨b / ay.x, b / ay.y, b / ay.z⟩) (by
      simp [eval, evals, Env.get, binVal, arith, V3.map2, call_dot fs h, dot_Y, divOp, hy]) (by trivial),
    execs_decl _ _ _ _ _ _ (.f c) (by
      simp [eval, evals, Env.get, call_dot fs h, dot_Z]) (by trivial),
    execs_decl _ _ _ _ _ _ (.f L.z) (by
      simp [eval, evals, Env.get, call_dot fs h, dot_Z]) (by trivial),
    execs_decl _ _ _ _ _ _ (.f V.z) (by
      simp [eval, evals, Env.get, call_dot fs h, dot_Z]) (by trivial)]
  rw [execs.eq_def]
  simp only
  rw [exec.eq_def]
  simp only
  have hcond : ∀ (env : Env), env.get ['l', 'n'] = some (.f L.z) → env.get ['v', 'n'] = some (.f V.z) →
      eval fs env (.bin .gt (.bin .mul (.var ['l', 'n']) (.var ['v', 'n'])) (.num ['0'])) = some (.b (L.z * V.z > 0)) := by
    intro env h1 h2
    simp [eval, h1, h2, binVal, arith, numVal_0]
  rw [hcond _ (by simp [Env.get]) (by simp [Env.get])]
  simp only [Option.bind_some]
  rw [if_pos (show L.z * V.z > 0 from hlv), execs.eq_def]
  simp only
  rw [exec.eq_def]
  simp only
  rw [ward_result fs h _ w q hw hq ks ax ay ⟨a / ax.x, a / ax.y, a / ax.z⟩ ⟨b / ay.x, b / ay.y, b / ay.z⟩ c L.z V.z hx hy
    hlv hc0 (by simp [Env.get]) (by simp [Env.get]) (by simp [Env.get]) (by simp [Env.get]) (by simp [Env.get])
    (by simp [Env.get]) (by simp [Env.get]) (by simp [Env.get])]
  simp [Val.HasTy, wardShade]

end
end Alta
