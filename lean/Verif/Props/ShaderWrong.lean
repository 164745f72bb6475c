import Verif.Proofs.ShaderSingle
/-
C72: classes whose exported shader is a program, but not one that computes the value of the object.
-/
namespace Alta
open Glsl Real
noncomputable section

/-- A sum of one plugin object. -/
def oneObject (p : Par) (a : SMap) (o : LobeObj) : FT LobeObj := .compound p (.cons a (.leaf o) .nil)

/-- The cosine between the half vector and the normal. -/
def halfCos (c : Cart) : ℝ := (c.l.z + c.v.z) / sumLen c.l c.v

/-- The same for the light and the mirrored view. -/
def backCos (c : Cart) : ℝ := (c.l.z + c.v.z) / sumLen c.l (mirrored c.v)

theorem halfCos_pos (c : Cart) (hc : c.Over) : 0 < halfCos c :=
  div_pos (add_pos hc.light hc.view) (sumLen_pos c hc)

theorem halfCos_le (c : Cart) (hc : c.Over) : halfCos c ≤ 1 := by
  unfold halfCos
  rw [div_le_one (sumLen_pos c hc)]
  unfold sumLen
  apply Real.le_sqrt_of_sq_le
  nlinarith [mul_self_nonneg (c.l.x + c.v.x), mul_self_nonneg (c.l.y + c.v.y)]

theorem backCos_pos (c : Cart) (hc : c.Over) : 0 < backCos c :=
  div_pos (add_pos hc.light hc.view) (backLen_pos c hc)

/-! ### abc -/

theorem abc_run (fs : List Fun) (h : NoBuiltin fs) (L V a b e : V3) (h0 : sumLen L V ≠ 0) (d : ℝ)
    (hd : d = (L.z + V.z) / sumLen L V) (h1 : 0 < 1 + b.x * d) (h2 : 0 < 1 + b.y * d) (h3 : 0 < 1 + b.z * d) :
    (abcDef.toFun fs).run [.v L, .v V, .v axisZ, .v axisX, .v axisY, .v a, .v b, .v e] =
      some (.v ⟨a.x / (1 + b.x * d) ^ e.x, a.y / (1 + b.y * d) ^ e.y, a.z / (1 + b.z * d) ^ e.z⟩) := by
  subst hd
  simp [FunDef.toFun, abcDef, execs, exec, eval, evals, Env.get, binVal, arith, V3.map2, normalize_sum fs h L V h0,
    call_dot fs h, call_vec3_f fs h, call_pow_v fs h, numVal_1_0f, Val.HasTy, dot_Z, powOp_pos _ h1, powOp_pos _ h2,
    powOp_pos _ h3, divOp, (Real.rpow_pos_of_pos h1 _).ne', (Real.rpow_pos_of_pos h2 _).ne', (Real.rpow_pos_of_pos h3 _).ne']

/-- C72 (limit).  The shader of the class abc computes `a / (1 + b cos θh)^c`. -/
theorem abc_shader_value (fmt : ℝ → Decimal) (hf : ShaderFmt fmt) (p : Par) (m : SMap) (s : AbcS)
    (hn : s.par.dimY = 1 ∨ s.par.dimY = 3) (c : Cart) (hc : c.Over)
    (hb : ∀ i < s.par.dimY, 0 < 1 + printed fmt (s.b i) * halfCos c) :
    ∃ text, exportShader fmt (oneObject p m (.abc s)) = some text ∧
      shade text c.l c.v frameN frameX frameY = some (colourOf s.par.dimY fun i =>
        printed fmt (s.a i) / (1 + printed fmt (s.b i) * halfCos c) ^ printed fmt (s.c i)) := by
  obtain ⟨h1, h2, h3⟩ := colourOf_all _ hn (fun i => printed fmt (s.b i)) (fun t => 0 < 1 + t * halfCos c) hb
  refine single_shade fmt hf p m (.abc s) abcBody [(abcDef, abcToks)]
    (by simpa using FunOf.mk' abcDef abcToks (Nat.succ_pos _) abc_parse) rfl (by rw [abc_lex]; simp) "abc".toList
    (by decide +kernel) s.par.dimY hn s.a [s.b, s.c] rfl (by decide +kernel) (by simp; decide +kernel) (abcDef.toFun [])
    (by simp [linked]) rfl rfl c _ ?_
  refine (abc_run [] (by simp [NoBuiltin]) c.l c.v _ _ _ (sumLen_pos c hc).ne' (halfCos c) rfl h1 h2 h3).trans ?_
  rw [colour3 _ _ _ _ fun a b e => a / (1 + b * halfCos c) ^ e]

/-- The value of the object is `a / (1 + b (1 - cos θh))^c`. -/
theorem abc_object_value (fmt : ℝ → Decimal) (s : AbcS) (hi : s.par.input = .COS_TH) (c : Cart) (hc : c.Over) :
    ((LobeObj.abc s).rounded fmt).toFn.reflect c = some ((List.range s.par.dimY).map fun i =>
      printed fmt (s.a i) / (1 + printed fmt (s.b i) * (1 - halfCos c)) ^ printed fmt (s.c i)) := by
  have h0 := halfCos_pos c hc
  have h1 := halfCos_le c hc
  unfold Fn.reflect
  show (convertInput (arr c.toList) .CARTESIAN s.par.input).bind _ = _
  rw [hi, cosTH_over c hc]
  show some ((List.range s.par.dimY).map fun i => if 1 - halfCos c ≥ 0 ∧ 1 - halfCos c ≤ 1 then _ else _) = _
  simp only [if_pos (show 1 - halfCos c ≥ 0 ∧ 1 - halfCos c ≤ 1 from ⟨by linarith, by linarith⟩)]
  rfl

/-- C72 (limit).  So the shader of an object of the class abc has another value than the object, for every pair
    of directions whose half vector is not at 60 degrees of the normal. -/
theorem abc_shader_wrong (fmt : ℝ → Decimal) (hf : ShaderFmt fmt) (p : Par) (m : SMap) (s : AbcS)
    (hn : s.par.dimY = 1 ∨ s.par.dimY = 3) (hi : s.par.input = .COS_TH) (c : Cart) (hc : c.Over)
    (hb : ∀ i < s.par.dimY, 0 < printed fmt (s.b i)) (ha : printed fmt (s.a 0) ≠ 0) (he : printed fmt (s.c 0) ≠ 0)
    (h60 : halfCos c ≠ 1 / 2) :
    ∃ text y col col', exportShader fmt (oneObject p m (.abc s)) = some text ∧
      ((LobeObj.abc s).rounded fmt).toFn.reflect c = some y ∧ asColour y = some col ∧
      shade text c.l c.v frameN frameX frameY = some col' ∧ col' ≠ col := by
  have h0 := halfCos_pos c hc
  have h1 := halfCos_le c hc
  obtain ⟨text, h2, h3⟩ := abc_shader_value fmt hf p m s hn c hc fun i h => by nlinarith [hb i h, mul_pos (hb i h) h0]
  refine ⟨text, _, _, _, h2, abc_object_value fmt s hi c hc, asColour_map _ hn _, h3, ?_⟩
  intro h
  have hx := congrArg V3.x h
  have hb0 := hb 0 (by omega)
  have hcx : ∀ g : ℕ → ℝ, (colourOf s.par.dimY g).x = g 0 := fun g => by unfold colourOf; split <;> rfl
  rw [hcx, hcx] at hx
  have p1 : 0 < 1 + printed fmt (s.b 0) * halfCos c := by nlinarith [mul_pos hb0 h0]
  have p2 : 0 < 1 + printed fmt (s.b 0) * (1 - halfCos c) := by nlinarith [mul_nonneg hb0.le (sub_nonneg.mpr h1)]
  have q1 := (Real.rpow_pos_of_pos p1 (printed fmt (s.c 0))).ne'
  have q2 := (Real.rpow_pos_of_pos p2 (printed fmt (s.c 0))).ne'
  rw [div_eq_div_iff q1 q2, mul_right_inj' ha, Real.rpow_left_inj p2.le p1.le he] at hx
  apply h60
  have : printed fmt (s.b 0) * (1 - 2 * halfCos c) = 0 := by linarith
  rcases mul_eq_zero.mp this with h | h
  · exact absurd h hb0.ne'
  · linarith

/-! ### Spherical Gaussian of type Retro -/

theorem sgRetro_run (fs : List Fun) (h : NoBuiltin fs) (L V ks n : V3) (d : ℝ)
    (hd : d = L.x * V.x + L.y * V.y + L.z * V.z) :
    (sgRetroDef.toFun fs).run [.v L, .v V, .v axisZ, .v axisX, .v axisY, .v ks, .v n] =
      some (.v ⟨ks.x * exp (n.x * (d - 1)), ks.y * exp (n.y * (d - 1)), ks.z * exp (n.z * (d - 1))⟩) := by
  have hdd : dotV L V = d := hd.symm
  simp [FunDef.toFun, sgRetroDef, execs, exec, eval, evals, Env.get, binVal, arith, V3.map2, hdd,
    call_dot fs h, call_vec3_f fs h, call_exp fs h, numVal_1, Val.HasTy]

/-- C72 (limit).  The shader of a spherical Gaussian of type Retro uses the angle between the two directions. -/
theorem sgRetro_shader_value (fmt : ℝ → Decimal) (hf : ShaderFmt fmt) (p : Par) (m : SMap) (s : SgS) (ht : s.type = .Retro)
    (hn : s.par.dimY = 1 ∨ s.par.dimY = 3) (c : Cart) :
    ∃ text, exportShader fmt (oneObject p m (.sg s)) = some text ∧
      shade text c.l c.v frameN frameX frameY = some (colourOf s.par.dimY fun i =>
        printed fmt (s.ks i) * exp (printed fmt (s.n i) * (c.l.dot c.v - 1))) := by
  refine single_shade fmt hf p m (.sg s) (sgBody fmt s.a .Retro) [(sgRetroDef, sgRetroToks)]
    (by simpa using FunOf.mk' sgRetroDef sgRetroToks (Nat.succ_pos _) sgRetro_parse) (by rw [← ht]; rfl)
    (by rw [sg_lex fmt s.a .Retro (by decide) [] []]; simp [sgToks]) "spherical_gaussian".toList
    (by decide +kernel) s.par.dimY hn s.ks [s.n] rfl (by decide +kernel) (by simp; decide +kernel) (sgRetroDef.toFun [])
    (by simp [linked]) rfl rfl c _ ?_
  refine (sgRetro_run [] (by simp [NoBuiltin]) c.l c.v _ _ (c.l.dot c.v) rfl).trans ?_
  rw [colour2 _ _ _ fun a b => a * exp (b * (c.l.dot c.v - 1))]

/-- C72 (limit).  The object uses the angle between the light and the mirrored view, so the shader has another
    value for every pair of directions that are not in orthogonal azimuths. -/
theorem sgRetro_shader_wrong (fmt : ℝ → Decimal) (hf : ShaderFmt fmt) (p : Par) (m : SMap) (s : SgS) (ht : s.type = .Retro)
    (hn : s.par.dimY = 1 ∨ s.par.dimY = 3) (hi : s.par.input = .CARTESIAN) (c : Cart) (hc : c.Over)
    (hk : printed fmt (s.ks 0) ≠ 0) (he : printed fmt (s.n 0) ≠ 0) (hl : c.l.x * c.v.x + c.l.y * c.v.y ≠ 0) :
    ∃ text y col col', exportShader fmt (oneObject p m (.sg s)) = some text ∧
      ((LobeObj.sg s).rounded fmt).toFn.reflect c = some y ∧ asColour y = some col ∧
      shade text c.l c.v frameN frameX frameY = some col' ∧ col' ≠ col := by
  obtain ⟨text, h2, h3⟩ := sgRetro_shader_value fmt hf p m s ht hn c
  have hv : ((LobeObj.sg s).rounded fmt).toFn.reflect c = some ((List.range s.par.dimY).map fun i =>
      printed fmt (s.ks i) * exp (printed fmt (s.n i) * (c.l.x * -c.v.x + c.l.y * -c.v.y + c.l.z * c.v.z - 1))) := by
    refine (reflect_cartesian _ (by exact hi) c).trans ?_
    show (sgDot s.type (printed fmt s.a) c.toList).map _ = _
    have hd : sgDot s.type (printed fmt s.a) c.toList = some (c.l.x * -c.v.x + c.l.y * -c.v.y + c.l.z * c.v.z) := by
      rw [ht]
      show sgTurn (fun p => p + π) c.toList = _
      rw [sgTurn_pi c hc.above]
      congr 1; ring
    rw [hd]
    rfl
  refine ⟨text, _, _, _, h2, hv, asColour_map _ hn _, h3, ?_⟩
  intro h
  have hx := congrArg V3.x h
  have hcx : ∀ g : ℕ → ℝ, (colourOf s.par.dimY g).x = g 0 := fun g => by unfold colourOf; split <;> rfl
  rw [hcx, hcx, mul_right_inj' hk, Real.exp_eq_exp, mul_right_inj' he] at hx
  apply hl
  simp only [V3.dot] at hx
  linarith

end
end Alta
