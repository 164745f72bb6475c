import Verif.Props.ShaderBeckmann
/-
C72: the spherical Gaussian of type Moment.
-/
namespace Alta
open Glsl Real
noncomputable section

/-- the words of a text with two positive numbers in it -/
theorem lexRun_two (x y : Decimal) (hx : x.ip ≠ []) (hy : y.ip ≠ []) (hx' : x.neg = false) (hy' : y.neg = false)
    (A B C : Str) (TA TB TC : List Token) (h1 : lexRun ⟨[], []⟩ A = ⟨TA, []⟩) (h2 : lexRun ⟨[], []⟩ B = ⟨TB, []⟩)
    (h3 : lexRun ⟨[], []⟩ C = ⟨TC, []⟩) :
    lexRun ⟨[], []⟩ (A ++ (x.text ++ ['*']) ++ B ++ (y.text ++ [';']) ++ C) =
      ⟨TA ++ [.num x.unsigned, .sym '*'] ++ TB ++ [.num y.unsigned, .sym ';'] ++ TC, []⟩ := by
  rw [lexRun_append _ _ C, lexRun_append _ _ (y.text ++ [';']), lexRun_append _ _ B, lexRun_append _ A, h1,
    lexRun_number _ _ hx '*' (by decide) (by decide) (by decide) (by decide) (by decide) (by decide),
    lexRun_of _ _ _ _ _ h2,
    lexRun_number _ _ hy ';' (by decide) (by decide) (by decide) (by decide) (by decide) (by decide),
    lexRun_of _ _ _ _ _ h3]
  simp [Decimal.toks, hx', hy']

/-- the text before the first number -/
def momentA : Str := "vec3 spherical_gaussian(vec3 L, vec3 V, vec3 N, vec3 X, vec3 Y, vec3 ks, vec3 Nl)\n{\n\tfloat t = ".toList
/-- the text between the two numbers -/
def momentB : Str := "acos(dot(V, N));\n\tfloat p = atan(dot(V, Y), dot(V, X)) + ".toList
/-- the text after the second number -/
def momentC : Str := ("\n\tvec3 R = cos(p)*sin(t)*X + sin(p)*sin(t)*Y + cos(t)*N;\n\tvec3 ext_dot = vec3(dot(L,R));\n" ++
  "\treturn ks * exp(Nl * (ext_dot - vec3(1)));\n}\n").toList

theorem moment_text (fmt : ℝ → Decimal) (a : ℝ) : endLines (sgBody fmt a .Moment) =
    momentA ++ ((fmt a).text ++ ['*']) ++ momentB ++ ((fmt π).text ++ [';']) ++ momentC := by
  have eA : momentA = "vec3 spherical_gaussian(vec3 L, vec3 V, vec3 N, vec3 X, vec3 Y, vec3 ks, vec3 Nl)".toList ++
    ['\n'] ++ "{".toList ++ ['\n'] ++ "\tfloat t = ".toList := by decide +kernel
  have eB : momentB = "acos(dot(V, N));".toList ++ ['\n'] ++ "\tfloat p = atan(dot(V, Y), dot(V, X)) + ".toList := by
    decide +kernel
  have eC : momentC = ['\n'] ++ "\tvec3 R = cos(p)*sin(t)*X + sin(p)*sin(t)*Y + cos(t)*N;".toList ++ ['\n'] ++
    "\tvec3 ext_dot = vec3(dot(L,R));".toList ++ ['\n'] ++ "\treturn ks * exp(Nl * (ext_dot - vec3(1)));".toList ++ ['\n'] ++
    "}".toList ++ ['\n'] := by decide +kernel
  have e1 : "*acos(dot(V, N));".toList = ['*'] ++ "acos(dot(V, N));".toList := by decide +kernel
  have e2 : ";".toList = [';'] := by decide +kernel
  unfold sgBody sgLines
  rw [eA, eB, eC, e1, e2]
  simp only [endLines, List.flatMap_cons, List.flatMap_nil, List.append_assoc, List.append_nil, List.cons_append, List.nil_append]

theorem moment_lex (fmt : ℝ → Decimal) (hf : ShaderFmt fmt) (a : ℝ) (ha : (fmt a).neg = false) :
    lexRun ⟨[], []⟩ (endLines (sgBody fmt a .Moment)) = ⟨sgMomentToks (fmt a).unsigned (fmt π).unsigned, []⟩ := by
  have h1 : lexRun ⟨[], []⟩ momentA = ⟨(sgMomentToks [] []).take 28, []⟩ := by decide +kernel
  have h2 : lexRun ⟨[], []⟩ momentB = ⟨((sgMomentToks [] []).drop 30).take 30, []⟩ := by decide +kernel
  have h3 : lexRun ⟨[], []⟩ momentC = ⟨(sgMomentToks [] []).drop 62, []⟩ := by decide +kernel
  rw [moment_text, lexRun_two _ _ (hf.digits a) (hf.digits π) ha hf.sign _ _ _ _ _ _ h1 h2 h3]
  rfl

/-- the function at the normal -/
theorem sgMoment_run (w u : Str) (q r : ℝ) (hw : numVal w = some q) (hu : numVal u = some r) (V ks n : V3)
    (hV : |V.z| ≤ 1) (h0 : ¬ (V.x = 0 ∧ V.y = 0)) :
    ((sgMomentDef w u).toFun []).run [.v axisZ, .v V, .v axisZ, .v axisX, .v axisY, .v ks, .v n] =
      some (.v ⟨ks.x * exp (n.x * (cos (q * arccos V.z) - 1)), ks.y * exp (n.y * (cos (q * arccos V.z) - 1)),
        ks.z * exp (n.z * (cos (q * arccos V.z) - 1))⟩) := by
  simp [FunDef.toFun, sgMomentDef, execs, exec, eval, evals, Env.get, binVal, arith, V3.map2, hw, hu,
    callFun, builtin, numVal_1, Val.HasTy, dotV, axisX, axisY, axisZ, hV.not_gt, h0]

/-- C72 (limit).  The shader of a spherical Gaussian of type Moment multiplies by `a` the angle between the view and
    the normal: for a light along the normal its value is `ks exp(n (cos (a θv) - 1))`. -/
theorem sgMoment_shader_value (fmt : ℝ → Decimal) (hf : ShaderFmt fmt) (p : Par) (m : SMap) (s : SgS) (ht : s.type = .Moment)
    (hn : s.par.dimY = 1 ∨ s.par.dimY = 3) (ha : (fmt s.a).neg = false) (c : Cart) (hc : c.Over) (hl : c.l = frameN)
    (hz : c.v.z ≠ 1) :
    ∃ text, exportShader fmt (oneObject p m (.sg s)) = some text ∧
      shade text c.l c.v frameN frameX frameY = some (colourOf s.par.dimY fun i =>
        printed fmt (s.ks i) * exp (printed fmt (s.n i) * (cos (printed fmt s.a * arccos c.v.z) - 1))) := by
  have hu := hc.unit.1
  have hV : |c.v.z| ≤ 1 := by
    rw [abs_le]
    unfold V3.IsUnit at hu
    constructor <;> nlinarith [mul_self_nonneg c.v.x, mul_self_nonneg c.v.y]
  have h0 : ¬ (c.v.x = 0 ∧ c.v.y = 0) := by
    rintro ⟨hx, hy⟩
    unfold V3.IsUnit at hu
    rw [hx, hy] at hu
    have hp := hc.view
    exact hz (by nlinarith)
  refine single_shade fmt hf p m (.sg s) (sgBody fmt s.a .Moment)
    [(sgMomentDef (fmt s.a).unsigned (fmt π).unsigned, sgMomentToks (fmt s.a).unsigned (fmt π).unsigned)]
    (by simpa using FunOf.mk' _ (sgMomentToks (fmt s.a).unsigned (fmt π).unsigned) (Nat.succ_pos _) (sgMoment_parse _ _)) (by rw [← ht]; rfl)
    (by rw [moment_lex fmt hf s.a ha]; simp) "spherical_gaussian".toList
    (by decide +kernel) s.par.dimY hn s.ks [s.n] rfl (by simp [FunDef.sig, sgMomentDef])
    (by simp only [List.mem_singleton, forall_eq, sgMomentDef]; decide +kernel)
    ((sgMomentDef (fmt s.a).unsigned (fmt π).unsigned).toFun [])
    (by simp [linked]) rfl rfl c _ ?_
  rw [hl]
  refine (sgMoment_run _ _ (printed fmt s.a) (printed fmt π) ?_ ?_ c.v _ _ hV h0).trans ?_
  · rw [numVal_unsigned _ (hf.digits _)]
    have : ({ fmt s.a with neg := false } : Decimal) = fmt s.a := by rw [← ha]
    rw [this]
    rfl
  · exact numVal_pi fmt hf
  · rw [colour2 _ _ _ fun a b => a * exp (b * (cos (printed fmt s.a * arccos c.v.z) - 1))]

/-- The object multiplies by `a` the azimuth of the light: for a light along the normal its value is
    `ks exp(n (cos θv - 1))`. -/
theorem sgMoment_object_value (fmt : ℝ → Decimal) (s : SgS) (ht : s.type = .Moment) (hi : s.par.input = .CARTESIAN)
    (c : Cart) (hc : c.Over) (hl : c.l = frameN) :
    ((LobeObj.sg s).rounded fmt).toFn.reflect c = some ((List.range s.par.dimY).map fun i =>
      printed fmt (s.ks i) * exp (printed fmt (s.n i) * (c.v.z - 1))) := by
  refine (reflect_cartesian _ (by exact hi) c).trans ?_
  show (sgDot s.type (printed fmt s.a) c.toList).map _ = _
  have hd : sgDot s.type (printed fmt s.a) c.toList = some c.v.z := by
    rw [ht]
    show sgTurn (fun p => p * printed fmt s.a + π) c.toList = _
    obtain ⟨o, ho, hr⟩ := SPHERICAL_directions_round_trip c hc.above.unit hc.above.sum
    unfold sgTurn
    rw [convert_from_cartesian _ _ (by decide), ho]
    simp only [toCartesian, Option.some.injEq] at hr
    have hz : c.l.z = 1 := by rw [hl]; rfl
    have hcos : cos (arr o 0) = 1 := by rw [← hz, ← hr]
    have hsin : sin (arr o 0) = 0 := by
      have := Real.sin_sq_add_cos_sq (arr o 0)
      rw [hcos] at this
      exact pow_eq_zero_iff (two_ne_zero) |>.mp (by linarith)
    have hv : cos (arr o 2) = c.v.z := by rw [← hr]
    simp only [convertInput, if_neg (by decide : ¬ (Input.SPHERICAL_TL_PL_TV_PV = Input.CARTESIAN)), if_true,
      toCartesian, Option.map_some, Option.some.injEq]
    show cos (arr o 3) * sin (arr o 2) * (cos (arr o 1 * printed fmt s.a + π) * sin (arr o 0)) +
      sin (arr o 3) * sin (arr o 2) * (sin (arr o 1 * printed fmt s.a + π) * sin (arr o 0)) + cos (arr o 2) * cos (arr o 0) = _
    rw [hsin, hcos, hv]
    ring
  rw [hd]
  rfl

/-- C72 (limit).  So the shader of a spherical Gaussian of type Moment has another value than the object for a light
    along the normal, unless `cos (a θv)` is `cos θv`. -/
theorem sgMoment_shader_wrong (fmt : ℝ → Decimal) (hf : ShaderFmt fmt) (p : Par) (m : SMap) (s : SgS) (ht : s.type = .Moment)
    (hn : s.par.dimY = 1 ∨ s.par.dimY = 3) (hi : s.par.input = .CARTESIAN) (ha : (fmt s.a).neg = false) (c : Cart) (hc : c.Over)
    (hl : c.l = frameN) (hk : printed fmt (s.ks 0) ≠ 0) (he : printed fmt (s.n 0) ≠ 0)
    (hz : cos (printed fmt s.a * arccos c.v.z) ≠ c.v.z) :
    ∃ text y col col', exportShader fmt (oneObject p m (.sg s)) = some text ∧
      ((LobeObj.sg s).rounded fmt).toFn.reflect c = some y ∧ asColour y = some col ∧
      shade text c.l c.v frameN frameX frameY = some col' ∧ col' ≠ col := by
  have h1 : c.v.z ≠ 1 := by
    intro h
    rw [h, Real.arccos_one, mul_zero, Real.cos_zero] at hz
    exact hz rfl
  obtain ⟨text, h2, h3⟩ := sgMoment_shader_value fmt hf p m s ht hn ha c hc hl h1
  refine ⟨text, _, _, _, h2, sgMoment_object_value fmt s ht hi c hc hl, asColour_map _ hn _, h3, ?_⟩
  intro h
  have hx := congrArg V3.x h
  have hcx : ∀ g : ℕ → ℝ, (colourOf s.par.dimY g).x = g 0 := fun g => by unfold colourOf; split <;> rfl
  rw [hcx, hcx, mul_right_inj' hk, Real.exp_eq_exp, mul_right_inj' he] at hx
  exact hz (by linarith)

end
end Alta
