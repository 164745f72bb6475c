import Verif.Proofs.ShaderBeckmann
import Verif.Props.ShaderWrong
/-
C72: the shaders of the classes retrobeckmann and beckmann.
-/
namespace Alta
open Glsl Real
noncomputable section

theorem numVal_pi (fmt : ℝ → Decimal) (hf : ShaderFmt fmt) : numVal (fmt π).unsigned = some (printed fmt π) := by
  rw [numVal_unsigned _ (hf.digits π)]
  have : ({ fmt π with neg := false } : Decimal) = fmt π := by rw [← hf.sign]
  rw [this]; rfl

theorem beckShade_eq (q ks a d c : ℝ) (hq : q ≠ 0) (ha : a ≠ 0) (hd : d ≠ 0) (hc : c ≠ 0) :
    beckShade q ks a d c = beckmannLobe ks a d * (π / q) * (d ^ 4 / c) := by
  unfold beckShade beckmannLobe
  have e : a * a * d * d = a * a * (d * d) := by ring
  rw [e]
  have hp := Real.pi_ne_zero
  generalize exp ((d * d - 1) / (a * a * (d * d))) = E
  field_simp

theorem colourOf_x (n : ℕ) (g : ℕ → ℝ) : (colourOf n g).x = g 0 := by unfold colourOf; split <;> rfl

/-! ### Retrobeckmann -/

/-- C72 (limit).  The value of an object of the class retrobeckmann of type BACK, and what its shader computes: the value
    times `cos⁴ / (cos θl cos θv)`, and π divided by the number written for it. -/
theorem retrobeckmann_shader_value (fmt : ℝ → Decimal) (hf : ShaderFmt fmt) (p : Par) (m : SMap) (s : RetroBeckmannS)
    (hn : s.par.dimY = 1 ∨ s.par.dimY = 3) (hi : s.par.input = .CARTESIAN) (hu : s.useBack = true) (c : Cart) (hc : c.Over)
    (hz : 1e-10 < c.v.z + c.l.z) (ha : ∀ i < s.par.dimY, printed fmt (s.a i) ≠ 0) :
    ∃ text, ∃ y : ℕ → ℝ, exportShader fmt (oneObject p m (.retrobeckmann s)) = some text ∧
      ((LobeObj.retrobeckmann s).rounded fmt).toFn.reflect c = some ((List.range s.par.dimY).map y) ∧
      (∀ i, y i = beckmannLobe (printed fmt (s.ks i)) (printed fmt (s.a i)) (backCos c)) ∧
      shade text c.l c.v frameN frameX frameY = some (colourOf s.par.dimY fun i =>
        y i * (π / printed fmt π) * (backCos c ^ 4 / (c.l.z * c.v.z))) := by
  have hd := backCos_pos c hc
  have hvk : convertInput (arr c.toList) .CARTESIAN .SCHLICK_VK =
      some [(c.l.x - c.v.x) / sumLen c.l (mirrored c.v), (c.l.y - c.v.y) / sumLen c.l (mirrored c.v), backCos c] := by
    rw [convert_from_cartesian _ _ (by decide), fromCartesian_eq _ _ hc.above.sum]
    have e : (c.l.x - c.v.x) * (c.l.x - c.v.x) + (c.l.y - c.v.y) * (c.l.y - c.v.y) + (c.l.z + c.v.z) * (c.l.z + c.v.z) =
      (c.l.x + -c.v.x) * (c.l.x + -c.v.x) + (c.l.y + -c.v.y) * (c.l.y + -c.v.y) + (c.l.z + c.v.z) * (c.l.z + c.v.z) := by ring
    have e2 : sumLen c.l (mirrored c.v) = √((c.l.x + -c.v.x) * (c.l.x + -c.v.x) + (c.l.y + -c.v.y) * (c.l.y + -c.v.y) +
        (c.l.z + c.v.z) * (c.l.z + c.v.z)) := rfl
    simp only [fromCartesianSwitch, e, ← e2]
    have hn : sumLen c.l (mirrored c.v) > 1e-10 := by
      rw [e2]
      refine hz.trans_le ?_
      apply Real.le_sqrt_of_sq_le
      nlinarith [sq_nonneg (c.l.x + -c.v.x), sq_nonneg (c.l.y + -c.v.y)]
    rw [if_pos hn]
    rfl
  have hv : ((LobeObj.retrobeckmann s).rounded fmt).toFn.reflect c = some ((List.range s.par.dimY).map fun i =>
      beckmannLobe (printed fmt (s.ks i)) (printed fmt (s.a i)) (backCos c)) := by
    refine (reflect_cartesian _ (by exact hi) c).trans ?_
    show (retroDot s.useBack c.toList).map _ = _
    have hr : retroDot s.useBack c.toList = some (backCos c) := by
      rw [hu]
      show (convertInput (arr c.toList) .CARTESIAN .SCHLICK_VK).map _ = _
      rw [hvk]; rfl
    rw [hr]
    show some ((List.range s.par.dimY).map fun i => if backCos c > 0 then _ else _) = _
    simp only [if_pos hd]
  obtain ⟨text, h1, h2⟩ := single_shade fmt hf p m (.retrobeckmann s) (retrobeckmannBody fmt)
    [(retrobeckmannDef (fmt π).unsigned, retrobeckmannToks (fmt π).unsigned)]
    (by simpa using FunOf.mk' (retrobeckmannDef (fmt π).unsigned) (retrobeckmannToks (fmt π).unsigned) (Nat.succ_pos _)
          (retrobeckmann_parse _)) rfl
    (by rw [retrobeckmann_lex fmt (hf.digits _) hf.sign]; simp) "retrobeckmann".toList (by decide +kernel) s.par.dimY hn s.ks [s.a]
    rfl (show ([((retrobeckmannDef []).name, (retrobeckmannDef []).params.map (·.1))] ++ _ : List (Str × List Ty)).Nodup by
      decide +kernel)
    (by simp only [List.mem_singleton, forall_eq]; show (retrobeckmannDef []).name ∉ builtinNames; decide +kernel)
    ((retrobeckmannDef (fmt π).unsigned).toFun []) (by simp [linked]) rfl rfl c _
    (retrobeckmann_run [] (by simp [NoBuiltin]) (fmt π).unsigned _ (numVal_pi fmt hf) hf.pi c.l c.v _ _ (backLen_pos c hc).ne'
      hc.light.ne' hc.view.ne' (colourOf_all _ hn (fun i => printed fmt (s.a i)) (· ≠ 0) ha) (backCos c) rfl hd.ne')
  refine ⟨text, _, h1, hv, fun i => rfl, ?_⟩
  rw [h2, colour2 _ _ _ fun k a => beckShade (printed fmt π) k a (backCos c) (c.l.z * c.v.z)]
  congr 1
  refine colourOf_congr _ hn _ _ fun i hi' => ?_
  exact beckShade_eq _ _ _ _ _ hf.pi (ha i hi') hd.ne' (mul_pos hc.light hc.view).ne'

/-- The two directions along the normal. -/
def atNormal : Cart := ⟨⟨0, 0, 1⟩, ⟨0, 0, 1⟩⟩
/-- The two directions tilted by the same angle, whose cosine is `t`. -/
def atTilt (t u : ℝ) : Cart := ⟨⟨u, 0, t⟩, ⟨u, 0, t⟩⟩

theorem atNormal_over : atNormal.Over := by
  refine ⟨?_, ?_, ?_⟩ <;> simp [atNormal, Cart.IsUnit, V3.IsUnit]

theorem atTilt_over (t u : ℝ) (h : u * u + t * t = 1) (ht : 0 < t) : (atTilt t u).Over := by
  refine ⟨?_, ht, ht⟩
  simp only [atTilt, Cart.IsUnit, V3.IsUnit]
  constructor <;> nlinarith

theorem atNormal_back : backCos atNormal = 1 := by
  simp only [backCos, atNormal, sumLen, mirrored]
  have : √(((0 : ℝ) + -0) * (0 + -0) + (0 + -0) * (0 + -0) + (1 + 1) * (1 + 1)) = 2 := by
    rw [show ((0 : ℝ) + -0) * (0 + -0) + (0 + -0) * (0 + -0) + (1 + 1) * (1 + 1) = 2 ^ 2 by norm_num]
    exact Real.sqrt_sq (by norm_num)
  rw [this]; norm_num

theorem atTilt_back (t u : ℝ) (ht : 0 < t) : backCos (atTilt t u) = 1 := by
  simp only [backCos, atTilt, sumLen, mirrored]
  have : √((u + -u) * (u + -u) + ((0 : ℝ) + -0) * (0 + -0) + (t + t) * (t + t)) = t + t := by
    rw [show (u + -u) * (u + -u) + ((0 : ℝ) + -0) * (0 + -0) + (t + t) * (t + t) = (t + t) ^ 2 by ring]
    exact Real.sqrt_sq (by linarith)
  rw [this]
  exact div_self (by linarith)

theorem atTilt_half (t u : ℝ) (h : u * u + t * t = 1) : halfCos (atTilt t u) = t := by
  simp only [halfCos, atTilt, sumLen]
  have : √((u + u) * (u + u) + ((0 : ℝ) + 0) * (0 + 0) + (t + t) * (t + t)) = 2 := by
    rw [show (u + u) * (u + u) + ((0 : ℝ) + 0) * (0 + 0) + (t + t) * (t + t) = 2 ^ 2 by nlinarith]
    exact Real.sqrt_sq (by norm_num)
  rw [this]; ring

/-- C72 (limit).  So the shader of an object of the class retrobeckmann of type BACK is not the value of the object, even
    up to a constant factor (as the one of the digits of π). -/
theorem retrobeckmann_shader_wrong (fmt : ℝ → Decimal) (hf : ShaderFmt fmt) (p : Par) (m : SMap) (s : RetroBeckmannS)
    (hn : s.par.dimY = 1 ∨ s.par.dimY = 3) (hi : s.par.input = .CARTESIAN) (hu : s.useBack = true)
    (ha : ∀ i < s.par.dimY, printed fmt (s.a i) ≠ 0) (hk : printed fmt (s.ks 0) ≠ 0) (k : ℝ) :
    ∃ c : Cart, c.Over ∧ ∃ text y col col', exportShader fmt (oneObject p m (.retrobeckmann s)) = some text ∧
      ((LobeObj.retrobeckmann s).rounded fmt).toFn.reflect c = some y ∧ asColour y = some col ∧
      shade text c.l c.v frameN frameX frameY = some col' ∧ col'.x ≠ k * col.x := by
  have hb : beckmannLobe (printed fmt (s.ks 0)) (printed fmt (s.a 0)) 1 ≠ 0 := by
    unfold beckmannLobe
    refine mul_ne_zero (div_ne_zero hk ?_) (Real.exp_ne_zero _)
    have := ha 0 (by omega)
    have hp := Real.pi_ne_zero
    simp [this, hp]
  by_cases h : k = π / printed fmt π
  · have ho := atTilt_over (4 / 5) (3 / 5) (by norm_num) (by norm_num)
    obtain ⟨text, y, h1, h2, h3, h4⟩ := retrobeckmann_shader_value fmt hf p m s hn hi hu _ ho
      (by simp only [atTilt]; norm_num) ha
    refine ⟨_, ho, text, _, _, _, h1, h2, asColour_map _ hn _, h4, ?_⟩
    rw [colourOf_x, colourOf_x, h3, atTilt_back _ _ (by norm_num), h]
    simp only [atTilt]
    have hq : π / printed fmt π ≠ 0 := div_ne_zero Real.pi_ne_zero hf.pi
    generalize beckmannLobe (printed fmt (s.ks 0)) (printed fmt (s.a 0)) 1 = B at hb
    generalize π / printed fmt π = Q at hq
    intro hc
    have : B * Q * (9 / 16) = 0 := by linarith [show B * Q * (1 ^ 4 / (4 / 5 * (4 / 5))) = B * Q * (25 / 16) by ring]
    simp [hb, hq] at this
  · obtain ⟨text, y, h1, h2, h3, h4⟩ := retrobeckmann_shader_value fmt hf p m s hn hi hu _ atNormal_over
      (by simp only [atNormal]; norm_num) ha
    refine ⟨_, atNormal_over, text, _, _, _, h1, h2, asColour_map _ hn _, h4, ?_⟩
    rw [colourOf_x, colourOf_x, h3, atNormal_back]
    simp only [atNormal]
    intro hc
    apply h
    have : beckmannLobe (printed fmt (s.ks 0)) (printed fmt (s.a 0)) 1 * (π / printed fmt π) =
      beckmannLobe (printed fmt (s.ks 0)) (printed fmt (s.a 0)) 1 * k := by linarith
    exact ((mul_right_inj' hb).mp this).symm

/-! ### Beckmann -/

/-- C72 (limit).  The value of an object of the class beckmann, and what its shader computes: the value times
    `cos⁴ / (cos θl cos θv)`, a shadowing of each direction, and π divided by the number written for it. -/
theorem beckmann_shader_value (fmt : ℝ → Decimal) (hf : ShaderFmt fmt) (p : Par) (m : SMap) (s : BeckmannS)
    (hn : s.par.dimY = 1 ∨ s.par.dimY = 3) (hi : s.par.input = .CARTESIAN) (c : Cart) (hc : c.Over)
    (hl : c.l.z < 1) (hv : c.v.z < 1) (ha : ∀ i < s.par.dimY, printed fmt (s.a i) ≠ 0) :
    ∃ text, ∃ y : ℕ → ℝ, exportShader fmt (oneObject p m (.beckmann s)) = some text ∧
      ((LobeObj.beckmann s).rounded fmt).toFn.reflect c = some ((List.range s.par.dimY).map y) ∧
      (∀ i, y i = beckmannLobe (printed fmt (s.ks i)) (printed fmt (s.a i)) (halfCos c)) ∧
      shade text c.l c.v frameN frameX frameY = some (colourOf s.par.dimY fun i =>
        y i * (π / printed fmt π) * (halfCos c ^ 4 / (c.l.z * c.v.z)) * gShade c.l.z (printed fmt (s.a i)) *
          gShade c.v.z (printed fmt (s.a i))) := by
  have hd := halfCos_pos c hc
  have hval : ((LobeObj.beckmann s).rounded fmt).toFn.reflect c = some ((List.range s.par.dimY).map fun i =>
      beckmannLobe (printed fmt (s.ks i)) (printed fmt (s.a i)) (halfCos c)) := by
    refine (reflect_cartesian _ (by exact hi) c).trans ?_
    show (vhOf c.toList).map _ = _
    rw [vhOf_above c hc.above, half_sumLen c hc, Option.map_some]
    show some ((List.range s.par.dimY).map fun i => if halfCos c > 0 ∧ c.v.z * c.l.z > 0 then _ else _) = _
    simp only [if_pos (show halfCos c > 0 ∧ c.v.z * c.l.z > 0 from ⟨hd, mul_pos hc.view hc.light⟩)]
    rfl
  obtain ⟨text, h1, h2⟩ := single_shade fmt hf p m (.beckmann s) (beckmannBody fmt)
    [(gBeckmannDef, gBeckmannToks), (beckmannDef (fmt π).unsigned, beckmannToks (fmt π).unsigned)]
    (by
      intro q hq
      rcases List.mem_cons.mp hq with rfl | hq
      · exact FunOf.mk' gBeckmannDef gBeckmannToks (by decide +kernel) gBeckmann_parse
      · obtain rfl := List.mem_singleton.mp hq
        exact FunOf.mk' (beckmannDef (fmt π).unsigned) (beckmannToks (fmt π).unsigned) (Nat.succ_pos _) (beckmann_parse _)) rfl
    (by rw [beckmann_lex fmt (hf.digits _) hf.sign]; simp) "beckmann".toList (by decide +kernel) s.par.dimY hn s.ks [s.a]
    rfl (show ([(gBeckmannDef.name, gBeckmannDef.params.map (·.1)),
        ((beckmannDef []).name, (beckmannDef []).params.map (·.1))] ++ _ : List (Str × List Ty)).Nodup by decide +kernel)
    (by
      intro q hq
      rcases List.mem_cons.mp hq with rfl | hq
      · show gBeckmannDef.name ∉ builtinNames; decide +kernel
      · obtain rfl := List.mem_singleton.mp hq
        show (beckmannDef []).name ∉ builtinNames; decide +kernel)
    ((beckmannDef (fmt π).unsigned).toFun [gBeckmannDef.toFun []]) (by simp [linked]) rfl rfl c _
    (beckmann_run (fmt π).unsigned _ (numVal_pi fmt hf) hf.pi c.l c.v _ _ (sumLen_pos c hc).ne'
      hc.light.ne' hc.view.ne' hl hv (colourOf_all _ hn (fun i => printed fmt (s.a i)) (· ≠ 0) ha) (halfCos c) rfl hd.ne')
  refine ⟨text, _, h1, hval, fun i => rfl, ?_⟩
  rw [h2, colour2 _ _ _ fun k a => beckShade (printed fmt π) k a (halfCos c) (c.l.z * c.v.z) * gShade c.l.z a * gShade c.v.z a]
  congr 1
  refine colourOf_congr _ hn _ _ fun i hi' => ?_
  rw [beckShade_eq _ _ _ _ _ hf.pi (ha i hi') hd.ne' (mul_pos hc.light hc.view).ne']

theorem gShade_one (t a : ℝ) (ha : 0 < a) (ha2 : a ≤ 1 / 2) (ht : 3 / 5 ≤ t) (ht1 : t < 1) : gShade t a = 1 := by
  unfold gShade
  have hs : 0 < √(1 - t) := Real.sqrt_pos.mpr (by linarith)
  have hs2 : √(1 - t) * √(1 - t) = 1 - t := Real.mul_self_sqrt (by linarith)
  have hs3 : √(1 - t) ≤ 16 / 25 := by
    apply Real.sqrt_le_sqrt (show 1 - t ≤ (16 / 25) ^ 2 by linarith [show (2:ℝ)/5 ≤ (16/25)^2 by norm_num]) |>.trans
    rw [Real.sqrt_sq (by norm_num)]
  have : 1.6 ≤ t / (a * √(1 - t)) := by
    rw [le_div_iff₀ (mul_pos ha hs)]
    have : a * √(1 - t) ≤ 1 / 2 * (16 / 25) := mul_le_mul ha2 hs3 hs.le (by norm_num)
    linarith
  simp only
  rw [if_neg (not_lt.mpr this)]

/-- C72 (limit).  So the shader of an object of the class beckmann is not the value of the object, even up to a constant
    factor (here for a roughness below one half). -/
theorem beckmann_shader_wrong (fmt : ℝ → Decimal) (hf : ShaderFmt fmt) (p : Par) (m : SMap) (s : BeckmannS)
    (hn : s.par.dimY = 1 ∨ s.par.dimY = 3) (hi : s.par.input = .CARTESIAN)
    (ha : ∀ i < s.par.dimY, 0 < printed fmt (s.a i) ∧ printed fmt (s.a i) ≤ 1 / 2) (hk : printed fmt (s.ks 0) ≠ 0) (k : ℝ) :
    ∃ c : Cart, c.Over ∧ ∃ text y col col', exportShader fmt (oneObject p m (.beckmann s)) = some text ∧
      ((LobeObj.beckmann s).rounded fmt).toFn.reflect c = some y ∧ asColour y = some col ∧
      shade text c.l c.v frameN frameX frameY = some col' ∧ col'.x ≠ k * col.x := by
  have hb : ∀ t : ℝ, t ≠ 0 → beckmannLobe (printed fmt (s.ks 0)) (printed fmt (s.a 0)) t ≠ 0 := by
    intro t ht
    unfold beckmannLobe
    refine mul_ne_zero (div_ne_zero hk ?_) (Real.exp_ne_zero _)
    have := (ha 0 (by omega)).1.ne'
    have hp := Real.pi_ne_zero
    simp [this, hp, ht]
  have key : ∀ t u : ℝ, u * u + t * t = 1 → 3 / 5 ≤ t → t < 1 → k ≠ (π / printed fmt π) * (t * t) →
      ∃ c : Cart, c.Over ∧ ∃ text y col col', exportShader fmt (oneObject p m (.beckmann s)) = some text ∧
      ((LobeObj.beckmann s).rounded fmt).toFn.reflect c = some y ∧ asColour y = some col ∧
      shade text c.l c.v frameN frameX frameY = some col' ∧ col'.x ≠ k * col.x := by
    intro t u h1 h2 h3 h4
    have ht : t ≠ 0 := by linarith
    have ho := atTilt_over t u h1 (by linarith)
    obtain ⟨text, y, g1, g2, g3, g4⟩ := beckmann_shader_value fmt hf p m s hn hi _ ho h3 h3 fun i hi => (ha i hi).1.ne'
    refine ⟨_, ho, text, _, _, _, g1, g2, asColour_map _ hn _, g4, ?_⟩
    rw [colourOf_x, colourOf_x, g3, atTilt_half _ _ h1]
    have a0 := ha 0 (by omega)
    have g5 : gShade (atTilt t u).l.z (printed fmt (s.a 0)) = 1 := gShade_one t _ a0.1 a0.2 h2 h3
    have g6 : gShade (atTilt t u).v.z (printed fmt (s.a 0)) = 1 := gShade_one t _ a0.1 a0.2 h2 h3
    rw [g5, g6]
    have hbt := hb t ht
    simp only [atTilt]
    generalize beckmannLobe (printed fmt (s.ks 0)) (printed fmt (s.a 0)) t = B at hbt
    have e : t ^ 4 / (t * t) = t * t := by field_simp
    rw [e]
    intro hc
    apply h4
    have : B * k = B * (π / printed fmt π * (t * t)) := by linarith
    exact (mul_right_inj' hbt).mp this
  by_cases h : k = (π / printed fmt π) * (4 / 5 * (4 / 5))
  · refine key (3 / 5) (4 / 5) (by norm_num) (by norm_num) (by norm_num) ?_
    rw [h]
    have hq : π / printed fmt π ≠ 0 := div_ne_zero Real.pi_ne_zero hf.pi
    intro h5
    have := (mul_right_inj' hq).mp h5
    norm_num at this
  · exact key (4 / 5) (3 / 5) (by norm_num) (by norm_num) (by norm_num) h

end
end Alta
