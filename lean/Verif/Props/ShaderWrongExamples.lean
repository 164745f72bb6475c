import Verif.Props.ShaderExamples
import Verif.Props.ShaderMoment
import Verif.Props.ShaderNever
/-
C72: examples of functions whose shader is wrong.
-/
namespace Alta
open Glsl Real
noncomputable section

/-- a pair of directions tilted together -/
def wrongPair : Cart := atTilt (4 / 5) (3 / 5)

theorem wrongPair_over : wrongPair.Over := atTilt_over _ _ (by norm_num) (by norm_num)

/-- abc: the shader is not the value of the object -/
example : ∃ text y col col', exportShader shaderFmtEx
      (oneObject shaderPar [] (.abc ⟨⟨1, 1, .COS_TH, .INV_STERADIAN⟩, fun _ => 1, fun _ => 2, fun _ => 3⟩)) = some text ∧
      ((LobeObj.abc ⟨⟨1, 1, .COS_TH, .INV_STERADIAN⟩, fun _ => 1, fun _ => 2, fun _ => 3⟩).rounded shaderFmtEx).toFn.reflect
        wrongPair = some y ∧ asColour y = some col ∧
      shade text wrongPair.l wrongPair.v frameN frameX frameY = some col' ∧ col' ≠ col := by
  obtain ⟨e1, e2, e3⟩ := shaderFmtEx_values
  exact abc_shader_wrong _ shaderFmtEx_ok _ _ _ (.inl rfl) rfl _ wrongPair_over (fun _ _ => by simp [e2]) (by simp [e1])
    (by simp [e3]) (by unfold wrongPair; rw [atTilt_half _ _ (by norm_num)]; norm_num)

/-- spherical Gaussian of type Retro -/
example : ∃ text y col col', exportShader shaderFmtEx
      (oneObject shaderPar [] (.sg ⟨shaderPar, fun _ => 1, fun _ => 2, 1, .Retro⟩)) = some text ∧
      ((LobeObj.sg ⟨shaderPar, fun _ => 1, fun _ => 2, 1, .Retro⟩).rounded shaderFmtEx).toFn.reflect wrongPair = some y ∧
      asColour y = some col ∧
      shade text wrongPair.l wrongPair.v frameN frameX frameY = some col' ∧ col' ≠ col := by
  obtain ⟨e1, e2, e3⟩ := shaderFmtEx_values
  exact sgRetro_shader_wrong _ shaderFmtEx_ok _ _ _ rfl (.inl rfl) rfl _ wrongPair_over (by simp [e1]) (by simp [e2])
    (by simp [wrongPair, atTilt])

/-- the light along the normal -/
def momentPair : Cart := ⟨⟨3 / 5, 0, 4 / 5⟩, frameN⟩

theorem momentPair_over : momentPair.Over := by
  refine ⟨⟨?_, ?_⟩, ?_, ?_⟩ <;> simp [momentPair, frameN, V3.IsUnit] <;> norm_num

/-- spherical Gaussian of type Moment, with `a = 2` -/
example : ∃ text y col col', exportShader shaderFmtEx
      (oneObject shaderPar [] (.sg ⟨shaderPar, fun _ => 1, fun _ => 3, 2, .Moment⟩)) = some text ∧
      ((LobeObj.sg ⟨shaderPar, fun _ => 1, fun _ => 3, 2, .Moment⟩).rounded shaderFmtEx).toFn.reflect momentPair = some y ∧
      asColour y = some col ∧
      shade text momentPair.l momentPair.v frameN frameX frameY = some col' ∧ col' ≠ col := by
  obtain ⟨e1, e2, e3⟩ := shaderFmtEx_values
  refine sgMoment_shader_wrong _ shaderFmtEx_ok _ _ _ rfl (.inl rfl) rfl ?_ _ momentPair_over rfl (by simp [e1]) (by simp [e3]) ?_
  · have hp := Real.pi_gt_three
    show (shaderFmtEx 2).neg = false
    unfold shaderFmtEx exampleFmt
    rw [if_neg (by linarith)]
    split_ifs <;> rfl
  · show cos (printed shaderFmtEx 2 * arccos (4 / 5)) ≠ 4 / 5
    rw [e2, Real.cos_two_mul, Real.cos_arccos (by norm_num) (by norm_num)]
    norm_num

/-- retrobeckmann -/
example (k : ℝ) : ∃ c : Cart, c.Over ∧ ∃ text y col col', exportShader shaderFmtEx
      (oneObject shaderPar [] (.retrobeckmann ⟨shaderPar, fun _ => 1, fun _ => 2, true⟩)) = some text ∧
      ((LobeObj.retrobeckmann ⟨shaderPar, fun _ => 1, fun _ => 2, true⟩).rounded shaderFmtEx).toFn.reflect c = some y ∧
      asColour y = some col ∧ shade text c.l c.v frameN frameX frameY = some col' ∧ col'.x ≠ k * col.x := by
  obtain ⟨e1, e2, e3⟩ := shaderFmtEx_values
  exact retrobeckmann_shader_wrong _ shaderFmtEx_ok _ _ _ (.inl rfl) rfl rfl (fun _ _ => by simp [e2]) (by simp [e1]) k

open Classical in
/-- the same way to print, and 1/2 as 0.5 -/
def halfFmtEx (x : ℝ) : Decimal := if x = 1 / 2 then ⟨false, [0], [5], none⟩ else shaderFmtEx x

theorem halfFmtEx_values : printed halfFmtEx (1 / 2) = 1 / 2 ∧ printed halfFmtEx 1 = 1 := by
  constructor
  · simp [printed, halfFmtEx, Decimal.value, digitsNum]
    norm_num
  · unfold printed halfFmtEx
    rw [if_neg (by norm_num)]
    exact shaderFmtEx_values.1

theorem halfFmtEx_ok : ShaderFmt halfFmtEx := by
  have hp := Real.pi_gt_three
  have e : halfFmtEx π = shaderFmtEx π := by
    unfold halfFmtEx
    rw [if_neg (by linarith)]
  refine ⟨?_, by rw [e]; exact shaderFmtEx_ok.sign, ?_⟩
  · intro x
    unfold halfFmtEx
    split_ifs
    · simp
    · exact shaderFmtEx_ok.digits x
  · have := shaderFmtEx_ok.pi
    unfold printed at this ⊢
    rw [e]
    exact this

/-- beckmann -/
example (k : ℝ) : ∃ c : Cart, c.Over ∧ ∃ text y col col', exportShader halfFmtEx
      (oneObject shaderPar [] (.beckmann ⟨shaderPar, fun _ => 1, fun _ => 1 / 2⟩)) = some text ∧
      ((LobeObj.beckmann ⟨shaderPar, fun _ => 1, fun _ => 1 / 2⟩).rounded halfFmtEx).toFn.reflect c = some y ∧
      asColour y = some col ∧ shade text c.l c.v frameN frameX frameY = some col' ∧ col'.x ≠ k * col.x := by
  obtain ⟨e1, e2⟩ := halfFmtEx_values
  refine beckmann_shader_wrong _ halfFmtEx_ok _ _ _ (.inl rfl) rfl (fun _ _ => ?_) ?_ k
  · show 0 < printed halfFmtEx (1 / 2) ∧ printed halfFmtEx (1 / 2) ≤ 1 / 2
    rw [e1]
    norm_num
  · show printed halfFmtEx 1 ≠ 0
    rw [e2]
    norm_num

/-- schlick masking times a lobe, in a sum -/
example : ∃ text, exportShader shaderFmtEx (.compound shaderPar (.cons []
      (.product shaderPar (.leaf shaderBlinn) (.leaf (.schlickMasking ⟨shaderPar, fun _ => 1⟩)) false false) .nil)) = some text ∧
    text.count ')' = text.count '(' + 1 ∧ ∀ L V N X Y, shade text L V N X Y = none := by
  refine ⟨_, rfl, ?_, ?_⟩
  · have h := masking_parentheses shaderFmtEx (.compound shaderPar (.cons []
      (.product shaderPar (.leaf shaderBlinn) (.leaf (.schlickMasking ⟨shaderPar, fun _ => 1⟩)) false false) .nil)) _ rfl
    have e : maskingCount (FT.objects (.compound shaderPar (.cons []
      (.product shaderPar (.leaf shaderBlinn) (.leaf (.schlickMasking ⟨shaderPar, fun _ => 1⟩)) false false) .nil))) = 1 := rfl
    rw [e] at h
    exact_mod_cast h
  · exact masking_not_shader shaderFmtEx (.compound shaderPar (.cons []
      (.product shaderPar (.leaf shaderBlinn) (.leaf (.schlickMasking ⟨shaderPar, fun _ => 1⟩)) false false) .nil)) ⟨shaderPar, fun _ => 1⟩ (.tail _ (.head _)) _ rfl

/-- walter smith times a lobe, in a sum -/
example : ∃ text, exportShader shaderFmtEx (.compound shaderPar (.cons []
      (.product shaderPar (.leaf shaderBlinn) (.leaf (.walterSmith ⟨shaderPar, fun _ => 1⟩)) false false) .nil)) = some text ∧
    ∀ L V N X Y, shade text L V N X Y = none := by
  refine ⟨_, rfl, ?_⟩
  exact walterSmith_not_shader shaderFmtEx (.compound shaderPar (.cons []
      (.product shaderPar (.leaf shaderBlinn) (.leaf (.walterSmith ⟨shaderPar, fun _ => 1⟩)) false false) .nil)) ⟨shaderPar, fun _ => 1⟩ (.tail _ (.head _)) _ rfl

end
end Alta
