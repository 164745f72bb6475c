import Verif.Props.ShaderLimits
import Verif.Props.RationalFile
import Mathlib.Analysis.Real.Pi.Bounds
/-
C72: examples.
-/
namespace Alta
open Glsl Real
noncomputable section

open Classical in
/-- how the example prints: like `exampleFmt`, and π as 3.14 -/
def shaderFmtEx (x : ℝ) : Decimal := if x = π then ⟨false, [3], [1, 4], none⟩ else exampleFmt x

theorem shaderFmtEx_values : printed shaderFmtEx 1 = 1 ∧ printed shaderFmtEx 2 = 2 ∧ printed shaderFmtEx 3 = 3 := by
  obtain ⟨-, h1, h2, h3⟩ := exampleFmt_values
  have hp := Real.pi_gt_three
  unfold printed shaderFmtEx
  rw [if_neg (by linarith), if_neg (by linarith), if_neg (by linarith)]
  exact ⟨h1, h2, h3⟩

theorem shaderFmtEx_ok : ShaderFmt shaderFmtEx := by
  constructor
  · intro x
    unfold shaderFmtEx exampleFmt
    split_ifs <;> simp
  · simp [shaderFmtEx]
  · simp [printed, shaderFmtEx, Decimal.value, digitsNum]
    norm_num

/-- grey, evaluated on the directions -/
def shaderPar : Par := ⟨6, 1, .CARTESIAN, .INV_STERADIAN⟩

/-- `2 (h·n)³` -/
def shaderBlinn : LobeObj := .blinn ⟨⟨1, 1, .COS_TH, .INV_STERADIAN⟩, fun _ => 2, fun _ => 3⟩
/-- Schlick's factor with `R = 3` -/
def shaderSchlick : LobeObj := .schlickFresnel ⟨shaderPar, fun _ => 3⟩
/-- a constant, 1 -/
def shaderDiffuse : LobeObj := .diffuse ⟨shaderPar, fun _ => 1, 0⟩

/-- `2 (h·n)³ (3 - 2 (1 - v·h)⁵) + 1` -/
def shaderSum : FTs LobeObj :=
  .cons [] (.product shaderPar (.leaf shaderBlinn) (.leaf shaderSchlick) false false)
    (.cons [] (.leaf shaderDiffuse) .nil)

/-- both directions along the normal -/
def shaderCart : Cart := ⟨⟨0, 0, 1⟩, ⟨0, 0, 1⟩⟩

theorem shaderCart_over : shaderCart.Over := by
  constructor
  · constructor <;> simp [V3.IsUnit, shaderCart]
  · simp [shaderCart]
  · simp [shaderCart]

/-- the shader exists and gives 7 along the normal -/
example : ∃ text, exportShader shaderFmtEx (.compound shaderPar shaderSum) = some text ∧
    shade text ⟨0, 0, 1⟩ ⟨0, 0, 1⟩ frameN frameX frameY = some ⟨7, 7, 7⟩ := by
  obtain ⟨e1, e2, e3⟩ := shaderFmtEx_values
  have hvh := dotVH_over shaderCart shaderCart_over
  have hth := cosTH_over shaderCart shaderCart_over
  have hsum : sumLen shaderCart.l shaderCart.v = 2 := by
    simp only [sumLen, shaderCart]
    rw [show ((0:ℝ) + 0) * (0 + 0) + (0 + 0) * (0 + 0) + (1 + 1) * (1 + 1) = 2 * 2 by norm_num]
    exact Real.sqrt_mul_self (by norm_num)
  rw [hsum] at hvh hth
  have hn : Input.CARTESIAN.Named := by unfold Input.Named; decide
  have hb : (shaderBlinn).toFn.reflect shaderCart = some [2] := by
    unfold Fn.reflect
    show (convertInput (arr shaderCart.toList) .CARTESIAN .COS_TH).bind _ = _
    rw [hth]
    show some ((List.range 1).map _) = _
    simp [shaderCart, arr]
  have hc : (shaderSchlick).toFn.reflect shaderCart = some [3] := by
    refine (reflect_cartesian _ rfl shaderCart).trans ?_
    show (dotVH .CARTESIAN shaderCart.toList).map _ = _
    rw [hvh]
    simp [shaderCart, shaderPar, clampR]
  have hd : (shaderDiffuse).toFn.reflect shaderCart = some [1] := by
    refine (reflect_cartesian _ rfl shaderCart).trans ?_
    show some ((List.range 1).map _) = _
    simp
  have hx : convertInput (arr shaderCart.toList) .CARTESIAN .CARTESIAN = some shaderCart.toList := rfl
  have hy : (FT.compound shaderPar shaderSum).toFn.reflect shaderCart = some [7] := by
    refine (reflect_cartesian _ rfl shaderCart).trans ?_
    show (Fns.cons _ (.product shaderPar shaderBlinn.toFn shaderSchlick.toFn false false)
      (.cons _ shaderDiffuse.toFn .nil)).valueLoop .CARTESIAN shaderCart.toList [0] = _
    rw [valueLoop_bind, part_reflect _ .CARTESIAN (.inl rfl) shaderCart _ hx, reflect_cartesian _ rfl, product_bind,
      show shaderPar.input = .CARTESIAN from rfl, part_reflect _ .CARTESIAN (.inl rfl) shaderCart _ hx,
      part_reflect _ .CARTESIAN (.inl rfl) shaderCart _ hx, hb, hc]
    simp only [Option.bind_some, vecProduct, List.length_singleton, if_true, List.map_cons, List.map_nil, vecAdd,
      List.zipWith_cons_cons, List.zipWith_nil_left, List.getD_cons_zero]
    rw [valueLoop_bind, part_reflect _ .CARTESIAN (.inl rfl) shaderCart _ hx, hd]
    simp only [Option.bind_some, vecAdd, List.length_singleton, if_true, List.zipWith_cons_cons, List.zipWith_nil_left]
    show some [_] = _
    norm_num
  have hobj : shaderSum.objects = [shaderBlinn, shaderSchlick, shaderDiffuse] := rfl
  obtain ⟨text, col, h1, h2, h3⟩ := exported_shader_exact_partial shaderFmtEx shaderFmtEx_ok shaderCart shaderCart_over
    shaderPar shaderSum (by simp [shaderSum]) ⟨⟨True.intro, True.intro⟩, True.intro, True.intro⟩
    (by
      rw [hobj]
      intro o ho
      simp only [List.mem_cons, List.not_mem_nil, or_false] at ho
      rcases ho with rfl | rfl | rfl
      · exact ⟨.inl rfl, rfl⟩
      · exact ⟨.inl rfl, rfl⟩
      · exact ⟨.inl rfl, True.intro⟩)
    (by rw [hobj]; decide)
    ⟨⟨⟨⟨True.intro, .inl rfl⟩, True.intro, .inl rfl⟩, .inl rfl⟩, ⟨True.intro, .inl rfl⟩, True.intro⟩
    (by
      rw [hobj]
      intro o ho
      simp only [List.mem_cons, List.not_mem_nil, or_false] at ho
      rcases ho with rfl | rfl | rfl <;>
        simp [LobeObj.exported, LobeObj.rounded, shaderBlinn, shaderSchlick, shaderDiffuse, e1, e2, e3])
    [7] hy
  obtain rfl : col = ⟨7, 7, 7⟩ := (Option.some.inj h2).symm
  exact ⟨text, h1, h3⟩

/-- the same lobe alone is not a shader -/
example : ∃ text, exportShader shaderFmtEx (.leaf shaderBlinn) = some text ∧
    ∀ L V N X Y, shade text L V N X Y = none :=
  single_function_not_shader _ shaderFmtEx_ok _ True.intro (by
    intro o ho
    obtain rfl : o = shaderBlinn := by simpa [FT.objects] using ho
    exact ⟨shaderCart, .inl rfl, rfl⟩)

/-- nor is the sum of two lobes of the same class -/
example : ∃ text, exportShader shaderFmtEx (.compound shaderPar (.cons [] (.leaf shaderBlinn)
      (.cons [] (.leaf shaderBlinn) .nil))) = some text ∧
    ∀ L V N X Y, shade text L V N X Y = none :=
  repeated_class_not_shader _ shaderFmtEx_ok _ _ (by simp) ⟨True.intro, True.intro, True.intro⟩ (by
    intro o ho
    obtain rfl : o = shaderBlinn := by simpa [FTs.objects, FT.objects] using ho
    exact ⟨shaderCart, .inl rfl, rfl⟩) (by decide)

end
end Alta
