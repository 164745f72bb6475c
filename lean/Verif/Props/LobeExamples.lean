import Verif.Props.Microfacet
import Verif.Props.Smith
/-
Concrete configurations that meet the hypotheses of the theorems about lobes (C38-C40).
-/
namespace Alta
noncomputable section
open Real

/-- the half vector of a concrete pair of directions is (0, 3/5, 4/5) -/
theorem vhOf_example : vhOf [0, 24 / 25, 7 / 25, 0, 0, 1] = some [0, 3 / 5, 4 / 5] := by
  have e : vhOf [0, 24 / 25, 7 / 25, 0, 0, 1] =
      some [(halfVector ⟨⟨0, 24 / 25, 7 / 25⟩, ⟨0, 0, 1⟩⟩).x, (halfVector ⟨⟨0, 24 / 25, 7 / 25⟩, ⟨0, 0, 1⟩⟩).y,
        (halfVector ⟨⟨0, 24 / 25, 7 / 25⟩, ⟨0, 0, 1⟩⟩).z] := by
    have : Cart.ofFun (arr [0, 24 / 25, 7 / 25, 0, 0, 1]) = ⟨⟨0, 24 / 25, 7 / 25⟩, ⟨0, 0, 1⟩⟩ := rfl
    simp only [vhOf, convertInput, if_neg (by decide : ¬ (Input.CARTESIAN = Input.RUSIN_VH)), if_true, this]
    rw [fromCartesian_eq _ _ (by norm_num)]
    rfl
  have hn : Cart.sumNorm ⟨⟨0, 24 / 25, 7 / 25⟩, ⟨0, 0, 1⟩⟩ = 8 / 5 := by
    simp only [Cart.sumNorm, Cart.sumX, Cart.sumY, Cart.sumZ]
    rw [Real.sqrt_eq_iff_mul_self_eq (by norm_num) (by norm_num)]
    norm_num
  rw [e, halfVector_pos _ (by rw [hn]; norm_num)]
  simp only [hn, Cart.sumX, Cart.sumY, Cart.sumZ]
  norm_num

/-- a Beckmann lobe where the Jacobian is wrong -/
example : ¬ (Fn.leaf beckmannCls ⟨⟨6, 1, .CARTESIAN, .INV_STERADIAN⟩, fun _ => 1, fun _ => 1 / 2⟩).IsJacobianAt
    [0, 24 / 25, 7 / 25, 0, 0, 1] :=
  beckmann_jacobian_wrong _ _ _ vhOf_example (by norm_num [arr]) (by norm_num [arr]) (by norm_num [arr]) 0
    (by norm_num) (by norm_num) (by norm_num) (by norm_num [arr])

/-- a Beckmann lobe where it is right -/
example : (Fn.leaf beckmannCls ⟨⟨6, 1, .CARTESIAN, .INV_STERADIAN⟩, fun _ => 1, fun _ => 1 / 2⟩).IsJacobianAt
    [0, 24 / 25, 7 / 25, 0, 0, -1 / 25] := by
  obtain ⟨h, hh⟩ : ∃ h, vhOf [0, 24 / 25, 7 / 25, 0, 0, -1 / 25] = some h := by
    have : Cart.ofFun (arr [0, 24 / 25, 7 / 25, 0, 0, -1 / 25]) = ⟨⟨0, 24 / 25, 7 / 25⟩, ⟨0, 0, -1 / 25⟩⟩ := rfl
    simp only [vhOf, convertInput, if_neg (by decide : ¬ (Input.CARTESIAN = Input.RUSIN_VH)), if_true, this]
    rw [fromCartesian_eq _ _ (by norm_num)]
    exact ⟨_, rfl⟩
  exact beckmann_jacobian_partial _ _ _ hh (fun _ _ => by norm_num) (Or.inr (Or.inr (by norm_num [arr])))

/-- a Ward lobe where the Jacobian is wrong -/
example : ¬ (Fn.leaf wardCls ⟨⟨6, 1, .CARTESIAN, .INV_STERADIAN⟩, fun _ => 1, fun _ => 1 / 2, fun _ => 1 / 3⟩).IsJacobianAt
    [0, 24 / 25, 7 / 25, 0, 0, 1] :=
  ward_jacobian_wrong _ _ _ vhOf_example (by norm_num [arr]) (by norm_num [arr]) (by norm_num [arr])
    (by norm_num [arr]) 0 (by norm_num) (by norm_num) (by norm_num) (by norm_num)

/-- an ABC lobe behind the surface, a shifted gamma lobe -/
example : ¬ (Fn.leaf abcCls ⟨⟨1, 1, .COS_TH, .INV_STERADIAN⟩, fun _ => 1, fun _ => 2, fun _ => 3⟩).IsJacobianAt [-1 / 2] :=
  abc_jacobian_outside _ _ (by norm_num [arr]) (by norm_num) (by norm_num [arr])

example : ¬ (Fn.leaf sgdCls ⟨⟨6, 1, .CARTESIAN, .INV_STERADIAN⟩, fun _ _ => 1⟩).IsJacobianAt [0, 0, 1, 0, 0, 1] :=
  sgd_jacobian_wrong _ _ (by norm_num [arr]) (by norm_num)

/-- a Schlick masking term -/
example : (Fn.leaf schlickMaskingCls ⟨⟨6, 2, .CARTESIAN, .INV_STERADIAN⟩, fun i => i + 1⟩).IsJacobianAt
    [0, 24 / 25, 7 / 25, 0, 0, 1] := by
  apply schlickMasking_jacobian
  · intro y _; norm_num [arr]
  · intro y _
    have : (0:ℝ) ≤ y := Nat.cast_nonneg y
    norm_num [arr]
    positivity

/-- a Smith term where the Jacobian is wrong -/
example : ¬ (Fn.leaf smithCls ⟨⟨6, 1, .CARTESIAN, .INV_STERADIAN⟩, fun _ => 1 / √2⟩).IsJacobianAt
    [0, 24 / 25, 7 / 25, 1, 0, 1] := by
  refine smith_jacobian_wrong _ _ (by norm_num [arr]) 0 (by norm_num) ?_
  norm_num [arr]

end
end Alta
