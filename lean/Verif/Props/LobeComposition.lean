import Verif.Props.Fresnel
import Verif.Props.LobesJac
import Verif.Props.FunctionJac
/-
C28-C31, C37, C38: the composition used in practice, a diffuse term plus a Blinn lobe times a
Fresnel factor, at every pair of directions.
-/
namespace Alta
noncomputable section

/-- `diffuse + blinn * fresnel`, as `fit2stat`/`data2brdf` build it. -/
def diffuseBlinnFresnel (d : DiffuseS) (b : BlinnS) (f : OneS) : Option Fn :=
  makeCompound [(false, .leaf diffuseCls d),
    (false, makeProduct (.leaf blinnCls b) (.leaf schlickFresnelCls f) false false)]

/-- the diffuse lobe has no parameter -/
theorem diffuse_jacobian (s : DiffuseS) (x : List ℝ) : (Fn.leaf diffuseCls s).IsJacobianAt x :=
  ⟨_, rfl, fun h => absurd h (by simp [Fn.nb, diffuseCls]), fun _ _ i hi => absurd hi (by simp [Fn.nb, diffuseCls])⟩

/-- C28-C31.  For any parameters and any pair of unit directions that are not opposite and whose
    half vector is in the upper hemisphere, the BRDF `diffuse + blinn * fresnel` is built, it has a
    value, a vector of three parameters per channel (those of the Blinn lobe, then those of the
    Fresnel factor) that is read back after it is set, and its Jacobian is the derivative of its
    value. -/
theorem diffuseBlinnFresnel_correct (d : DiffuseS) (b : BlinnS) (f : OneS) (n : ℕ)
    (hd : d.par = ⟨6, n, .CARTESIAN, .RGB_COLOR⟩) (hb : b.par = ⟨1, n, .COS_TH, .RGB_COLOR⟩)
    (hf : f.par = ⟨6, n, .CARTESIAN, .RGB_COLOR⟩) (c : Cart) (hc : c.IsUnit) (hz : 0 ≤ c.v.z + c.l.z)
    (hs : 0 < c.sumNorm) :
    ∃ F, diffuseBlinnFresnel d b f = some F ∧ F.par = ⟨6, n, .CARTESIAN, .RGB_COLOR⟩ ∧ F.nb = 3 * n ∧
      (∀ v, v.length = 3 * n → (F.set v).get = v) ∧
      (∃ w, F.value c.toList = some w ∧ w.length = n) ∧ F.IsJacobianAt c.toList := by
  obtain ⟨dp, dk, dj⟩ := d
  cases hd
  obtain ⟨bp, bk, bn⟩ := b
  cases hb
  obtain ⟨fp, fr⟩ := f
  cases hf
  obtain ⟨δ, hδ, _⟩ := dotVH_cartesian c hc hz hs
  set D : DiffuseS := ⟨⟨6, n, .CARTESIAN, .RGB_COLOR⟩, dk, dj⟩
  set B : BlinnS := ⟨⟨1, n, .COS_TH, .RGB_COLOR⟩, bk, bn⟩
  set R : OneS := ⟨⟨6, n, .CARTESIAN, .RGB_COLOR⟩, fr⟩
  set P : Fn := .product ⟨6, n, .CARTESIAN, .RGB_COLOR⟩ (.leaf blinnCls B) (.leaf schlickFresnelCls R) false false
  set F : Fn := .compound ⟨6, n, .CARTESIAN, .RGB_COLOR⟩
    (.cons false (.leaf diffuseCls D) (.cons false P .nil)) with hF
  have hWF : F.WF := ⟨⟨diffuse_lawful, rfl⟩, ⟨⟨blinn_lawful, schlickFresnel_lawful, rfl, rfl⟩, rfl⟩, trivial⟩
  have hself : ∀ x : List ℝ, convertInput (arr x) .CARTESIAN .CARTESIAN = some (Cart.ofFun (arr x)).toList := by
    intro x; rfl
  have hcart : convertInput (arr c.toList) .CARTESIAN .CARTESIAN = some c.toList := rfl
  obtain ⟨z, hz'⟩ : ∃ z, convertInput (arr c.toList) .CARTESIAN .COS_TH = some z := by
    have : Cart.ofFun (arr c.toList) = c := rfl
    simp only [convertInput, if_neg (by decide : ¬ (Input.CARTESIAN = Input.COS_TH)), if_true, this,
      fromCartesian_eq c _ hz]
    exact ⟨_, rfl⟩
  have hfres : (Fn.leaf schlickFresnelCls R).DefAt c.toList := by
    simp [Fn.DefAt, schlickFresnelCls, R, hδ]
  have hPd : P.DefAt c.toList := ⟨⟨z, hz', rfl⟩, ⟨c.toList, hcart, hfres⟩⟩
  have hFd : F.DefAt c.toList := ⟨⟨c.toList, hcart, rfl⟩, ⟨c.toList, hcart, hPd⟩, trivial⟩
  have hnb : F.nb = 3 * n := by
    show 0 + ((2 * n + n) + 0) = 3 * n
    omega
  refine ⟨F, ?_, rfl, hnb, ?_, ?_, ?_⟩
  · rfl
  · intro v hv
    have := (parameters_round_trip F hWF)
    rw [← hnb] at hv
    have h2 := Fn.params_set F hWF v hv
    rwa [composition_params _ (Fn.set_WF _ hWF v) (by intro σ c s; simp [hF, Fn.set])] at h2
  · obtain ⟨w, h1, h2⟩ := Fn.value_def F hWF _ hFd
    exact ⟨w, h1, h2⟩
  · apply Fn.jacobian_correct F hWF _ hFd
    refine ⟨fun xf _ => diffuse_jacobian _ _, ?_, trivial⟩
    intro xf hxf
    have hxf' : xf = c.toList := by
      have : some c.toList = some xf := hxf
      simpa using this.symm
    subst hxf'
    refine ⟨fun xg _ => blinn_jacobian _ _, fun xg hxg => ?_⟩
    have hxg' : xg = c.toList := by
      have : some c.toList = some xg := hxg
      simpa using this.symm
    subst hxg'
    exact schlickFresnel_jacobian R _ δ hδ

/-- a white diffuse term with a red Blinn lobe -/
example : ∃ F, diffuseBlinnFresnel ⟨⟨6, 3, .CARTESIAN, .RGB_COLOR⟩, fun _ => 1, 0⟩
    ⟨⟨1, 3, .COS_TH, .RGB_COLOR⟩, fun i => if i = 0 then 1 else 0, fun _ => 20⟩
    ⟨⟨6, 3, .CARTESIAN, .RGB_COLOR⟩, fun _ => 1 / 2⟩ = some F ∧
    F.IsJacobianAt (Cart.mk ⟨0.6, 0, 0.8⟩ ⟨-0.6, 0, 0.8⟩).toList := by
  obtain ⟨F, h1, _, _, _, _, h⟩ := diffuseBlinnFresnel_correct ⟨⟨6, 3, .CARTESIAN, .RGB_COLOR⟩, fun _ => 1, 0⟩
    ⟨⟨1, 3, .COS_TH, .RGB_COLOR⟩, fun i => if i = 0 then 1 else 0, fun _ => 20⟩
    ⟨⟨6, 3, .CARTESIAN, .RGB_COLOR⟩, fun _ => 1 / 2⟩ 3 rfl rfl rfl (Cart.mk ⟨0.6, 0, 0.8⟩ ⟨-0.6, 0, 0.8⟩)
    (by constructor <;> norm_num [V3.IsUnit]) (by norm_num)
    (by unfold Cart.sumNorm; apply Real.sqrt_pos.mpr; norm_num [Cart.sumX, Cart.sumY, Cart.sumZ])
  exact ⟨F, h1, h⟩

end
end Alta
