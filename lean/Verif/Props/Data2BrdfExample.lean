import Verif.Props.Data2BrdfFile
import Verif.Props.BootstrapExamples
/-
C69: a run of `data2brdf`.
-/
namespace Alta
noncomputable section

/-- `--func d.so` -/
def diffuseArgs : SMap := [(kFunc, ['d', '.', 's', 'o'])]

theorem diffuse_distance (kd : ℕ → ℝ) (j : ℝ) (h0 : kd 0 = 1) :
    l2Distance (FT.leaf (.diffuse ⟨bootPar, kd, j⟩)).toFn.evaluable bootData = some (Real.sqrt 2) ∧
    ∃ r, linfDistance (FT.leaf (.diffuse ⟨bootPar, kd, j⟩)).toFn.evaluable bootData = some r := by
  have hv : ∀ x, (FT.leaf (.diffuse ⟨bootPar, kd, j⟩)).toFn.evaluable.value x = some [1] := by
    intro x
    show some ((List.range 1).map kd) = _
    simp [h0]
  have habs : ∀ row, (FT.leaf (.diffuse ⟨bootPar, kd, j⟩)).toFn.evaluable.abscissa bootData row =
      some ((List.range 6).map (arr row)) := by
    intro row
    have h6 : (inputDim .CARTESIAN).toNat = 6 := by decide +kernel
    have : convertInput (arr row) .CARTESIAN .CARTESIAN = some ((List.range 6).map (arr row)) := by
      simp only [convertInput, if_true, h6]
    show (if Input.CARTESIAN = .UNKNOWN_INPUT then _ else convertInput (arr row) .CARTESIAN .CARTESIAN) = _
    rw [if_neg (by decide), this]
  have hready : DistanceReady (FT.leaf (.diffuse ⟨bootPar, kd, j⟩)).toFn.evaluable bootData := by
    refine ⟨rfl, ?_, ?_⟩
    · intro row hr
      simp only [bootData, List.mem_cons, List.mem_nil_iff, or_false] at hr
      rcases hr with rfl | rfl <;> rfl
    · intro row _
      exact ⟨_, [1], habs row, by simp; rfl, hv _, rfl⟩
  constructor
  · rw [l2_distance _ _ hready (by simp [bootData])]
    congr 2
    have he : ∀ row, (FT.leaf (.diffuse ⟨bootPar, kd, j⟩)).toFn.evaluable.error bootData row 0 = arr row 6 - 1 := by
      intro row
      unfold Evaluable.error
      rw [habs, Option.bind_some, hv]
      rfl
    have hY : bootData.dimY = 1 := rfl
    simp only [meanOver, hY, Finset.sum_range_one, he]
    simp [bootData, arr]
    norm_num
  · obtain ⟨r, mean, var, h, -⟩ := linf_distance _ _ hready
    exact ⟨_, h⟩

theorem exampleFmt_nonneg : PrintsNonneg exampleFmt := by
  intro x _
  unfold exampleFmt
  split_ifs <;> exact ⟨rfl, by simp⟩

theorem diffuse_boot (files : Str → Option Str) :
    ∃ kd : ℕ → ℝ, kd 0 = 1 ∧ (FT.leaf (.diffuse ⟨bootPar, fun _ => 0, 0⟩)).bootstrap files bootData diffuseArgs =
      some (.leaf (.diffuse ⟨bootPar, kd, 0⟩)) := by
  refine ⟨bootData.rows.foldl (fun kd row => minInto bootData.dimY (fun j => arr row (bootData.dimX + j)) kd)
        (fillTo bootData.dimY maxDouble (fun _ => 0)), ?_, rfl⟩
  have h4 := maxDouble_large
  simp [bootData, minInto, fillTo, arr]
  linarith

/-- The fit of the diffuse plugin to the two samples 3 and 1, with Eigen: the function is the constant 1, the command
    prints the distance √2 and the file gives the function back. -/
example (files : Str → Option Str) (es : EigenSolver) :
    ∃ r, data2brdf ['/', 'l'] none fsAlta (eigenFit files es) exampleFmt exampleFmt diffuseArgs bootData =
        some (0, some r) ∧ r.l2 = Real.sqrt 2 ∧ r.GivesBack exampleFmt ['/', 'l'] none fsAlta bootData := by
  obtain ⟨kd, hkd, hb⟩ := diffuse_boot files
  have hg : getFunction ['/', 'l'] none fsAlta LobeObj.par diffuseArgs bootData.par =
      some (.nonlinear (.leaf (.diffuse ⟨bootPar, fun _ => 0, 0⟩))) :=
    getFunction_leaf ['/', 'l'] none fsAlta LobeObj.par diffuseArgs bootData.par ['d', '.', 's', 'o'] rfl (by decide)
      (by decide +kernel) _ (by unfold leafOf; rw [lib_d]; rfl)
  have hc : checkCompatibility diffuseArgs bootData (.leaf (.diffuse ⟨bootPar, fun _ => 0, 0⟩)) =
      some (.leaf (.diffuse ⟨bootPar, fun _ => 0, 0⟩), bootData) := by
    have h1 : (FT.par LobeObj.par (.leaf (.diffuse ⟨bootPar, fun _ => 0, 0⟩))) = bootPar := rfl
    have h2 : ¬ (bootPar.input = .UNKNOWN_INPUT) := by decide
    have h3 : ¬ (bootData.input ≠ bootPar.input) := by simp [bootData, bootPar]
    have h4 : bootPar.dimY = bootData.dimY := rfl
    simp only [checkCompatibility, h1, h2, h3, h4, false_and, and_false, if_false, Option.bind_some, if_true]
  have hf : eigenFit files es bootData diffuseArgs (.leaf (.diffuse ⟨bootPar, fun _ => 0, 0⟩)) =
      some (true, .leaf (.diffuse ⟨bootPar, kd, 0⟩)) := by
    unfold eigenFit
    rw [hb]
    rfl
  obtain ⟨h1, ri, h2⟩ := diffuse_distance kd 0 hkd
  have hrun : ∃ r, data2brdf ['/', 'l'] none fsAlta (eigenFit files es) exampleFmt exampleFmt diffuseArgs bootData =
      some (0, some r) ∧ r.l2 = Real.sqrt 2 := by
    unfold data2brdf
    rw [hg]
    simp only [Option.bind_some, hc, hf, h1, h2, Option.map_some, if_true]
    rw [if_neg (by simp [bootData])]
    exact ⟨_, rfl, rfl⟩
  obtain ⟨r, hr, h3⟩ := hrun
  refine ⟨r, hr, h3, ?_⟩
  obtain ⟨l, e1, -, e3, e4⟩ := data2brdf_plugin files _ (.eigen es) exampleFmt exampleFmt exampleFmt_nonneg exampleFmt_digits
    ['/', 'l'] none fsAlta diffuseArgs (by simp [SMap.Ordered, diffuseArgs])
    (by intro e he; rw [List.mem_singleton.1 he]
        exact ⟨⟨by decide, by decide⟩, .word _ ⟨by decide, by decide⟩ (by intro r h; cases h) (by rintro ⟨r, h⟩; cases h)⟩)
    ['d', '.', 's', 'o'] rfl (by decide) (by decide +kernel) _ .diffuse lib_d ⟨rfl, fun p => ⟨rfl, rfl⟩⟩ bootData
    (by unfold Input.Named; decide) r hr
  apply e4
  have : l = .diffuse ⟨bootPar, kd, 0⟩ := by
    have e3' : eigenFit files es bootData diffuseArgs (.leaf (.diffuse ⟨bootPar, fun _ => 0, 0⟩)) = some (true, .leaf l) := e3
    rw [hf] at e3'
    cases e3'
    rfl
  rw [this]
  trivial

end
end Alta
