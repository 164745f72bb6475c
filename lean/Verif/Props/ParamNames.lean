import Verif.Model.ParamNames
/-
Properties C01, C02: names of parametrizations.
-/
namespace Alta

/-- Specification: the identifier of each enumerator in the source. -/
def Input.spelling : Input → String
  | .RUSIN_TH_PH_TD_PD => "RUSIN_TH_PH_TD_PD"
  | .RUSIN_TH_PH_TD => "RUSIN_TH_PH_TD"
  | .RUSIN_TH_TD_PD => "RUSIN_TH_TD_PD"
  | .RUSIN_TH_TD => "RUSIN_TH_TD"
  | .RUSIN_VH_VD => "RUSIN_VH_VD"
  | .RUSIN_VH => "RUSIN_VH"
  | .COS_TH_TD => "COS_TH_TD"
  | .COS_TH => "COS_TH"
  | .SCHLICK_TK_PK => "SCHLICK_TK_PK"
  | .SCHLICK_VK => "SCHLICK_VK"
  | .SCHLICK_TL_TK_PROJ_DPHI => "SCHLICK_TL_TK_PROJ_DPHI"
  | .COS_TK => "COS_TK"
  | .RETRO_TL_TVL_PROJ_DPHI => "RETRO_TL_TVL_PROJ_DPHI"
  | .STEREOGRAPHIC => "STEREOGRAPHIC"
  | .SPHERICAL_TL_PL_TV_PV => "SPHERICAL_TL_PL_TV_PV"
  | .COS_TLV => "COS_TLV"
  | .COS_TLR => "COS_TLR"
  | .ISOTROPIC_TV_TL => "ISOTROPIC_TV_TL"
  | .ISOTROPIC_TV_TL_DPHI => "ISOTROPIC_TV_TL_DPHI"
  | .ISOTROPIC_TV_PROJ_DPHI => "ISOTROPIC_TV_PROJ_DPHI"
  | .ISOTROPIC_TL_TV_PROJ_DPHI => "ISOTROPIC_TL_TV_PROJ_DPHI"
  | .ISOTROPIC_TD_PD => "ISOTROPIC_TD_PD"
  | .STARK_2D => "STARK_2D"
  | .STARK_3D => "STARK_3D"
  | .NEUMANN_2D => "NEUMANN_2D"
  | .NEUMANN_3D => "NEUMANN_3D"
  | .CARTESIAN => "CARTESIAN"
  | .UNKNOWN_INPUT => "UNKNOWN_INPUT"

/-- Specification: the enumerators that the library registers under a name. -/
def Input.Named (p : Input) : Prop :=
  p ≠ .RUSIN_TH_PH_TD ∧ p ≠ .RUSIN_VH_VD ∧ p ≠ .SCHLICK_TK_PK ∧
  p ≠ .ISOTROPIC_TV_TL ∧ p ≠ .ISOTROPIC_TD_PD ∧ p ≠ .UNKNOWN_INPUT

instance (p : Input) : Decidable p.Named := by unfold Input.Named; infer_instance

/-- C01: a registered parametrization is recovered from its printed name. -/
theorem parseInput_inputName (p : Input) (h : p.Named) : parseInput (inputName p) = p := by
  revert h; cases p <;> simp [Input.Named] <;> decide +kernel

example : Input.SCHLICK_VK.Named ∧ Input.CARTESIAN.Named := by decide

/-- C01: the names in use are the enumerators' identifiers, but for
    `SCHLICK_VK`, which is called "SCHLICK_VH". -/
theorem inputName_spelling (p : Input) (h : p.Named) :
    inputName p = if p = .SCHLICK_VK then "SCHLICK_VH" else p.spelling := by
  revert h; cases p <;> simp [Input.Named] <;> decide +kernel

/-- The 22 entries of the table in iteration order (helper). -/
theorem inputMap_eq : inputMap =
  [ (.RUSIN_TH_PH_TD_PD, "RUSIN_TH_PH_TD_PD", 4), (.RUSIN_TH_TD_PD, "RUSIN_TH_TD_PD", 3),
    (.RUSIN_TH_TD, "RUSIN_TH_TD", 2), (.RUSIN_VH, "RUSIN_VH", 3), (.COS_TH_TD, "COS_TH_TD", 2),
    (.COS_TH, "COS_TH", 1), (.SCHLICK_VK, "SCHLICK_VH", 3),
    (.SCHLICK_TL_TK_PROJ_DPHI, "SCHLICK_TL_TK_PROJ_DPHI", 3), (.COS_TK, "COS_TK", 1),
    (.RETRO_TL_TVL_PROJ_DPHI, "RETRO_TL_TVL_PROJ_DPHI", 3), (.STEREOGRAPHIC, "STEREOGRAPHIC", 4),
    (.SPHERICAL_TL_PL_TV_PV, "SPHERICAL_TL_PL_TV_PV", 4), (.COS_TLV, "COS_TLV", 1),
    (.COS_TLR, "COS_TLR", 1), (.ISOTROPIC_TV_TL_DPHI, "ISOTROPIC_TV_TL_DPHI", 3),
    (.ISOTROPIC_TV_PROJ_DPHI, "ISOTROPIC_TV_PROJ_DPHI", 2),
    (.ISOTROPIC_TL_TV_PROJ_DPHI, "ISOTROPIC_TL_TV_PROJ_DPHI", 3), (.STARK_2D, "STARK_2D", 2),
    (.STARK_3D, "STARK_3D", 3), (.NEUMANN_2D, "NEUMANN_2D", 2), (.NEUMANN_3D, "NEUMANN_3D", 3),
    (.CARTESIAN, "CARTESIAN", 6) ] := by decide +kernel

/-- C01: whatever the string, a successful parse returns the registered
    parametrization that carries exactly that name. -/
theorem parseInput_sound (s : String) (p : Input) (h : parseInput s = p)
    (hp : p ≠ .UNKNOWN_INPUT) : p.Named ∧ s = inputName p := by
  unfold parseInput at h
  split at h
  · rename_i e he
    have hm := List.mem_of_find?_eq_some he
    have hs := List.find?_some he
    simp only [beq_iff_eq] at hs
    subst hs h
    have key : ∀ e ∈ inputMap, e.1.Named ∧ e.2.1 = inputName e.1 := by
      rw [inputMap_eq]; decide +kernel
    exact key e hm
  · exact absurd h.symm hp

/-- C01: a string that is the name of no parametrization is reported unknown. -/
theorem parseInput_unknown (s : String) (h : ∀ p : Input, p.Named → s ≠ inputName p) :
    parseInput s = .UNKNOWN_INPUT := by
  refine Decidable.byContradiction fun hne => ?_
  obtain ⟨h1, h2⟩ := parseInput_sound s _ rfl hne
  exact h _ h1 h2

example : ∀ p : Input, p.Named → "rusin_th_td" ≠ inputName p := by
  intro p; cases p <;> decide +kernel

/-- C01: two registered parametrizations never share a name. -/
theorem inputName_injective (p q : Input) (hp : p.Named) (hq : q.Named)
    (h : inputName p = inputName q) : p = q := by
  rw [← parseInput_inputName p hp, ← parseInput_inputName q hq, h]

/-- C01, limit of the code: the enumerators left out of the table print as
    "UNKNOWN_INPUT" and can not be parsed back. -/
theorem inputName_unregistered (p : Input) (h : ¬ p.Named) :
    inputName p = "UNKNOWN_INPUT" ∧ parseInput p.spelling = .UNKNOWN_INPUT ∧ inputDim p = -1 := by
  revert h; cases p <;> simp [Input.Named] <;> decide +kernel

example : ¬ Input.RUSIN_TH_PH_TD.Named := by decide

/-- C02: an output parametrization is recovered from its printed name. -/
theorem parseOutput_outputName (o : Output) : parseOutput (outputName o) = o := by
  cases o <;> decide +kernel

/-- C02: a successful parse returns the parametrization carrying that name. -/
theorem parseOutput_sound (s : String) (o : Output) (h : parseOutput s = o)
    (ho : o ≠ .UNKNOWN_OUTPUT) : s = outputName o := by
  unfold parseOutput at h
  subst h
  repeat' split at ho
  all_goals first | (rename_i h; simp only [beq_iff_eq] at h; subst h; decide +kernel) | simp_all

/-- C02: any other string is reported unknown. -/
theorem parseOutput_unknown (s : String) (h : ∀ o : Output, s ≠ outputName o) :
    parseOutput s = .UNKNOWN_OUTPUT := by
  refine Decidable.byContradiction fun hne => ?_
  exact h _ (parseOutput_sound s _ rfl hne)

example : ∀ o : Output, "rgb" ≠ outputName o := by intro o; cases o <;> decide +kernel

/-- C02: output names are distinct. -/
theorem outputName_injective (p q : Output) (h : outputName p = outputName q) : p = q := by
  rw [← parseOutput_outputName p, ← parseOutput_outputName q, h]

end Alta
