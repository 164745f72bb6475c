import Verif.Props.NonlinearFitCeres
import Verif.Props.LobeComposition
import Verif.Model.FunctionFile
/-
Property C57: the hypotheses hold for the lobes of the library, and examples.
-/
namespace Alta
noncomputable section

/-- The coordinates that an object of a plugin reads. -/
def LobeObj.coords : LobeObj → ℕ
  | .blinn _ | .retroblinn _ | .abc _ => 1
  | .diffuse _ => 0
  | .schlickFresnel s | .normalizedSchlick s | .retroSchlick s => (inputDim s.par.input).toNat
  | _ => 6

/-- Its parametrization has a name, for those that convert from it. -/
def LobeObj.NamedInput : LobeObj → Prop
  | .schlickFresnel s | .normalizedSchlick s | .retroSchlick s => s.par.input.Named
  | _ => True

theorem vhOf_reads (x y : List ℝ) (h : ∀ k < 6, arr x k = arr y k) : vhOf x = vhOf y :=
  convertInput_congr .CARTESIAN .RUSIN_VH (by unfold Input.Named; decide) _ _ fun k hk => h k hk

theorem dotVH_reads (i : Input) (hi : i.Named) (x y : List ℝ) (h : ∀ k < (inputDim i).toNat, arr x k = arr y k) :
    dotVH i x = dotVH i y := by
  unfold dotVH
  rw [convertInput_congr i .RUSIN_VH hi _ _ h, convertInput_congr i .CARTESIAN hi _ _ h]

theorem dotRK_reads (i : Input) (hi : i.Named) (x y : List ℝ) (h : ∀ k < (inputDim i).toNat, arr x k = arr y k) :
    dotRK i x = dotRK i y := by
  unfold dotRK
  rw [convertInput_congr i .SCHLICK_VK hi _ _ h, convertInput_congr i .CARTESIAN hi _ _ h]

theorem sgTurn_reads (f : ℝ → ℝ) (x y : List ℝ) (h : ∀ k < 6, arr x k = arr y k) : sgTurn f x = sgTurn f y := by
  unfold sgTurn
  rw [convertInput_congr .CARTESIAN .SPHERICAL_TL_PL_TV_PV (by unfold Input.Named; decide) _ _ fun k hk => h k hk]

theorem sgDot_reads (t : SgType) (a : ℝ) (x y : List ℝ) (h : ∀ k < 6, arr x k = arr y k) : sgDot t a x = sgDot t a y := by
  have h1 := convertInput_congr .CARTESIAN .COS_TH (by unfold Input.Named; decide) (arr x) (arr y) fun k hk => h k hk
  have h2 := convertInput_congr .CARTESIAN .COS_TK (by unfold Input.Named; decide) (arr x) (arr y) fun k hk => h k hk
  cases t <;> simp only [sgDot, h1, h2, sgTurn_reads _ x y h]

theorem retroDot_reads (b : Bool) (x y : List ℝ) (h : ∀ k < 6, arr x k = arr y k) : retroDot b x = retroDot b y := by
  unfold retroDot
  rw [convertInput_congr .CARTESIAN .SCHLICK_VK (by unfold Input.Named; decide) (arr x) (arr y) fun k hk => h k hk,
    h 0 (by omega), h 2 (by omega), h 3 (by omega), h 4 (by omega), h 5 (by omega)]

theorem walterVisible_reads (x y : List ℝ) (h : ∀ k < 6, arr x k = arr y k) : walterVisible x = walterVisible y := by
  unfold walterVisible
  rw [h 0 (by omega), h 1 (by omega), h 2 (by omega), h 3 (by omega), h 4 (by omega), h 5 (by omega)]

/-- Each lobe depends on its coordinates only. -/
theorem lobe_reads (l : LobeObj) (hl : l.NamedInput) (n : ℕ) (hn : l.coords ≤ n) : l.toFn.ReadsOnly n := by
  intro x y h
  have c : ∀ k, k < l.coords → arr x k = arr y k := fun k hk => h k (by omega)
  cases l with
  | blinn s => simp only [LobeObj.toFn, Fn.value, Fn.jac, blinnCls, c 0 (by simp [LobeObj.coords]), and_self]
  | retroblinn s => simp only [LobeObj.toFn, Fn.value, Fn.jac, retroblinnCls, c 0 (by simp [LobeObj.coords]), and_self]
  | abc s => simp only [LobeObj.toFn, Fn.value, Fn.jac, abcCls, c 0 (by simp [LobeObj.coords]), and_self]
  | diffuse s => exact ⟨rfl, rfl⟩
  | schlickFresnel s =>
    simp only [LobeObj.toFn, Fn.value, Fn.jac, schlickFresnelCls, dotVH_reads _ hl x y c, and_self]
  | normalizedSchlick s =>
    simp only [LobeObj.toFn, Fn.value, Fn.jac, normalizedSchlickCls, dotVH_reads _ hl x y c, and_self]
  | retroSchlick s =>
    simp only [LobeObj.toFn, Fn.value, Fn.jac, retroSchlickCls, dotRK_reads _ hl x y c, and_self]
  | beckmann s =>
    have c6 : ∀ k < 6, arr x k = arr y k := c
    simp only [LobeObj.toFn, Fn.value, Fn.jac, beckmannCls, vhOf_reads x y c6, c6 2 (by omega), c6 5 (by omega), and_self]
  | retrobeckmann s =>
    have c6 : ∀ k < 6, arr x k = arr y k := c
    simp only [LobeObj.toFn, Fn.value, Fn.jac, retrobeckmannCls, retroDot_reads _ x y c6, and_self]
  | ward s =>
    have c6 : ∀ k < 6, arr x k = arr y k := c
    simp only [LobeObj.toFn, Fn.value, Fn.jac, wardCls, vhOf_reads x y c6, c6 2 (by omega), c6 5 (by omega), and_self]
  | sg s =>
    have c6 : ∀ k < 6, arr x k = arr y k := c
    simp only [LobeObj.toFn, Fn.value, Fn.jac, sgCls, sgDot_reads _ _ x y c6, sgTurn_reads _ x y c6, and_self]
  | isoLafortune s =>
    have c6 : ∀ k < 6, arr x k = arr y k := c
    simp only [LobeObj.toFn, Fn.value, Fn.jac, isoLafortuneCls, c6 0 (by omega), c6 1 (by omega), c6 2 (by omega),
      c6 3 (by omega), c6 4 (by omega), c6 5 (by omega), and_self]
  | lafortune s =>
    have c6 : ∀ k < 6, arr x k = arr y k := c
    simp only [LobeObj.toFn, Fn.value, Fn.jac, lafortuneCls, c6 0 (by omega), c6 1 (by omega), c6 2 (by omega),
      c6 3 (by omega), c6 4 (by omega), c6 5 (by omega), and_self]
  | schlickMasking s =>
    have c6 : ∀ k < 6, arr x k = arr y k := c
    simp only [LobeObj.toFn, Fn.value, Fn.jac, schlickMaskingCls, c6 2 (by omega), c6 5 (by omega), and_self]
  | smith s =>
    have c6 : ∀ k < 6, arr x k = arr y k := c
    simp only [LobeObj.toFn, Fn.value, Fn.jac, smithCls, c6 2 (by omega),
      c6 3 (by omega), c6 4 (by omega), c6 5 (by omega), and_self]
  | walterSmith s =>
    have c6 : ∀ k < 6, arr x k = arr y k := c
    have e := walterVisible_reads x y c6
    by_cases hy : walterVisible y
    · have hx : walterVisible x := e.symm ▸ hy
      simp only [LobeObj.toFn, Fn.value, Fn.jac, walterSmithCls, hx, hy, c6 2 (by omega), c6 5 (by omega), and_self,
        true_and, if_true]
    · have hx : ¬ walterVisible x := e.symm ▸ hy
      simp only [LobeObj.toFn, Fn.value, Fn.jac, walterSmithCls, hx, hy, and_self, false_and, if_false]
  | sgd s =>
    have c6 : ∀ k < 6, arr x k = arr y k := c
    simp only [LobeObj.toFn, Fn.value, Fn.jac, sgdCls, c6 0 (by omega), c6 1 (by omega), c6 2 (by omega),
      c6 3 (by omega), c6 4 (by omega), c6 5 (by omega), and_self]

/-- A composition whose parts compute their Jacobian computes its own at the samples. -/
theorem jacobianAtSamples_of_leaves (f : Fn) (d : Data) (h : FitReady f d)
    (hl : ∀ row ∈ d.rows, f.LeafJacobians (d.pointFor f row)) : JacobianAtSamples f d := by
  intro row hr
  obtain ⟨x, h1, h2⟩ := h.points row hr
  have e : d.pointFor f row = x := by simp [Data.pointFor, h1]
  have := hl row hr
  rw [e] at this ⊢
  exact f.jacobian_correct h.wf x h2 this

/-! ### A Blinn lobe -/

/-- C57 for a Blinn lobe, samples of any parametrization that can be expressed with the cosine of the half
    angle, and any parameters: all the fitters have the right objective and derivatives. -/
theorem blinn_fit (s : BlinnS) (hs : s.par.input = .COS_TH ∧ s.par.dimX = 1) (d : Data) (hY : d.dimY = s.par.dimY)
    (hsize : ∀ row ∈ d.rows, row.length = d.dimX + d.dimY)
    (hconv : ∀ row ∈ d.rows, ∃ x, convertInput (arr row) d.input .COS_TH = some x) :
    FitReady (.leaf blinnCls s) d ∧ CeresReady (.leaf blinnCls s) d ∧
      ∀ p, JacobianAtSamples ((Fn.leaf blinnCls s).set p) d := by
  refine ⟨⟨blinn_lawful, hY.symm, hsize, ?_⟩, ⟨?_, ?_⟩, ?_⟩
  · intro row hr
    obtain ⟨x, hx⟩ := hconv row hr
    refine ⟨x, ?_, rfl⟩
    show convertInput (arr row) d.input s.par.input = some x
    rw [hs.1, hx]
  · intro p
    show (LobeObj.toFn (.blinn (blinnCls.set s p))).ReadsOnly s.par.dimX
    exact lobe_reads (.blinn _) trivial _ (by rw [hs.2]; simp [LobeObj.coords])
  · intro row hr
    obtain ⟨x, hx⟩ := hconv row hr
    have : d.pointFor (.leaf blinnCls s) row = x := by
      show (convertInput (arr row) d.input s.par.input).getD [] = x
      rw [hs.1, hx]; rfl
    rw [this]
    show x.length = s.par.dimX
    rw [hs.2]
    have := convertInput_length _ _ _ (by unfold Input.Named; decide) _ hx
    have e1 : inputDim .COS_TH = 1 := by decide
    omega
  · intro p row hr
    exact blinn_jacobian _ _

/-- A data set with two samples, in the parametrization of the lobe. -/
def blinnData : Data := ⟨1, 1, .COS_TH, .INV_STERADIAN, [[1 / 2, 3], [1, 5]]⟩

/-- The lobe `2 x^2`. -/
def blinnLobe : BlinnS := ⟨⟨1, 1, .COS_TH, .INV_STERADIAN⟩, fun _ => 2, fun _ => 2⟩

theorem blinnData_fit : FitReady (.leaf blinnCls blinnLobe) blinnData ∧ CeresReady (.leaf blinnCls blinnLobe) blinnData ∧
    ∀ p, JacobianAtSamples ((Fn.leaf blinnCls blinnLobe).set p) blinnData := by
  refine blinn_fit blinnLobe ⟨rfl, rfl⟩ blinnData rfl ?_ ?_
  · intro row hr
    simp only [blinnData, List.mem_cons, List.mem_nil_iff, or_false] at hr
    rcases hr with h | h <;> subst h <;> rfl
  · intro row _
    obtain ⟨o, h, -⟩ := convertInput_self (arr row) .COS_TH (by unfold Input.Named; decide)
    exact ⟨o, h⟩

/-- NLopt's objective for the parameters `[4, 1]`: `(3 - 2)² + (5 - 4)²`. -/
example : nloptF (.leaf blinnCls blinnLobe) blinnData [4, 1] false =
    some ((Fn.leaf blinnCls blinnLobe).set [4, 1], 2, none) := by
  rw [nlopt_objective _ _ blinnData_fit.1]
  have e : ∀ a b : ℝ, blinnData.pointFor ((Fn.leaf blinnCls blinnLobe).set [4, 1]) [a, b] = [a] := by
    intro a b
    show (convertInput (arr [a, b]) .COS_TH .COS_TH).getD [] = [a]
    simp [convertInput, (by decide : (inputDim .COS_TH).toNat = 1), List.range_succ, arr]
  have v : ∀ a : ℝ, 0 < a → ((Fn.leaf blinnCls blinnLobe).set [4, 1]).valueAt [a] 0 = 4 * a := by
    intro a ha
    simp [Fn.valueAt, Fn.set, Fn.value, blinnCls, blinnLobe, arr, ha, readInto, List.range_succ]
  have : sumSquaredErrors ((Fn.leaf blinnCls blinnLobe).set [4, 1]) blinnData = 2 := by
    have hr : blinnData.rows = [[1 / 2, 3], [1, 5]] := rfl
    have hy : blinnData.dimY = 1 := rfl
    have hx : blinnData.dimX = 1 := rfl
    simp only [sumSquaredErrors, hr, hy, List.map_cons, List.map_nil, Finset.sum_range_one, errorOf, hx, e]
    rw [v _ (by norm_num), v _ (by norm_num)]
    norm_num [arr]
  rw [this]

theorem maxDouble_large : (4 : ℝ) ≤ maxDouble := by
  unfold maxDouble
  have h : (2:ℝ) ^ 2 ≤ 2 ^ 1023 := pow_le_pow_right₀ (by norm_num) (by norm_num)
  generalize (2:ℝ) ^ 1023 = q at *
  norm_num at h ⊢
  linarith

theorem blinnLobe_bounds : WithinBounds (.leaf blinnCls blinnLobe) [4, 1] := by
  have h4 := maxDouble_large
  intro i hi
  have hn : (Fn.leaf blinnCls blinnLobe).nb = 2 := rfl
  rw [hn] at hi
  have hlo : (Fn.leaf blinnCls blinnLobe).lo = [-maxDouble, -maxDouble] := rfl
  have hhi : (Fn.leaf blinnCls blinnLobe).hi = [maxDouble, maxDouble] := rfl
  rw [hlo, hhi]
  have : i = 0 ∨ i = 1 := by omega
  rcases this with h | h <;> subst h <;> simp [arr] <;> constructor <;> linarith

/-- Eigen, Ceres and the gradients for this lobe and these samples. -/
example (J : ℕ × ℕ → ℝ) (y : ℕ → ℝ) :
    (∃ r, eigenEval (.leaf blinnCls blinnLobe) blinnData false [4, 1] y = some (0, (Fn.leaf blinnCls blinnLobe).set [4, 1], r)) ∧
    (∃ M, eigenDf (.leaf blinnCls blinnLobe) blinnData false [4, 1] J = some ((Fn.leaf blinnCls blinnLobe).set [4, 1], M)) ∧
    (∃ xi r dy, ceresSample (.leaf blinnCls blinnLobe) blinnData [1, 5] = some xi ∧
      ceresEvaluate (.leaf blinnCls blinnLobe) false xi [4, 1] true =
        some (some ((Fn.leaf blinnCls blinnLobe).set [4, 1], r, dy)) ∧ dy.length = 1 * 2) := by
  obtain ⟨h1, h2, h3⟩ := blinnData_fit
  have hc : CosineDefined blinnData false := fun h => by simp at h
  obtain ⟨r, r1, -⟩ := eigen_residuals _ _ h1 false hc [4, 1] blinnLobe_bounds y
  obtain ⟨M, m1, -⟩ := eigen_derivatives _ _ h1 false hc [4, 1] rfl (h3 _) J
  obtain ⟨xi, dy, c1, c2, c3, -⟩ := ceres_derivatives _ _ h1 h2 [1, 5] (by simp [blinnData]) [4, 1] rfl blinnLobe_bounds (h3 _)
  exact ⟨⟨r, r1⟩, ⟨M, m1⟩, ⟨xi, _, dy, c1, c2, c3⟩⟩

/-- A sum of two Blinn lobes. -/
def twoBlinn : Fn := .compound ⟨1, 1, .COS_TH, .INV_STERADIAN⟩
  (.cons false (.leaf blinnCls blinnLobe) (.cons false (.leaf blinnCls blinnLobe) .nil))

/-- The hypotheses hold for it. -/
example (p : List ℝ) : FitReady twoBlinn blinnData ∧ CeresReady twoBlinn blinnData ∧
    JacobianAtSamples (twoBlinn.set p) blinnData := by
  set f := twoBlinn with hfdef
  have hconv : ∀ row ∈ blinnData.rows, ∃ x, convertInput (arr row) blinnData.input .COS_TH = some x := by
    intro row _
    obtain ⟨o, h, -⟩ := convertInput_self (arr row) .COS_TH (by unfold Input.Named; decide)
    exact ⟨o, h⟩
  have hself : ∀ x : List ℝ, ∃ y, convertInput (arr x) .COS_TH .COS_TH = some y := fun x => by
    obtain ⟨o, h, -⟩ := convertInput_self (arr x) .COS_TH (by unfold Input.Named; decide)
    exact ⟨o, h⟩
  have hF : FitReady f blinnData := by
    refine ⟨⟨⟨blinn_lawful, rfl⟩, ⟨blinn_lawful, rfl⟩, trivial⟩, rfl, blinnData_fit.1.size, ?_⟩
    intro row hr
    obtain ⟨x, hx⟩ := hconv row hr
    obtain ⟨y, hy⟩ := hself x
    exact ⟨x, hx, ⟨y, hy, rfl⟩, ⟨y, hy, rfl⟩, trivial⟩
  have hleaf : ∀ row ∈ blinnData.rows, (f.set p).LeafJacobians (blinnData.pointFor (f.set p) row) := by
    intro row _
    exact ⟨fun _ _ => blinn_jacobian _ _, fun _ _ => blinn_jacobian _ _, trivial⟩
  refine ⟨hF, ⟨fun q => compound_reads _ _ (by unfold Input.Named; decide) _ (by decide), ?_⟩,
    jacobianAtSamples_of_leaves _ _ (hF.set p) hleaf⟩
  intro row hr
  exact blinnData_fit.2.1.dim row hr

/-- C57, limit: with `--log-fit`, a lobe and a sample for which the derivative given to Ceres is wrong. -/
theorem ceres_log_fit_example : ∃ (f : Fn) (d : Data) (row p xi dy : List ℝ), FitReady f d ∧ CeresReady f d ∧ row ∈ d.rows ∧
    p.length = f.nb ∧ WithinBounds f p ∧ JacobianAtSamples (f.set p) d ∧ ceresSample f d row = some xi ∧
    ceresEvaluate f true xi p true =
        some (some (f.set p, (List.range d.dimY).map (logErrorOf (f.set p) d row), dy)) ∧
    ¬ HasDerivAt (fun t => logErrorOf (f.set (p.set 0 t)) d row 0) (arr dy 0) (arr p 0) := by
  obtain ⟨h1, h2, h3⟩ := blinnData_fit
  have hr : ([1, 5] : List ℝ) ∈ blinnData.rows := by simp [blinnData]
  obtain ⟨xi, dy, e1, e2, e3⟩ := ceres_log_derivative_wrong _ _ h1 h2 [1, 5] hr [4, 1] rfl blinnLobe_bounds (h3 _)
  refine ⟨_, _, _, _, xi, dy, h1, h2, hr, rfl, blinnLobe_bounds, h3 _, e1, e2, ?_⟩
  have hx : blinnData.pointFor (Fn.leaf blinnCls blinnLobe) [1, 5] = [1] := by
    show (convertInput (arr [1, 5]) .COS_TH .COS_TH).getD [] = [1]
    simp [convertInput, (by decide : (inputDim .COS_TH).toNat = 1), List.range_succ, arr]
  have v : ∀ t : ℝ, ((Fn.leaf blinnCls blinnLobe).set (List.set [4, 1] 0 t)).valueAt [1] 0 = t := by
    intro t
    simp [Fn.valueAt, Fn.set, Fn.value, blinnCls, blinnLobe, arr, readInto, List.range_succ]
  have v4 : ((Fn.leaf blinnCls blinnLobe).set [4, 1]).valueAt [1] 0 = 4 := v 4
  have hd : arr ([1, 5] : List ℝ) (blinnData.dimX + 0) = 5 := rfl
  have := e3 0 (by decide) 0 (by decide) (by rw [hx, v4]; norm_num) (by rw [hd]; norm_num)
  simp only [zero_mul, zero_add, Nat.add_zero] at this
  rw [this, not_or]
  constructor
  · rw [hx, v4]
    have : arr ([1, 5] : List ℝ) blinnData.dimX = 5 := rfl
    rw [this]; norm_num
  · intro hz
    simp only [hx, v] at hz
    have := hz.unique (hasDerivAt_id _)
    norm_num at this

end
end Alta
