import Verif.Props.NonlinearFitEigen
import Verif.Props.GeomConvert
import Verif.Proofs.Lobe
import Verif.Props.RationalFile
import Mathlib.Analysis.SpecialFunctions.Log.Deriv
/-
Property C57, the Ceres fitter: residuals and derivatives of a sample.
-/
namespace Alta
noncomputable section

/-! ### Functions that read their coordinates only -/

theorem Fns.value_reads : ∀ (fs : Fns) (input : Input) (x y r : List ℝ),
    (∀ b, convertInput (arr x) input b = convertInput (arr y) input b) →
    fs.valueLoop input x r = fs.valueLoop input y r
  | .nil, _, _, _, _, _ => rfl
  | .cons fx f rest, input, x, y, r, h => by
    have := fun r' => Fns.value_reads rest input x y r' h
    simp only [Fns.valueLoop, h, this]

theorem Fns.jac_reads : ∀ (fs : Fns) (input : Input) (dimY nbP : ℕ) (x y : List ℝ) (st : ℕ) (j : ℕ → ℝ),
    (∀ b, convertInput (arr x) input b = convertInput (arr y) input b) →
    fs.jacLoop input dimY nbP x st j = fs.jacLoop input dimY nbP y st j
  | .nil, _, _, _, _, _, _, _, _ => rfl
  | .cons fx f rest, input, dimY, nbP, x, y, st, j, h => by
    have := fun st' j' => Fns.jac_reads rest input dimY nbP x y st' j' h
    simp only [Fns.jacLoop, h, this]

/-- A compound depends on its coordinates only, whatever its members. -/
theorem compound_reads (q : Par) (fs : Fns) (hq : q.input.Named) (n : ℕ) (hn : (inputDim q.input).toNat ≤ n) :
    (Fn.compound q fs).ReadsOnly n := by
  intro x y h
  have hc : ∀ b, convertInput (arr x) q.input b = convertInput (arr y) q.input b := fun b =>
    convertInput_congr q.input b hq _ _ fun k hk => h k (by omega)
  constructor
  · simp only [Fn.value]; exact Fns.value_reads fs _ x y _ hc
  · simp only [Fn.jac, Fns.jac_reads fs _ _ _ x y _ _ hc]

/-- So does a product. -/
theorem product_reads (q : Par) (f g : Fn) (a b : Bool) (hq : q.input.Named) (n : ℕ)
    (hn : (inputDim q.input).toNat ≤ n) : (Fn.product q f g a b).ReadsOnly n := by
  intro x y h
  have hc : ∀ b, convertInput (arr x) q.input b = convertInput (arr y) q.input b := fun b =>
    convertInput_congr q.input b hq _ _ fun k hk => h k (by omega)
  constructor
  · simp only [Fn.value, hc]
  · simp only [Fn.jac, hc]

/-! ### A sample of the Ceres fitter -/

theorem arr_append_left (a b : List ℝ) (k : ℕ) (h : k < a.length) : arr (a ++ b) k = arr a k := by
  unfold arr; simp only [List.getD]; rw [List.getElem?_append_left h]

theorem arr_append_add (a b : List ℝ) (k : ℕ) : arr (a ++ b) (a.length + k) = arr b k := by
  unfold arr; simp only [List.getD]; rw [List.getElem?_append_right (by omega)]; simp

/-- The sample that is given to Ceres: the abscissa in the parametrization of the function, and the values. -/
theorem ceresSample_spec {f : Fn} {d : Data} (h : FitReady f d) (hr : CeresReady f d) (row : List ℝ) (hrow : row ∈ d.rows) :
    ceresSample f d row =
      some (d.pointFor f row ++ (List.range d.dimY).map fun i => arr row (d.dimX + i)) := by
  obtain ⟨x, v, h1, h2, h3, h4, h5, h6⟩ := h.sample row hrow
  have hl := hr.dim row hrow
  unfold ceresSample
  rw [h1, Option.bind_some, h.channels, h4, Option.map_some, ← h5, ← hl]
  congr 2
  exact range_map_arr _

theorem ceresRead {f : Fn} {d : Data} (hr : CeresReady f d) (p row t : List ℝ) (hrow : row ∈ d.rows) :
    (f.set p).value (d.pointFor f row ++ t) = (f.set p).value (d.pointFor f row) ∧
      (f.set p).jac (d.pointFor f row ++ t) = (f.set p).jac (d.pointFor f row) :=
  hr.reads p _ _ fun k hk => arr_append_left _ _ _ (by rw [hr.dim row hrow]; exact hk)

/-- What is computed for a sample, with the derivatives. -/
theorem ceres_evaluate {f : Fn} {d : Data} (h : FitReady f d) (hr : CeresReady f d) (logFit : Bool)
    (row : List ℝ) (hrow : row ∈ d.rows) (p : List ℝ) (hp : WithinBounds f p) :
    ∃ xi v, ceresSample f d row = some xi ∧ v.length = d.dimY ∧
      (∀ i, arr v i = (f.set p).valueAt (d.pointFor f row) i) ∧
      ceresEvaluate f logFit xi p false = some (some (f.set p, (List.range d.dimY).map
        (ceresResidual logFit ((List.range d.dimY).map fun i => arr row (d.dimX + i)) v), [])) ∧
      ((f.set p).IsJacobianAt (d.pointFor (f.set p) row) →
        ceresEvaluate f logFit xi p true = some (some (f.set p, (List.range d.dimY).map
          (ceresResidual logFit ((List.range d.dimY).map fun i => arr row (d.dimX + i)) v),
          (List.range d.dimY).flatMap fun i => (List.range f.nb).map fun j =>
            ceresDerivative logFit f.nb ((List.range d.dimY).map fun i => arr row (d.dimX + i))
              (((f.set p).jac (d.pointFor (f.set p) row)).getD []) i j))) := by
  set di : List ℝ := (List.range d.dimY).map fun i => arr row (d.dimX + i) with hdi
  obtain ⟨x, v, h1, h2, h3, h4, h5, h6⟩ := (h.set p).sample row hrow
  rw [pointFor_set h] at h5 h6
  have hl := hr.dim row hrow
  obtain ⟨r1, r2⟩ := ceresRead hr p row di hrow
  have hread : readValues (d.pointFor f row ++ di) f.par.dimX f.par.dimY = some di := by
    unfold readValues
    rw [if_pos (by rw [List.length_append, hl, h.channels, hdi]; simp), h.channels]
    congr 1
    conv_rhs => rw [hdi]
    refine List.map_congr_left fun i hi => ?_
    rw [← hl, arr_append_add, hdi, arr_map_range _ _ _ (List.mem_range.mp hi)]
  obtain ⟨e, e1, -, -⟩ := vecSub_spec di v d.dimY (by simp [hdi]) h3
  refine ⟨_, v, ceresSample_spec h hr row hrow, h3, fun i => (h6 i).symm, ?_, ?_⟩
  · unfold ceresEvaluate
    rw [(FitReady.within p).mpr hp, if_neg (by decide), ← hdi, hread, Option.bind_some, r1, h5, h2, Option.bind_some, e1,
      Option.bind_some, if_neg (by decide), Option.map_some, h.channels]
  · intro hj
    obtain ⟨jac, j1, j2⟩ := readJacobian_spec row hj
    have hrj : readJacobian (f.set p) (d.pointFor f row ++ di) = some jac := by
      rw [pointFor_set h] at j2
      unfold readJacobian at j2 ⊢
      rw [r2, j2]
    rw [h5] at hrj
    unfold ceresEvaluate
    rw [(FitReady.within p).mpr hp, if_neg (by decide), ← hdi, hread, Option.bind_some, r1, h5, h2, Option.bind_some, e1,
      Option.bind_some, if_pos rfl, hrj, Option.map_some, Option.map_some, h.channels, j1, Option.getD_some]

/-- C57, Ceres: the residuals of a sample are the differences. -/
theorem ceres_residuals (f : Fn) (d : Data) (h : FitReady f d) (hr : CeresReady f d)
    (row : List ℝ) (hrow : row ∈ d.rows) (p : List ℝ) (hp : WithinBounds f p) :
    ∃ xi, ceresSample f d row = some xi ∧
      ceresEvaluate f false xi p false =
        some (some (f.set p, (List.range d.dimY).map (errorOf (f.set p) d row), [])) := by
  obtain ⟨xi, v, h1, h2, h3, h4, -⟩ := ceres_evaluate h hr false row hrow p hp
  refine ⟨xi, h1, h4.trans ?_⟩
  congr 4
  refine List.map_congr_left fun i hi => ?_
  rw [List.mem_range] at hi
  simp only [ceresResidual, errorOf, pointFor_set h, ← h3, arr_map_range _ _ _ hi]
  simp

/-- C57, Ceres with `--log-fit`: the residuals are the differences of the logarithms. -/
theorem ceres_log_residuals (f : Fn) (d : Data) (h : FitReady f d) (hr : CeresReady f d)
    (row : List ℝ) (hrow : row ∈ d.rows) (p : List ℝ) (hp : WithinBounds f p) :
    ∃ xi, ceresSample f d row = some xi ∧
      ceresEvaluate f true xi p false =
        some (some (f.set p, (List.range d.dimY).map (logErrorOf (f.set p) d row), [])) := by
  obtain ⟨xi, v, h1, h2, h3, h4, -⟩ := ceres_evaluate h hr true row hrow p hp
  refine ⟨xi, h1, h4.trans ?_⟩
  congr 4
  refine List.map_congr_left fun i hi => ?_
  rw [List.mem_range] at hi
  simp only [ceresResidual, logErrorOf, pointFor_set h, ← h3, arr_map_range _ _ _ hi]
  simp

/-- C57, Ceres: parameters out of the bounds are refused. -/
theorem ceres_out_of_bounds (f : Fn) (logFit : Bool) (xi p : List ℝ) (hp : ¬ WithinBounds f p) (grad : Bool) :
    ceresEvaluate f logFit xi p grad = some none := by
  unfold ceresEvaluate
  rw [if_pos]
  cases h : outOfBounds f p with
  | true => rfl
  | false => exact absurd ((FitReady.within p).mp h) hp

theorem arr_grid (n m : ℕ) (g : ℕ → ℕ → ℝ) (i j : ℕ) (hi : i < n) (hj : j < m) :
    arr ((List.range n).flatMap fun i => (List.range m).map fun j => g i j) (i * m + j) = g i j := by
  have := arr_blocks n m (fun i => (List.range m).map fun j => g i j) (by intros; simp) i j hi hj
  unfold blocks at this
  rw [this, arr_map_range _ _ _ hj]

/-- C57, Ceres: the derivatives of the residuals of a sample. -/
theorem ceres_derivatives (f : Fn) (d : Data) (h : FitReady f d) (hr : CeresReady f d)
    (row : List ℝ) (hrow : row ∈ d.rows) (p : List ℝ) (hl : p.length = f.nb) (hp : WithinBounds f p)
    (hj : JacobianAtSamples (f.set p) d) :
    ∃ xi dy, ceresSample f d row = some xi ∧
      ceresEvaluate f false xi p true =
        some (some (f.set p, (List.range d.dimY).map (errorOf (f.set p) d row), dy)) ∧
      dy.length = d.dimY * f.nb ∧
      ∀ i < d.dimY, ∀ j < f.nb,
        HasDerivAt (fun t => errorOf (f.set (p.set j t)) d row i) (arr dy (i * f.nb + j)) (arr p j) := by
  obtain ⟨xi, v, h1, h2, h3, -, h5⟩ := ceres_evaluate h hr false row hrow p hp
  refine ⟨xi, (List.range d.dimY).flatMap fun i => (List.range f.nb).map fun j =>
      ceresDerivative false f.nb ((List.range d.dimY).map fun i => arr row (d.dimX + i))
        (((f.set p).jac (d.pointFor (f.set p) row)).getD []) i j, h1, (h5 (hj row hrow)).trans ?_, ?_, ?_⟩
  · congr 4
    refine List.map_congr_left fun i hi => ?_
    rw [List.mem_range] at hi
    simp only [ceresResidual, errorOf, pointFor_set h, ← h3, arr_map_range _ _ _ hi]
    simp
  · simp
  · intro i hi j hjn
    rw [arr_grid _ _ _ i j hi hjn]
    exact error_deriv h p hl row (hj row hrow) i hi j hjn

/-- With `--log-fit`, the derivative of a residual. -/
theorem logError_deriv {f : Fn} {d : Data} (h : FitReady f d) (p : List ℝ) (hp : p.length = f.nb) (row : List ℝ)
    (hj : (f.set p).IsJacobianAt (d.pointFor (f.set p) row)) (i : ℕ) (hi : i < d.dimY) (j : ℕ) (hjn : j < f.nb)
    (h1 : 1 + (f.set p).valueAt (d.pointFor f row) i ≠ 0) :
    HasDerivAt (fun t => logErrorOf (f.set (p.set j t)) d row i)
      (-(arr (((f.set p).jac (d.pointFor (f.set p) row)).getD []) (i * f.nb + j) /
        (1 + (f.set p).valueAt (d.pointFor f row) i))) (arr p j) := by
  have hv := (value_deriv h p hp row hj i hi j hjn).const_add 1
  have := (hv.log (by rw [set_same p j (by omega)]; exact h1)).const_sub (Real.log (1 + arr row (d.dimX + i)))
  rw [set_same p j (by omega)] at this
  refine this.congr_of_eventuallyEq (Filter.Eventually.of_forall fun t => ?_)
  simp only [logErrorOf, pointFor_set h]

/-- C57, limit: with `--log-fit` the entry given to Ceres divides by the data instead of the value: it is
    the derivative exactly when the value is the data or the function does not depend on the parameter. -/
theorem ceres_log_derivative_wrong (f : Fn) (d : Data) (h : FitReady f d) (hr : CeresReady f d)
    (row : List ℝ) (hrow : row ∈ d.rows) (p : List ℝ) (hl : p.length = f.nb) (hp : WithinBounds f p)
    (hj : JacobianAtSamples (f.set p) d) :
    ∃ xi dy, ceresSample f d row = some xi ∧
      ceresEvaluate f true xi p true =
        some (some (f.set p, (List.range d.dimY).map (logErrorOf (f.set p) d row), dy)) ∧
      ∀ i < d.dimY, ∀ j < f.nb, 1 + (f.set p).valueAt (d.pointFor f row) i ≠ 0 → 1 + arr row (d.dimX + i) ≠ 0 →
        (HasDerivAt (fun t => logErrorOf (f.set (p.set j t)) d row i) (arr dy (i * f.nb + j)) (arr p j) ↔
          (arr row (d.dimX + i) = (f.set p).valueAt (d.pointFor f row) i ∨
            HasDerivAt (fun t => (f.set (p.set j t)).valueAt (d.pointFor f row) i) 0 (arr p j))) := by
  obtain ⟨xi, v, h1, h2, h3, -, h5⟩ := ceres_evaluate h hr true row hrow p hp
  refine ⟨xi, (List.range d.dimY).flatMap fun i => (List.range f.nb).map fun j =>
      ceresDerivative true f.nb ((List.range d.dimY).map fun i => arr row (d.dimX + i))
        (((f.set p).jac (d.pointFor (f.set p) row)).getD []) i j, h1, (h5 (hj row hrow)).trans ?_, ?_⟩
  · congr 4
    refine List.map_congr_left fun i hi => ?_
    rw [List.mem_range] at hi
    simp only [ceresResidual, logErrorOf, pointFor_set h, ← h3, arr_map_range _ _ _ hi]
    simp
  · intro i hi j hjn hv hd
    rw [arr_grid _ _ _ i j hi hjn]
    have hlog := logError_deriv h p hl row (hj row hrow) i hi j hjn hv
    have hval := value_deriv h p hl row (hj row hrow) i hi j hjn
    simp only [ceresDerivative, if_true, arr_map_range _ _ _ hi]
    set J := arr (((f.set p).jac (d.pointFor (f.set p) row)).getD []) (i * f.nb + j)
    constructor
    · intro hw
      have e := hlog.unique hw
      by_cases hJ : J = 0
      · right; rw [hJ] at hval; exact hval
      · left
        have := neg_inj.mp e
        rw [div_eq_div_iff hv hd] at this
        have := mul_left_cancel₀ hJ this
        linarith
    · rintro (e | e)
      · rw [e]; exact hlog
      · have hJ : J = 0 := hval.unique e
        rw [hJ] at hlog ⊢
        simpa using hlog

end
end Alta
