import Verif.Model.NonlinearFit
import Verif.Spec.NonlinearFit
import Verif.Props.FunctionJac
import Mathlib.Analysis.Calculus.Deriv.Pow
import Mathlib.Analysis.Calculus.Deriv.Add
import Mathlib.Analysis.Calculus.Deriv.Mul
/-
Property C57: the nonlinear fitters minimise the sum of the squared differences, and give its derivatives.
-/
namespace Alta
noncomputable section

theorem FitReady.set {f : Fn} {d : Data} (h : FitReady f d) (p : List ℝ) : FitReady (f.set p) d where
  wf := f.set_WF h.wf p
  channels := by rw [f.set_par h.wf]; exact h.channels
  size := h.size
  points := by
    intro row hr
    obtain ⟨x, h1, h2⟩ := h.points row hr
    exact ⟨x, by rw [f.set_par h.wf]; exact h1, f.set_DefAt h.wf p x h2⟩

theorem pointFor_set {f : Fn} {d : Data} (h : FitReady f d) (p row : List ℝ) :
    d.pointFor (f.set p) row = d.pointFor f row := by
  unfold Data.pointFor; rw [f.set_par h.wf]

/-- What is computed for a sample. -/
theorem FitReady.sample {f : Fn} {d : Data} (h : FitReady f d) (row : List ℝ) (hr : row ∈ d.rows) :
    ∃ x v, convertInput (arr row) d.input f.par.input = some x ∧ f.value x = some v ∧ v.length = d.dimY ∧
      readValues row d.dimX d.dimY = some ((List.range d.dimY).map fun i => arr row (d.dimX + i)) ∧
      d.pointFor f row = x ∧ ∀ i, f.valueAt (d.pointFor f row) i = arr v i := by
  obtain ⟨x, h1, h2⟩ := h.points row hr
  obtain ⟨v, h3, h4⟩ := f.value_def h.wf x h2
  refine ⟨x, v, h1, h3, h4.trans h.channels, ?_, ?_, ?_⟩
  · unfold readValues; rw [if_pos (by rw [h.size row hr])]
  · simp [Data.pointFor, h1]
  · intro i; simp [Data.pointFor, h1, Fn.valueAt, h3]

theorem vecSub_spec (a b : List ℝ) (n : ℕ) (ha : a.length = n) (hb : b.length = n) :
    ∃ e, vecSub a b = some e ∧ e.length = n ∧ ∀ i < n, arr e i = arr a i - arr b i := by
  refine ⟨List.zipWith (· - ·) a b, ?_, ?_, ?_⟩
  · unfold vecSub; rw [if_pos (by rw [ha, hb])]
  · simp [ha, hb]
  · intro i hi
    unfold arr
    simp [List.getD, ha, hb, hi]

theorem foldl_add_sum (n : ℕ) (g : ℕ → ℝ) (y : ℝ) :
    (List.range n).foldl (fun (y : ℝ) i => y + g i) y = y + ∑ i ∈ Finset.range n, g i := by
  induction n with
  | zero => simp
  | succ n ih => rw [List.range_succ, List.foldl_append, ih, Finset.sum_range_succ]; simp [add_assoc]

theorem foldlM_add (rows : List (List ℝ)) (step : ℝ → List ℝ → Option ℝ) (g : List ℝ → ℝ)
    (h : ∀ y, ∀ row ∈ rows, step y row = some (y + g row)) (y : ℝ) :
    rows.foldlM step y = some (y + (rows.map g).sum) := by
  induction rows generalizing y with
  | nil => simp
  | cons r rows ih =>
    rw [List.foldlM_cons, h y r (by simp)]
    refine (ih (fun y row hr => h y row (by simp [hr])) (y + g r)).trans ?_
    simp [add_assoc]

/-! ### The objective of NLopt and Ipopt -/

theorem nloptRow_spec {f : Fn} {d : Data} (h : FitReady f d) (y : ℝ) (row : List ℝ) (hr : row ∈ d.rows) :
    nloptRow f d y row = some (y + ∑ i ∈ Finset.range d.dimY, errorOf f d row i ^ 2) := by
  obtain ⟨x, v, h1, h2, h3, h4, h5, h6⟩ := h.sample row hr
  obtain ⟨e, e1, -, e3⟩ := vecSub_spec v _ d.dimY h3 (by simp : ((List.range d.dimY).map fun i => arr row (d.dimX + i)).length = d.dimY)
  unfold nloptRow
  rw [h4, h1, Option.bind_some, Option.bind_some, h2, Option.bind_some, e1, Option.map_some, foldl_add_sum, h.channels]
  congr 2
  refine Finset.sum_congr rfl fun i hi => ?_
  rw [Finset.mem_range] at hi
  rw [e3 i hi, arr_map_range _ _ _ hi]
  unfold errorOf
  rw [h6]
  ring

theorem ipoptRow_spec {f : Fn} {d : Data} (h : FitReady f d) (y : ℝ) (row : List ℝ) (hr : row ∈ d.rows) :
    ipoptRow f d y row = some (y + ∑ i ∈ Finset.range d.dimY, errorOf f d row i ^ 2) := by
  obtain ⟨x, v, h1, h2, h3, h4, h5, h6⟩ := h.sample row hr
  obtain ⟨e, e1, -, e3⟩ := vecSub_spec _ v d.dimY (by simp : ((List.range d.dimY).map fun i => arr row (d.dimX + i)).length = d.dimY) h3
  unfold ipoptRow
  rw [if_neg (by rw [h.channels]; simp), h.channels, h4, h1, Option.bind_some, Option.bind_some, h2, Option.bind_some, e1,
    Option.map_some, foldl_add_sum]
  congr 2
  refine Finset.sum_congr rfl fun i hi => ?_
  rw [Finset.mem_range] at hi
  rw [e3 i hi, arr_map_range _ _ _ hi]
  unfold errorOf
  rw [h6]

/-- C57, NLopt without derivatives. -/
theorem nlopt_objective (f : Fn) (d : Data) (h : FitReady f d) (p : List ℝ) :
    nloptF f d p false = some (f.set p, sumSquaredErrors (f.set p) d, none) := by
  unfold nloptF
  rw [foldlM_add d.rows _ _ (fun y row hr => nloptRow_spec (h.set p) y row hr), Option.bind_some]
  simp [sumSquaredErrors]

/-- C57, Ipopt: the objective. -/
theorem ipopt_objective (f : Fn) (d : Data) (h : FitReady f d) (p : List ℝ) :
    ipoptEvalF f d p = some (f.set p, sumSquaredErrors (f.set p) d) := by
  unfold ipoptEvalF
  rw [foldlM_add d.rows _ _ (fun y row hr => ipoptRow_spec (h.set p) y row hr), Option.map_some]
  simp [sumSquaredErrors]

/-! ### The gradient of NLopt and Ipopt -/

theorem update_fold (n j : ℕ) (G : ℕ → ℝ) (g : ℕ → ℝ) :
    (List.range n).foldl (fun g i => Function.update g j (g j + G i)) g =
      Function.update g j (g j + ∑ i ∈ Finset.range n, G i) := by
  induction n with
  | zero => simp
  | succ n ih =>
    rw [List.range_succ, List.foldl_append, ih, Finset.sum_range_succ]
    simp [add_assoc]

theorem gradient_fold (nb dimY : ℕ) (G : ℕ → ℕ → ℝ) (g : ℕ → ℝ) :
    (List.range nb).foldl (fun g j => (List.range dimY).foldl (fun g i =>
      Function.update g j (g j + G i j)) g) g =
      fun j => g j + if j < nb then ∑ i ∈ Finset.range dimY, G i j else 0 := by
  induction nb with
  | zero => funext j; simp
  | succ n ih =>
    rw [List.range_succ, List.foldl_append, ih, List.foldl_cons, List.foldl_nil, update_fold dimY n (fun i => G i n)]
    funext j
    by_cases hj : j = n
    · subst hj; simp
    · rw [Function.update_of_ne hj]
      have : (j < n + 1) = (j < n) := by apply propext; omega
      simp only [this]

/-- What a sample adds to the entry `j` of the gradient. -/
def gradTerm (f : Fn) (d : Data) (row : List ℝ) (j : ℕ) : ℝ :=
  if j < f.nb then ∑ i ∈ Finset.range d.dimY,
    2 * -errorOf f d row i * arr ((f.jac (d.pointFor f row)).getD []) (i * f.nb + j) else 0

theorem readJacobian_spec {f : Fn} {d : Data} (row : List ℝ) (hj : f.IsJacobianAt (d.pointFor f row)) :
    ∃ j, f.jac (d.pointFor f row) = some j ∧ readJacobian f (d.pointFor f row) = some j := by
  obtain ⟨j, h1, h2, -⟩ := hj
  refine ⟨j, h1, ?_⟩
  unfold readJacobian
  rw [h1, Option.bind_some, if_pos]
  rcases Nat.eq_zero_or_pos f.nb with h0 | h0
  · rw [h0]; simp
  · rw [h2 h0]

theorem nloptGradRow_spec {f : Fn} {d : Data} (h : FitReady f d) (g : ℕ → ℝ) (row : List ℝ) (hr : row ∈ d.rows)
    (hj : f.IsJacobianAt (d.pointFor f row)) :
    nloptGradRow f d g row = some (fun j => g j + gradTerm f d row j) := by
  obtain ⟨x, v, h1, h2, h3, h4, h5, h6⟩ := h.sample row hr
  obtain ⟨jac, j1, j2⟩ := readJacobian_spec row hj
  obtain ⟨e, e1, -, e3⟩ := vecSub_spec v _ d.dimY h3 (by simp : ((List.range d.dimY).map fun i => arr row (d.dimX + i)).length = d.dimY)
  unfold nloptGradRow
  rw [h4, h1, Option.bind_some, Option.bind_some, ← h5, j2, Option.bind_some, h5, h2, Option.bind_some, e1, Option.map_some,
    gradient_fold f.nb f.par.dimY (fun i j => 2 * arr e i * arr jac (i * f.nb + j)), h.channels]
  congr 1
  funext j
  congr 1
  unfold gradTerm
  rw [j1, Option.getD_some]
  split
  · refine Finset.sum_congr rfl fun i hi => ?_
    rw [Finset.mem_range] at hi
    rw [e3 i hi, arr_map_range _ _ _ hi]
    unfold errorOf
    rw [h6]
    ring
  · rfl

theorem ipoptGradRow_spec {f : Fn} {d : Data} (h : FitReady f d) (g : ℕ → ℝ) (row : List ℝ) (hr : row ∈ d.rows)
    (hj : f.IsJacobianAt (d.pointFor f row)) :
    ipoptGradRow f d g row = some (fun j => g j + gradTerm f d row j) := by
  obtain ⟨x, v, h1, h2, h3, h4, h5, h6⟩ := h.sample row hr
  obtain ⟨jac, j1, j2⟩ := readJacobian_spec row hj
  obtain ⟨e, e1, -, e3⟩ := vecSub_spec v _ d.dimY h3 (by simp : ((List.range d.dimY).map fun i => arr row (d.dimX + i)).length = d.dimY)
  unfold ipoptGradRow
  rw [h.channels, h4, h1, Option.bind_some, Option.bind_some, h2, Option.bind_some, e1, Option.bind_some, ← h5, j2,
    Option.map_some, gradient_fold f.nb d.dimY (fun i j => 2 * arr e i * arr jac (i * f.nb + j))]
  congr 1
  funext j
  congr 1
  unfold gradTerm
  rw [j1, Option.getD_some]
  split
  · refine Finset.sum_congr rfl fun i hi => ?_
    rw [Finset.mem_range] at hi
    rw [e3 i hi, arr_map_range _ _ _ hi]
    unfold errorOf
    rw [h6]
    ring
  · rfl

theorem foldlM_addFun (rows : List (List ℝ)) (step : (ℕ → ℝ) → List ℝ → Option (ℕ → ℝ)) (G : List ℝ → ℕ → ℝ)
    (h : ∀ g, ∀ row ∈ rows, step g row = some (fun j => g j + G row j)) (g : ℕ → ℝ) :
    rows.foldlM step g = some (fun j => g j + (rows.map fun row => G row j).sum) := by
  induction rows generalizing g with
  | nil => simp
  | cons r rows ih =>
    rw [List.foldlM_cons, h g r (by simp)]
    refine (ih (fun y row hr => h y row (by simp [hr])) (fun j => g j + G r j)).trans ?_
    simp [add_assoc]

/-- The value of a channel at a sample has the derivative that the Jacobian has. -/
theorem value_deriv {f : Fn} {d : Data} (h : FitReady f d) (p : List ℝ) (hp : p.length = f.nb) (row : List ℝ)
    (hj : (f.set p).IsJacobianAt (d.pointFor (f.set p) row)) (i : ℕ) (hi : i < d.dimY) (j : ℕ) (hjn : j < f.nb) :
    HasDerivAt (fun t => (f.set (p.set j t)).valueAt (d.pointFor f row) i)
      (arr (((f.set p).jac (d.pointFor (f.set p) row)).getD []) (i * f.nb + j)) (arr p j) := by
  obtain ⟨jac, j1, -, j3⟩ := hj
  have := j3 i (by rw [(h.set p).channels]; exact hi) j (by rw [f.set_nb h.wf]; exact hjn)
  rw [f.params_set h.wf p hp, f.set_nb h.wf] at this
  rw [j1, Option.getD_some]
  refine this.congr_of_eventuallyEq (Filter.Eventually.of_forall fun t => ?_)
  have e : (f.set p).set (p.set j t) = f.set (p.set j t) := f.set_set h.wf p _ hp (by simp [hp])
  simp only [e, pointFor_set h]

theorem error_deriv {f : Fn} {d : Data} (h : FitReady f d) (p : List ℝ) (hp : p.length = f.nb) (row : List ℝ)
    (hj : (f.set p).IsJacobianAt (d.pointFor (f.set p) row)) (i : ℕ) (hi : i < d.dimY) (j : ℕ) (hjn : j < f.nb) :
    HasDerivAt (fun t => errorOf (f.set (p.set j t)) d row i)
      (-arr (((f.set p).jac (d.pointFor (f.set p) row)).getD []) (i * f.nb + j)) (arr p j) := by
  have := (value_deriv h p hp row hj i hi j hjn).const_sub (arr row (d.dimX + i))
  refine this.congr_of_eventuallyEq (Filter.Eventually.of_forall fun t => ?_)
  simp only [errorOf, pointFor_set h]

theorem set_same (p : List ℝ) (j : ℕ) (hj : j < p.length) : p.set j (arr p j) = p := by
  apply List.ext_getElem?
  intro k
  rw [List.getElem?_set]
  split
  · rename_i e
    subst e
    simp [arr, hj]
  · rfl

theorem gradTerm_deriv {f : Fn} {d : Data} (h : FitReady f d) (p : List ℝ) (hp : p.length = f.nb) (row : List ℝ)
    (hj : (f.set p).IsJacobianAt (d.pointFor (f.set p) row)) (j : ℕ) (hjn : j < f.nb) :
    HasDerivAt (fun t => ∑ i ∈ Finset.range d.dimY, errorOf (f.set (p.set j t)) d row i ^ 2)
      (gradTerm (f.set p) d row j) (arr p j) := by
  unfold gradTerm
  rw [f.set_nb h.wf, if_pos hjn]
  refine HasDerivAt.fun_sum fun i hi => ?_
  rw [Finset.mem_range] at hi
  have := (error_deriv h p hp row hj i hi j hjn).pow 2
  refine this.congr_deriv ?_
  rw [set_same p j (by omega)]
  norm_num

theorem sumSquaredErrors_deriv {f : Fn} {d : Data} (h : FitReady f d) (p : List ℝ) (hp : p.length = f.nb)
    (hj : JacobianAtSamples (f.set p) d) (j : ℕ) (hjn : j < f.nb) :
    HasDerivAt (fun t => sumSquaredErrors (f.set (p.set j t)) d)
      ((d.rows.map fun row => gradTerm (f.set p) d row j).sum) (arr p j) := by
  have key : ∀ rows : List (List ℝ), (∀ row ∈ rows, row ∈ d.rows) →
      HasDerivAt (fun t => (rows.map fun row => ∑ i ∈ Finset.range d.dimY, errorOf (f.set (p.set j t)) d row i ^ 2).sum)
        ((rows.map fun row => gradTerm (f.set p) d row j).sum) (arr p j) := by
    intro rows
    induction rows with
    | nil => intro _; simpa using hasDerivAt_const (arr p j) (0 : ℝ)
    | cons r rows ih =>
      intro hr
      simp only [List.map_cons, List.sum_cons]
      exact (gradTerm_deriv h p hp r (hj r (hr r (by simp))) j hjn).fun_add (ih fun row h => hr row (by simp [h]))
  exact key d.rows fun _ h => h

/-- C57, NLopt: when the function computes its Jacobian, the objective is the sum of the squared
    differences and the gradient has its derivatives. -/
theorem nlopt_gradient (f : Fn) (d : Data) (h : FitReady f d) (p : List ℝ) (hp : p.length = f.nb)
    (hj : JacobianAtSamples (f.set p) d) :
    ∃ g, nloptF f d p true = some (f.set p, sumSquaredErrors (f.set p) d, some g) ∧
      ∀ j < f.nb, HasDerivAt (fun t => sumSquaredErrors (f.set (p.set j t)) d) (g j) (arr p j) := by
  refine ⟨fun j => 0 + (d.rows.map fun row => gradTerm (f.set p) d row j).sum, ?_, ?_⟩
  · unfold nloptF nloptDf
    rw [foldlM_add d.rows _ _ (fun y row hr => nloptRow_spec (h.set p) y row hr), Option.bind_some, if_pos rfl,
      foldlM_addFun d.rows _ (gradTerm (f.set p) d) (fun g row hr => nloptGradRow_spec (h.set p) g row hr (hj row hr)),
      Option.map_some]
    simp [sumSquaredErrors]
  · intro j hjn
    simp only [zero_add]
    exact sumSquaredErrors_deriv h p hp hj j hjn

/-- C57, Ipopt: the gradient. -/
theorem ipopt_gradient (f : Fn) (d : Data) (h : FitReady f d) (p : List ℝ) (hp : p.length = f.nb)
    (hj : JacobianAtSamples (f.set p) d) :
    ∃ g, ipoptEvalGradF f d p = some (f.set p, g) ∧
      ∀ j < f.nb, HasDerivAt (fun t => sumSquaredErrors (f.set (p.set j t)) d) (g j) (arr p j) := by
  refine ⟨fun j => 0 + (d.rows.map fun row => gradTerm (f.set p) d row j).sum, ?_, ?_⟩
  · unfold ipoptEvalGradF
    rw [foldlM_addFun d.rows _ (gradTerm (f.set p) d) (fun g row hr => ipoptGradRow_spec (h.set p) g row hr (hj row hr)),
      Option.map_some]
  · intro j hjn
    simp only [zero_add]
    exact sumSquaredErrors_deriv h p hp hj j hjn

end
end Alta
