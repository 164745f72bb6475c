import Verif.Props.NonlinearFit
/-
Property C57, the Eigen fitter: the residuals, their order, and their derivatives.
-/
namespace Alta
noncomputable section

theorem foldl_update_hit {K I : Type} [DecidableEq K] (l : List I) (g : I → K) (r : I → ℝ) (y : K → ℝ) (i : I)
    (hi : i ∈ l) (h : ∀ a ∈ l, g a = g i → r a = r i) :
    l.foldl (fun y i => Function.update y (g i) (r i)) y (g i) = r i := by
  induction l using List.reverseRecOn with
  | nil => simp at hi
  | append_singleton l a ih =>
    rw [List.foldl_append, List.foldl_cons, List.foldl_nil]
    by_cases e : g a = g i
    · rw [e, Function.update_self]; exact h a (by simp) e
    · rw [Function.update_of_ne (Ne.symm e)]
      refine ih ?_ fun b hb => h b (by simp [hb])
      rcases List.mem_append.mp hi with h1 | h1
      · exact h1
      · rw [List.mem_singleton] at h1; subst h1; exact absurd rfl e

theorem foldlM_some {A B : Type} (l : List A) (step : B → A → Option B) (F : B → A → B)
    (h : ∀ y, ∀ s ∈ l, step y s = some (F y s)) (y : B) : l.foldlM step y = some (l.foldl F y) := by
  induction l generalizing y with
  | nil => rfl
  | cons a l ih =>
    rw [List.foldlM_cons, h y a (by simp)]
    exact ih (fun y s hs => h y s (by simp [hs])) _

theorem eigenCos_spec (d : Data) (cosine : Bool) (hc : CosineDefined d cosine) (row : List ℝ) (hr : row ∈ d.rows) :
    eigenCos d cosine row = some (cosineWeight d cosine row) := by
  unfold eigenCos cosineWeight
  cases cosine with
  | false => simp
  | true =>
    obtain ⟨c, h⟩ := hc rfl row hr
    simp [h, lightCosine]

theorem eigenResidual_spec {f : Fn} {d : Data} (h : FitReady f d) (cosine : Bool) (hc : CosineDefined d cosine)
    (row : List ℝ) (hr : row ∈ d.rows) :
    ∃ r, eigenResidual f d cosine row = some r ∧ ∀ i < d.dimY, arr r i = weightedErrorOf f d cosine row i := by
  obtain ⟨x, v, h1, h2, h3, h4, h5, h6⟩ := h.sample row hr
  set c := cosineWeight d cosine row with hcdef
  obtain ⟨e, e1, -, e3⟩ := vecSub_spec ((List.range d.dimY).map fun i => arr row (d.dimX + i)) (v.map (c * ·)) d.dimY
    (by simp) (by simpa using h3)
  refine ⟨e, ?_, ?_⟩
  · unfold eigenResidual
    rw [h1, Option.bind_some, eigenCos_spec d cosine hc row hr, Option.bind_some, h.channels, h4, Option.bind_some, h2,
      Option.bind_some, e1]
  · intro i hi
    rw [e3 i hi, arr_map_range _ _ _ hi]
    unfold weightedErrorOf
    rw [h6, ← hcdef]
    congr 1
    unfold arr
    simp [List.getD, h3, hi]

theorem getD_lt (l : List (List ℝ)) {s : ℕ} (hs : s < l.length) : l.getD s [] = l[s] := by
  simp [List.getD, hs]

theorem row_mem {d : Data} {s : ℕ} (hs : s < d.rows.length) : d.rows.getD s [] ∈ d.rows := by
  rw [getD_lt _ hs]; exact List.getElem_mem hs

theorem eigenEval_fold {f : Fn} {d : Data} (h : FitReady f d) (cosine : Bool) (hc : CosineDefined d cosine) (y : ℕ → ℝ) :
    (List.range d.rows.length).foldlM (eigenEvalRow f d cosine) y =
      some (((List.range d.rows.length).flatMap fun s => (List.range d.dimY).map fun i => (s, i)).foldl
        (fun y (p : ℕ × ℕ) => Function.update y (p.2 * d.rows.length + p.1)
          (weightedErrorOf f d cosine (d.rows.getD p.1 []) p.2)) y) := by
  rw [foldlM_some _ _ (fun y s => (List.range d.dimY).foldl (fun y i => Function.update y (i * d.rows.length + s)
    (weightedErrorOf f d cosine (d.rows.getD s []) i)) y)]
  · simp only [List.foldl_flatMap, List.foldl_map]
  · intro y s hs
    rw [List.mem_range] at hs
    obtain ⟨r, r1, r2⟩ := eigenResidual_spec h cosine hc _ (row_mem hs)
    unfold eigenEvalRow
    rw [getD_lt _ hs] at r1 r2
    rw [List.getElem?_eq_getElem hs, Option.bind_some, r1, Option.map_some, h.channels]
    congr 1
    refine List.foldl_ext _ _ _ fun y i hi => ?_
    rw [List.mem_range] at hi
    rw [r2 i hi, getD_lt _ hs]

theorem FitReady.within {f : Fn} (p : List ℝ) : outOfBounds f p = false ↔ WithinBounds f p := by
  unfold outOfBounds WithinBounds
  rw [List.any_eq_false]
  constructor
  · intro h i hi
    have := h i (by simpa using hi)
    rw [decide_eq_true_iff] at this
    push Not at this
    exact this
  · intro h i hi
    rw [decide_eq_true_iff]
    push Not
    exact h i (by simpa using hi)

/-- C57, Eigen: for parameters within the bounds, the evaluation sets them, and the entry
    `channel * samples + sample` of the vector is the difference for this channel and sample. -/
theorem eigen_residuals (f : Fn) (d : Data) (h : FitReady f d) (cosine : Bool) (hc : CosineDefined d cosine)
    (p : List ℝ) (hp : WithinBounds f p) (y : ℕ → ℝ) :
    ∃ r, eigenEval f d cosine p y = some (0, f.set p, r) ∧
      ∀ s < d.rows.length, ∀ i < d.dimY,
        r (i * d.rows.length + s) = weightedErrorOf (f.set p) d cosine (d.rows.getD s []) i := by
  unfold eigenEval
  rw [(FitReady.within p).mpr hp, if_neg (by decide), eigenEval_fold (h.set p) cosine hc]
  refine ⟨_, rfl, ?_⟩
  intro s hs i hi
  refine foldl_update_hit _ (fun p : ℕ × ℕ => p.2 * d.rows.length + p.1)
    (fun p : ℕ × ℕ => weightedErrorOf _ d cosine (d.rows.getD p.1 []) p.2) y (s, i) (by simp [hs, hi]) ?_
  rintro ⟨s', i'⟩ hm e
  simp only [List.mem_flatMap, List.mem_map, List.mem_range, Prod.mk.injEq] at hm
  obtain ⟨a, ha, b, hb, rfl, rfl⟩ := hm
  obtain ⟨e1, e2⟩ := index_inj ha hs e
  subst e1; subst e2; rfl

/-- C57, Eigen: parameters out of the bounds are refused, and nothing changes. -/
theorem eigen_out_of_bounds (f : Fn) (d : Data) (cosine : Bool) (p : List ℝ) (hp : ¬ WithinBounds f p) (y : ℕ → ℝ) :
    eigenEval f d cosine p y = some (-1, f, y) := by
  unfold eigenEval
  rw [if_pos]
  cases h : outOfBounds f p with
  | true => rfl
  | false => exact absurd ((FitReady.within p).mp h) hp

theorem sum_blocks (n m : ℕ) (g : ℕ → ℝ) :
    ∑ k ∈ Finset.range (n * m), g k = ∑ i ∈ Finset.range n, ∑ s ∈ Finset.range m, g (i * m + s) := by
  induction n with
  | zero => simp
  | succ n ih => rw [Nat.succ_mul, Finset.sum_range_add, ih, Finset.sum_range_succ]

theorem sum_rows (rows : List (List ℝ)) (g : List ℝ → ℝ) :
    (rows.map g).sum = ∑ s ∈ Finset.range rows.length, g (rows.getD s []) := by
  induction rows with
  | nil => simp
  | cons r rows ih =>
    rw [List.map_cons, List.sum_cons, ih, List.length_cons, Finset.sum_range_succ', add_comm]
    simp

/-- C57, Eigen: the sum of the squares of the vector given to the solver. -/
theorem eigen_objective (f : Fn) (d : Data) (h : FitReady f d) (cosine : Bool) (hc : CosineDefined d cosine)
    (p : List ℝ) (hp : WithinBounds f p) (y : ℕ → ℝ) :
    ∃ r, eigenEval f d cosine p y = some (0, f.set p, r) ∧
      ∑ k ∈ Finset.range (d.dimY * d.rows.length), r k ^ 2 = weightedSumSquares (f.set p) d cosine := by
  obtain ⟨r, h1, h2⟩ := eigen_residuals f d h cosine hc p hp y
  refine ⟨r, h1, ?_⟩
  rw [sum_blocks, Finset.sum_comm]
  unfold weightedSumSquares
  rw [sum_rows]
  refine Finset.sum_congr rfl fun s hs => Finset.sum_congr rfl fun i hi => ?_
  rw [h2 s (Finset.mem_range.mp hs) i (Finset.mem_range.mp hi)]

/-- Without the cosine it is the sum of the squared differences. -/
theorem weightedSumSquares_plain (f : Fn) (d : Data) : weightedSumSquares f d false = sumSquaredErrors f d := by
  simp [weightedSumSquares, sumSquaredErrors, weightedErrorOf, errorOf, cosineWeight]

theorem eigenDf_fold {f : Fn} {d : Data} (h : FitReady f d) (cosine : Bool) (hc : CosineDefined d cosine)
    (hj : JacobianAtSamples f d) (J : ℕ × ℕ → ℝ) :
    (List.range d.rows.length).foldlM (eigenDfRow f d cosine) J =
      some (((List.range d.rows.length).flatMap fun s => (List.range f.nb).flatMap fun j =>
        (List.range d.dimY).map fun i => (s, j, i)).foldl
        (fun J (p : ℕ × ℕ × ℕ) => Function.update J (p.2.2 * d.rows.length + p.1, p.2.1)
          (- cosineWeight d cosine (d.rows.getD p.1 []) *
            arr ((f.jac (d.pointFor f (d.rows.getD p.1 []))).getD []) (p.2.2 * f.nb + p.2.1))) J) := by
  rw [foldlM_some _ _ (fun J s => eigenFill d.dimY f.nb d.rows.length s (cosineWeight d cosine (d.rows.getD s []))
    ((f.jac (d.pointFor f (d.rows.getD s []))).getD []) J)]
  · simp only [List.foldl_flatMap, List.foldl_map]
    rfl
  · intro J s hs
    rw [List.mem_range] at hs
    have hr := row_mem hs
    obtain ⟨x, v, h1, h2, h3, h4, h5, h6⟩ := h.sample _ hr
    obtain ⟨jac, j1, j2⟩ := readJacobian_spec _ (hj _ hr)
    have hg : d.rows[s]? = some (d.rows.getD s []) := by
      rw [getD_lt _ hs, List.getElem?_eq_getElem hs]
    unfold eigenDfRow
    rw [hg, Option.bind_some, h1, Option.bind_some, eigenCos_spec d cosine hc _ hr, Option.bind_some, ← h5, j2,
      Option.map_some, h.channels, j1, Option.getD_some]

/-- C57, Eigen: the matrix given to the solver has the derivatives of the entries of the vector. -/
theorem eigen_derivatives (f : Fn) (d : Data) (h : FitReady f d) (cosine : Bool) (hc : CosineDefined d cosine)
    (p : List ℝ) (hp : p.length = f.nb) (hj : JacobianAtSamples (f.set p) d) (J : ℕ × ℕ → ℝ) :
    ∃ M, eigenDf f d cosine p J = some (f.set p, M) ∧
      ∀ s < d.rows.length, ∀ i < d.dimY, ∀ j < f.nb,
        HasDerivAt (fun t => weightedErrorOf (f.set (p.set j t)) d cosine (d.rows.getD s []) i)
          (M (i * d.rows.length + s, j)) (arr p j) := by
  unfold eigenDf
  rw [eigenDf_fold (h.set p) cosine hc hj]
  refine ⟨_, rfl, ?_⟩
  intro s hs i hi j hjn
  have hM := foldl_update_hit ((List.range d.rows.length).flatMap fun s => (List.range (f.set p).nb).flatMap fun j =>
        (List.range d.dimY).map fun i => (s, j, i)) (fun p : ℕ × ℕ × ℕ => (p.2.2 * d.rows.length + p.1, p.2.1))
    (fun q : ℕ × ℕ × ℕ => - cosineWeight d cosine (d.rows.getD q.1 []) *
            arr (((f.set p).jac (d.pointFor (f.set p) (d.rows.getD q.1 []))).getD []) (q.2.2 * (f.set p).nb + q.2.1))
    J (s, j, i) (by rw [f.set_nb h.wf]; simp [hs, hi, hjn]) (by
      rintro ⟨s', j', i'⟩ hm e
      simp only [List.mem_flatMap, List.mem_map, List.mem_range, Prod.mk.injEq] at hm e
      obtain ⟨a, ha, b, hb, c, hc, rfl, rfl, rfl⟩ := hm
      obtain ⟨e1, e2⟩ := index_inj ha hs e.1
      obtain ⟨-, e3⟩ := e
      subst e1; subst e2; subst e3; rfl)
  dsimp only at hM
  rw [hM, f.set_nb h.wf]
  have hd := ((value_deriv h p hp _ (hj _ (row_mem hs)) i hi j hjn).const_mul
    (cosineWeight d cosine (d.rows.getD s []))).const_sub (arr (d.rows.getD s []) (d.dimX + i))
  rw [neg_mul]
  refine hd.congr_of_eventuallyEq (Filter.Eventually.of_forall fun t => ?_)
  simp only [weightedErrorOf, pointFor_set h]

end
end Alta
