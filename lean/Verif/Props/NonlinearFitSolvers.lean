import Verif.Props.NonlinearFitRun
/-
Property C60: the outcome of a nonlinear fit with the NLopt, Ipopt and Ceres fitters.
-/
namespace Alta
noncomputable section

theorem FT.WF_start {files : Str → Option Str} {d : Data} {args : SMap} {f f0 : FT LobeObj} (hw : f.toFn.WF)
    (h0 : f.bootstrap files d args = some f0) : f0.toFn.WF :=
  FT.kept_WF f f0 (FT.bootstrap_kept files d f args f0 h0) hw

theorem FT.params_set_first (f0 : FT LobeObj) (hw : f0.toFn.WF) (x : ℕ → ℝ) :
    (f0.set (firstOf f0.nb x)).toFn.params = firstOf f0.nb x := by
  rw [FT.toFn_set, Fn.params_set _ hw _ (by rw [firstOf_length, FT.toFn_nb])]

theorem firstOf_params (f0 : FT LobeObj) (hw : f0.toFn.WF) (s : ℕ → ℝ) (h : SameFirst f0.nb (arr f0.toFn.params) s) :
    firstOf f0.nb s = f0.toFn.params := by
  rw [← firstOf_congr _ _ _ h]
  have hl : f0.toFn.params.length = f0.nb := by rw [Fn.params_length _ hw, FT.toFn_nb]
  rw [← hl]
  exact firstOf_arr _

/-- Parameters between the bounds. -/
theorem within_of_between (f0 : FT LobeObj) (hw : f0.toFn.WF) (x : ℕ → ℝ)
    (h : Between f0.nb (arr f0.toFn.lo) (arr f0.toFn.hi) x) :
    WithinBounds (f0.set (firstOf f0.nb x)).toFn (f0.set (firstOf f0.nb x)).toFn.params := by
  obtain ⟨b1, b2, b3⟩ := FT.bounds_set f0 (firstOf f0.nb x)
  intro i hi
  rw [b3, ← FT.toFn_nb] at hi
  rw [b1, b2, FT.params_set_first f0 hw, arr_firstOf _ _ _ hi]
  exact h i hi

/-! ### NLopt -/

theorem nloptCall_state (d : Data) (q : NloptQuery) (f : FT LobeObj) (a : ℝ × Option (ℕ → ℝ)) (f' : FT LobeObj)
    (h : nloptCall d q f = some (a, f')) : f' = f.set (firstOf f.nb q.x) := by
  simp only [nloptCall, Option.map_eq_some_iff, Prod.mk.injEq] at h
  obtain ⟨r, -, -, rfl⟩ := h
  rfl

theorem nloptCall_reached (d : Data) (f0 : FT LobeObj) (hw : f0.toFn.WF) (q : NloptQuery)
    (f : FT LobeObj) (a : ℝ × Option (ℕ → ℝ)) (f' : FT LobeObj) (hf : f0.Reached f)
    (h : nloptCall d q f = some (a, f')) : f0.Reached f' := by
  rw [nloptCall_state d q f a f' h]
  exact hf.next hw _

theorem nloptCall_value (d : Data) (f0 : FT LobeObj) (hf : FitReady f0.toFn d) (q : NloptQuery)
    (f : FT LobeObj) (a : ℝ × Option (ℕ → ℝ)) (f' : FT LobeObj) (hr : f0.Reached f)
    (h : nloptCall d q f = some (a, f')) : a.1 = sumSquaredErrors (f0.set (firstOf f0.nb q.x)).toFn d := by
  obtain ⟨p, hp, rfl⟩ := hr
  simp only [nloptCall, Option.map_eq_some_iff, Prod.mk.injEq] at h
  obtain ⟨r, h1, rfl, -⟩ := h
  unfold nloptF at h1
  rw [FT.set_nb, ← FT.toFn_set, FT.set_set f0 hf.wf _ _ hp (firstOf_length _ _)] at h1
  rw [foldlM_add d.rows _ _ (fun y row hr => nloptRow_spec (hf.of_set _) y row hr), Option.bind_some] at h1
  have hs : (0:ℝ) + (d.rows.map fun row => ∑ i ∈ Finset.range d.dimY,
      errorOf (f0.set (firstOf f0.nb q.x)).toFn d row i ^ 2).sum = sumSquaredErrors (f0.set (firstOf f0.nb q.x)).toFn d := by
    rw [zero_add]; rfl
  split at h1
  · rw [Option.map_eq_some_iff] at h1
    obtain ⟨g, -, rfl⟩ := h1
    exact hs
  · cases h1
    exact hs

/-- What is known of the answer of the solver. -/
theorem nlopt_run (files : Str → Option Str) (solver : NloptSolver) (d : Data) (args : SMap) (f f' : FT LobeObj)
    (ok : Bool) (hw : f.toFn.WF) (h : nloptFit files solver d args f = some (ok, f')) :
    ∃ f0, f.bootstrap files d args = some f0 ∧
      (f0.toFn.nb = 0 ∧ ok = true ∧ f' = f0 ∨ ok = false ∧ f' = f0 ∨
        ∃ opt criteria s tr res x f1, solver (nloptAlgorithm (args.get "nlopt-optimizer".toList)) f0.nb = some opt ∧
          nloptCriteria args = some criteria ∧
          opt (arr f0.toFn.lo) (arr f0.toFn.hi) criteria (arr f0.toFn.params) = some s ∧
          s.run (nloptCall d) f0 = some ((res, x), tr, f1) ∧ f0.Reached f1 ∧
          (0 < res ∧ ok = true ∧ f' = f0.set (firstOf f0.nb x) ∨ res ≤ 0 ∧ ok = false ∧ f' = f1)) := by
  unfold nloptFit at h
  cases h0 : f.bootstrap files d args with
  | none => rw [h0] at h; cases h
  | some f0 =>
    rw [h0] at h
    have hw0 := FT.WF_start hw h0
    refine ⟨f0, rfl, ?_⟩
    simp only at h
    split at h
    · rename_i hn
      cases h
      exact Or.inl ⟨by rw [← FT.toFn_nb]; exact hn, rfl, rfl⟩
    · rename_i hn
      refine Or.inr ?_
      rw [FT.get_params f0 hw0 hn] at h
      cases ho : solver (nloptAlgorithm (args.get "nlopt-optimizer".toList)) f0.nb with
      | none => rw [ho] at h; cases h; exact Or.inl ⟨rfl, rfl⟩
      | some opt =>
        rw [ho] at h
        cases hcr : nloptCriteria args with
        | none => rw [hcr] at h; cases h
        | some criteria =>
          rw [hcr] at h
          simp only at h
          cases hs : opt (arr f0.toFn.lo) (arr f0.toFn.hi) criteria (arr f0.toFn.params) with
          | none => rw [hs] at h; cases h; exact Or.inl ⟨rfl, rfl⟩
          | some s =>
            rw [hs] at h
            simp only at h
            cases hr : s.run (nloptCall d) f0 with
            | none => rw [hr] at h; cases h
            | some r =>
              obtain ⟨⟨res, x⟩, tr, f1⟩ := r
              rw [hr] at h
              have hi := (CallingSolver.run_invariant _ f0.Reached
                (fun q s a s' hs he => nloptCall_reached d f0 hw0 q s a s' hs he) _ _ _ _ _ (f0.reached_self hw0) hr).1
              refine Or.inr ⟨opt, criteria, s, tr, res, x, f1, rfl, rfl, hs, hr, hi, ?_⟩
              simp only at h
              split at h
              · rename_i hres
                cases h
                refine Or.inl ⟨hres, rfl, ?_⟩
                rw [← FT.get_params f0 hw0 hn, overwrite_eq f0 hw0 hn, hi.set hw0 _ (firstOf_length _ _)]
              · rename_i hres
                cases h
                exact Or.inr ⟨by omega, rfl, rfl⟩

/-- C60, NLopt: after a fit that succeeds, the function is that of the starting point (C58) with the parameters
    returned by the solver, for the algorithm of the option `nlopt-optimizer`, the bounds of the function and the
    parameters of the starting point.  Without parameters, the fit succeeds and leaves the starting point. -/
theorem nlopt_fit_outcome (files : Str → Option Str) (solver : NloptSolver) (d : Data) (args : SMap) (f f' : FT LobeObj)
    (hw : f.toFn.WF) (h : nloptFit files solver d args f = some (true, f')) :
    ∃ f0, f.bootstrap files d args = some f0 ∧
      (f0.toFn.nb = 0 ∧ f' = f0 ∨
        ∃ opt criteria s tr res x, solver (nloptAlgorithm (args.get "nlopt-optimizer".toList)) f0.toFn.nb = some opt ∧
          nloptCriteria args = some criteria ∧
          opt (arr f0.toFn.lo) (arr f0.toFn.hi) criteria (arr f0.toFn.params) = some s ∧
          s.Dialogue tr (res, x) ∧ 0 < res ∧
          f' = f0.set (firstOf f0.toFn.nb x) ∧ f'.toFn.params = firstOf f0.toFn.nb x) := by
  obtain ⟨f0, h0, h1 | h1 | ⟨opt, c, s, tr, res, x, f1, a1, a2, a3, a4, -, h1 | h1⟩⟩ :=
    nlopt_run files solver d args f f' true hw h
  · exact ⟨f0, h0, Or.inl ⟨h1.1, h1.2.2⟩⟩
  · cases h1.1
  · obtain ⟨hres, -, rfl⟩ := h1
    refine ⟨f0, h0, Or.inr ?_⟩
    rw [← FT.toFn_nb]
    exact ⟨opt, c, s, tr, res, x, a1, a2, a3, CallingSolver.run_dialogue _ _ _ _ _ _ a4, hres, rfl,
      FT.params_set_first f0 (FT.WF_start hw h0) x⟩
  · cases h1.2.1

/-- C60, NLopt: if the solver stays between the bounds that it is given, the parameters after a fit that succeeds
    are within the bounds of the function. -/
theorem nlopt_fit_within_bounds (files : Str → Option Str) (solver : NloptSolver) (hs : solver.StaysBetween)
    (d : Data) (args : SMap) (f f' : FT LobeObj) (hw : f.toFn.WF)
    (h : nloptFit files solver d args f = some (true, f')) : WithinBounds f'.toFn f'.toFn.params := by
  obtain ⟨f0, h0, h1 | h1 | ⟨opt, c, s, tr, res, x, f1, a1, a2, a3, a4, -, h1 | h1⟩⟩ :=
    nlopt_run files solver d args f f' true hw h
  · obtain ⟨hn, -, rfl⟩ := h1
    intro i hi; omega
  · cases h1.1
  · obtain ⟨hres, -, rfl⟩ := h1
    exact within_of_between f0 (FT.WF_start hw h0) x
      (hs _ _ _ _ _ _ _ _ _ _ _ a1 a3 (CallingSolver.run_dialogue _ _ _ _ _ _ a4) hres)
  · cases h1.2.1

/-- C60, NLopt: if the solver does not increase its objective, a fit that succeeds does not increase the sum of the
    squared differences of the data and the function. -/
theorem nlopt_fit_not_worse (files : Str → Option Str) (solver : NloptSolver) (hs : solver.Descends)
    (d : Data) (args : SMap) (f f0 f' : FT LobeObj) (hw : f.toFn.WF) (h0 : f.bootstrap files d args = some f0)
    (hf : FitReady f0.toFn d) (h : nloptFit files solver d args f = some (true, f')) :
    sumSquaredErrors f'.toFn d ≤ sumSquaredErrors f0.toFn d := by
  obtain ⟨f0', h0', h1 | h1 | ⟨opt, c, s, tr, res, x, f1, a1, a2, a3, a4, -, h1 | h1⟩⟩ :=
    nlopt_run files solver d args f f' true hw h
  · rw [h0] at h0'; cases h0'; rw [h1.2.2]
  · cases h1.1
  · obtain ⟨hres, -, rfl⟩ := h1
    rw [h0] at h0'; cases h0'
    obtain ⟨q, y, g, q', z, g', hx, hst, m1, m2, hle⟩ :=
      hs _ _ _ _ _ _ _ _ _ _ _ a1 a3 (CallingSolver.run_dialogue _ _ _ _ _ _ a4) hres
    have inv := (CallingSolver.run_invariant _ f0.Reached
      (fun q s a s' hs he => nloptCall_reached d f0 hf.wf q s a s' hs he) _ _ _ _ _ (f0.reached_self hf.wf) a4).2
    obtain ⟨s1, s2, hr1, he1⟩ := inv _ m1
    obtain ⟨t1, t2, hr2, he2⟩ := inv _ m2
    have v1 := nloptCall_value d f0 hf _ _ _ _ hr1 he1
    have v2 := nloptCall_value d f0 hf _ _ _ _ hr2 he2
    simp only at v1 v2
    rw [firstOf_params f0 hf.wf _ hst, FT.set_params f0 hf.wf] at v2
    rw [firstOf_congr _ _ _ hx, ← v1, ← v2]
    exact hle
  · cases h1.2.1

/-- C60, NLopt: when the fit fails, the function is that of the starting point with the parameters of
    some evaluation (or those of the start). -/
theorem nlopt_fit_false (files : Str → Option Str) (solver : NloptSolver) (d : Data) (args : SMap) (f f' : FT LobeObj)
    (hw : f.toFn.WF) (h : nloptFit files solver d args f = some (false, f')) :
    ∃ f0 p, f.bootstrap files d args = some f0 ∧ p.length = f0.toFn.nb ∧ f' = f0.set p := by
  obtain ⟨f0, h0, h1 | h1 | ⟨opt, c, s, tr, res, x, f1, a1, a2, a3, a4, hr, h1 | h1⟩⟩ :=
    nlopt_run files solver d args f f' false hw h
  · cases h1.2.1
  · obtain ⟨p, hp, hi⟩ := f0.reached_self (FT.WF_start hw h0)
    rw [FT.toFn_nb] at hp
    exact ⟨f0, p, h0, hp, h1.2.trans hi⟩
  · cases h1.2.1
  · obtain ⟨p, hp, hi⟩ := hr
    rw [FT.toFn_nb] at hp
    exact ⟨f0, p, h0, hp, h1.2.2.trans hi⟩

/-! ### Ipopt -/

theorem ipoptCall_reached (d : Data) (f0 : FT LobeObj) (hw : f0.toFn.WF) (q : IpoptQuery)
    (f : FT LobeObj) (a : IpoptAnswer) (f' : FT LobeObj) (hf : f0.Reached f)
    (h : ipoptCall d q f = some (a, f')) : f0.Reached f' := by
  cases q with
  | objective x =>
    simp only [ipoptCall, Option.map_eq_some_iff, Prod.mk.injEq] at h
    obtain ⟨r, -, -, rfl⟩ := h
    exact hf.next hw x
  | gradient x =>
    simp only [ipoptCall, Option.map_eq_some_iff, Prod.mk.injEq] at h
    obtain ⟨r, -, -, rfl⟩ := h
    exact hf.next hw x

theorem ipoptCall_value (d : Data) (f0 : FT LobeObj) (hf : FitReady f0.toFn d) (x : ℕ → ℝ)
    (f : FT LobeObj) (y : ℝ) (f' : FT LobeObj) (hr : f0.Reached f)
    (h : ipoptCall d (.objective x) f = some (.objective y, f')) :
    y = sumSquaredErrors (f0.set (firstOf f0.nb x)).toFn d := by
  obtain ⟨p, hp, rfl⟩ := hr
  simp only [ipoptCall, ipopt_objective _ d (hf.of_set p), Option.map_some, Option.some.injEq, Prod.mk.injEq,
    IpoptAnswer.objective.injEq] at h
  rw [← h.1, FT.set_nb, ← FT.toFn_set, FT.set_set f0 hf.wf _ _ hp (firstOf_length _ _)]

theorem finalize_reached (f0 : FT LobeObj) (hw : f0.toFn.WF) (f : FT LobeObj) (hf : f0.Reached f) (x : Option (ℕ → ℝ)) :
    f0.Reached (finalizeSolution x f) := by
  cases x with
  | none => exact hf
  | some x => exact hf.next hw x

/-- What is known of the answer of the solver. -/
theorem ipopt_run (files : Str → Option Str) (solver : IpoptSolver) (d : Data) (args : SMap) (f f' : FT LobeObj)
    (ok : Bool) (hw : f.toFn.WF) (h : ipoptFit files solver d args f = some (ok, f')) :
    ∃ f0, f.bootstrap files d args = some f0 ∧
      (f0.toFn.nb = 0 ∧ ok = true ∧ f' = f0 ∨ ok = false ∧ f' = f0 ∨
        ∃ s tr st x f1, solver f0.nb (arr f0.toFn.lo) (arr f0.toFn.hi) (ipoptOptions args) (arr f0.toFn.params) = some s ∧
          s.run (ipoptCall d) f0 = some ((st, x), tr, f1) ∧ f0.Reached f1 ∧ f' = finalizeSolution x f1 ∧
          (ok = true ↔ st = .solveSucceeded ∨ st = .maximumIterationsExceeded)) := by
  unfold ipoptFit at h
  cases h0 : f.bootstrap files d args with
  | none => rw [h0] at h; cases h
  | some f0 =>
    rw [h0] at h
    have hw0 := FT.WF_start hw h0
    refine ⟨f0, rfl, ?_⟩
    simp only at h
    split at h
    · rename_i hn
      cases h
      exact Or.inl ⟨by rw [← FT.toFn_nb]; exact hn, rfl, rfl⟩
    · rename_i hn
      refine Or.inr ?_
      rw [FT.get_params f0 hw0 hn] at h
      cases hs : solver f0.nb (arr f0.toFn.lo) (arr f0.toFn.hi) (ipoptOptions args) (arr f0.toFn.params) with
      | none => rw [hs] at h; cases h; exact Or.inl ⟨rfl, rfl⟩
      | some s =>
        rw [hs] at h
        simp only at h
        cases hr : s.run (ipoptCall d) f0 with
        | none => rw [hr] at h; cases h
        | some r =>
          obtain ⟨⟨st, x⟩, tr, f1⟩ := r
          rw [hr] at h
          have hi := (CallingSolver.run_invariant _ f0.Reached
            (fun q s a s' hs he => ipoptCall_reached d f0 hw0 q s a s' hs he) _ _ _ _ _ (f0.reached_self hw0) hr).1
          refine Or.inr ⟨s, tr, st, x, f1, rfl, hr, hi, ?_⟩
          cases st <;> cases h <;> simp

/-- C60, Ipopt: after a fit that succeeds, the function is that of the starting point (C58) with the solution of
    the solver, for the bounds of the function and the parameters of the starting point. -/
theorem ipopt_fit_outcome (files : Str → Option Str) (solver : IpoptSolver) (hs : solver.StaysBetween) (d : Data) (args : SMap)
    (f f' : FT LobeObj) (hw : f.toFn.WF) (h : ipoptFit files solver d args f = some (true, f')) :
    ∃ f0, f.bootstrap files d args = some f0 ∧
      (f0.toFn.nb = 0 ∧ f' = f0 ∨
        ∃ s tr st x, solver f0.toFn.nb (arr f0.toFn.lo) (arr f0.toFn.hi) (ipoptOptions args) (arr f0.toFn.params) = some s ∧
          s.Dialogue tr (st, some x) ∧ f' = f0.set (firstOf f0.toFn.nb x) ∧ f'.toFn.params = firstOf f0.toFn.nb x) := by
  obtain ⟨f0, h0, h1 | h1 | ⟨s, tr, st, x, f1, a1, a2, a3, rfl, a4⟩⟩ := ipopt_run files solver d args f f' true hw h
  · exact ⟨f0, h0, Or.inl ⟨h1.1, h1.2.2⟩⟩
  · cases h1.1
  · have hw0 := FT.WF_start hw h0
    have hd := CallingSolver.run_dialogue _ _ _ _ _ _ a2
    obtain ⟨y, rfl, -⟩ := hs _ _ _ _ _ _ _ _ _ a1 hd (a4.1 rfl)
    have e : finalizeSolution (some y) f1 = f0.set (firstOf f0.nb y) := by
      show f1.set (firstOf f1.nb y) = _
      rw [a3.nb, a3.set hw0 _ (firstOf_length _ _)]
    refine ⟨f0, h0, Or.inr ?_⟩
    rw [← FT.toFn_nb]
    exact ⟨s, tr, st, y, a1, hd, e, by rw [e]; exact FT.params_set_first f0 hw0 y⟩

/-- C60, Ipopt: if the solver stays between the bounds that it is given, the parameters after a fit that succeeds
    are within the bounds of the function. -/
theorem ipopt_fit_within_bounds (files : Str → Option Str) (solver : IpoptSolver) (hs : solver.StaysBetween)
    (d : Data) (args : SMap) (f f' : FT LobeObj) (hw : f.toFn.WF)
    (h : ipoptFit files solver d args f = some (true, f')) : WithinBounds f'.toFn f'.toFn.params := by
  obtain ⟨f0, h0, h1 | h1 | ⟨s, tr, st, x, f1, a1, a2, a3, rfl, a4⟩⟩ := ipopt_run files solver d args f f' true hw h
  · obtain ⟨hn, -, rfl⟩ := h1
    intro i hi; omega
  · cases h1.1
  · have hw0 := FT.WF_start hw h0
    obtain ⟨y, rfl, hb⟩ := hs _ _ _ _ _ _ _ _ _ a1 (CallingSolver.run_dialogue _ _ _ _ _ _ a2) (a4.1 rfl)
    have e : finalizeSolution (some y) f1 = f0.set (firstOf f0.nb y) := by
      show f1.set (firstOf f1.nb y) = _
      rw [a3.nb, a3.set hw0 _ (firstOf_length _ _)]
    rw [e]
    exact within_of_between f0 hw0 y hb

/-- C60, Ipopt: if the solver does not increase its objective, a fit that succeeds does not increase the sum of the
    squared differences of the data and the function. -/
theorem ipopt_fit_not_worse (files : Str → Option Str) (solver : IpoptSolver) (hs : solver.Descends)
    (d : Data) (args : SMap) (f f0 f' : FT LobeObj) (hw : f.toFn.WF) (h0 : f.bootstrap files d args = some f0)
    (hf : FitReady f0.toFn d) (h : ipoptFit files solver d args f = some (true, f')) :
    sumSquaredErrors f'.toFn d ≤ sumSquaredErrors f0.toFn d := by
  obtain ⟨f0', h0', h1 | h1 | ⟨s, tr, st, x, f1, a1, a2, a3, rfl, a4⟩⟩ := ipopt_run files solver d args f f' true hw h
  · rw [h0] at h0'; cases h0'; rw [h1.2.2]
  · cases h1.1
  · rw [h0] at h0'; cases h0'
    obtain ⟨y, rfl, y', b, s', c, hx, hst, m1, m2, hle⟩ :=
      hs _ _ _ _ _ _ _ _ _ a1 (CallingSolver.run_dialogue _ _ _ _ _ _ a2) (a4.1 rfl)
    have inv := (CallingSolver.run_invariant _ f0.Reached
      (fun q s a s' hs he => ipoptCall_reached d f0 hf.wf q s a s' hs he) _ _ _ _ _ (f0.reached_self hf.wf) a2).2
    obtain ⟨s1, s2, hr1, he1⟩ := inv _ m1
    obtain ⟨t1, t2, hr2, he2⟩ := inv _ m2
    have v1 := ipoptCall_value d f0 hf _ _ _ _ hr1 he1
    have v2 := ipoptCall_value d f0 hf _ _ _ _ hr2 he2
    have e : finalizeSolution (some y) f1 = f0.set (firstOf f0.nb y) := by
      show f1.set (firstOf f1.nb y) = _
      rw [a3.nb, a3.set hf.wf _ (firstOf_length _ _)]
    rw [firstOf_params f0 hf.wf _ hst, FT.set_params f0 hf.wf] at v2
    rw [e, firstOf_congr _ _ _ hx, ← v1, ← v2]
    exact hle

end
end Alta
