import Verif.Proofs.NonlinearFitRun
/-
Property C60: the outcome of a nonlinear fit with the Eigen fitter.
-/
namespace Alta
noncomputable section

/-! ### The state of the function during the calls -/

theorem eigenCall_state (d : Data) (cosine : Bool) (q : EigenQuery) (f : FT LobeObj) (a : EigenAnswer) (f' : FT LobeObj)
    (h : eigenCall d cosine q f = some (a, f')) : f' = f ∨ ∃ x, f' = f.set (firstOf f.nb x) := by
  cases q with
  | residuals x y =>
    simp only [eigenCall, Option.map_eq_some_iff, Prod.mk.injEq] at h
    obtain ⟨r, -, -, rfl⟩ := h
    split
    · exact Or.inl rfl
    · exact Or.inr ⟨x, rfl⟩
  | jacobian x J =>
    simp only [eigenCall, Option.map_eq_some_iff, Prod.mk.injEq] at h
    obtain ⟨r, -, -, rfl⟩ := h
    exact Or.inr ⟨x, rfl⟩

theorem eigenCall_reached (d : Data) (cosine : Bool) (f0 : FT LobeObj) (hw : f0.toFn.WF) (q : EigenQuery)
    (f : FT LobeObj) (a : EigenAnswer) (f' : FT LobeObj) (hf : f0.Reached f)
    (h : eigenCall d cosine q f = some (a, f')) : f0.Reached f' := by
  rcases eigenCall_state d cosine q f a f' h with rfl | ⟨x, rfl⟩
  · exact hf
  · exact hf.next hw x

/-- The function that is evaluated is the one with the parameters of the call. -/
theorem eigenCall_residuals (d : Data) (cosine : Bool) (f0 : FT LobeObj) (hw : f0.toFn.WF) (x y : ℕ → ℝ)
    (f : FT LobeObj) (c : ℤ) (r : ℕ → ℝ) (f' : FT LobeObj) (hf : f0.Reached f)
    (h : eigenCall d cosine (.residuals x y) f = some (.residuals c r, f')) (hc : 0 ≤ c) :
    WithinBounds f0.toFn (firstOf f0.nb x) ∧
      eigenEval f0.toFn d cosine (firstOf f0.nb x) y = some (0, f0.toFn.set (firstOf f0.nb x), r) := by
  obtain ⟨p, hp, rfl⟩ := hf
  have hb := FT.bounds_set f0 p
  simp only [eigenCall, Option.map_eq_some_iff, Prod.mk.injEq, EigenAnswer.residuals.injEq] at h
  obtain ⟨res, h1, ⟨rfl, rfl⟩, -⟩ := h
  rw [FT.set_nb] at h1
  unfold eigenEval at h1
  split at h1
  · cases h1
    simp at hc
  · rename_i ho
    rw [Option.map_eq_some_iff] at h1
    obtain ⟨r', h2, rfl⟩ := h1
    rw [← FT.toFn_set, FT.set_set f0 hw _ _ hp (firstOf_length _ _)] at h2
    have hb : WithinBounds f0.toFn (firstOf f0.nb x) := fun i hi => by
      have := (FitReady.within (firstOf f0.nb x)).mp (by simpa using ho) i (by rw [hb.2.2]; exact hi)
      rw [hb.1, hb.2.1] at this
      exact this
    refine ⟨hb, ?_⟩
    unfold eigenEval
    rw [(FitReady.within _).mpr hb, if_neg (by decide), ← FT.toFn_set, h2]
    rfl

/-! ### Outcome -/

/-- What is known of the answer of the solver. -/
theorem eigen_run (files : Str → Option Str) (solver : EigenSolver) (d : Data) (args : SMap) (f f' : FT LobeObj)
    (hw : f.toFn.WF) (h : eigenFit files solver d args f = some (true, f')) :
    ∃ f0, f.bootstrap files d args = some f0 ∧ f0.toFn.WF ∧
      (f0.toFn.nb = 0 ∧ f' = f0 ∨
        ∃ tr k x f1, (solver f0.nb (d.dimY * d.rows.length) (arr f0.toFn.params)).run
            (eigenCall d (args.isDefined "fit-with-cosine".toList)) f0 = some ((.other k, x), tr, f1) ∧
          f0.toFn.nb ≠ 0 ∧ f' = f0.set (firstOf f0.nb x)) := by
  unfold eigenFit at h
  cases h0 : f.bootstrap files d args with
  | none => rw [h0] at h; cases h
  | some f0 =>
    rw [h0] at h
    have hw0 : f0.toFn.WF := FT.kept_WF f f0 (FT.bootstrap_kept files d f args f0 h0) hw
    refine ⟨f0, rfl, hw0, ?_⟩
    simp only at h
    split at h
    · rename_i hn
      cases h
      exact Or.inl ⟨by rw [← FT.toFn_nb]; exact hn, rfl⟩
    · rename_i hn
      have e1 : f0.toFn.get.take f0.nb = f0.toFn.params := by rw [Fn.params, FT.toFn_nb]
      rw [e1] at h
      cases hr : (solver f0.nb (d.dimY * d.rows.length) (arr f0.toFn.params)).run
          (eigenCall d (args.isDefined "fit-with-cosine".toList)) f0 with
      | none => rw [hr] at h; cases h
      | some r =>
        obtain ⟨⟨st, x⟩, tr, f1⟩ := r
        rw [hr] at h
        cases st with
        | improperInputParameters => cases h
        | userAsked => cases h
        | other k =>
          cases h
          have hi := (CallingSolver.run_invariant _ f0.Reached
            (fun q s a s' hs he => eigenCall_reached d _ f0 hw0 q s a s' hs he) _ _ _ _ _ (f0.reached_self hw0) hr).1
          refine Or.inr ⟨tr, k, x, f1, rfl, by rw [← FT.toFn_nb]; exact hn, ?_⟩
          rw [hi.nb, overwrite_eq f0 hw0 hn, hi.set hw0 _ (firstOf_length _ _)]

/-- C60, Eigen: after a fit that succeeds, the function is that of the starting point (C58) with the parameters
    returned by the solver, which was started from the parameters of the starting point; nothing else of the
    evaluations made by the solver is left.  Without parameters, the fit succeeds and leaves the starting point. -/
theorem eigen_fit_outcome (files : Str → Option Str) (solver : EigenSolver) (d : Data) (args : SMap) (f f' : FT LobeObj)
    (hw : f.toFn.WF) (h : eigenFit files solver d args f = some (true, f')) :
    ∃ f0, f.bootstrap files d args = some f0 ∧
      (f0.toFn.nb = 0 ∧ f' = f0 ∨
        ∃ tr k x, (solver f0.toFn.nb (d.dimY * d.rows.length) (arr f0.toFn.params)).Dialogue tr (.other k, x) ∧
          f' = f0.set (firstOf f0.toFn.nb x) ∧ f'.toFn.params = firstOf f0.toFn.nb x) := by
  obtain ⟨f0, h0, hw0, h1⟩ := eigen_run files solver d args f f' hw h
  refine ⟨f0, h0, h1.imp id ?_⟩
  rintro ⟨tr, k, x, f1, hr, -, rfl⟩
  rw [← FT.toFn_nb]
  refine ⟨tr, k, x, CallingSolver.run_dialogue _ _ _ _ _ _ hr, rfl, ?_⟩
  rw [FT.toFn_set, Fn.params_set _ hw0 _ (by rw [firstOf_length, FT.toFn_nb])]

/-- C60, Eigen: if the solver returns a point where it could evaluate the function, the parameters after a fit
    that succeeds are within the bounds. -/
theorem eigen_fit_within_bounds (files : Str → Option Str) (solver : EigenSolver) (hs : solver.AnswersEvaluated)
    (d : Data) (args : SMap) (f f' : FT LobeObj) (hw : f.toFn.WF)
    (h : eigenFit files solver d args f = some (true, f')) : WithinBounds f'.toFn f'.toFn.params := by
  obtain ⟨f0, h0, hw0, ⟨hn, rfl⟩ | ⟨tr, k, x, f1, hr, -, rfl⟩⟩ := eigen_run files solver d args f f' hw h
  · intro i hi; omega
  · obtain ⟨x', y0, c, y, hx, hm, hc⟩ := hs _ _ _ _ _ _ (CallingSolver.run_dialogue _ _ _ _ _ _ hr)
    obtain ⟨s1, s2, hr1, he⟩ := (CallingSolver.run_invariant _ f0.Reached
      (fun q s a s' hs he => eigenCall_reached d _ f0 hw0 q s a s' hs he) _ _ _ _ _ (f0.reached_self hw0) hr).2 _ hm
    have hb := (eigenCall_residuals d _ f0 hw0 _ _ _ _ _ _ hr1 he hc).1
    obtain ⟨b1, b2, b3⟩ := FT.bounds_set f0 (firstOf f0.nb x)
    intro i hi
    rw [b3] at hi
    rw [b1, b2, FT.toFn_set, Fn.params_set _ hw0 _ (by rw [firstOf_length, FT.toFn_nb]), firstOf_congr _ _ _ hx]
    exact hb i hi

theorem FitReady.of_set {f0 : FT LobeObj} {d : Data} (h : FitReady f0.toFn d) (p : List ℝ) :
    FitReady (f0.set p).toFn d := by
  rw [FT.toFn_set]; exact h.set p

/-- C60, Eigen: if the solver returns a point where the residuals are not larger than those of its start, a fit that
    succeeds does not increase the sum of the squared differences of the data and the function. -/
theorem eigen_fit_not_worse (files : Str → Option Str) (solver : EigenSolver) (hs : solver.Descends)
    (d : Data) (args : SMap) (f f0 f' : FT LobeObj) (hw : f.toFn.WF) (h0 : f.bootstrap files d args = some f0)
    (hf : FitReady f0.toFn d) (hc : CosineDefined d (args.isDefined "fit-with-cosine".toList))
    (h : eigenFit files solver d args f = some (true, f')) :
    weightedSumSquares f'.toFn d (args.isDefined "fit-with-cosine".toList) ≤
      weightedSumSquares f0.toFn d (args.isDefined "fit-with-cosine".toList) := by
  obtain ⟨f0', h0', hw0, ⟨hn, rfl⟩ | ⟨tr, k, x, f1, hr, -, rfl⟩⟩ := eigen_run files solver d args f f' hw h
  · rw [h0] at h0'; cases h0'; exact le_refl _
  · rw [h0] at h0'; cases h0'
    obtain ⟨x', y0, c, y, s', z0, e, z, hx, hst, hm, hc', hm2, he', hle⟩ :=
      hs _ _ _ _ _ _ (CallingSolver.run_dialogue _ _ _ _ _ _ hr)
    have inv := (CallingSolver.run_invariant _ f0.Reached
      (fun q s a s' hs he => eigenCall_reached d _ f0 hw0 q s a s' hs he) _ _ _ _ _ (f0.reached_self hw0) hr).2
    obtain ⟨s1, s2, hr1, he1⟩ := inv _ hm
    obtain ⟨t1, t2, hr2, he2⟩ := inv _ hm2
    obtain ⟨b1, e1⟩ := eigenCall_residuals d _ f0 hw0 _ _ _ _ _ _ hr1 he1 hc'
    obtain ⟨b2, e2⟩ := eigenCall_residuals d _ f0 hw0 _ _ _ _ _ _ hr2 he2 he'
    have hp : firstOf f0.nb s' = f0.toFn.params := by
      rw [← firstOf_congr _ _ _ hst]
      have hl : f0.toFn.params.length = f0.nb := by rw [Fn.params_length _ hw0, FT.toFn_nb]
      rw [← hl]
      exact firstOf_arr _
    obtain ⟨r1, q1, v1⟩ := eigen_objective f0.toFn d hf _ hc _ b1 y0
    obtain ⟨r2, q2, v2⟩ := eigen_objective f0.toFn d hf _ hc _ b2 z0
    rw [e1] at q1
    rw [e2] at q2
    cases q1
    cases q2
    rw [hp, Fn.set_params _ hw0] at v2
    rw [FT.toFn_set, firstOf_congr _ _ _ hx, ← v1, ← v2]
    exact hle

/-- C60, Eigen: when the fit fails after the start, the function keeps the parameters of some evaluation. -/
theorem eigen_fit_false (files : Str → Option Str) (solver : EigenSolver) (d : Data) (args : SMap) (f f' : FT LobeObj)
    (hw : f.toFn.WF) (h : eigenFit files solver d args f = some (false, f')) :
    ∃ f0 p, f.bootstrap files d args = some f0 ∧ p.length = f0.toFn.nb ∧ f' = f0.set p := by
  unfold eigenFit at h
  cases h0 : f.bootstrap files d args with
  | none => rw [h0] at h; cases h
  | some f0 =>
    rw [h0] at h
    have hw0 : f0.toFn.WF := FT.kept_WF f f0 (FT.bootstrap_kept files d f args f0 h0) hw
    simp only at h
    split at h
    · cases h
    · cases hr : (solver f0.nb (d.dimY * d.rows.length) (arr (f0.toFn.get.take f0.nb))).run
          (eigenCall d (args.isDefined "fit-with-cosine".toList)) f0 with
      | none => rw [hr] at h; cases h
      | some r =>
        obtain ⟨⟨st, x⟩, tr, f1⟩ := r
        rw [hr] at h
        obtain ⟨p, hp, hi⟩ := (CallingSolver.run_invariant _ f0.Reached
            (fun q s a s' hs he => eigenCall_reached d _ f0 hw0 q s a s' hs he) _ _ _ _ _ (f0.reached_self hw0) hr).1
        rw [FT.toFn_nb] at hp
        cases st with
        | improperInputParameters => cases h; exact ⟨f0, p, rfl, hp, hi⟩
        | userAsked => cases h; exact ⟨f0, p, rfl, hp, hi⟩
        | other k => cases h

/-- The Jacobian of the function exists at the samples, whatever the parameters. -/
def JacobianDefined (f : Fn) (d : Data) : Prop :=
  ∀ p : List ℝ, p.length = f.nb → ∀ row ∈ d.rows, (readJacobian (f.set p) (d.pointFor f row)).isSome

theorem eigenDf_isSome {f : Fn} {d : Data} (h : FitReady f d) (cosine : Bool) (hc : CosineDefined d cosine)
    (hj : JacobianDefined f d) (p : List ℝ) (hp : p.length = f.nb) (J : ℕ × ℕ → ℝ) : (eigenDf f d cosine p J).isSome := by
  unfold eigenDf
  rw [Option.isSome_map]
  refine foldlM_isSome _ _ (fun s hs J => ?_) J
  rw [List.mem_range] at hs
  have hm : d.rows[s] ∈ d.rows := List.getElem_mem hs
  obtain ⟨x, hx, -⟩ := h.points _ hm
  have hj' := hj p hp _ hm
  unfold Data.pointFor at hj'
  rw [hx, Option.getD_some] at hj'
  obtain ⟨j, hj'⟩ := Option.isSome_iff_exists.1 hj'
  unfold eigenDfRow
  rw [List.getElem?_eq_getElem hs, Option.bind_some, Fn.set_par _ h.wf, hx, Option.bind_some]
  have hcos : ∃ c, eigenCos d cosine d.rows[s] = some c := by
    unfold eigenCos
    cases cosine with
    | false => exact ⟨1, rfl⟩
    | true =>
      obtain ⟨c, hc⟩ := hc rfl _ hm
      exact ⟨arr c 5, by rw [if_pos rfl, hc]; rfl⟩
  obtain ⟨c, hcos⟩ := hcos
  rw [hcos, Option.bind_some, hj', Option.map_some]
  rfl

/-- C60, Eigen: whatever the solver, the fit of a function that can be compared with the data returns. -/
theorem eigen_fit_returns (files : Str → Option Str) (solver : EigenSolver) (d : Data) (args : SMap) (f f0 : FT LobeObj)
    (h0 : f.bootstrap files d args = some f0)
    (hf : FitReady f0.toFn d) (hc : CosineDefined d (args.isDefined "fit-with-cosine".toList))
    (hj : JacobianDefined f0.toFn d) : ∃ ok f', eigenFit files solver d args f = some (ok, f') := by
  unfold eigenFit
  rw [h0]
  simp only
  split
  · exact ⟨true, f0, rfl⟩
  · obtain ⟨⟨st, x⟩, tr, f1, hr⟩ := CallingSolver.run_isSome (R := LMStatus × (ℕ → ℝ))
      (eigenCall d (args.isDefined "fit-with-cosine".toList)) f0.Reached (fun q s hs => by
        have key : ∃ r, eigenCall d (args.isDefined "fit-with-cosine".toList) q s = some r := by
          obtain ⟨p, hp, rfl⟩ := hs
          cases q with
          | residuals x y =>
            by_cases hb : WithinBounds (f0.set p).toFn (firstOf (f0.set p).nb x)
            · obtain ⟨r, h1, -⟩ := eigen_residuals _ d (hf.of_set p) _ hc _ hb y
              exact Option.isSome_iff_exists.1 (by simp only [eigenCall, h1, Option.map_some, Option.isSome_some])
            · exact Option.isSome_iff_exists.1 (by
                simp only [eigenCall, eigen_out_of_bounds _ d _ _ hb, Option.map_some, Option.isSome_some])
          | jacobian x J =>
            have hj' : JacobianDefined (f0.set p).toFn d := by
              intro q hq row hrow
              rw [FT.toFn_set, Fn.set_nb _ hf.wf] at hq
              rw [FT.toFn_set, Fn.set_set _ hf.wf _ _ (by rw [hp, FT.toFn_nb]) hq]
              have := hj q hq row hrow
              unfold Data.pointFor at this ⊢
              rw [Fn.set_par _ hf.wf]
              exact this
            obtain ⟨r, hr⟩ := Option.isSome_iff_exists.1 (eigenDf_isSome (hf.of_set p) _ hc hj' (firstOf (f0.set p).nb x)
              (by rw [firstOf_length, FT.toFn_nb]) J)
            exact Option.isSome_iff_exists.1 (by simp only [eigenCall, hr, Option.map_some, Option.isSome_some])
        obtain ⟨⟨a, s'⟩, hk⟩ := key
        exact ⟨a, s', hk, eigenCall_reached d _ f0 hf.wf q s a s' hs hk⟩)
      (solver f0.nb (d.dimY * d.rows.length) (arr (f0.toFn.get.take f0.nb))) f0 (f0.reached_self hf.wf)
    rw [hr]
    cases st with
    | improperInputParameters => exact ⟨false, f1, rfl⟩
    | userAsked => exact ⟨false, f1, rfl⟩
    | other k => exact ⟨true, _, rfl⟩

end
end Alta
