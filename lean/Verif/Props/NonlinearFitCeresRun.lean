import Verif.Props.NonlinearFitSolvers
/-
Property C60: the outcome of a nonlinear fit with the Ceres fitter.
-/
namespace Alta
noncomputable section

theorem mapM_get_length {α β : Type} (g : α → Option β) : ∀ (l : List α) (r : List β), l.mapM g = some r →
    r.length = l.length
  | [], r, h => by simp at h; rw [h]; rfl
  | a :: l, r, h => by
    rw [List.mapM_cons] at h
    cases h1 : g a with
    | none => rw [h1] at h; cases h
    | some b =>
      cases h2 : l.mapM g with
      | none => rw [h1, h2] at h; cases h
      | some t =>
        rw [h1, h2] at h
        cases h
        rw [List.length_cons, List.length_cons, mapM_get_length g l t h2]

theorem mapM_get {α β : Type} (g : α → Option β) : ∀ (l : List α) (r : List β), l.mapM g = some r →
    ∀ (i : ℕ) (hi : i < l.length) (y : β), r[i]? = some y → g l[i] = some y
  | [], r, h, i, hi, y, hy => by simp at hi
  | a :: l, r, h, i, hi, y, hy => by
    rw [List.mapM_cons] at h
    cases h1 : g a with
    | none => rw [h1] at h; cases h
    | some b =>
      cases h2 : l.mapM g with
      | none => rw [h1, h2] at h; cases h
      | some t =>
        rw [h1, h2] at h
        cases h
        cases i with
        | zero => simp at hy; subst hy; exact h1
        | succ i =>
          simp only [List.getElem?_cons_succ] at hy
          simp only [List.getElem_cons_succ]
          exact mapM_get g l t h2 i _ y hy

theorem ceresCall_reached (samples : List (List ℝ)) (logFit : Bool) (f0 : FT LobeObj) (hw : f0.toFn.WF) (q : CeresQuery)
    (f : FT LobeObj) (a : Option (List ℝ × List ℝ)) (f' : FT LobeObj) (hf : f0.Reached f)
    (h : ceresCall samples logFit q f = some (a, f')) : f0.Reached f' := by
  unfold ceresCall at h
  split at h
  · cases h
  · rw [Option.map_eq_some_iff] at h
    obtain ⟨r, -, h2⟩ := h
    cases r with
    | none => cases h2; exact hf
    | some r => cases h2; exact hf.next hw _

/-- An evaluation that succeeds, with or without the derivatives. -/
theorem ceresEvaluate_plain (f : Fn) (logFit : Bool) (xi x : List ℝ) (grad : Bool) (g : Fn) (r dy : List ℝ)
    (h : ceresEvaluate f logFit xi x grad = some (some (g, r, dy))) :
    outOfBounds f x = false ∧ ceresEvaluate f logFit xi x false = some (some (g, r, [])) := by
  unfold ceresEvaluate at h ⊢
  split at h
  · cases h
  · rename_i ho
    refine ⟨by simpa using ho, ?_⟩
    rw [if_neg ho]
    cases h1 : readValues xi f.par.dimX f.par.dimY with
    | none => rw [h1] at h; cases h
    | some di =>
      rw [h1, Option.bind_some] at h
      cases h2 : (f.set x).value xi with
      | none => rw [h2] at h; cases h
      | some yi =>
        rw [h2, Option.bind_some] at h
        cases h3 : vecSub di yi with
        | none => rw [h3] at h; cases h
        | some e =>
          rw [h3, Option.bind_some, Option.map_eq_some_iff] at h
          obtain ⟨j, -, h4⟩ := h
          cases h4
          simp only [Option.bind_some, h3, Bool.false_eq_true, if_false, Option.map_some]

/-- The residuals of a call that succeeds are those of the function with the parameters of the call, which are
    within the bounds. -/
theorem ceresCall_value (d : Data) (logFit : Bool) (f0 : FT LobeObj) (hw : f0.toFn.WF)
    (samples : List (List ℝ)) (hs : d.rows.mapM (ceresSample f0.toFn d) = some samples) (q : CeresQuery)
    (f : FT LobeObj) (r dy : List ℝ) (f' : FT LobeObj) (hr : f0.Reached f)
    (h : ceresCall samples logFit q f = some (some (r, dy), f')) :
    WithinBounds f0.toFn (firstOf f0.nb q.x) ∧
      (FitReady f0.toFn d → CeresReady f0.toFn d → ∃ hq : q.block < d.rows.length,
        r = (List.range d.dimY).map (if logFit then logErrorOf (f0.set (firstOf f0.nb q.x)).toFn d d.rows[q.block]
          else errorOf (f0.set (firstOf f0.nb q.x)).toFn d d.rows[q.block])) := by
  obtain ⟨p, hp, rfl⟩ := hr
  have hb := FT.bounds_set f0 p
  unfold ceresCall at h
  cases hx : samples[q.block]? with
  | none => rw [hx] at h; cases h
  | some xi =>
    rw [hx] at h
    simp only [Option.map_eq_some_iff] at h
    obtain ⟨res, h1, h2⟩ := h
    cases res with
    | none => cases h2
    | some res =>
      obtain ⟨g, r', dy'⟩ := res
      cases h2
      rw [FT.set_nb] at h1
      obtain ⟨h3, h4⟩ := ceresEvaluate_plain _ _ _ _ _ _ _ _ h1
      have hin : WithinBounds f0.toFn (firstOf f0.nb q.x) := by
        intro i hi
        have := (FitReady.within _).mp h3 i (by rw [hb.2.2]; exact hi)
        rw [hb.1, hb.2.1] at this
        exact this
      refine ⟨hin, fun hf hc => ?_⟩
      have hlen : samples.length = d.rows.length := mapM_get_length _ _ _ hs
      have hq : q.block < d.rows.length := by
        rw [← hlen]
        exact (List.getElem?_eq_some_iff.1 hx).1
      refine ⟨hq, ?_⟩
      have hsx : ceresSample f0.toFn d d.rows[q.block] = some xi := mapM_get _ _ _ hs q.block hq _ hx
      have hrow : d.rows[q.block] ∈ d.rows := List.getElem_mem hq
      have e1 : ceresEvaluate (f0.set p).toFn logFit xi (firstOf f0.nb q.x) false =
          ceresEvaluate f0.toFn logFit xi (firstOf f0.nb q.x) false := by
        unfold ceresEvaluate
        rw [h3, (FitReady.within _).mpr hin, ← FT.toFn_set, FT.set_set f0 hw _ _ hp (firstOf_length _ _), ← FT.toFn_set,
          FT.toFn_set f0 p, Fn.set_par _ hw]
        simp only [Bool.false_eq_true, if_false]
      rw [e1] at h4
      cases logFit with
      | false =>
        obtain ⟨xi', s1, s2⟩ := ceres_residuals f0.toFn d hf hc _ hrow _ hin
        rw [hsx] at s1
        cases s1
        rw [h4] at s2
        cases s2
        rw [FT.toFn_set]
        rfl
      | true =>
        obtain ⟨xi', s1, s2⟩ := ceres_log_residuals f0.toFn d hf hc _ hrow _ hin
        rw [hsx] at s1
        cases s1
        rw [h4] at s2
        cases s2
        rw [FT.toFn_set]
        rfl

/-- What is known of the answer of Ceres. -/
theorem ceres_run (files : Str → Option Str) (solver : CeresSolver) (d : Data) (args : SMap) (f f' : FT LobeObj)
    (ok : Bool) (hw : f.toFn.WF) (h : ceresFit files solver d args f = some (ok, f')) :
    ok = true ∧ (f.toFn.nb = 0 ∧ f' = f ∨ f.toFn.nb ≠ 0 ∧
      ∃ f0 samples tr u x f1, f.bootstrap files d args = some f0 ∧ d.rows.mapM (ceresSample f0.toFn d) = some samples ∧
        (solver f0.nb samples.length (arr f0.toFn.get)).run (ceresCall samples (args.isDefined "log-fit".toList)) f0 =
          some ((u, x), tr, f1) ∧ f0.Reached f1 ∧ f' = f1.set (overwrite f0.toFn.get f0.nb x)) := by
  unfold ceresFit at h
  split at h
  · rename_i hn
    cases h
    exact ⟨rfl, Or.inl ⟨by rw [← FT.toFn_nb]; exact hn, rfl⟩⟩
  · rename_i hn
    cases h0 : f.bootstrap files d args with
    | none => rw [h0] at h; cases h
    | some f0 =>
      rw [h0] at h
      have hw0 := FT.WF_start hw h0
      simp only at h
      cases hs : d.rows.mapM (ceresSample f0.toFn d) with
      | none => rw [hs] at h; cases h
      | some samples =>
        rw [hs] at h
        simp only at h
        cases hr : (solver f0.nb samples.length (arr f0.toFn.get)).run
            (ceresCall samples (args.isDefined "log-fit".toList)) f0 with
        | none => rw [hr] at h; cases h
        | some r =>
          obtain ⟨⟨u, x⟩, tr, f1⟩ := r
          rw [hr] at h
          cases h
          have hi := (CallingSolver.run_invariant _ f0.Reached
            (fun q s a s' hs he => ceresCall_reached samples _ f0 hw0 q s a s' hs he) _ _ _ _ _ (f0.reached_self hw0) hr).1
          exact ⟨rfl, Or.inr ⟨by rw [← FT.toFn_nb]; exact hn, f0, samples, tr, u, x, f1, rfl, hs, hr, hi, rfl⟩⟩

theorem FT.Kept.get_params (f f0 : FT LobeObj) (hk : f.Kept f0) (hw : f0.toFn.WF) (h : f.toFn.nb ≠ 0) :
    f0.toFn.get = f0.toFn.params := by
  have : f0.toFn.get.length = f0.toFn.nb := by
    cases f0 with
    | leaf m =>
      cases f with
      | leaf l =>
        obtain ⟨h1, h2, h3, h4, h5, h6, h7, h8, h9, h10, h11, h12, h13, h14, h15, h16⟩ := lobe_parameters_round_trip
        cases m with
        | blinn s => exact h1.size s
        | retroblinn s => exact h2.size s
        | beckmann s => exact h3.size s
        | retrobeckmann s => exact h4.size s
        | ward s => exact h5.size s
        | abc s => exact h6.size s
        | diffuse s =>
          cases l with
          | diffuse t => exact absurd rfl h
          | _ => exfalso; have h0 := hk.1; simp [LobeObj.ctorIdx] at h0
        | sg s => exact h7.size s
        | isoLafortune s => exact h8.size s
        | lafortune s => exact h9.size s
        | sgd s => exact h10.size s
        | schlickFresnel s => exact h11.size s
        | normalizedSchlick s => exact h12.size s
        | retroSchlick s => exact h13.size s
        | schlickMasking s => exact h14.size s
        | smith s => exact h15.size s
        | walterSmith s => exact h16.size s
      | compound p fs => exact hk.elim
      | product p f g a b => exact hk.elim
    | compound p fs => exact composition_parameters_length _ hw (by intros; simp [FT.toFn])
    | product p f g a b => exact composition_parameters_length _ hw (by intros; simp [FT.toFn])
  rw [Fn.params, ← this, List.take_length]

theorem ceres_result {f0 f1 : FT LobeObj} (hw0 : f0.toFn.WF) (hg : f0.toFn.get = f0.toFn.params) (hi : f0.Reached f1)
    (x : ℕ → ℝ) : f1.set (overwrite f0.toFn.get f0.nb x) = f0.set (firstOf f0.nb x) := by
  have e : overwrite f0.toFn.get f0.nb x = firstOf f0.nb x := by
    have hl : f0.toFn.get.length = f0.nb := by rw [hg, Fn.params_length _ hw0, FT.toFn_nb]
    unfold overwrite firstOf
    rw [hl]
    exact List.map_congr_left fun i hi => by rw [if_pos (List.mem_range.1 hi)]
  rw [e, hi.set hw0 _ (firstOf_length _ _)]

/-- C60, Ceres: a fit that returns succeeds.  The function is that of the starting point (C58) with the parameters
    left by the solver, which was started from the parameters of the starting point; nothing else of the
    evaluations made by the solver is left.  A function without parameters is not changed at all. -/
theorem ceres_fit_outcome (files : Str → Option Str) (solver : CeresSolver) (d : Data) (args : SMap) (f f' : FT LobeObj)
    (ok : Bool) (hw : f.toFn.WF) (h : ceresFit files solver d args f = some (ok, f')) :
    ok = true ∧ (f.toFn.nb = 0 ∧ f' = f ∨ f.toFn.nb ≠ 0 ∧
      ∃ f0, f.bootstrap files d args = some f0 ∧
        ∃ tr u x, (solver f0.toFn.nb d.rows.length (arr f0.toFn.params)).Dialogue tr (u, x) ∧
          f' = f0.set (firstOf f0.toFn.nb x) ∧ f'.toFn.params = firstOf f0.toFn.nb x) := by
  obtain ⟨h1, h2 | ⟨hn, f0, samples, tr, u, x, f1, h0, hs, hr, hi, rfl⟩⟩ := ceres_run files solver d args f f' ok hw h
  · exact ⟨h1, Or.inl h2⟩
  · have hw0 := FT.WF_start hw h0
    have hg := FT.Kept.get_params f f0 (FT.bootstrap_kept files d f args f0 h0) hw0 hn
    rw [ceres_result hw0 hg hi]
    rw [hg, mapM_get_length _ _ _ hs] at hr
    refine ⟨h1, Or.inr ⟨hn, f0, h0, tr, u, x, ?_⟩⟩
    rw [← FT.toFn_nb]
    exact ⟨CallingSolver.run_dialogue _ _ _ _ _ _ hr, rfl, FT.params_set_first f0 hw0 x⟩

/-- C60, Ceres: if the solver leaves its start or a point where it could evaluate the function, and the start is
    within the bounds, the parameters after the fit are within the bounds. -/
theorem ceres_fit_within_bounds (files : Str → Option Str) (solver : CeresSolver) (hs : solver.AnswersEvaluated)
    (d : Data) (args : SMap) (f f0 f' : FT LobeObj) (ok : Bool) (hw : f.toFn.WF)
    (h0 : f.bootstrap files d args = some f0) (hb : WithinBounds f0.toFn f0.toFn.params)
    (h : ceresFit files solver d args f = some (ok, f')) : WithinBounds f'.toFn f'.toFn.params := by
  obtain ⟨h1, ⟨h2, rfl⟩ | ⟨hn, f0', samples, tr, u, x, f1, h0', hsm, hr, hi, rfl⟩⟩ := ceres_run files solver d args f f' ok hw h
  · intro i hi; omega
  · rw [h0] at h0'; cases h0'
    have hw0 := FT.WF_start hw h0
    have hg := FT.Kept.get_params f f0 (FT.bootstrap_kept files d f args f0 h0) hw0 hn
    rw [ceres_result hw0 hg hi]
    rw [hg] at hr
    have key : WithinBounds f0.toFn (firstOf f0.nb x) := by
      rcases hs _ _ _ _ _ _ (CallingSolver.run_dialogue _ _ _ _ _ _ hr) with hx | ⟨q, r, hx, hm⟩
      · rw [firstOf_params f0 hw0 x (fun i hi => (hx i hi).symm)]
        exact hb
      · obtain ⟨s1, s2, hr1, he⟩ := (CallingSolver.run_invariant _ f0.Reached
          (fun q s a s' hs he => ceresCall_reached samples _ f0 hw0 q s a s' hs he) _ _ _ _ _ (f0.reached_self hw0) hr).2 _ hm
        obtain ⟨r1, r2⟩ := r
        rw [firstOf_congr _ _ _ hx]
        exact (ceresCall_value d _ f0 hw0 samples hsm q s1 r1 r2 s2 hr1 he).1
    obtain ⟨b1, b2, b3⟩ := FT.bounds_set f0 (firstOf f0.nb x)
    intro i hi
    rw [b3] at hi
    rw [b1, b2, FT.toFn_set, Fn.params_set _ hw0 _ (by rw [firstOf_length, FT.toFn_nb])]
    exact key i hi

/-- What a fit with Ceres minimises: with the option `log-fit`, the differences of the logarithms. -/
def ceresObjective (f : Fn) (d : Data) (logFit : Bool) : ℝ :=
  if logFit then sumSquaredLogErrors f d else sumSquaredErrors f d

theorem blockCost_eq (g : Fn) (d : Data) (logFit : Bool) (r : ℕ → List ℝ)
    (h : ∀ i (hi : i < d.rows.length), r i = (List.range d.dimY).map
      (if logFit then logErrorOf g d d.rows[i] else errorOf g d d.rows[i])) :
    blockCost d.rows.length r = ceresObjective g d logFit := by
  unfold blockCost ceresObjective
  cases logFit with
  | false =>
    rw [if_neg (by decide), sumSquaredErrors, sum_rows]
    refine Finset.sum_congr rfl fun i hi => ?_
    rw [Finset.mem_range] at hi
    rw [h i hi, List.map_map]
    simp only [Bool.false_eq_true, if_false, List.getD, List.getElem?_eq_getElem hi, Option.getD_some]
    rw [Finset.sum_range]
    rw [← List.sum_ofFn]
    congr 1
    apply List.ext_getElem <;> simp
  | true =>
    rw [if_pos rfl, sumSquaredLogErrors, sum_rows]
    refine Finset.sum_congr rfl fun i hi => ?_
    rw [Finset.mem_range] at hi
    rw [h i hi, List.map_map]
    simp only [if_true, List.getD, List.getElem?_eq_getElem hi, Option.getD_some]
    rw [Finset.sum_range]
    rw [← List.sum_ofFn]
    congr 1
    apply List.ext_getElem <;> simp

/-- C60, Ceres: if the solver leaves its start or a point where its cost is not larger than that of its start, a fit
    does not increase the sum of the squared differences (with `log-fit`, of the logarithms). -/
theorem ceres_fit_not_worse (files : Str → Option Str) (solver : CeresSolver) (hs : solver.Descends)
    (d : Data) (args : SMap) (f f0 f' : FT LobeObj) (ok : Bool) (hw : f.toFn.WF)
    (h0 : f.bootstrap files d args = some f0) (hn : f.toFn.nb ≠ 0)
    (hf : FitReady f0.toFn d) (hc : CeresReady f0.toFn d)
    (h : ceresFit files solver d args f = some (ok, f')) :
    ceresObjective f'.toFn d (args.isDefined "log-fit".toList) ≤
      ceresObjective f0.toFn d (args.isDefined "log-fit".toList) := by
  obtain ⟨h1, ⟨h2, rfl⟩ | ⟨-, f0', samples, tr, u, x, f1, h0', hsm, hr, hi, rfl⟩⟩ := ceres_run files solver d args f f' ok hw h
  · exact absurd h2 hn
  · rw [h0] at h0'; cases h0'
    have hw0 := hf.wf
    have hg := FT.Kept.get_params f f0 (FT.bootstrap_kept files d f args f0 h0) hw0 hn
    rw [ceres_result hw0 hg hi]
    rw [hg, mapM_get_length _ _ _ hsm] at hr
    rcases hs _ _ _ _ _ _ (CallingSolver.run_dialogue _ _ _ _ _ _ hr) with hx | ⟨r, s, hb1, hb2, hle⟩
    · rw [firstOf_params f0 hw0 x (fun i hi => (hx i hi).symm), FT.set_params f0 hw0]
    · have inv := (CallingSolver.run_invariant _ f0.Reached
          (fun q s a s' hs he => ceresCall_reached samples _ f0 hw0 q s a s' hs he) _ _ _ _ _ (f0.reached_self hw0) hr).2
      have key : ∀ (y : ℕ → ℝ) (r : ℕ → List ℝ), BlocksAt f0.nb d.rows.length y tr r →
          blockCost d.rows.length r = ceresObjective (f0.set (firstOf f0.nb y)).toFn d (args.isDefined "log-fit".toList) := by
        intro y r hb
        refine blockCost_eq _ d _ r fun i hi => ?_
        obtain ⟨q, dy, rfl, hx, hm⟩ := hb i hi
        obtain ⟨s1, s2, hr1, he⟩ := inv _ hm
        obtain ⟨hq, hv⟩ := (ceresCall_value d _ f0 hw0 samples hsm q s1 _ _ s2 hr1 he).2 hf hc
        rw [hv, firstOf_congr _ _ _ hx]
      rw [← key x r hb1]
      have := key _ s hb2
      rw [firstOf_params f0 hw0 _ (fun i _ => rfl), FT.set_params f0 hw0] at this
      rw [← this]
      exact hle

end
end Alta
