import Verif.Props.NonlinearFitCeresRun
import Verif.Props.NonlinearFitLobes
import Verif.Props.BootstrapExamples
import Verif.Props.Quadprog
/-
Property C60: what a fit keeps whatever its outcome, cases that meet the hypotheses, and limits.
-/
namespace Alta
noncomputable section

/-! ### What is kept -/

/-- C60: whatever the solver and the outcome, a fit changes only the parameters: the function after it is built as
    the function before it (same sums and products, classes, dimensions, fixed parts). -/
theorem fit_keeps (files : Str → Option Str) (d : Data) (args : SMap) (f f' : FT LobeObj) (ok : Bool) (hw : f.toFn.WF)
    (h : (∃ s, eigenFit files s d args f = some (ok, f')) ∨ (∃ s, ceresFit files s d args f = some (ok, f')) ∨
      (∃ s, nloptFit files s d args f = some (ok, f')) ∨ (∃ s, ipoptFit files s d args f = some (ok, f'))) :
    f.Kept f' := by
  have key : ∀ f0 p, f.bootstrap files d args = some f0 → f.Kept (f0.set p) := fun f0 p h0 =>
    FT.Kept.trans _ _ _ (FT.bootstrap_kept files d f args f0 h0) (f0.set_kept p)
  have key0 : ∀ f0, f.bootstrap files d args = some f0 → f.Kept f0 := fun f0 h0 =>
    FT.bootstrap_kept files d f args f0 h0
  rcases h with ⟨s, h⟩ | ⟨s, h⟩ | ⟨s, h⟩ | ⟨s, h⟩
  · cases ok with
    | false =>
      obtain ⟨f0, p, h0, -, rfl⟩ := eigen_fit_false files s d args f f' hw h
      exact key f0 p h0
    | true =>
      obtain ⟨f0, h0, ⟨-, rfl⟩ | ⟨tr, k, x, -, rfl, -⟩⟩ := eigen_fit_outcome files s d args f f' hw h
      · exact key0 _ h0
      · exact key f0 _ h0
  · obtain ⟨-, ⟨-, rfl⟩ | ⟨-, f0, h0, tr, u, x, -, rfl, -⟩⟩ := ceres_fit_outcome files s d args f f' ok hw h
    · have := FT.set_kept f' f'.toFn.params
      rwa [FT.set_params f' hw] at this
    · exact key f0 _ h0
  · cases ok with
    | false =>
      obtain ⟨f0, p, h0, -, rfl⟩ := nlopt_fit_false files s d args f f' hw h
      exact key f0 p h0
    | true =>
      obtain ⟨f0, h0, ⟨-, rfl⟩ | ⟨_, _, _, _, _, x, -, -, -, -, -, rfl, -⟩⟩ := nlopt_fit_outcome files s d args f f' hw h
      · exact key0 _ h0
      · exact key f0 _ h0
  · obtain ⟨f0, h0, h1 | h1 | ⟨s, tr, st, x, f1, -, -, a3, rfl, -⟩⟩ := ipopt_run files s d args f f' ok hw h
    · rw [h1.2.2]; exact key0 _ h0
    · rw [h1.2]; exact key0 _ h0
    · obtain ⟨p, -, e⟩ := finalize_reached f0 (FT.WF_start hw h0) f1 a3 x
      rw [e]
      exact key f0 p h0

/-- C60: a function that is not nonlinear (a rational function, ...) is left unchanged and the fit fails. -/
theorem fit_needs_nonlinear {α : Type} (fit : FT LobeObj → Option (Bool × FT LobeObj)) (g : α) (ok : Bool)
    (g' : FT LobeObj ⊕ α) (h : fitAny fit (.inr g) = some (ok, g')) : ok = false ∧ g' = .inr g := by
  cases h
  exact ⟨rfl, rfl⟩

/-! ### Solvers that compare their start with another point -/

/-- An NLopt that keeps the better of the start and of the point `c`. -/
def betterNlopt (c : ℕ → ℝ) : NloptSolver := fun _ _ => some fun _ _ _ start =>
  some (.call ⟨start, false⟩ fun a => .call ⟨c, false⟩ fun b =>
    if b.1 < a.1 then .stop (1, c) else .stop (1, start))

theorem betterNlopt_descends (c : ℕ → ℝ) : (betterNlopt c).Descends := by
  intro alg n opt lo hi cr start s tr res x ho hs hd hres
  cases ho
  cases hs
  obtain ⟨a, tr1, rfl, b, tr2, rfl, hd⟩ := hd
  simp only at hd
  split at hd
  · rename_i hlt
    obtain ⟨rfl, hx⟩ := hd
    cases hx
    exact ⟨⟨c, false⟩, b.1, b.2, ⟨start, false⟩, a.1, a.2, fun _ _ => rfl, fun _ _ => rfl, by simp, by simp, le_of_lt hlt⟩
  · obtain ⟨rfl, hx⟩ := hd
    cases hx
    exact ⟨⟨start, false⟩, a.1, a.2, ⟨start, false⟩, a.1, a.2, fun _ _ => rfl, fun _ _ => rfl, by simp, by simp, le_refl _⟩

/-- An Eigen that keeps the better of the start and of the point `c`. -/
def betterEigen (c : ℕ → ℝ) : EigenSolver := fun _ m start =>
  .call (.residuals start fun _ => 0) fun
    | .residuals e z => if e < 0 then .stop (.userAsked, start) else
      .call (.residuals c fun _ => 0) fun
        | .residuals e' y => if 0 ≤ e' ∧ squares m y < squares m z then .stop (.other 1, c) else .stop (.other 4, start)
        | .jacobian _ => .stop (.userAsked, start)
    | .jacobian _ => .stop (.userAsked, start)

theorem betterEigen_descends (c : ℕ → ℝ) : (betterEigen c).Descends ∧ (betterEigen c).AnswersEvaluated := by
  have key : ∀ n m start tr k x, (betterEigen c n m start).Dialogue tr (.other k, x) →
    ∃ x' y₀ e y s' z₀ e' z, SameFirst n x x' ∧ SameFirst n start s' ∧
      (EigenQuery.residuals x' y₀, EigenAnswer.residuals e y) ∈ tr ∧ 0 ≤ e ∧
      (EigenQuery.residuals s' z₀, EigenAnswer.residuals e' z) ∈ tr ∧ 0 ≤ e' ∧ squares m y ≤ squares m z := by
    intro n m start tr k x hd
    obtain ⟨a, tr1, rfl, hd⟩ := hd
    cases a with
    | jacobian J => obtain ⟨-, hx⟩ := hd; cases hx
    | residuals e z =>
      simp only at hd
      split at hd
      · obtain ⟨-, hx⟩ := hd; cases hx
      · rename_i he
        obtain ⟨b, tr2, rfl, hd⟩ := hd
        cases b with
        | jacobian J => obtain ⟨-, hx⟩ := hd; cases hx
        | residuals e' y =>
          simp only at hd
          split at hd
          · rename_i h'
            obtain ⟨rfl, hx⟩ := hd
            cases hx
            exact ⟨c, fun _ => 0, e', y, start, fun _ => 0, e, z, fun _ _ => rfl, fun _ _ => rfl, by simp, h'.1, by simp,
              by omega, le_of_lt h'.2⟩
          · obtain ⟨rfl, hx⟩ := hd
            cases hx
            exact ⟨start, fun _ => 0, e, z, start, fun _ => 0, e, z, fun _ _ => rfl, fun _ _ => rfl, by simp, by omega, by simp,
              by omega, le_refl _⟩
  refine ⟨key, fun n m start tr k x hd => ?_⟩
  obtain ⟨x', y0, e, y, -, -, -, -, h1, -, h2, h3, -⟩ := key n m start tr k x hd
  exact ⟨x', y0, e, y, h1, h2, h3⟩

/-! ### A Blinn lobe -/

/-- The lobe `2 x^2` as a function of the library. -/
def blinnFT : FT LobeObj := .leaf (.blinn blinnLobe)

/-- Its starting point: `x^10`. -/
def blinnStart : FT LobeObj := .leaf (.blinn ⟨blinnLobe.par, fillTo 1 1 blinnLobe.ks, fillTo 1 10 blinnLobe.N⟩)

theorem blinnFT_start (files : Str → Option Str) (args : SMap) : blinnFT.bootstrap files blinnData args = some blinnStart := rfl

theorem blinnStart_nb : blinnStart.nb = 2 := rfl

theorem two_zero : (2 = 0) = False := by simp

theorem blinnFT_wf : blinnFT.toFn.WF := blinn_lawful

theorem blinnStart_params : blinnStart.toFn.params = [1, 10] := by
  show List.take 2 _ = _
  simp [blinnStart, FT.toFn, LobeObj.toFn, Fn.get, blinnCls, blinnLobe, blocks, List.range_succ, fillTo]

theorem blinnStart_fit : FitReady blinnStart.toFn blinnData ∧ CeresReady blinnStart.toFn blinnData ∧
    ∀ p, JacobianAtSamples (blinnStart.toFn.set p) blinnData := by
  refine blinn_fit _ ⟨rfl, rfl⟩ blinnData rfl ?_ ?_
  · intro row hr
    simp only [blinnData, List.mem_cons, List.mem_nil_iff, or_false] at hr
    rcases hr with h | h <;> subst h <;> rfl
  · intro row _
    obtain ⟨o, h, -⟩ := convertInput_self (arr row) .COS_TH (by unfold Input.Named; decide)
    exact ⟨o, h⟩

/-- The hypotheses of `eigen_fit_not_worse`, `eigen_fit_within_bounds` and `nlopt_fit_not_worse` hold for it, with the
    options of an empty command line. -/
example (files : Str → Option Str) (c : ℕ → ℝ) (f' : FT LobeObj)
    (h : eigenFit files (betterEigen c) blinnData [] blinnFT = some (true, f')) :
    weightedSumSquares f'.toFn blinnData false ≤ weightedSumSquares blinnStart.toFn blinnData false ∧
      WithinBounds f'.toFn f'.toFn.params :=
  ⟨eigen_fit_not_worse files _ (betterEigen_descends c).1 blinnData [] blinnFT blinnStart f' blinnFT_wf
      (blinnFT_start files []) blinnStart_fit.1 (fun h => by cases h) h,
    eigen_fit_within_bounds files _ (betterEigen_descends c).2 blinnData [] blinnFT f' blinnFT_wf h⟩

example (files : Str → Option Str) (c : ℕ → ℝ) (f' : FT LobeObj)
    (h : nloptFit files (betterNlopt c) blinnData [] blinnFT = some (true, f')) :
    sumSquaredErrors f'.toFn blinnData ≤ sumSquaredErrors blinnStart.toFn blinnData :=
  nlopt_fit_not_worse files _ (betterNlopt_descends c) blinnData [] blinnFT blinnStart f' blinnFT_wf
    (blinnFT_start files []) blinnStart_fit.1 h

theorem blinnStart_bounds (q : List ℝ) (hq : ∀ x ∈ q, -4 ≤ x ∧ x ≤ 4) : WithinBounds blinnStart.toFn q := by
  have h4 := maxDouble_large
  intro i hi
  have hn : blinnStart.toFn.nb = 2 := rfl
  rw [hn] at hi
  have hlo : blinnStart.toFn.lo = [-maxDouble, -maxDouble] := rfl
  have hhi : blinnStart.toFn.hi = [maxDouble, maxDouble] := rfl
  have hx : -4 ≤ arr q i ∧ arr q i ≤ 4 := by
    by_cases h : i < q.length
    · have : arr q i = q[i] := by simp [arr, h]
      rw [this]
      exact hq _ (List.getElem_mem h)
    · have : arr q i = 0 := by
        simp [arr, List.getD, List.getElem?_eq_none (by omega : q.length ≤ i)]
      rw [this]
      constructor <;> norm_num
  rw [hlo, hhi]
  have e : arr [-maxDouble, -maxDouble] i = -maxDouble ∧ arr [maxDouble, maxDouble] i = maxDouble := by
    rcases (by omega : i = 0 ∨ i = 1) with rfl | rfl <;> simp [arr]
  rw [e.1, e.2]
  constructor <;> linarith [hx.1, hx.2]

/-- The fits above return, with success. -/
example (files : Str → Option Str) (c : ℕ → ℝ) : ∃ f', nloptFit files (betterNlopt c) blinnData [] blinnFT = some (true, f') := by
  have hnb : ∀ p, (blinnStart.set p).nb = 2 := fun p => rfl
  unfold nloptFit
  rw [blinnFT_start]
  have h1 : nloptCriteria [] = some ⟨none, 1 / 10 ^ 4, none, none⟩ := rfl
  simp only [betterNlopt, h1, blinnStart_nb, two_zero, if_false, CallingSolver.run, nloptCall,
    nlopt_objective _ _ blinnStart_fit.1, Option.map_some, hnb, nlopt_objective _ _ (blinnStart_fit.1.of_set _)]
  by_cases hlt : sumSquaredErrors ((blinnStart.set (firstOf 2 (arr blinnStart.toFn.get))).toFn.set (firstOf 2 c)) blinnData <
      sumSquaredErrors (blinnStart.toFn.set (firstOf 2 (arr blinnStart.toFn.get))) blinnData
  · simp only [hlt, if_true, CallingSolver.run]
    exact ⟨_, rfl⟩
  · simp only [hlt, if_false, CallingSolver.run]
    exact ⟨_, rfl⟩

/-! ### Limits -/

/-- An Eigen that evaluates the point `c` and gives up. -/
def wanderingEigen (c : ℕ → ℝ) : EigenSolver := fun _ _ start =>
  .call (.residuals c fun _ => 0) fun _ => .stop (.userAsked, start)

/-- An NLopt that evaluates the point `c` and gives up. -/
def wanderingNlopt (c : ℕ → ℝ) : NloptSolver := fun _ _ => some fun _ _ _ start =>
  some (.call ⟨c, false⟩ fun _ => .stop (-1, start))

theorem blinnStart_set (c : ℕ → ℝ) : (blinnStart.set (firstOf 2 c)).toFn.params = [c 0, c 1] :=
  FT.params_set_first blinnStart blinn_lawful c

/-- C60, limit: a fit that fails does not restore the function: its parameters are neither those before the fit nor those
    of the starting point, but those of the last evaluation (Eigen and NLopt). -/
theorem failed_fit_changes : ∃ (f f0 : FT LobeObj) (d : Data) (c : ℕ → ℝ), ∀ files : Str → Option Str,
    f.bootstrap files d [] = some f0 ∧
    (∃ f', eigenFit files (wanderingEigen c) d [] f = some (false, f') ∧
      f'.toFn.params ≠ f.toFn.params ∧ f'.toFn.params ≠ f0.toFn.params) ∧
    (∃ f', nloptFit files (wanderingNlopt c) d [] f = some (false, f') ∧
      f'.toFn.params ≠ f.toFn.params ∧ f'.toFn.params ≠ f0.toFn.params) := by
  refine ⟨blinnFT, blinnStart, blinnData, fun _ => 4, fun files => ⟨blinnFT_start files [], ?_⟩⟩
  have hp : blinnFT.toFn.params = [2, 2] := by
    show List.take 2 _ = _
    simp [blinnFT, FT.toFn, LobeObj.toFn, Fn.get, blinnCls, blinnLobe, blocks, List.range_succ]
  have hne : (blinnStart.set (firstOf 2 fun _ => 4)).toFn.params ≠ blinnFT.toFn.params ∧
      (blinnStart.set (firstOf 2 fun _ => 4)).toFn.params ≠ blinnStart.toFn.params := by
    rw [blinnStart_set, hp, blinnStart_params]
    constructor <;> simp <;> norm_num
  constructor
  · refine ⟨blinnStart.set (firstOf 2 fun _ => 4), ?_, hne⟩
    obtain ⟨r, h1, -⟩ := eigen_residuals blinnStart.toFn blinnData blinnStart_fit.1 (SMap.isDefined [] "fit-with-cosine".toList)
      (fun h => by cases h) (firstOf 2 fun _ => 4)
      (blinnStart_bounds _ (fun x hx => by
        simp only [firstOf, List.mem_map] at hx
        obtain ⟨-, -, rfl⟩ := hx
        constructor <;> norm_num)) (fun _ => 0)
    unfold eigenFit
    rw [blinnFT_start]
    simp only [wanderingEigen, CallingSolver.run, eigenCall, blinnStart_nb, two_zero, if_false, h1,
      Option.map_some, (by decide : ¬ ((0:ℤ) < 0))]
  · refine ⟨blinnStart.set (firstOf 2 fun _ => 4), ?_, hne⟩
    unfold nloptFit
    rw [blinnFT_start]
    have h1 : nloptCriteria [] = some ⟨none, 1 / 10 ^ 4, none, none⟩ := rfl
    simp only [wanderingNlopt, h1, blinnStart_nb, two_zero, if_false, CallingSolver.run, nloptCall,
      nlopt_objective _ _ blinnStart_fit.1, Option.map_some, (by decide : ¬ ((-1:ℤ) > 0))]

/-- A Ceres that gives up at once: the solution is not usable. -/
def idleCeres : CeresSolver := fun _ _ start => .stop (false, start)

/-- An Ipopt that stops at its start after the maximal number of iterations. -/
def idleIpopt : IpoptSolver := fun _ _ _ _ start => some (.stop (.maximumIterationsExceeded, some start))

/-- C60, limit: with Ceres the fit succeeds when the solution is not usable; with Ipopt, when the solver stopped before a
    solution. -/
theorem success_without_solution : ∃ (f : FT LobeObj) (d : Data), ∀ files : Str → Option Str,
    (∃ f', ceresFit files idleCeres d [] f = some (true, f')) ∧ (∃ f', ipoptFit files idleIpopt d [] f = some (true, f')) ∧
      ∀ n m start tr u x, (idleCeres n m start).Dialogue tr (u, x) → u = false := by
  refine ⟨blinnFT, blinnData, fun files => ⟨?_, ?_, ?_⟩⟩
  · have hs : ∃ s, blinnData.rows.mapM (ceresSample blinnStart.toFn blinnData) = some s := by
      refine ⟨_, mapM_total _ _ (fun row => ((ceresSample blinnStart.toFn blinnData row).getD [])) ?_⟩
      intro row hr
      obtain ⟨xi, h1, -⟩ := ceres_residuals blinnStart.toFn blinnData blinnStart_fit.1 blinnStart_fit.2.1 row hr []
        (blinnStart_bounds _ (by simp))
      rw [h1]; rfl
    obtain ⟨s, hs⟩ := hs
    unfold ceresFit
    rw [blinnFT_start, if_neg (by decide +kernel)]
    simp only [hs, idleCeres, CallingSolver.run]
    exact ⟨_, rfl⟩
  · unfold ipoptFit
    rw [blinnFT_start]
    simp only [idleIpopt, CallingSolver.run, blinnStart_nb, two_zero, if_false]
    exact ⟨_, rfl⟩
  · intro n m start tr u x h
    cases h.2
    rfl

/-- C60, limit: Ceres leaves the coefficients of a diffuse term alone, whereas the other fitters give it the smallest
    values of the data. -/
theorem ceres_keeps_diffuse (files : Str → Option Str) (solver : CeresSolver) (s : DiffuseS) (d : Data) (args : SMap) :
    ceresFit files solver d args (.leaf (.diffuse s)) = some (true, .leaf (.diffuse s)) := rfl

/-- The others: with the data of `bootData`, 1. -/
example (files : Str → Option Str) (es : EigenSolver) (kd : ℕ → ℝ) (j : ℝ) :
    ∃ s : DiffuseS, eigenFit files es bootData [] (.leaf (.diffuse ⟨bootPar, kd, j⟩)) = some (true, .leaf (.diffuse s)) ∧
      s.kd 0 = 1 := by
  obtain ⟨s, hs, e⟩ : ∃ s, (FT.leaf (.diffuse ⟨bootPar, kd, j⟩)).bootstrap files bootData [] = some (.leaf (.diffuse s)) ∧
      s = ⟨bootPar, bootData.rows.foldl (fun kd row => minInto bootData.dimY (fun j => arr row (bootData.dimX + j)) kd)
        (fillTo bootData.dimY maxDouble kd), j⟩ := ⟨_, rfl, rfl⟩
  refine ⟨s, ?_, ?_⟩
  · unfold eigenFit
    rw [hs]
    rfl
  · have h4 := maxDouble_large
    rw [e]
    simp [bootData, minInto, fillTo, arr]
    linarith

end
end Alta
