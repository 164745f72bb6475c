import Verif.Spec.PythonFit
import Verif.Props.Data2BrdfSizes
/-
C83: a fitter used several times by a script.
-/
namespace Alta
noncomputable section

variable {D F : Type}

theorem after_append (c : FitterCls D F) (s : c.σ) (h h' : List (FitCall D F)) :
    c.after s (h ++ h') = (c.after s h).bind fun s' => c.after s' h' := by
  induction h generalizing s with
  | nil => rfl
  | cons k h ih =>
    simp only [List.cons_append, FitterCls.after]
    cases c.call s k with
    | none => rfl
    | some r => simp only [Option.bind_some]; exact ih r.2

theorem ends_single (c : FitterCls D F) (s : c.σ) (k : FitCall D F) (x : Option (Bool × F)) (h : c.outcome s [] k = some x) :
    c.Ends s [k] := by
  intro hc
  simp only [FitterCls.outcome, FitterCls.after, Option.bind_some] at h hc
  obtain ⟨y, hy, -⟩ := Option.map_eq_some_iff.1 h
  rw [hy] at hc
  cases hc

/-! ### Fits with options -/

theorem fitsWith_of_set (c : FitterCls D F) (fit : D → SMap → F → Option (Bool × F))
    (h : ∀ s d f args, (c.fitWith s d f args).map (·.1) = (fit d args f).map some) : c.FitsWith fit := by
  intro s hist d f args hend
  unfold FitterCls.outcome
  cases ha : c.after s hist with
  | none => exact absurd ha hend
  | some s' => exact h s' d f args

/-- C83: a fit with options by `rational_fitter_eigen` is the one of the command `data2brdf` with these options, whatever
    was asked of the fitter before. -/
theorem eigen_fit_history (solve : EigenSystem) (junk : ℝ) : (eigenCls solve junk).FitsWith (eigenFitter solve junk) := by
  refine fitsWith_of_set _ _ fun s d f args => ?_
  simp only [FitterCls.fitWith, eigenCls, eigenFitter, if_true, Option.map_map]
  rfl

/-- C83: the same with `rational_fitter_leastsquare`. -/
theorem least_fit_history (solve : LeastSquares) (junk : ℝ) : (leastCls solve junk).FitsWith (leastFitter solve junk) := by
  refine fitsWith_of_set _ _ fun s d f args => ?_
  have e : ∀ (k : Str) (i : ℤ) (n : ℕ), n = (args.getInt k i).toNat → (args.getInt k n).toNat = n := by
    intro k i n hn
    unfold SMap.getInt at hn ⊢
    cases hk : args.find k with
    | none => simp
    | some v => rw [hk] at hn; exact hn.symm
  simp only [FitterCls.fitWith, leastCls, leastFitter, if_true, Option.map_map]
  rw [e "np".toList 10 _ rfl, e "nq".toList 10 _ rfl, ite_self]
  rfl

/-- C83: the same with `rational_fitter_quadprog`. -/
theorem quadprog_fit_history (solve : Scheduling → Solver) (junk : ℝ) : (quadprogCls solve junk).FitsWith
    (fun d args f => quadprogFitter (solve (schedulingOf args)) junk d args f) := by
  refine fitsWith_of_set _ _ fun s d f args => ?_
  simp only [FitterCls.fitWith, quadprogCls, quadprogMembers, quadprogFitter, quadprogFit, if_true, Option.map_map, Option.getD_some]
  rfl

/-- C83: the same with the fitters that keep nothing. -/
theorem stateless_fit_history (fit : D → SMap → F → Option (Bool × F)) : (statelessCls fit).FitsWith fit := by
  refine fitsWith_of_set _ _ fun s d f args => ?_
  simp only [FitterCls.fitWith, statelessCls, if_true, Option.map_map]
  rfl

/-! ### Fits without options -/

/-- C83: without options, the fitters that keep nothing do the same as with no option at all. -/
theorem stateless_fit_without (fit : D → SMap → F → Option (Bool × F)) (h : List (FitCall D F)) (d : D) (f : F)
    (hend : (statelessCls fit).Ends () h) :
    (statelessCls fit).outcome () h ⟨d, f, none⟩ = (statelessCls fit).outcome () h ⟨d, f, some []⟩ := by
  unfold FitterCls.outcome
  cases ha : (statelessCls fit).after () h with
  | none => exact absurd ha hend
  | some s' => rfl

/-- When every call with options puts the fitter in a state that depends on them only, and no call without options
    changes it, the state after some calls is the one of the last options. -/
theorem after_last (c : FitterCls D F) (g : SMap → c.σ)
    (hset : ∀ s d f args r, c.fitWith s d f args = some r → r.2 = g args)
    (hkeep : ∀ s d f r, c.fitWithout s d f = some r → r.2 = s) (h : List (FitCall D F)) (s s' : c.σ)
    (ha : c.after s h = some s') : s' = ((lastOptions h).map g).getD s := by
  induction h using List.reverseRecOn generalizing s' with
  | nil => simp only [FitterCls.after] at ha; cases ha; rfl
  | append_singleton h k ih =>
    rw [after_append, Option.bind_eq_some_iff] at ha
    obtain ⟨s1, h1, h2⟩ := ha
    simp only [FitterCls.after, Option.bind_eq_some_iff] at h2
    obtain ⟨r, h3, h4⟩ := h2
    cases h4
    unfold FitterCls.call at h3
    unfold lastOptions
    cases hk : k.options with
    | none =>
      rw [hk] at h3
      rw [hkeep _ _ _ _ h3, ih s1 h1]
      simp [lastOptions, List.filterMap_append, hk]
    | some args =>
      rw [hk] at h3
      rw [hset _ _ _ _ _ h3]
      simp [List.filterMap_append, hk]

theorem map_keeps {α β : Type} {o : Option α} {s : β} {r : α × β} (h : (o.map fun a => (a, s)) = some r) : r.2 = s := by
  rw [Option.map_eq_some_iff] at h
  obtain ⟨a, -, rfl⟩ := h
  rfl

theorem fitWithout_keeps (c : FitterCls D F) (hfit : ∀ d f s r, c.fit d f [] s = some r → r.2 = s) (s : c.σ) (d : D) (f : F)
    (r : Option (Bool × F) × c.σ) (h : c.fitWithout s d f = some r) : r.2 = s := by
  unfold FitterCls.fitWithout at h
  rw [Option.map_eq_some_iff] at h
  obtain ⟨a, h1, rfl⟩ := h
  exact hfit d f s a h1

theorem fitWith_sets (c : FitterCls D F) (g : SMap → c.σ) (hg : ∀ args s, (c.setParameters args s).1 = g args)
    (hfit : ∀ d f args r, c.fit d f args (g args) = some r → r.2 = g args) (s : c.σ) (d : D) (f : F) (args : SMap)
    (r : Option (Bool × F) × c.σ) (h : c.fitWith s d f args = some r) : r.2 = g args := by
  unfold FitterCls.fitWith at h
  rw [hg] at h
  split at h
  · rw [Option.map_eq_some_iff] at h
    obtain ⟨a, h1, rfl⟩ := h
    exact hfit d f args a h1
  · cases h; rfl

theorem eigen_after (solve : EigenSystem) (junk : ℝ) (h : List (FitCall Segments RatFn)) (s s' : EigenSizes)
    (ha : (eigenCls solve junk).after s h = some s') :
    s' = ((lastOptions h).map fun args => (⟨sizeOption args "np".toList 10, sizeOption args "nq".toList 10⟩ : EigenSizes)).getD s := by
  refine after_last (eigenCls solve junk) _ (fitWith_sets _ _ (fun _ _ => rfl) ?_) (fitWithout_keeps _ ?_) h s s' ha
  · intro d f args r hr
    exact map_keeps hr
  · intro d f s r hr
    exact map_keeps hr

theorem quadprog_after (solve : Scheduling → Solver) (junk : ℝ) (h : List (FitCall Segments RatFn)) (s s' : QuadprogMembers)
    (ha : (quadprogCls solve junk).after s h = some s') : s' = ((lastOptions h).map quadprogMembers).getD s := by
  refine after_last (quadprogCls solve junk) _ (fitWith_sets _ _ (fun _ _ => rfl) ?_) (fitWithout_keeps _ ?_) h s s' ha
  · intro d f args r hr
    exact map_keeps hr
  · intro d f s r hr
    exact map_keeps hr

theorem getInt_nil (k : Str) (n : ℕ) : (SMap.getInt [] k n).toNat = n := by
  unfold SMap.getInt
  simp [SMap.find]

theorem least_without (solve : LeastSquares) (junk : ℝ) (s : LeastSizes) (d : Segments) (f : RatFn) :
    (leastCls solve junk).fitWithout s d f = (leastSquareFit solve junk d s.np s.nq s.maxIter f).map fun r => (some r, s) := by
  have e : (if d.store.kind ≠ .asymmetrical then s
      else { s with np := (SMap.getInt [] "np".toList s.np).toNat, nq := (SMap.getInt [] "nq".toList s.nq).toNat } : LeastSizes) = s := by
    rw [getInt_nil, getInt_nil]
    split <;> rfl
  simp only [FitterCls.fitWithout, leastCls, e, Option.map_map]
  rfl

/-- the members of `rational_fitter_leastsquare` after options were given -/
def leastSizes (args : SMap) : LeastSizes :=
  ⟨(args.getInt "np".toList 10).toNat, (args.getInt "nq".toList 10).toNat, (args.getInt "max-iter".toList 1).toNat⟩

theorem leastSizes_nil : leastSizes [] = newLeast := rfl

theorem getInt_again (args : SMap) (k : Str) (i : ℤ) : (args.getInt k ((args.getInt k i).toNat : ℕ)).toNat = (args.getInt k i).toNat := by
  unfold SMap.getInt
  cases hk : args.find k with
  | none => simp only []; omega
  | some v => rfl

theorem least_after (solve : LeastSquares) (junk : ℝ) (h : List (FitCall Segments RatFn)) (s s' : LeastSizes)
    (ha : (leastCls solve junk).after s h = some s') : s' = ((lastOptions h).map leastSizes).getD s := by
  refine after_last (leastCls solve junk) _ (fitWith_sets _ _ (fun _ _ => rfl) ?_) ?_ h s s' ha
  · intro d f args r hr
    refine (map_keeps hr).trans ?_
    simp only [getInt_again, ite_self]
  · intro s d f r hr
    obtain ⟨a, -, rfl⟩ := Option.map_eq_some_iff.1 ((least_without solve junk s d f).symm.trans hr)
    rfl

/-- C83: without options, a fit is made with the options of the last call that had some. -/
theorem fit_without_last (junk : ℝ) (h : List (FitCall Segments RatFn)) (args : SMap) (hl : lastOptions h = some args)
    (d : Segments) (f : RatFn) :
    (∀ (solve : EigenSystem) s, (eigenCls solve junk).Ends s h →
      (eigenCls solve junk).outcome s h ⟨d, f, none⟩ = (eigenFitter solve junk d args f).map some) ∧
    (∀ (solve : LeastSquares) s, (leastCls solve junk).Ends s h →
      (leastCls solve junk).outcome s h ⟨d, f, none⟩ = (leastFitter solve junk d args f).map some) ∧
    (∀ (solve : Scheduling → Solver) s, (quadprogCls solve junk).Ends s h →
      (quadprogCls solve junk).outcome s h ⟨d, f, none⟩ =
        (quadprogFitter (solve (schedulingOf args)) junk d args f).map some) := by
  refine ⟨fun solve s hend => ?_, fun solve s hend => ?_, fun solve s hend => ?_⟩
  · unfold FitterCls.outcome
    cases ha : (eigenCls solve junk).after s h with
    | none => exact absurd ha hend
    | some s' =>
      have := eigen_after solve junk h s s' ha
      rw [hl] at this
      cases this
      simp only [Option.bind_some, FitterCls.call, FitterCls.fitWithout, eigenCls, eigenFitter, Option.map_map]
      rfl
  · unfold FitterCls.outcome
    cases ha : (leastCls solve junk).after s h with
    | none => exact absurd ha hend
    | some s' =>
      have := least_after solve junk h s s' ha
      rw [hl] at this
      cases this
      refine (congrArg (Option.map (·.1)) (least_without solve junk (leastSizes args) d f)).trans ?_
      exact Option.map_map _ _ _
  · unfold FitterCls.outcome
    cases ha : (quadprogCls solve junk).after s h with
    | none => exact absurd ha hend
    | some s' =>
      have := quadprog_after solve junk h s s' ha
      rw [hl] at this
      cases this
      simp only [Option.bind_some, FitterCls.call, FitterCls.fitWithout, quadprogCls, quadprogMembers, quadprogFitter, quadprogFit,
        Option.map_map, Option.map_some, Option.getD_some]
      rfl

/-- C83: a new `rational_fitter_leastsquare` without options fits with the default ones. -/
theorem least_fit_new (solve : LeastSquares) (junk : ℝ) (h : List (FitCall Segments RatFn)) (hl : lastOptions h = none)
    (hend : (leastCls solve junk).Ends newLeast h) (d : Segments) (f : RatFn) :
    (leastCls solve junk).outcome newLeast h ⟨d, f, none⟩ = (leastFitter solve junk d [] f).map some := by
  unfold FitterCls.outcome
  cases ha : (leastCls solve junk).after newLeast h with
  | none => exact absurd ha hend
  | some s' =>
    have := least_after solve junk h newLeast s' ha
    rw [hl] at this
    cases this
    refine (congrArg (Option.map (·.1)) (least_without solve junk newLeast d f)).trans ?_
    exact Option.map_map _ _ _

end
end Alta
