import Verif.Props.PythonFit
import Verif.Props.RationalFitExamples
import Verif.Props.Data2BrdfRationalExample
/-
C83, limits: the options of a fit stay in the fitter; a new fitter is not initialised.
-/
namespace Alta
noncomputable section

theorem some_of_map {α β : Type} {o : Option α} {g : α → β} (h : o.map g ≠ none) : ∃ a, o = some a := by
  cases o with
  | none => exact absurd rfl h
  | some a => exact ⟨a, rfl⟩

theorem fitEach_sizes (fit : ℕ → Rat1 → Option (Bool × Rat1)) (junk : ℝ) : ∀ (k j : ℕ) (f : RatFn) (ok : Bool) (f' : RatFn),
    fitEach fit junk k j f = some (ok, f') → f'.np = f.np ∧ f'.nq = f.nq := by
  intro k
  induction k with
  | zero => intro j f ok f' h; cases h; exact ⟨rfl, rfl⟩
  | succ k ih =>
    intro j f ok f' h
    rw [fitEach] at h
    split at h
    · cases h
    · rename_i r g hg
      have e : g.np = f.np ∧ g.nq = f.nq := by
        unfold RatFn.get at hg
        split at hg
        · split at hg
          · cases hg
          · cases hg; exact ⟨rfl, rfl⟩
          · cases hg; exact ⟨rfl, rfl⟩
        · cases hg
      split at h
      · cases h
      · split at h
        · obtain ⟨a, b⟩ := ih _ _ _ _ h
          exact ⟨a.trans e.1, b.trans e.2⟩
        · cases h
          exact e

theorem eigenFit_sizes (solve : EigenSystem) (junk : ℝ) (d : Segments) (hk : d.store.kind = .asymmetrical) (np nq : ℕ)
    (f f' : RatFn) (ok : Bool) (h : eigenRationalFit solve junk d np nq f = some (ok, f')) : f'.np = np ∧ f'.nq = nq := by
  unfold eigenRationalFit at h
  rw [if_neg (by simp [hk])] at h
  exact fitEach_sizes _ junk _ _ _ _ _ h

theorem leastFit_sizes (solve : LeastSquares) (junk : ℝ) (d : Segments) (hk : d.store.kind = .asymmetrical) (np nq it : ℕ)
    (f f' : RatFn) (ok : Bool) (h : leastSquareFit solve junk d np nq it f = some (ok, f')) : f'.np = np ∧ f'.nq = nq := by
  unfold leastSquareFit at h
  rw [if_neg (by simp [hk])] at h
  exact fitEach_sizes _ junk _ _ _ _ _ h

theorem fitSizes_sizes (solve : Solver) (junk delta : ℝ) (d : Store ℝ) (maxNp maxNq : ℕ) :
    ∀ (n np nq : ℕ) (f f' : RatFn) (ok : Bool), (maxNp - np) + (maxNq - nq) = n → np ≤ maxNp → nq ≤ maxNq →
    fitSizes solve junk delta d maxNp maxNq np nq f = some (ok, f') →
    np ≤ f'.np ∧ f'.np ≤ maxNp ∧ nq ≤ f'.nq ∧ f'.nq ≤ maxNq := by
  intro n
  induction n using Nat.strong_induction_on with
  | _ n ih =>
    intro np nq f f' ok hn h1 h2 h
    rw [fitSizes, if_pos (Or.inl h1)] at h
    have key : ∀ ok g, fitChannels solve junk delta d np nq d.dimY 0 (f.setSize np nq) = some (ok, g) → g.np = np ∧ g.nq = nq := by
      intro ok g hg
      rw [fitChannels_eq] at hg
      exact fitEach_sizes _ junk _ _ _ _ _ hg
    split at h
    · cases h
    · rename_i g hg
      cases h
      obtain ⟨a, b⟩ := key _ _ hg
      omega
    · rename_i g hg
      obtain ⟨a, b⟩ := key _ _ hg
      split at h
      · cases h
        omega
      · split at h
        · rename_i hc
          have := ih _ (by split <;> split <;> omega) _ _ _ _ _ rfl (by split <;> omega) (by split <;> omega) h
          split at this <;> split at this <;> omega
        · cases h

theorem quadprogFitter_sizes (solve : Solver) (junk : ℝ) (d : Segments) (hk : d.store.kind = .asymmetrical) (args : SMap)
    (f f' : RatFn) (ok : Bool) (h : quadprogFitter solve junk d args f = some (ok, f')) :
    sizeOption args "min-np".toList (sizeOption args "np".toList 10) ≤ f'.np ∧
      f'.np ≤ max (sizeOption args "np".toList 10) (sizeOption args "min-np".toList (sizeOption args "np".toList 10)) := by
  unfold quadprogFitter quadprogFit at h
  rw [if_neg (by simp [hk])] at h
  simp only [Option.getD_some] at h
  obtain ⟨a, b, -, -⟩ := fitSizes_sizes solve junk _ d.store _ _ _ _ _ _ _ _ rfl (le_max_right _ _) (le_max_right _ _) h
  exact ⟨a, b⟩

theorem sizeOption_nil (k : Str) (d : ℕ) : sizeOption [] k d = d := sizeOption_default [] k d rfl

/-- C83, limit: a call of `fit_data` without options is not a call with no option at all: when the last options given to
    the fitter asked for another size of the numerator than 10, and this fit ends, its function is another one. -/
theorem fit_without_not_default (junk : ℝ) (h : List (FitCall Segments RatFn)) (args : SMap) (hl : lastOptions h = some args)
    (d : Segments) (hk : d.store.kind = .asymmetrical) (f : RatFn) :
    (∀ (solve : EigenSystem) s, sizeOption args "np".toList 10 ≠ 10 → (eigenCls solve junk).Ends s h →
      (eigenCls solve junk).outcome s h ⟨d, f, none⟩ ≠ none →
      (eigenCls solve junk).outcome s h ⟨d, f, none⟩ ≠ (eigenCls solve junk).outcome s h ⟨d, f, some []⟩) ∧
    (∀ (solve : LeastSquares) s, (args.getInt "np".toList 10).toNat ≠ 10 → (leastCls solve junk).Ends s h →
      (leastCls solve junk).outcome s h ⟨d, f, none⟩ ≠ none →
      (leastCls solve junk).outcome s h ⟨d, f, none⟩ ≠ (leastCls solve junk).outcome s h ⟨d, f, some []⟩) ∧
    (∀ (solve : Scheduling → Solver) s, sizeOption args "np".toList 10 < 10 → args.find "min-np".toList = none →
      (quadprogCls solve junk).Ends s h → (quadprogCls solve junk).outcome s h ⟨d, f, none⟩ ≠ none →
      (quadprogCls solve junk).outcome s h ⟨d, f, none⟩ ≠ (quadprogCls solve junk).outcome s h ⟨d, f, some []⟩) := by
  refine ⟨fun solve s hn hend hd heq => ?_, fun solve s hn hend hd heq => ?_, fun solve s hn hm hend hd heq => ?_⟩
  · rw [(fit_without_last junk h args hl d f).1 solve s hend] at hd heq
    rw [eigen_fit_history solve junk s h d f [] hend] at heq
    obtain ⟨⟨ok, g⟩, hg⟩ := some_of_map hd
    rw [hg] at heq
    obtain ⟨r, h1, h2⟩ := Option.map_eq_some_iff.1 heq.symm
    cases h2
    have e1 := (eigenFit_sizes solve junk d hk _ _ f g ok hg).1
    have e2 := (eigenFit_sizes solve junk d hk _ _ f g ok h1).1
    rw [sizeOption_nil] at e2
    exact hn (e1.symm.trans e2)
  · rw [(fit_without_last junk h args hl d f).2.1 solve s hend] at hd heq
    rw [least_fit_history solve junk s h d f [] hend] at heq
    obtain ⟨⟨ok, g⟩, hg⟩ := some_of_map hd
    rw [hg] at heq
    obtain ⟨r, h1, h2⟩ := Option.map_eq_some_iff.1 heq.symm
    cases h2
    have e1 := (leastFit_sizes solve junk d hk _ _ _ f g ok hg).1
    have e2 := (leastFit_sizes solve junk d hk _ _ _ f g ok h1).1
    exact hn (e1.symm.trans e2)
  · rw [(fit_without_last junk h args hl d f).2.2 solve s hend] at hd heq
    rw [quadprog_fit_history solve junk s h d f [] hend] at heq
    obtain ⟨⟨ok, g⟩, hg⟩ := some_of_map hd
    rw [hg] at heq
    obtain ⟨r, h1, h2⟩ := Option.map_eq_some_iff.1 heq.symm
    cases h2
    have e1 := (quadprogFitter_sizes _ junk d hk args f g ok hg).2
    have e2 := (quadprogFitter_sizes _ junk d hk [] f g ok h1).1
    rw [sizeOption_nil, sizeOption_nil] at e2
    rw [sizeOption_default args "min-np".toList _ hm] at e1
    simp only [max_self] at e1
    omega

/-- C83, limit: the sizes of a new `rational_fitter_eigen` or `rational_fitter_quadprog` are not initialised, so that a
    fit without options depends on the memory: with two different numbers of coefficients in it, when the first fit ends the
    second one gives another function. -/
theorem fit_new_uninitialised (junk : ℝ) (d : Segments) (hk : d.store.kind = .asymmetrical) (f : RatFn) :
    (∀ (solve : EigenSystem) (s s' : EigenSizes), s.np ≠ s'.np → (eigenCls solve junk).outcome s [] ⟨d, f, none⟩ ≠ none →
      (eigenCls solve junk).outcome s [] ⟨d, f, none⟩ ≠ (eigenCls solve junk).outcome s' [] ⟨d, f, none⟩) ∧
    (∀ (solve : Scheduling → Solver) (s s' : QuadprogMembers), s.minNp ≤ s.maxNp → s.minNq ≤ s.maxNq → s'.minNp ≤ s'.maxNp →
      s'.minNq ≤ s'.maxNq → s.maxNp < s'.minNp → (quadprogCls solve junk).outcome s [] ⟨d, f, none⟩ ≠ none →
      (quadprogCls solve junk).outcome s [] ⟨d, f, none⟩ ≠ (quadprogCls solve junk).outcome s' [] ⟨d, f, none⟩) := by
  constructor
  · intro solve s s' hs hd heq
    have e : ∀ s : EigenSizes, (eigenCls solve junk).outcome s [] ⟨d, f, none⟩ =
        (eigenRationalFit solve junk d s.np s.nq f).map some := by
      intro s
      simp only [FitterCls.outcome, FitterCls.after, Option.bind_some, FitterCls.call, FitterCls.fitWithout, eigenCls, Option.map_map]
      rfl
    rw [e] at hd
    rw [e, e] at heq
    obtain ⟨⟨ok, g⟩, hg⟩ := some_of_map hd
    rw [hg] at heq
    obtain ⟨r, h1, h2⟩ := Option.map_eq_some_iff.1 heq.symm
    cases h2
    have e1 := (eigenFit_sizes solve junk d hk _ _ f g ok hg).1
    have e2 := (eigenFit_sizes solve junk d hk _ _ f g ok h1).1
    exact hs (e1.symm.trans e2)
  · intro solve s s' b1 b2 b3 b4 hs hd heq
    have e : ∀ s : QuadprogMembers, (quadprogCls solve junk).outcome s [] ⟨d, f, none⟩ =
        (fitSizes (solve s.scheduling) junk s.delta d.store s.maxNp s.maxNq s.minNp s.minNq
        { f with lo := d.min, hi := d.max }).map some := by
      intro s
      simp only [FitterCls.outcome, FitterCls.after, Option.bind_some, FitterCls.call, FitterCls.fitWithout, quadprogCls,
        Option.map_map, hk, ne_eq, not_true_eq_false, if_false]
      rfl
    rw [e] at hd
    rw [e, e] at heq
    obtain ⟨⟨ok, g⟩, hg⟩ := some_of_map hd
    rw [hg] at heq
    obtain ⟨r, h1, h2⟩ := Option.map_eq_some_iff.1 heq.symm
    cases h2
    have e1 := fitSizes_sizes _ junk _ d.store _ _ _ _ _ _ _ _ rfl b1 b2 hg
    have e2 := fitSizes_sizes _ junk _ d.store _ _ _ _ _ _ _ _ rfl b3 b4 h1
    omega

/-! ### The hypotheses are met -/

/-- the options `np = 2`, `nq = 1` -/
def twoOneArgs : SMap := [("np".toList, "2".toList), ("nq".toList, "1".toList)]

theorem twoOneArgs_sizes : sizeOption twoOneArgs "np".toList 10 = 2 ∧ sizeOption twoOneArgs "nq".toList 10 = 1 ∧
    twoOneArgs.getInt "np".toList 10 = 2 ∧ twoOneArgs.getInt "nq".toList 10 = 1 ∧ twoOneArgs.getInt "max-iter".toList 1 = 1 := by
  refine ⟨?_, ?_, ?_, ?_, ?_⟩ <;> decide +kernel

/-- A script that fits two samples with two coefficients in the numerator, then fits them again without options: the second
    fit is not the one with the default options. -/
example (s : EigenSizes) : let f : RatFn := ⟨1, 1, 0, 0, [], [], [none]⟩
    let h : List (FitCall Segments RatFn) := [⟨twoPoints, f, some twoOneArgs⟩]
    (eigenCls idealEigen 0).Ends s h ∧ (∃ g, (eigenCls idealEigen 0).outcome s h ⟨twoPoints, f, none⟩ = some (some (true, g))) ∧
    (eigenCls idealEigen 0).outcome s h ⟨twoPoints, f, none⟩ ≠ (eigenCls idealEigen 0).outcome s h ⟨twoPoints, f, some []⟩ := by
  intro f h
  obtain ⟨g, r, hg, -⟩ := twoPoints_eigen
  obtain ⟨s1, s2, -⟩ := twoOneArgs_sizes
  have hfit : eigenFitter idealEigen 0 twoPoints twoOneArgs f = some (true, g) := by
    unfold eigenFitter
    rw [s1, s2]
    exact hg
  have hend : (eigenCls idealEigen 0).Ends s h := by
    have := eigen_fit_history idealEigen 0 s [] twoPoints f twoOneArgs (by intro h; cases h)
    rw [hfit] at this
    exact ends_single _ _ _ _ this
  have hl : lastOptions h = some twoOneArgs := rfl
  have hw := (fit_without_last 0 h twoOneArgs hl twoPoints f).1 idealEigen s hend
  rw [hfit] at hw
  refine ⟨hend, ⟨g, hw⟩, (fit_without_not_default 0 h twoOneArgs hl twoPoints rfl f).1 idealEigen s (by rw [s1]; decide) hend ?_⟩
  rw [hw]
  exact Option.some_ne_none _

/-- The same with a new fitter by least squares, whose first fit without options is the default one. -/
example : let f : RatFn := ⟨1, 1, 0, 0, [], [], [none]⟩
    let h : List (FitCall Segments RatFn) := [⟨twoPoints, f, some twoOneArgs⟩]
    (leastCls idealLeast 0).Ends newLeast h ∧
    (leastCls idealLeast 0).outcome newLeast h ⟨twoPoints, f, none⟩ ≠ (leastCls idealLeast 0).outcome newLeast h ⟨twoPoints, f, some []⟩ := by
  intro f h
  obtain ⟨g, hg, -⟩ := twoPoints_least
  obtain ⟨-, -, s1, s2, s3⟩ := twoOneArgs_sizes
  have hfit : leastFitter idealLeast 0 twoPoints twoOneArgs f = some (true, g) := by
    unfold leastFitter
    rw [s1, s2, s3]
    exact hg
  have hend : (leastCls idealLeast 0).Ends newLeast h := by
    have := least_fit_history idealLeast 0 newLeast [] twoPoints f twoOneArgs (by intro h; cases h)
    rw [hfit] at this
    exact ends_single _ _ _ _ this
  have hl : lastOptions h = some twoOneArgs := rfl
  have hw := (fit_without_last 0 h twoOneArgs hl twoPoints f).2.1 idealLeast newLeast hend
  rw [hfit] at hw
  refine ⟨hend, (fit_without_not_default 0 h twoOneArgs hl twoPoints rfl f).2.1 idealLeast newLeast (by rw [s1]; decide) hend ?_⟩
  rw [hw]
  exact Option.some_ne_none _

end
end Alta
