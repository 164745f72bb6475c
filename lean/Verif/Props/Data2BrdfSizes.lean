import Verif.Props.Data2BrdfRational
/-
C81: the sizes given on the command line, and what the functions fitted by linear algebra are.
-/
namespace Alta
noncomputable section

theorem digits_of (s : Str) (h : ∀ c ∈ s, ∃ d < 10, c = digitChar d) : ∃ l : List (Fin 10), s = showDigits l := by
  induction s with
  | nil => exact ⟨[], rfl⟩
  | cons c s ih =>
    obtain ⟨l, hl⟩ := ih fun c hc => h c (List.mem_cons_of_mem _ hc)
    obtain ⟨d, hd, rfl⟩ := h c List.mem_cons_self
    exact ⟨⟨d, hd⟩ :: l, by rw [hl]; rfl⟩

theorem strtod_showNat (n : ℕ) : strtod (showNat n) = some ((n : ℚ), []) := by
  obtain ⟨l, hl⟩ := digits_of (showNat n) (showNat_digits n)
  have hne : l ≠ [] := by
    rintro rfl
    exact showNat_ne_nil n hl
  have hv : digitsNum l = n := by rw [← digitsVal_showDigits, ← hl, digitsVal_showNat]
  have h := strtod_text [] [] ⟨false, l, [], none⟩ (by simp) (Or.inl hne) (by intro c r h; cases h)
  have h0 : digitsNum [] = 0 := rfl
  simpa [Decimal.text, Decimal.value, ← hl, hv, h0, showDigits.eq_1 []] using h

/-- An option with a size: the size; without the option, the default one. -/
theorem sizeOption_given (args : SMap) (k : Str) (d n : ℕ) (h : args.find k = some (showNat n)) : sizeOption args k d = n := by
  unfold sizeOption SMap.getFloat
  rw [h]
  simp only [atof, strtod_showNat]
  rw [show ((n : ℚ)).floor = (n : ℤ) by simp [Rat.floor]]
  simp

theorem sizeOption_default (args : SMap) (k : Str) (d : ℕ) (h : args.find k = none) : sizeOption args k d = d := by
  unfold sizeOption SMap.getFloat
  rw [h]
  simp only []
  rw [show ((d : ℚ)).floor = (d : ℤ) by simp [Rat.floor]]
  simp

theorem getInt_given (args : SMap) (k : Str) (d : ℤ) (n : ℕ) (h : args.find k = some (showNat n)) : (args.getInt k d).toNat = n := by
  unfold SMap.getInt
  rw [h]
  have := atoi_showInt [] [] (n : ℤ) (by simp) (by intro c r h; cases h)
  simp only [List.nil_append, List.append_nil] at this
  have e : showInt (n : ℤ) = showNat n := by unfold showInt; rw [if_neg (by omega)]; simp
  rw [e] at this
  simp only [this]
  simp

theorem getInt_default (args : SMap) (k : Str) (d : ℤ) (h : args.find k = none) : args.getInt k d = d := by
  unfold SMap.getInt
  rw [h]

/-- What `--k n` gives, when `d` is the default. -/
def OptionIs (args : SMap) (k : Str) (d n : ℕ) : Prop := args.find k = some (showNat n) ∨ (args.find k = none ∧ n = d)

theorem OptionIs.size {args : SMap} {k : Str} {d n : ℕ} (h : OptionIs args k d n) : sizeOption args k d = n := by
  rcases h with h | ⟨h, rfl⟩
  · exact sizeOption_given args k d n h
  · exact sizeOption_default args k n h

theorem OptionIs.int {args : SMap} {k : Str} {d n : ℕ} (h : OptionIs args k d n) : (args.getInt k d).toNat = n := by
  rcases h with h | ⟨h, rfl⟩
  · exact getInt_given args k d n h
  · rw [getInt_default args k _ h]; simp

/-- C81: with `rational_fitter_eigen`, when the command succeeds each channel is the quotient of polynomials of the sizes
    `--np` and `--nq` (10 by default) whose coefficients have the smallest sum of `(p(x) - y q(x))²` over the samples among
    the vectors of the same length. -/
theorem data2brdf_eigen_optimal (junk : ℝ) (dir : Str) (env : Option Str) (fs : Str → Option (Symbols (Provider LobeObj)))
    (solve : EigenSystem) (hs : solve.Sound) (fmt6 fmt10 fmt : ℝ → Decimal) (other : AnyFn → SMap → Option Str)
    (args : SMap) (np nq : ℕ) (hnp : OptionIs args "np".toList 10 np) (hnq : OptionIs args "nq".toList 10 nq)
    (d : Segments) (hdx : 1 ≤ d.store.dimX) (r : FittedRational)
    (h : data2brdfRational dir env fs (eigenFitter solve junk) fmt6 fmt10 fmt other args d = some (0, some r)) :
    ∀ m < d.store.dimY, ∃ a b : List ℝ, a.length = np ∧ b.length = nq ∧ coefficientNorm a b = 1 ∧
      r.function.IsQuotient (inflate d.min d.max).1 (inflate d.min d.max).2 m a b ∧
      ∀ a' b' : List ℝ, a'.length = np → b'.length = nq →
        linearError d.store (inflate d.min d.max).1 (inflate d.min d.max).2 m a b * coefficientNorm a' b' ≤
          linearError d.store (inflate d.min d.max).1 (inflate d.min d.max).2 m a' b' := by
  obtain ⟨-, h2⟩ := data2brdf_rational_outcome dir env fs _ fmt6 fmt10 fmt other args d 0 (some r) h
  obtain ⟨-, -, g, -⟩ := h2 r rfl
  unfold eigenFitter at g
  rw [hnp.size, hnq.size] at g
  exact (eigen_rational_optimal solve hs junk d np nq _ _ (newRational_ready d hdx) g).2.2

/-- C81: with `rational_fitter_leastsquare`, when the command succeeds each channel is the quotient of polynomials of the sizes
    `--np` and `--nq` (10 by default), the denominator is null at no sample, and the numerator is the best one with this
    denominator. -/
theorem data2brdf_least_optimal (junk : ℝ) (dir : Str) (env : Option Str) (fs : Str → Option (Symbols (Provider LobeObj)))
    (solve : LeastSquares) (hs : solve.Sound) (fmt6 fmt10 fmt : ℝ → Decimal) (other : AnyFn → SMap → Option Str)
    (args : SMap) (np nq it : ℕ) (hnp : OptionIs args "np".toList 10 np) (hnq : OptionIs args "nq".toList 10 nq)
    (hit : OptionIs args "max-iter".toList 1 it) (h1 : 1 ≤ it)
    (d : Segments) (hdx : 1 ≤ d.store.dimX) (r : FittedRational)
    (h : data2brdfRational dir env fs (leastFitter solve junk) fmt6 fmt10 fmt other args d = some (0, some r)) :
    ∀ m < d.store.dimY, ∃ a b : List ℝ, a.length = np ∧ b.length = nq ∧
      r.function.IsQuotient (inflate d.min d.max).1 (inflate d.min d.max).2 m a b ∧
      (∀ i < d.store.size, polynomial d.store.dimX (inflate d.min d.max).1 (inflate d.min d.max).2 b (d.store.point i) ≠ 0) ∧
      (∀ a' : List ℝ, a'.length = np →
        squaredError d.store (inflate d.min d.max).1 (inflate d.min d.max).2 m a b ≤
          squaredError d.store (inflate d.min d.max).1 (inflate d.min d.max).2 m a' b) ∧
      ∃ p' : List ℝ, p'.length = np ∧ (it = 1 → p' = constantOne np) ∧ ∀ b' : List ℝ, b'.length = nq →
        weightedError d.store (inflate d.min d.max).1 (inflate d.min d.max).2 m p' b ≤
          weightedError d.store (inflate d.min d.max).1 (inflate d.min d.max).2 m p' b' := by
  obtain ⟨-, h2⟩ := data2brdf_rational_outcome dir env fs _ fmt6 fmt10 fmt other args d 0 (some r) h
  obtain ⟨-, -, g, -⟩ := h2 r rfl
  unfold leastFitter at g
  have e1 : (args.getInt "np".toList 10).toNat = np := hnp.int
  have e2 : (args.getInt "nq".toList 10).toNat = nq := hnq.int
  have e3 : (args.getInt "max-iter".toList 1).toNat = it := hit.int
  rw [e1, e2, e3] at g
  exact (least_square_optimal solve hs junk d np nq it h1 _ _ (newRational_ready d hdx) g).2.2

/-- C81: with `rational_fitter_quadprog` and a solver that finds a solution when there is one, the command succeeds exactly
    when, for some size between the smallest (`--min-np`, `--min-nq`, by default the largest) and the largest (`--np`,
    `--nq`, 10 by default), there is in each channel a rational function that passes through the interval of every sample. -/
theorem data2brdf_quadprog_succeeds (junk : ℝ) (dir : Str) (env : Option Str) (fs : Str → Option (Symbols (Provider LobeObj)))
    (solve : Solver) (hsound : solve.Sound) (hcomplete : solve.Complete) (fmt6 fmt10 fmt : ℝ → Decimal)
    (other : AnyFn → SMap → Option Str) (args : SMap) (ho : args.Ordered) (hx : args.find kExport = none)
    (hdelta : 0 < args.getFloat "delta".toList 1) (np nq lp lq : ℕ) (hnp : OptionIs args "np".toList 10 np)
    (hnq : OptionIs args "nq".toList 10 nq) (hlp : OptionIs args "min-np".toList np lp)
    (hlq : OptionIs args "min-nq".toList nq lq) (h1p : 1 ≤ lp) (h1q : 1 ≤ lq) (hp : lp ≤ np) (hq : lq ≤ nq)
    (d : Segments) (hk : d.store.kind = .asymmetrical) (hord : d.store.Ordered)
    (hwf : d.store.WF) (hdx : 1 ≤ d.store.dimX) (hin : d.store.input.Named) (hdim : inputDim d.store.input = d.store.dimX)
    (hne : 0 < d.store.size) (hg : getFunction dir env fs LobeObj.par args d.store.toData.par = some .rational) :
    ∃ code out, data2brdfRational dir env fs (quadprogFitter solve junk) fmt6 fmt10 fmt other args d = some (code, out) ∧
      (code = 0 ↔ ∃ k, ∀ m < d.store.dimY, Fittable d.store (inflate d.min d.max).1 (inflate d.min d.max).2
        (min (lp + k) np) (min (lq + k) nq) m) := by
  obtain ⟨ok, f, h1, h2⟩ := quadprog_fit_complete solve hsound hcomplete junk
    ((args.getFloat "delta".toList 1 : ℚ) : ℝ) (by exact_mod_cast hdelta) d hk hord hne hdx np nq (some lp) (some lq) h1p h1q
    (newRational d.store.toData.par) rfl rfl
  simp only [Option.getD_some, max_eq_left hp, max_eq_left hq] at h2
  rw [← h2]
  have hfit : quadprogFitter solve junk d args (newRational d.store.toData.par) = some (ok, f) := by
    unfold quadprogFitter
    simp only [hnp.size, hnq.size, hlp.size, hlq.size]
    exact h1
  cases ok with
  | true =>
    obtain ⟨r, hr, -⟩ := data2brdf_rational_ends dir env fs _ (RationalFitter.quadprog (junk := junk) solve hsound).onData fmt6 fmt10
      fmt other args ho hx d hwf hdx hin hdim hne hg f hfit
    exact ⟨0, some r, hr, by simp⟩
  | false =>
    refine ⟨1, none, ?_, by simp⟩
    unfold data2brdfRational
    simp only [hg, Option.bind_some, hfit]
    split <;> rfl

/-- sizes on a command line -/
example : OptionIs [("np".toList, "2".toList)] "np".toList 10 2 ∧ OptionIs [("np".toList, "2".toList)] "nq".toList 10 10 :=
  ⟨Or.inl (by rw [showNat]; decide), Or.inr (by decide)⟩

end
end Alta
