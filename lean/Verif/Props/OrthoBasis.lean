import Verif.Spec.OrthoBasis
import Verif.Props.Rational
import Mathlib.Analysis.SpecialFunctions.Trigonometric.Chebyshev.Basic
import Mathlib.Data.Nat.Choose.Central
import Mathlib.Tactic.LinearCombination
import Mathlib.Tactic.FieldSimp
import Mathlib.Tactic.IntervalCases
/-
Properties C35 and C36: the bases of the plugins are the Chebyshev and the Legendre polynomials.
-/
namespace Alta
noncomputable section
open Finset

/-! ### Chebyshev -/

theorem chebyshevT_rec (n : ℕ) (x : ℝ) : chebyshevT (n + 2) x = 2 * x * chebyshevT (n + 1) x - chebyshevT n x := by
  unfold chebyshevT
  have := Polynomial.Chebyshev.T_add_two ℝ (n : ℤ)
  push_cast
  rw [this]
  simp

theorem recursiveChebychev_eq (x : ℝ) : ∀ n, recursiveChebychev x n = chebyshevT n x := by
  have h0 : chebyshevT 0 x = 1 := by simp [chebyshevT]
  have h1 : chebyshevT 1 x = x := by simp [chebyshevT]
  have h2 := chebyshevT_rec 0 x
  have h3 := chebyshevT_rec 1 x
  have h4 := chebyshevT_rec 2 x
  intro n
  induction n using Nat.strong_induction_on with
  | _ n ih =>
    match n with
    | 0 => rw [recursiveChebychev, h0]
    | 1 => rw [recursiveChebychev, h1]
    | 2 => rw [recursiveChebychev, h2, h0, h1]
    | 3 => rw [recursiveChebychev, h3, h2, h0, h1]; ring
    | 4 => rw [recursiveChebychev, h4, h3, h2, h0, h1]; ring
    | n + 5 =>
      rw [recursiveChebychev, ih (n + 4) (by omega), ih (n + 3) (by omega), chebyshevT_rec (n + 3)]

/-- C35: the Chebychev basis function of degree `n` is the Chebyshev polynomial, inside and
    outside [-1, 1]. -/
theorem chebychev_eq (x : ℝ) (n : ℕ) : chebychev x n = chebyshevT n x := by
  unfold chebychev
  split
  · rename_i h
    obtain ⟨h1, h2⟩ := abs_le.1 h
    have := Polynomial.Chebyshev.T_real_cos (Real.arccos x) n
    rw [Real.cos_arccos h1 h2] at this
    rw [chebyshevT, this]
    push_cast
    rfl
  · exact recursiveChebychev_eq x n

/-- On [-1, 1] its values are in [-1, 1]. -/
theorem chebychev_bounded (x : ℝ) (n : ℕ) (h : |x| ≤ 1) : |chebychev x n| ≤ 1 := by
  rw [chebychev, if_pos h]
  exact Real.abs_cos_le_one _

/-! ### Legendre -/

/-- the coefficient of `t ^ k`, without its sign -/
def legCoeff (n k : ℕ) : ℚ := (n.choose k * (n + k).choose n : ℕ)

theorem legCoeff_zero (n k : ℕ) (h : n < k) : legCoeff n k = 0 := by
  simp [legCoeff, Nat.choose_eq_zero_of_lt h]

theorem legCoeff_n (n k : ℕ) (h : k ≤ n) :
    ((n : ℚ) + 1 - k) * legCoeff (n + 1) k = ((n : ℚ) + 1 + k) * legCoeff n k := by
  unfold legCoeff
  have h2 : (n + 1).choose k * (n + 1 - k) = (n + 1) * n.choose k := by
    have := Nat.choose_mul_succ_eq n k
    rw [mul_comm (n + 1)]; exact this.symm
  have h3 : (n + 1 + k).choose (n + 1) * (n + 1) = (n + 1 + k) * (n + k).choose n := by
    have := Nat.add_one_mul_choose_eq (n + k) n
    rw [show n + 1 + k = n + k + 1 by omega]
    exact this.symm
  have h2' : ((n + 1).choose k : ℚ) * ((n : ℚ) + 1 - k) = ((n : ℚ) + 1) * n.choose k := by
    have := congrArg (Nat.cast : ℕ → ℚ) h2
    push_cast [Nat.cast_sub (show k ≤ n + 1 by omega)] at this
    exact this
  have h3' : ((n + 1 + k).choose (n + 1) : ℚ) * ((n : ℚ) + 1) = ((n : ℚ) + 1 + k) * (n + k).choose n := by
    exact_mod_cast h3
  have hn : ((n : ℚ) + 1) ≠ 0 := by positivity
  push_cast
  apply mul_left_cancel₀ hn
  linear_combination ((n + 1 + k).choose (n + 1) : ℚ) * ((n : ℚ) + 1) * h2' + ((n : ℚ) + 1) * n.choose k * h3'

theorem legCoeff_k (n k : ℕ) (h : k ≤ n) :
    ((k : ℚ) + 1) * ((k : ℚ) + 1) * legCoeff n (k + 1) = ((n : ℚ) - k) * ((n : ℚ) + k + 1) * legCoeff n k := by
  unfold legCoeff
  have h1 := Nat.choose_succ_right_eq n k
  have h1' : (n.choose (k + 1) : ℚ) * ((k : ℚ) + 1) = n.choose k * ((n : ℚ) - k) := by
    have := congrArg (Nat.cast : ℕ → ℚ) h1
    push_cast [Nat.cast_sub h] at this
    exact this
  have h2 : (n + (k + 1)).choose n * (k + 1) = (n + k + 1) * (n + k).choose n := by
    have := Nat.add_one_mul_choose_eq (n + k) k
    rw [show (n + k).choose n = (n + k).choose k from Nat.choose_symm_add,
      show (n + (k + 1)).choose n = (n + (k + 1)).choose (k + 1) from Nat.choose_symm_add]
    exact this.symm
  have h2' : ((n + (k + 1)).choose n : ℚ) * ((k : ℚ) + 1) = ((n : ℚ) + k + 1) * (n + k).choose n := by
    exact_mod_cast h2
  push_cast
  linear_combination ((n + (k + 1)).choose n : ℚ) * ((k : ℚ) + 1) * h1' + n.choose k * ((n : ℚ) - k) * h2'

/-- the recurrence of the coefficients, `k` at least 1 -/
theorem legCoeff_rec (n k : ℕ) : ((n : ℚ) + 2) * legCoeff (n + 2) (k + 1) =
    (2 * (n : ℚ) + 3) * (legCoeff (n + 1) (k + 1) + 2 * legCoeff (n + 1) k) - ((n : ℚ) + 1) * legCoeff n (k + 1) := by
  rcases Nat.lt_or_ge (n + 2) (k + 1) with hk | hk
  · rw [legCoeff_zero _ _ hk, legCoeff_zero _ _ (by omega), legCoeff_zero _ _ (by omega), legCoeff_zero _ _ (by omega)]
    ring
  · rcases Nat.lt_or_ge k (n + 1) with h1 | h1
    · rcases Nat.lt_or_ge k n with h2 | h2
      · have a1 := legCoeff_n n (k + 1) (by omega)
        have a2 := legCoeff_n (n + 1) (k + 1) (by omega)
        have a3 := legCoeff_k (n + 1) k (by omega)
        push_cast at a1 a2 a3
        have hkn : (k : ℚ) + 1 ≤ n := by exact_mod_cast h2
        have p1 : (n : ℚ) - k ≠ 0 := by linarith
        have p2 : (n : ℚ) + 1 - k ≠ 0 := by linarith
        have hk0 : (0 : ℚ) ≤ k := by positivity
        have p3 : (n : ℚ) + k + 2 ≠ 0 := by positivity
        have e1 : legCoeff (n + 1) (k + 1) = ((n : ℚ) + k + 2) / (n - k) * legCoeff n (k + 1) := by
          rw [div_mul_eq_mul_div, eq_div_iff p1]; linear_combination a1
        have e2 : legCoeff (n + 2) (k + 1) = ((n : ℚ) + k + 3) / (n + 1 - k) * legCoeff (n + 1) (k + 1) := by
          rw [div_mul_eq_mul_div, eq_div_iff p2]; linear_combination a2
        have e3 : legCoeff (n + 1) k = ((k : ℚ) + 1) * (k + 1) / ((n + 1 - k) * (n + k + 2)) * legCoeff (n + 1) (k + 1) := by
          rw [div_mul_eq_mul_div, eq_div_iff (mul_ne_zero p2 p3)]; linear_combination -a3
        rw [e2, e3, e1]
        field_simp
        ring
      · have hkn : k = n := by omega
        subst hkn
        have a2 := legCoeff_n (k + 1) (k + 1) (by omega)
        have a3 := legCoeff_k (k + 1) k (by omega)
        rw [legCoeff_zero k (k + 1) (by omega)]
        push_cast at a2 a3
        have p : (k : ℚ) + 1 ≠ 0 := by positivity
        have e3 : legCoeff (k + 1) k = ((k : ℚ) + 1) / 2 * legCoeff (k + 1) (k + 1) := by
          apply mul_left_cancel₀ p
          linear_combination (-1 / 2) * a3
        rw [e3]
        linear_combination ((k : ℚ) + 2) * a2
    · have hkn : k = n + 1 := by omega
      subst hkn
      rw [legCoeff_zero (n + 1) (n + 1 + 1) (by omega), legCoeff_zero n (n + 1 + 1) (by omega)]
      have := Nat.succ_mul_centralBinom_succ (n + 1)
      have e : ∀ m : ℕ, legCoeff m m = (m.centralBinom : ℚ) := by
        intro m
        simp [legCoeff, Nat.centralBinom_eq_two_mul_choose, two_mul]
      rw [show n + 1 + 1 = n + 2 from rfl, e, e]
      have h' : (((n + 1 : ℕ) : ℚ) + 1) * (n + 2).centralBinom = 2 * (2 * ((n + 1 : ℕ) : ℚ) + 1) * (n + 1).centralBinom := by
        exact_mod_cast this
      push_cast at h'
      linear_combination h'

theorem coeff_legCoeff (n k : ℕ) :
    (((Polynomial.shiftedLegendre n).coeff k : ℤ) : ℚ) = (-1) ^ k * legCoeff n k := by
  rw [Polynomial.coeff_shiftedLegendre]
  simp only [legCoeff]
  push_cast
  ring

/-- the recurrence of the polynomials -/
theorem shiftedLegendre_rec (n : ℕ) : Polynomial.C ((n : ℤ) + 2) * Polynomial.shiftedLegendre (n + 2) =
    Polynomial.C (2 * (n : ℤ) + 3) * (Polynomial.shiftedLegendre (n + 1) -
      Polynomial.C 2 * (Polynomial.X * Polynomial.shiftedLegendre (n + 1))) -
      Polynomial.C ((n : ℤ) + 1) * Polynomial.shiftedLegendre n := by
  ext k
  have inj : ∀ a b : ℤ, ((a : ℤ) : ℚ) = b → a = b := fun a b h => by exact_mod_cast h
  apply inj
  simp only [Polynomial.coeff_sub, Polynomial.coeff_C_mul]
  cases k with
  | zero =>
    simp only [Polynomial.coeff_X_mul_zero]
    push_cast
    simp only [coeff_legCoeff, legCoeff]
    simp
    ring
  | succ k =>
    simp only [Polynomial.coeff_X_mul]
    push_cast
    simp only [coeff_legCoeff]
    have := legCoeff_rec n k
    rw [pow_succ]
    linear_combination -(-1 : ℚ) ^ k * this

theorem legendreP_zero (x : ℝ) : legendreP 0 x = 1 := by
  simp [legendreP, Polynomial.shiftedLegendre]

theorem legendreP_one (x : ℝ) : legendreP 1 x = x := by
  simp [legendreP, Polynomial.shiftedLegendre, sum_range_succ]
  ring

/-- Bonnet's recurrence -/
theorem legendreP_rec (n : ℕ) (x : ℝ) : ((n : ℝ) + 2) * legendreP (n + 2) x =
    (2 * (n : ℝ) + 3) * x * legendreP (n + 1) x - ((n : ℝ) + 1) * legendreP n x := by
  have := congrArg (Polynomial.aeval ((1 - x) / 2)) (shiftedLegendre_rec n)
  simp only [map_mul, map_sub, Polynomial.aeval_C, Polynomial.aeval_X] at this
  unfold legendreP
  simp at this
  linear_combination this

/-- C36: the Legendre basis function of degree `n` is the Legendre polynomial. -/
theorem legendre_eq (x : ℝ) : ∀ n, legendre x n = legendreP n x := by
  intro n
  induction n using Nat.strong_induction_on with
  | _ n ih =>
    match n with
    | 0 => rw [legendre, legendreP_zero]
    | 1 => rw [legendre, legendreP_one]
    | n + 2 =>
      rw [legendre, ih (n + 1) (by omega), ih n (by omega)]
      have := legendreP_rec n x
      have hn : ((n + 2 : ℕ) : ℝ) ≠ 0 := by positivity
      rw [div_eq_iff hn]
      push_cast
      linear_combination -this

/-- C36: the closed forms of the cosine plugin are the same polynomials. -/
theorem legendreCos_eq (x : ℝ) : ∀ n, legendreCos x n = legendreP n x := by
  have h0 := legendreP_zero x
  have h1 := legendreP_one x
  have step : ∀ n : ℕ, legendreP (n + 2) x =
      ((2 * (n : ℝ) + 3) * x * legendreP (n + 1) x - ((n : ℝ) + 1) * legendreP n x) / ((n : ℝ) + 2) := by
    intro n
    rw [eq_div_iff (by positivity)]
    linear_combination legendreP_rec n x
  have h2 := step 0
  have h3 := step 1
  have h4 := step 2
  have h5 := step 3
  have h6 := step 4
  have h7 := step 5
  norm_num at h2 h3 h4 h5 h6 h7
  rw [h0, h1] at h2
  rw [h1, h2] at h3
  rw [h2, h3] at h4
  rw [h3, h4] at h5
  rw [h4, h5] at h6
  rw [h5, h6] at h7
  intro n
  induction n using Nat.strong_induction_on with
  | _ n ih =>
    match n with
    | 0 => rw [legendreCos, h0]
    | 1 => rw [legendreCos, h1]
    | 2 => rw [legendreCos, h2]; ring
    | 3 => rw [legendreCos, h3]; ring
    | 4 => rw [legendreCos, h4]; ring
    | 5 => rw [legendreCos, h5]; ring
    | 6 => rw [legendreCos, h6]; ring
    | 7 => rw [legendreCos, h7]; ring
    | n + 8 =>
      rw [legendreCos, ih (n + 7) (by omega), ih (n + 6) (by omega)]
      have := legendreP_rec (n + 6) x
      have hn : ((n + 8 : ℕ) : ℝ) ≠ 0 := by positivity
      rw [div_eq_iff hn]
      push_cast at this ⊢
      linear_combination -this

/-- C36: initial values, Bonnet's recurrence, the value at 1 and the parity. -/
theorem legendre_characterization (x : ℝ) (n : ℕ) :
    legendre x 0 = 1 ∧ legendre x 1 = x ∧
    ((n : ℝ) + 2) * legendre x (n + 2) = (2 * n + 3) * x * legendre x (n + 1) - (n + 1) * legendre x n ∧
    legendre 1 n = 1 ∧ legendre (-x) n = (-1) ^ n * legendre x n := by
  simp only [legendre_eq]
  refine ⟨legendreP_zero x, legendreP_one x, legendreP_rec n x, ?_, ?_⟩
  · simp [legendreP, Polynomial.shiftedLegendre, map_sum, sum_range_succ']
  · unfold legendreP
    rw [Polynomial.shiftedLegendre_eval_symm n]
    congr 2
    ring_nf

/-! ### The functions -/

/-- C35, C36: the functions of one variable used by the plugins are the classical ones. -/
theorem ratKind_classical (kind : RatKind) (x : ℝ) (n : ℕ) : kind.fn1 x n = kind.classical n x := by
  cases kind
  · rfl
  · exact chebychev_eq x n
  · exact legendre_eq x n
  · exact legendreCos_eq x n

theorem tensorBasis_eq (fn : ℝ → ℕ → ℝ) (cl : ℕ → ℝ → ℝ) (h : ∀ x n, fn x n = cl n x) (r : Rat1) (hd : 1 ≤ r.dimX)
    (x : List ℝ) (i : ℕ) : tensorBasis fn r x i = some (tensorFn cl r.dimX r.lo r.hi i x) := by
  obtain ⟨v, h1, h2⟩ := index2degree_some r.dimX i hd
  unfold tensorBasis tensorFn
  rw [h1]
  simp only [Option.map_some, Option.getD_some, Option.some.injEq]
  have key : ∀ n, (List.range n).foldl (fun res k =>
      res * fn (2 * ((arr x k - arr r.lo k) / (arr r.hi k - arr r.lo k) - 0.5)) (v.getD k 0)) 1 =
      ∏ k ∈ range n, cl (v.getD k 0) (unitCoord r.lo r.hi x k) := by
    intro n
    induction n with
    | zero => rfl
    | succ n ih =>
      rw [List.range_succ, List.foldl_append, ih, prod_range_succ]
      simp only [List.foldl_cons, List.foldl_nil]
      rw [h]
      congr 2
      unfold unitCoord
      norm_num
      ring
  exact key r.dimX

theorem sumBasis_eq (basis : ℕ → Option ℝ) (B : ℕ → ℝ) (h : ∀ i, basis i = some (B i)) : ∀ (l : List Coeff) (off : ℕ) (res : ℝ),
    sumBasis basis l off res = some (res + ∑ i ∈ range l.length, arr (l.map Coeff.a) i * B (off + i)) := by
  intro l
  induction l with
  | nil => intro off res; simp [sumBasis]
  | cons c l ih =>
    intro off res
    rw [sumBasis, h off]
    simp only
    rw [ih, List.length_cons, sum_range_succ']
    congr 1
    have : ∑ i ∈ range l.length, arr ((c :: l).map Coeff.a) (i + 1) * B (off + (i + 1)) =
        ∑ i ∈ range l.length, arr (l.map Coeff.a) i * B (off + 1 + i) := by
      apply sum_congr rfl
      intro i _
      rw [show off + (i + 1) = off + 1 + i by omega]
      rfl
    rw [this]
    have h0 : arr ((c :: l).map Coeff.a) 0 = c.a := rfl
    rw [h0, Nat.add_zero]
    ring_nf

/-- C35, C36: the value of a function of the Chebychev or of the Legendre plugin is the quotient
    of two combinations of products of classical polynomials. -/
theorem ortho_value (kind : RatKind) (hk : kind = .chebychev ∨ kind = .legendre) (input : Input) (r : Rat1)
    (hd : 1 ≤ r.dimX) (x : List ℝ) :
    kind.value input r x = some (combination kind.classical r.dimX r.lo r.hi r.getP x /
      combination kind.classical r.dimX r.lo r.hi r.getQ x) := by
  have hb := tensorBasis_eq kind.fn1 kind.classical (ratKind_classical kind) r hd x
  have hp : ∀ i, kind.p input r x i = some (tensorFn kind.classical r.dimX r.lo r.hi i x) := by
    rcases hk with rfl | rfl <;> exact hb
  have hq : ∀ i, kind.q r x i = some (tensorFn kind.classical r.dimX r.lo r.hi i x) := by
    rcases hk with rfl | rfl <;> exact hb
  unfold RatKind.value
  rw [sumBasis_eq _ _ hp, sumBasis_eq _ _ hq]
  simp [combination, Rat1.getP, Rat1.getQ]

/-- C36: the value of a function of the cosine plugin is the one of the Legendre plugin times the
    cosines of both directions (times 1 if the parametrization is unknown). -/
theorem cosine_value (input : Input) (r : Rat1) (hd : 1 ≤ r.dimX) (x : List ℝ) :
    (input = .UNKNOWN_INPUT → RatKind.value .cosine input r x = RatKind.value .legendre input r x) ∧
    (∀ c, input ≠ .UNKNOWN_INPUT → convertInput (arr x) input .CARTESIAN = some c →
      RatKind.value .cosine input r x = (RatKind.value .legendre input r x).map (· * (arr c 2 * arr c 5))) := by
  have hb := tensorBasis_eq legendreCos legendreP legendreCos_eq r hd x
  have hl := ortho_value .legendre (Or.inr rfl) input r hd x
  have hq : ∀ i, RatKind.q .cosine r x i = some (tensorFn legendreP r.dimX r.lo r.hi i x) := hb
  constructor
  · intro h
    have hp : ∀ i, RatKind.p .cosine input r x i = some (tensorFn legendreP r.dimX r.lo r.hi i x) := by
      intro i
      simp only [RatKind.p, hb, cosineFactor, if_pos h, Option.bind_some, Option.map_some, mul_one]
    rw [hl]
    unfold RatKind.value
    rw [sumBasis_eq _ _ hp, sumBasis_eq _ _ hq]
    simp [combination, Rat1.getP, Rat1.getQ, RatKind.classical]
  · intro c h hc
    have hp : ∀ i, RatKind.p .cosine input r x i =
        some (tensorFn legendreP r.dimX r.lo r.hi i x * (arr c 2 * arr c 5)) := by
      intro i
      simp only [RatKind.p, hb, cosineFactor, if_neg h, hc, Option.bind_some, Option.map_some]
    rw [hl]
    unfold RatKind.value
    rw [sumBasis_eq _ _ hp, sumBasis_eq _ _ hq]
    simp only [zero_add, Option.map_some, Option.some.injEq]
    simp only [combination, Rat1.getP, Rat1.getQ, RatKind.classical, List.length_map]
    simp only [← mul_assoc, ← sum_mul]
    ring

/-- The virtual functions of the core class give its value. -/
theorem power_value (input : Input) (r : Rat1) (x : List ℝ) : RatKind.value .power input r x = r.value x := by
  have key : ∀ (pre l : List Coeff) (res : ℝ),
      sumBasis (fun i => ((pre ++ l)[i]?).bind fun c => r.basis c x) l pre.length res = r.sumLoop x l res := by
    intro pre l
    induction l generalizing pre with
    | nil => intro res; rfl
    | cons c l ih =>
      intro res
      rw [sumBasis, Rat1.sumLoop]
      have : (pre ++ c :: l)[pre.length]? = some c := by simp
      rw [this]
      simp only [Option.bind_some]
      cases r.basis c x with
      | none => rfl
      | some b =>
        have := ih (pre ++ [c]) (res + c.a * b)
        rw [List.append_assoc, List.length_append] at this
        exact this
  have kp : sumBasis (RatKind.p .power input r x) r.p 0 0 = r.sumLoop x r.p 0 := key [] r.p 0
  have kq : sumBasis (RatKind.q .power r x) r.q 0 0 = r.sumLoop x r.q 0 := key [] r.q 0
  unfold RatKind.value Rat1.value Rat1.parts
  rw [kp, kq]
  cases r.sumLoop x r.p 0 <;> cases r.sumLoop x r.q 0 <;> rfl

/-- Limit: the file of a function does not contain its basis; with the coefficients [0, 0, 1] and
    [1] on [-1, 1], the Chebychev plugin and the core class differ. -/
theorem basis_not_in_file : ∃ r : Rat1, r.Standard ∧ RatKind.value .chebychev .UNKNOWN_INPUT r [0] = some (-1) ∧
    RatKind.value .power .UNKNOWN_INPUT r [0] = some 0 := by
  have h0 : index2degree 1 0 = some [0] := by decide +kernel
  have h1 : index2degree 1 1 = some [1] := by decide +kernel
  have h2 : index2degree 1 2 = some [2] := by decide +kernel
  have hs : Rat1.Standard ⟨1, [⟨0, [0]⟩, ⟨0, [1]⟩, ⟨1, [2]⟩], [⟨1, [0]⟩], [-1], [1]⟩ := by
    refine ⟨le_refl _, fun i c hc => ?_, fun i c hc => ?_⟩
    · match i with
      | 0 => simp at hc; rw [← hc]; simp [h0]
      | 1 => simp at hc; rw [← hc]; simp [h1]
      | 2 => simp at hc; rw [← hc]; simp [h2]
      | n + 3 => simp at hc
    · match i with
      | 0 => simp at hc; rw [← hc]; simp [h0]
      | n + 1 => simp at hc
  have c2 : chebyshevT 2 0 = -1 := by rw [← recursiveChebychev_eq, recursiveChebychev]; norm_num
  have c1 : chebyshevT 1 0 = 0 := by rw [← recursiveChebychev_eq, recursiveChebychev]
  have c0 : chebyshevT 0 0 = 1 := by rw [← recursiveChebychev_eq, recursiveChebychev]
  refine ⟨_, hs, ?_, ?_⟩
  · rw [ortho_value .chebychev (Or.inl rfl) _ _ (le_refl _)]
    have u : unitCoord [-1] [1] [0] 0 = 0 := by simp [unitCoord, arr]; norm_num
    simp only [combination, tensorFn, Rat1.getP, Rat1.getQ, RatKind.classical, sum_range_succ, prod_range_succ, range_zero,
      prod_empty, sum_empty, h0, h1, h2, u, arr, List.map_cons, List.map_nil, List.length_cons, List.length_nil,
      Option.getD_some, List.getD_cons_zero, List.getD_cons_succ, c0, c1, c2]
    norm_num [c0, c1, c2, h2, u]
  · rw [power_value, rational_value _ hs]
    have u : unitCoord [-1] [1] [0] 0 = 0 := by simp [unitCoord, arr]; norm_num
    simp [polynomial, basisFn, monomial, Rat1.getP, Rat1.getQ, sum_range_succ, h0, h1, h2, u, arr]

end
end Alta
