import Verif.Model.RationalBasis
import Mathlib.Data.Nat.Choose.Sum
import Mathlib.Algebra.BigOperators.Group.Finset.Basic
import Mathlib.Algebra.BigOperators.Intervals
import Mathlib.Algebra.Order.BigOperators.Group.Finset
import Mathlib.Tactic.Linarith
import Mathlib.Tactic.Ring
/-
Property C32: the exponents of the basis functions of a rational function.
-/
namespace Alta
open Finset

/-! ### The number of monomials -/

theorem estimateSum_eq (k d n : ℕ) : estimateSum k d n = ∑ i ∈ range n, estimateDk (k - i) d := by
  induction n with
  | zero => simp [estimateSum]
  | succ n ih => rw [estimateSum, ih, sum_range_succ]

theorem hockey (k d : ℕ) : ∑ i ∈ range (k + 1), (k - i + d).choose d = (k + d + 1).choose (d + 1) := by
  induction k with
  | zero => simp
  | succ k ih =>
    rw [sum_range_succ']
    simp only [Nat.add_sub_add_right, Nat.sub_zero]
    rw [ih, show k + 1 + d + 1 = (k + d + 1) + 1 by omega, Nat.choose_succ_succ (k + d + 1) d, Nat.succ_eq_add_one,
      show k + 1 + d = k + d + 1 by omega]
    omega

/-- C32 (count).  The number the code computes is the number of monomials of degree `k` in `d+1`
    variables. -/
theorem estimateDk_choose (d : ℕ) : ∀ k, estimateDk k (d + 1) = (k + d).choose d := by
  induction d with
  | zero => intro k; simp [estimateDk]
  | succ d ih =>
    intro k
    rw [estimateDk]
    by_cases h0 : k = 0
    · simp [h0]
    rw [if_neg (by omega)]
    by_cases h1 : k = 1
    · rw [if_pos h1, h1, show 1 + (d + 1) = (d + 1) + 1 by omega, Nat.choose_succ_self_right]
    rw [if_neg h1]
    by_cases h2 : d + 1 + 1 = 2
    · have : d = 0 := by omega
      subst this
      rw [if_pos h2]; simp
    rw [if_neg h2]
    by_cases h3 : d + 1 + 1 = 3
    · have : d = 1 := by omega
      subst this
      rw [if_pos h3, Nat.choose_two_right]
      show (k + 1) * (k + 1) - (k + 1) * k / 2 = (k + 2) * (k + 1) / 2
      obtain ⟨m, hm⟩ : ∃ m, (k + 1) * k = 2 * m := by
        obtain ⟨m, hm⟩ := Nat.even_mul_succ_self k
        exact ⟨m, by rw [mul_comm, hm]; ring⟩
      have e1 : (k + 1) * (k + 1) = 2 * m + (k + 1) := by rw [← hm]; ring
      have e2 : (k + 2) * (k + 1) = 2 * m + 2 * (k + 1) := by rw [← hm]; ring
      rw [hm, e1, e2]
      omega
    rw [if_neg h3, estimateSum_eq]
    simp only [ih]
    rw [hockey]
    rfl

/-- the recurrence on the number of variables -/
theorem estimateDk_succ (k d : ℕ) : estimateDk k (d + 1) = ∑ i ∈ range (k + 1), estimateDk (k - i) d := by
  cases d with
  | zero =>
    rw [estimateDk_choose, sum_range_succ, sum_eq_zero]
    · simp [estimateDk]
    · intro i hi
      rw [mem_range] at hi
      rw [estimateDk, if_neg (by omega)]
  | succ d =>
    simp only [estimateDk_choose]
    rw [hockey]; rfl

theorem estimateDk_pos (k d : ℕ) : 0 < estimateDk k (d + 1) := by
  rw [estimateDk_choose]; exact Nat.choose_pos (by omega)

/-! ### Cutting an index in blocks -/

theorem block_unique (c : ℕ → ℕ) {k l r s : ℕ} (hr : r < c k) (hs : s < c l)
    (h : ∑ i ∈ range k, c i + r = ∑ i ∈ range l, c i + s) : k = l ∧ r = s := by
  have mono : ∀ {a b}, a ≤ b → ∑ i ∈ range a, c i ≤ ∑ i ∈ range b, c i := fun hab =>
    sum_le_sum_of_subset (range_subset_range.mpr hab)
  have key : ∀ {a b u v}, u < c a → a < b → ∑ i ∈ range a, c i + u ≠ ∑ i ∈ range b, c i + v := by
    intro a b u v hu hab he
    have := mono (Nat.succ_le_of_lt hab)
    rw [Nat.succ_eq_add_one, sum_range_succ] at this
    omega
  rcases lt_trichotomy k l with hkl | hkl | hkl
  · exact absurd h (key hr hkl)
  · subst hkl; exact ⟨rfl, by omega⟩
  · exact absurd h.symm (key hs hkl)

/-- the inner loop of `populate` finds the block of the index -/
theorem levelLoop_spec (M rem j base : ℕ) : ∀ left k, left + k = M + 1 →
    base + ∑ i ∈ range k, estimateDk (M - i) rem ≤ j →
    j < base + ∑ i ∈ range (M + 1), estimateDk (M - i) rem →
    ∃ k', levelLoop M rem j left k (base + ∑ i ∈ range k, estimateDk (M - i) rem) =
        (k', base + ∑ i ∈ range k', estimateDk (M - i) rem) ∧ k' ≤ M ∧
      base + ∑ i ∈ range k', estimateDk (M - i) rem ≤ j ∧
      j < base + ∑ i ∈ range k', estimateDk (M - i) rem + estimateDk (M - k') rem := by
  intro left
  induction left with
  | zero =>
    intro k hk h1 h2
    have : k = M + 1 := by omega
    subst this; omega
  | succ left ih =>
    intro k hk h1 h2
    rw [levelLoop]
    by_cases hc : j < base + ∑ i ∈ range k, estimateDk (M - i) rem + estimateDk (M - k) rem
    · exact ⟨k, by rw [if_pos ⟨h1, hc⟩], by omega, h1, hc⟩
    · rw [if_neg (fun h => hc h.2)]
      have e : base + ∑ i ∈ range k, estimateDk (M - i) rem + estimateDk (M - k) rem =
          base + ∑ i ∈ range (k + 1), estimateDk (M - i) rem := by
        rw [sum_range_succ, add_assoc]
      rw [e]
      exact ih (k + 1) (by omega) (by rw [← e]; omega) h2

/-! ### The rank of a vector of exponents -/

/-- rank of a vector among those of the same degree `M`, last exponent first -/
def rankAmong : List ℕ → ℕ → ℕ
  | [], _ => 0
  | k :: u, M => ∑ i ∈ range k, estimateDk (M - i) u.length + rankAmong u (M - k)

theorem rankAmong_lt (u : List ℕ) : ∀ M, u.sum = M → rankAmong u M < estimateDk M u.length := by
  induction u with
  | nil => intro M h; simp at h; subst h; simp [rankAmong, estimateDk]
  | cons k u ih =>
    intro M h
    rw [List.sum_cons] at h
    have := ih (M - k) (by omega)
    rw [rankAmong, List.length_cons, estimateDk_succ]
    have h1 : ∑ i ∈ range (k + 1), estimateDk (M - i) u.length ≤ ∑ i ∈ range (M + 1), estimateDk (M - i) u.length :=
      sum_le_sum_of_subset (range_subset_range.mpr (by omega))
    rw [sum_range_succ] at h1
    omega

theorem rankAmong_inj (u : List ℕ) : ∀ (v : List ℕ) (M : ℕ), u.length = v.length → u.sum = M → v.sum = M →
    rankAmong u M = rankAmong v M → u = v := by
  induction u with
  | nil => intro v M hl _ _ _; cases v with | nil => rfl | cons => simp at hl
  | cons k u ih =>
    intro v M hl hu hv h
    cases v with
    | nil => simp at hl
    | cons l v =>
      simp only [List.length_cons, Nat.add_right_cancel_iff] at hl
      rw [List.sum_cons] at hu hv
      rw [rankAmong, rankAmong, ← hl] at h
      obtain ⟨e1, e2⟩ := block_unique (fun i => estimateDk (M - i) u.length)
        (rankAmong_lt u (M - k) (by omega))
        (by have := rankAmong_lt v (M - l) (by omega); rwa [← hl] at this) h
      subst e1
      rw [ih v (M - k) hl (by omega) (by omega) e2]

/-- rank of a vector of exponents in the whole enumeration -/
def rankOf (v : List ℕ) : ℕ :=
  ∑ k ∈ range v.sum, estimateDk k v.length + rankAmong v.reverse v.sum

theorem rankOf_inj {u v : List ℕ} (hl : u.length = v.length) (h : rankOf u = rankOf v) : u = v := by
  unfold rankOf at h
  rw [← hl] at h
  have hu := rankAmong_lt u.reverse u.sum (by simp)
  have hv := rankAmong_lt v.reverse v.sum (by simp)
  rw [List.length_reverse] at hu hv
  rw [← hl] at hv
  obtain ⟨e1, e2⟩ := block_unique (fun k => estimateDk k u.length) hu hv h
  rw [← e1] at e2
  have := rankAmong_inj u.reverse v.reverse u.sum (by simp [hl]) (by simp) (by simp [e1]) e2
  simpa using congrArg List.reverse this

theorem rankOf_mono {u v : List ℕ} (hl : u.length = v.length) (h : rankOf u ≤ rankOf v) : u.sum ≤ v.sum := by
  by_contra hc
  have hv := rankAmong_lt v.reverse v.sum (by simp)
  rw [List.length_reverse, ← hl] at hv
  have h1 : ∑ k ∈ range (v.sum + 1), estimateDk k u.length ≤ ∑ k ∈ range u.sum, estimateDk k u.length :=
    sum_le_sum_of_subset (range_subset_range.mpr (by omega))
  rw [sum_range_succ] at h1
  unfold rankOf at h
  rw [← hl] at h
  omega

/-! ### The loops -/

theorem populateLoop_spec (N j : ℕ) : ∀ (n d : ℕ) (v : List ℕ) (M nb : ℕ), v.length = N → d + n + 1 = N →
    nb ≤ j → j < nb + estimateDk M (n + 1) →
    ∃ w : List ℕ, (let st := populateLoop N j n d (v, M, nb); st.1.set 0 st.2.1) = w.reverse ++ v.drop (n + 1) ∧
      w.length = n + 1 ∧ w.sum = M ∧ rankAmong w M = j - nb := by
  intro n
  induction n with
  | zero =>
    intro d v M nb hv hN h1 h2
    refine ⟨[M], ?_, rfl, by simp, ?_⟩
    · simp only [populateLoop]
      cases v with
      | nil => simp at hv; omega
      | cons a v => simp
    · rw [estimateDk_choose] at h2
      simp at h2
      have : ∀ i ∈ range M, estimateDk (M - i) 0 = 0 := by
        intro i hi
        rw [mem_range] at hi
        rw [estimateDk, if_neg (by omega)]
      simp only [rankAmong, List.length_nil]
      rw [sum_eq_zero this]; omega
  | succ n ih =>
    intro d v M nb hv hN h1 h2
    rw [estimateDk_succ] at h2
    obtain ⟨k, hk, kM, k1, k2⟩ := levelLoop_spec M (n + 1) j nb (M + 1) 0 (by omega) (by simpa using h1) h2
    simp only [range_zero, sum_empty, add_zero] at hk
    have hrem : N - (d + 1) = n + 1 := by omega
    have hpos : N - 1 - d = n + 1 := by omega
    obtain ⟨w, w1, w2, w3, w4⟩ := ih (d + 1) (v.set (n + 1) k) (M - k)
      (nb + ∑ i ∈ range k, estimateDk (M - i) (n + 1)) (by simpa using hv) (by omega) k1 k2
    refine ⟨k :: w, ?_, by simp [w2], by rw [List.sum_cons, w3]; omega, ?_⟩
    · simp only [populateLoop, hrem, hpos, hk]
      rw [w1]
      have : (v.set (n + 1) k).drop (n + 1) = k :: v.drop (n + 1 + 1) := by
        rw [List.drop_set]
        rw [if_neg (by omega), Nat.sub_self]
        have : v.drop (n + 1) = v[n + 1]'(by omega) :: v.drop (n + 1 + 1) := List.drop_eq_getElem_cons (by omega)
        rw [this, List.set_cons_zero]
      rw [this]
      simp
    · rw [rankAmong, w2, w4]; omega

theorem degreeLoop_spec (size : ℕ → ℕ) (hs : ∀ k, 0 < size k) (i : ℕ) : ∀ Nk k,
    Nk = ∑ l ∈ range k, size l → Nk ≤ i →
    ∃ k', degreeLoop size i Nk k = some (∑ l ∈ range k', size l, k') ∧ ∑ l ∈ range k', size l ≤ i ∧
      i < ∑ l ∈ range k', size l + size k' := by
  intro Nk k
  induction Nk, k using degreeLoop.induct size i with
  | case1 Nk k h =>
    intro hN hi
    refine ⟨k, ?_, hN ▸ h.1, hN ▸ h.2⟩
    rw [degreeLoop, if_pos h, hN]
  | case2 Nk k h1 h2 ih =>
    intro hN hi
    obtain ⟨k', e1, e2⟩ := ih (by rw [sum_range_succ, hN]) (by
      by_contra hc; exact h1 ⟨hi, by omega⟩)
    exact ⟨k', by rw [degreeLoop, if_neg h1, if_pos h2]; exact e1, e2⟩
  | case3 Nk k h1 h2 =>
    intro hN hi
    exact absurd ⟨hi, hs k⟩ h2

/-- the exponents of index `i` are those of rank `i` -/
theorem index2degree_rank (d i : ℕ) (hd : 1 ≤ d) :
    ∃ v, index2degree d i = some v ∧ v.length = d ∧ rankOf v = i := by
  unfold index2degree
  simp only
  by_cases h0 : i = 0
  · refine ⟨_, if_pos h0, by simp, ?_⟩
    have : ∀ n, rankAmong (List.replicate n 0) 0 = 0 := by
      intro n
      induction n with
      | zero => rfl
      | succ n ih => rw [List.replicate_succ, rankAmong]; simp [ih]
    simp [rankOf, this, h0]
  rw [if_neg h0]
  by_cases h1 : d = 1
  · subst h1
    refine ⟨_, if_pos rfl, by simp, ?_⟩
    have e : ∀ l ∈ range i, estimateDk (i - l) 0 = 0 := by
      intro l hl
      rw [mem_range] at hl
      rw [estimateDk, if_neg (by omega)]
    simp [rankOf, rankAmong, sum_eq_zero e, estimateDk_choose]
  rw [if_neg h1]
  by_cases h2 : d = 2
  · subst h2
    obtain ⟨k, e1, e2, e3⟩ := degreeLoop_spec (fun k => k + 1) (fun _ => by omega) i 1 1 (by simp) (by omega)
    refine ⟨[k - (i - ∑ l ∈ range k, (l + 1)), i - ∑ l ∈ range k, (l + 1)], ?_, rfl, ?_⟩
    · rw [if_pos rfl, e1]
      simp [List.replicate]
    · set S := ∑ l ∈ range k, (l + 1) with hS
      have es : ∀ k, estimateDk k 2 = k + 1 := fun k => by rw [estimateDk_choose]; simp
      have hsum : [k - (i - S), i - S].sum = k := by simp; omega
      rw [rankOf, hsum]
      have hz : ∀ l ∈ range (k - (i - S)), estimateDk (k - (i - S) - l) 0 = 0 := by
        intro l hl
        rw [mem_range] at hl
        rw [estimateDk, if_neg (by omega)]
      have e4 : rankAmong [k - (i - S), i - S].reverse k = i - S := by
        simp only [List.reverse_cons, List.reverse_nil, List.nil_append, List.cons_append, rankAmong,
          List.length_cons, List.length_nil, sum_eq_zero hz, add_zero, zero_add]
        simp [estimateDk_choose]
      rw [e4]
      simp only [List.length_cons, List.length_nil, es]
      omega
  rw [if_neg h2]
  obtain ⟨m, rfl⟩ : ∃ m, d = m + 1 := ⟨d - 1, by omega⟩
  obtain ⟨k, e1, e2, e3⟩ := degreeLoop_spec (fun k => estimateDk k (m + 1)) (fun k => estimateDk_pos k m) i 1 1
    (by simp [estimateDk_choose]) (by omega)
  rw [e1]
  set S := ∑ l ∈ range k, estimateDk l (m + 1) with hS
  obtain ⟨w, w1, w2, w3, w4⟩ := populateLoop_spec (m + 1) (i - S) m 0 (List.replicate (m + 1) 0) k 0 (by simp) (by omega)
    (by omega) (by omega)
  refine ⟨w.reverse, ?_, by simp [w2], ?_⟩
  · simp only [Option.map_some, populate, Nat.add_sub_cancel]
    simp only at w1
    rw [w1]
    simp
  · rw [rankOf, List.reverse_reverse, List.sum_reverse, w3, w4, List.length_reverse, w2, ← hS]
    omega

/-- C32.  For a function of `d ≥ 1` variables, each index has a vector of `d` exponents, each vector
    of `d` exponents is given to exactly one index, and the total degree does not decrease with the
    index. -/
theorem basis_enumerates (d : ℕ) (hd : 1 ≤ d) :
    (∀ i, ∃ v, index2degree d i = some v ∧ v.length = d) ∧
    (∀ v : List ℕ, v.length = d → ∃! i, index2degree d i = some v) ∧
    (∀ i j u v, i ≤ j → index2degree d i = some u → index2degree d j = some v → u.sum ≤ v.sum) := by
  refine ⟨fun i => ?_, fun v hv => ⟨rankOf v, ?_, fun i hi => ?_⟩, fun i j u v hij hu hv => ?_⟩
  · obtain ⟨v, h1, h2, _⟩ := index2degree_rank d i hd
    exact ⟨v, h1, h2⟩
  · obtain ⟨w, h1, h2, h3⟩ := index2degree_rank d (rankOf v) hd
    rw [rankOf_inj (h2.trans hv.symm) h3] at h1
    exact h1
  · obtain ⟨w, h1, h2, h3⟩ := index2degree_rank d i hd
    rw [hi] at h1
    cases h1
    exact h3.symm
  · obtain ⟨u', h1, h2, h3⟩ := index2degree_rank d i hd
    obtain ⟨v', k1, k2, k3⟩ := index2degree_rank d j hd
    rw [hu] at h1; cases h1
    rw [hv] at k1; cases k1
    exact rankOf_mono (h2.trans k2.symm) (by omega)

/-- C32 (the constant).  The first basis function is the constant, the next ones are the
    coordinates. -/
theorem basis_first (d : ℕ) : index2degree d 0 = some (List.replicate d 0) := by
  simp [index2degree]

/-- C32 (how many).  A polynomial of total degree at most `k` in `d` variables is covered by the
    first `C(k + d, d)` basis functions. -/
theorem basis_degree (d k i : ℕ) (hd : 1 ≤ d) (v : List ℕ) (hv : index2degree d i = some v) :
    v.sum ≤ k ↔ i < (k + d).choose d := by
  obtain ⟨w, h1, h2, h3⟩ := index2degree_rank d i hd
  rw [hv] at h1; cases h1
  obtain ⟨m, rfl⟩ : ∃ m, d = m + 1 := ⟨d - 1, by omega⟩
  have hsum : ∀ n, ∑ l ∈ range n, estimateDk l (m + 1) = (n + m).choose (m + 1) := by
    intro n
    induction n with
    | zero => simp
    | succ n ih =>
      rw [sum_range_succ, ih, estimateDk_choose, show n + 1 + m = (n + m) + 1 by omega, Nat.choose_succ_succ, Nat.succ_eq_add_one]
      omega
  have hr := rankAmong_lt v.reverse v.sum (by simp)
  rw [List.length_reverse, h2] at hr
  rw [rankOf, h2] at h3
  constructor
  · intro hk
    have h4 : ∑ l ∈ range (v.sum + 1), estimateDk l (m + 1) ≤ ∑ l ∈ range (k + 1), estimateDk l (m + 1) :=
      sum_le_sum_of_subset (range_subset_range.mpr (by omega))
    rw [hsum (k + 1)] at h4
    rw [sum_range_succ] at h4
    rw [show k + 1 + m = k + (m + 1) by omega] at h4
    omega
  · intro hi
    by_contra hc
    have h4 : ∑ l ∈ range (k + 1), estimateDk l (m + 1) ≤ ∑ l ∈ range v.sum, estimateDk l (m + 1) :=
      sum_le_sum_of_subset (range_subset_range.mpr (by omega))
    rw [hsum (k + 1), show k + 1 + m = k + (m + 1) by omega] at h4
    omega

/-- some exponents of a function of three variables -/
example : index2degree 3 6 = some [0, 2, 0] ∧ index2degree 3 7 = some [1, 0, 1] := by
  constructor <;>
    simp [index2degree, degreeLoop, populate, populateLoop, levelLoop, estimateDk, List.replicate]

end Alta
