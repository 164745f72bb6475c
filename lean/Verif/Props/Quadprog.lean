import Verif.Spec.Quadprog
import Verif.Proofs.Slots
import Verif.Props.Rational
import Mathlib.Analysis.SpecialFunctions.Pow.Real
import Mathlib.Algebra.Order.BigOperators.Group.Finset
import Mathlib.Algebra.BigOperators.Intervals
/-
C49: the constraints of the quadratic program express the vertical segments.
-/
namespace Alta
noncomputable section
open Finset

/-! ### Columns -/

theorem sumSquares_eq (c : List ℝ) : sumSquares c = ∑ j ∈ range c.length, arr c j ^ 2 := by
  have key : ∀ (c : List ℝ) (s : ℝ), c.foldl (fun s v => s + v * v) s =
      s + ∑ j ∈ range c.length, arr c j ^ 2 := by
    intro c
    induction c with
    | nil => intro s; simp
    | cons v c ih =>
      intro s
      rw [List.foldl_cons, ih, List.length_cons, sum_range_succ']
      have e : ∀ i, arr (v :: c) (i + 1) = arr c i := fun i => rfl
      have e0 : arr (v :: c) 0 = v := rfl
      simp only [e, e0]
      ring
  simpa [sumSquares] using key c 0

theorem sumSquares_nonneg (c : List ℝ) : 0 ≤ sumSquares c := by
  rw [sumSquares_eq]; exact sum_nonneg fun _ _ => sq_nonneg _

theorem sumSquares_pos (c : List ℝ) (j : ℕ) (hj : j < c.length) (h : arr c j ≠ 0) :
    0 < sumSquares c := by
  rw [sumSquares_eq]
  exact sum_pos' (fun _ _ => sq_nonneg _) ⟨j, by simpa using hj, by positivity⟩

theorem arr_eq_of_get (l : List ℝ) (j : ℕ) (v : ℝ) (h : l[j]? = some v) : arr l j = v := by
  simp [arr, List.getD, h]

theorem arr_range_map_lt (n : ℕ) (g : ℕ → ℝ) (j : ℕ) (h : j < n) :
    arr ((List.range n).map g) j = g j := by
  apply arr_eq_of_get
  simp [h]

theorem arr_beyond (l : List ℝ) (j : ℕ) (h : l.length ≤ j) : arr l j = 0 := by
  simp [arr, List.getD, List.getElem?_eq_none h]

theorem arr_take_lt (l : List ℝ) (n j : ℕ) (h : j < n) : arr (l.take n) j = arr l j := by
  simp [arr, List.getD, h]

theorem arr_drop_add (l : List ℝ) (n j : ℕ) : arr (l.drop n) j = arr l (n + j) := by
  simp [arr, List.getD, List.getElem?_drop]

/-- the first basis function is 1 -/
theorem basisFn_zero (d : ℕ) (lo hi x : List ℝ) : basisFn d lo hi 0 x = 1 := by
  have h : index2degree d 0 = some (List.replicate d 0) := basis_first d
  unfold basisFn monomial
  rw [h]
  apply prod_eq_one
  intro k hk
  have : (List.replicate d 0).getD k 0 = 0 := by
    simp only [List.getD, List.getElem?_replicate]
    split <;> rfl
  simp only [Option.getD_some]
  rw [this, pow_zero]

/-- the polynomials depend on the abscissae only -/
theorem basisFn_congr (d : ℕ) (lo hi x x' : List ℝ) (i : ℕ)
    (h : ∀ k < d, arr x k = arr x' k) : basisFn d lo hi i x = basisFn d lo hi i x' := by
  unfold basisFn monomial
  apply prod_congr rfl
  intro k hk
  unfold unitCoord
  rw [h k (by simpa using hk)]

theorem polynomial_congr (d : ℕ) (lo hi a x x' : List ℝ)
    (h : ∀ k < d, arr x k = arr x' k) : polynomial d lo hi a x = polynomial d lo hi a x' := by
  unfold polynomial
  exact sum_congr rfl fun i _ => by rw [basisFn_congr d lo hi x x' i h]

/-- Elements of the columns of a vertical segment, from the values of the basis functions. -/
def upperElement (np : ℕ) (p q : ℕ → ℝ) (yu : ℝ) (j : ℕ) : ℝ :=
  if j < np then p j else -yu * q (j - np)
/-- see `upperElement` -/
def lowerElement (np : ℕ) (p q : ℕ → ℝ) (yl : ℝ) (j : ℕ) : ℝ :=
  if j < np then -p j else yl * q (j - np)

theorem mapM_total {α β : Type} (l : List α) (g : α → Option β) (h : α → β)
    (H : ∀ a ∈ l, g a = some (h a)) : l.mapM g = some (l.map h) := by
  induction l with
  | nil => rfl
  | cons a l ih =>
    rw [List.mapM_cons, H a (by simp), ih fun b hb => H b (by simp [hb])]
    rfl

theorem constraintPair_standard (r : Rat1) (h : r.Standard) (np nq : ℕ) (hp : r.p.length = np)
    (hq : r.q.length = nq) (xi : List ℝ) (yl yu : ℝ) :
    constraintPair r np nq xi yl yu = some
      ((List.range (np + nq)).map (upperElement np (fun j => basisFn r.dimX r.lo r.hi j xi)
        (fun j => basisFn r.dimX r.lo r.hi j xi) yu),
       (List.range (np + nq)).map (lowerElement np (fun j => basisFn r.dimX r.lo r.hi j xi)
        (fun j => basisFn r.dimX r.lo r.hi j xi) yl)) := by
  unfold constraintPair
  rw [mapM_total _ _ (fun j => (upperElement np (fun j => basisFn r.dimX r.lo r.hi j xi)
        (fun j => basisFn r.dimX r.lo r.hi j xi) yu j,
      lowerElement np (fun j => basisFn r.dimX r.lo r.hi j xi)
        (fun j => basisFn r.dimX r.lo r.hi j xi) yl j))]
  · simp [List.map_map, Function.comp_def]
  · intro j hj
    rw [List.mem_range] at hj
    unfold constraintElement upperElement lowerElement
    by_cases hjn : j < np
    · simp only [hjn, if_true]
      have hget : r.p[j]? = some r.p[j] := List.getElem?_eq_getElem (by omega)
      rw [Rat1.pAt, hget, Option.bind_some, basis_of_standard r _ xi j h.1 (h.2.1 j _ hget)]
      rfl
    · simp only [hjn, if_false]
      have hget : r.q[j - np]? = some r.q[j - np] := List.getElem?_eq_getElem (by omega)
      rw [Rat1.qAt, hget, Option.bind_some,
        basis_of_standard r _ xi (j - np) h.1 (h.2.2 (j - np) _ hget)]
      rfl

/-- numerator and denominator for given values of the basis functions -/
def numer (np : ℕ) (p : ℕ → ℝ) (x : List ℝ) : ℝ := ∑ j ∈ range np, arr x j * p j
/-- see `numer` -/
def denom (np nq : ℕ) (q : ℕ → ℝ) (x : List ℝ) : ℝ := ∑ j ∈ range nq, arr x (np + j) * q j

theorem upper_dot (np nq : ℕ) (p q : ℕ → ℝ) (yu : ℝ) (x : List ℝ) :
    ∑ j ∈ range (np + nq), arr ((List.range (np + nq)).map (upperElement np p q yu)) j * arr x j =
      numer np p x - yu * denom np nq q x := by
  rw [sum_congr rfl fun j hj => by
    rw [arr_range_map_lt _ _ _ (by simpa using hj)], sum_range_add]
  have h1 : ∑ j ∈ range np, upperElement np p q yu j * arr x j = numer np p x := by
    unfold numer
    refine sum_congr rfl fun j hj => ?_
    rw [upperElement, if_pos (by simpa using hj)]; ring
  have h2 : ∑ j ∈ range nq, upperElement np p q yu (np + j) * arr x (np + j) =
      - (yu * denom np nq q x) := by
    unfold denom
    rw [mul_sum, ← sum_neg_distrib]
    refine sum_congr rfl fun j _ => ?_
    rw [upperElement, if_neg (by omega), show np + j - np = j by omega]; ring
  rw [h1, h2]; ring

theorem lower_dot (np nq : ℕ) (p q : ℕ → ℝ) (yl : ℝ) (x : List ℝ) :
    ∑ j ∈ range (np + nq), arr ((List.range (np + nq)).map (lowerElement np p q yl)) j * arr x j =
      yl * denom np nq q x - numer np p x := by
  rw [sum_congr rfl fun j hj => by
    rw [arr_range_map_lt _ _ _ (by simpa using hj)], sum_range_add]
  have h1 : ∑ j ∈ range np, lowerElement np p q yl j * arr x j = - numer np p x := by
    unfold numer
    rw [← sum_neg_distrib]
    refine sum_congr rfl fun j hj => ?_
    rw [lowerElement, if_pos (by simpa using hj)]; ring
  have h2 : ∑ j ∈ range nq, lowerElement np p q yl (np + j) * arr x (np + j) =
      yl * denom np nq q x := by
    unfold denom
    rw [mul_sum]
    refine sum_congr rfl fun j _ => ?_
    rw [lowerElement, if_neg (by omega), show np + j - np = j by omega]; ring
  rw [h1, h2]; ring

/-- the two constraints of a vertical segment, for given values of the basis functions -/
def upperConstraint (delta : ℝ) (np nq : ℕ) (p q : ℕ → ℝ) (yu : ℝ) : Constraint :=
  withOffset delta ((List.range (np + nq)).map (upperElement np p q yu))
/-- see `upperConstraint` -/
def lowerConstraint (delta : ℝ) (np nq : ℕ) (p q : ℕ → ℝ) (yl : ℝ) : Constraint :=
  withOffset delta ((List.range (np + nq)).map (lowerElement np p q yl))

theorem upper_holds (delta : ℝ) (np nq : ℕ) (p q : ℕ → ℝ) (yu : ℝ) (x : List ℝ) :
    (upperConstraint delta np nq p q yu).Holds x ↔
      delta * Real.sqrt (sumSquares ((List.range (np + nq)).map (upperElement np p q yu))) ≤
        numer np p x - yu * denom np nq q x := by
  have := upper_dot np nq p q yu x
  unfold Constraint.Holds upperConstraint withOffset
  simp only [List.length_map, List.length_range]
  rw [this]
  constructor <;> intro h <;> linarith

theorem lower_holds (delta : ℝ) (np nq : ℕ) (p q : ℕ → ℝ) (yl : ℝ) (x : List ℝ) :
    (lowerConstraint delta np nq p q yl).Holds x ↔
      delta * Real.sqrt (sumSquares ((List.range (np + nq)).map (lowerElement np p q yl))) ≤
        yl * denom np nq q x - numer np p x := by
  have := lower_dot np nq p q yl x
  unfold Constraint.Holds lowerConstraint withOffset
  simp only [List.length_map, List.length_range]
  rw [this]
  constructor <;> intro h <;> linarith

/-- **C49**, without margin: among the coefficients whose denominator is negative at the point,
    the constraints are satisfied exactly by those whose rational function passes through the
    segment. -/
theorem constraints_exact (np nq : ℕ) (p q : ℕ → ℝ) (yl yu : ℝ) (x : List ℝ)
    (hq : denom np nq q x < 0) :
    ((upperConstraint 0 np nq p q yu).Holds x ∧ (lowerConstraint 0 np nq p q yl).Holds x) ↔
      yl ≤ numer np p x / denom np nq q x ∧ numer np p x / denom np nq q x ≤ yu := by
  rw [upper_holds, lower_holds, le_div_iff_of_neg hq, div_le_iff_of_neg hq]
  simp only [zero_mul]
  constructor
  · rintro ⟨h1, h2⟩; constructor <;> linarith
  · rintro ⟨h1, h2⟩; constructor <;> linarith

/-- **C49**, with a margin, soundness: a solution of the constraints gives a negative denominator
    and a value strictly inside the segment. -/
theorem constraints_sound (delta : ℝ) (hdelta : 0 < delta) (np nq : ℕ) (hnp : 1 ≤ np)
    (p q : ℕ → ℝ) (hp : p 0 = 1) (yl yu : ℝ) (hy : yl ≤ yu) (x : List ℝ)
    (hu : (upperConstraint delta np nq p q yu).Holds x)
    (hl : (lowerConstraint delta np nq p q yl).Holds x) :
    denom np nq q x < 0 ∧ yl < numer np p x / denom np nq q x ∧
      numer np p x / denom np nq q x < yu := by
  rw [upper_holds] at hu
  rw [lower_holds] at hl
  have pos : ∀ g : ℕ → ℝ, g 0 ≠ 0 →
      0 < delta * Real.sqrt (sumSquares ((List.range (np + nq)).map g)) := by
    intro g hg
    apply mul_pos hdelta
    apply Real.sqrt_pos.2
    apply sumSquares_pos _ 0 (by simp; omega)
    rw [arr_range_map_lt _ _ _ (by omega)]
    exact hg
  have hu' := lt_of_lt_of_le (pos _ (by rw [upperElement, if_pos (by omega), hp]; norm_num)) hu
  have hl' := lt_of_lt_of_le (pos _ (by rw [lowerElement, if_pos (by omega), hp]; norm_num)) hl
  have hq : denom np nq q x < 0 := by
    by_contra hq
    have : 0 ≤ (yu - yl) * denom np nq q x :=
      mul_nonneg (by linarith) (not_lt.1 hq)
    nlinarith
  refine ⟨hq, ?_, ?_⟩
  · rw [lt_div_iff_of_neg hq]; linarith
  · rw [div_lt_iff_of_neg hq]; linarith

/-- **C49**, with a margin, completeness: coefficients that pass strictly inside the segment with a
    negative denominator satisfy the constraints once they are scaled enough. -/
theorem constraints_complete (delta : ℝ) (np nq : ℕ) (p q : ℕ → ℝ) (yl yu : ℝ) (x : List ℝ)
    (hq : denom np nq q x < 0) (h1 : yl < numer np p x / denom np nq q x)
    (h2 : numer np p x / denom np nq q x < yu) :
    ∃ L : ℝ, ∀ s ≥ L, (upperConstraint delta np nq p q yu).Holds (x.map (s * ·)) ∧
      (lowerConstraint delta np nq p q yl).Holds (x.map (s * ·)) := by
  have hsc : ∀ (s : ℝ) (j : ℕ), arr (x.map (s * ·)) j = s * arr x j := by
    intro s j
    unfold arr
    simp only [List.getD, List.getElem?_map]
    cases x[j]? <;> simp
  have hn : ∀ s : ℝ, numer np p (x.map (s * ·)) = s * numer np p x := by
    intro s
    unfold numer
    rw [mul_sum]
    exact sum_congr rfl fun j _ => by rw [hsc]; ring
  have hd : ∀ s : ℝ, denom np nq q (x.map (s * ·)) = s * denom np nq q x := by
    intro s
    unfold denom
    rw [mul_sum]
    exact sum_congr rfl fun j _ => by rw [hsc]; ring
  rw [lt_div_iff_of_neg hq] at h1
  rw [div_lt_iff_of_neg hq] at h2
  set u := delta * Real.sqrt (sumSquares ((List.range (np + nq)).map (upperElement np p q yu)))
  set l := delta * Real.sqrt (sumSquares ((List.range (np + nq)).map (lowerElement np p q yl)))
  have gu : 0 < numer np p x - yu * denom np nq q x := by linarith
  have gl : 0 < yl * denom np nq q x - numer np p x := by linarith
  refine ⟨max (u / (numer np p x - yu * denom np nq q x)) (l / (yl * denom np nq q x - numer np p x)),
    fun s hs => ?_⟩
  rw [upper_holds, lower_holds, hn, hd]
  have hs1 := le_trans (le_max_left _ _) hs
  have hs2 := le_trans (le_max_right _ _) hs
  rw [div_le_iff₀ gu] at hs1
  rw [div_le_iff₀ gl] at hs2
  constructor
  · calc u ≤ _ := hs1
      _ = _ := by ring
  · calc l ≤ _ := hs2
      _ = _ := by ring

/-- The converse of `constraints_sound` fails without scaling: the constraints with a margin are
    not satisfied by all the coefficients whose function is inside the segment. -/
theorem constraints_need_scaling :
    ∃ x : List ℝ, (-1 : ℝ) < numer 1 (fun _ => 1) x / denom 1 1 (fun _ => 1) x ∧
      numer 1 (fun _ => 1) x / denom 1 1 (fun _ => 1) x < 1 ∧ denom 1 1 (fun _ => 1) x < 0 ∧
      ¬ (upperConstraint 1 1 1 (fun _ => 1) (fun _ => 1) 1).Holds x := by
  refine ⟨[0, -1], ?_⟩
  have hn : numer 1 (fun _ => 1) [0, -1] = 0 := by simp [numer, arr]
  have hd : denom 1 1 (fun _ => 1) [0, -1] = -1 := by simp [denom, arr]
  rw [upper_holds, hn, hd, sumSquares_eq]
  refine ⟨by norm_num, by norm_num, by norm_num, ?_⟩
  simp [upperElement, arr, sum_range_succ]

end
end Alta
