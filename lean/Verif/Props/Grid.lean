import Verif.Model.Grid
import Mathlib.Tactic.Linarith
import Mathlib.Tactic.Ring
import Mathlib.Tactic.FieldSimp
import Mathlib.Tactic.Positivity
import Mathlib.Algebra.BigOperators.Intervals
import Mathlib.Data.List.Forall2
import Mathlib.Data.Nat.Bitwise
/-
Property C45: grid interpolation.
-/
namespace Alta
noncomputable section

/-! ### Specification -/

/-- A dimension that can be interpolated. -/
def GridDim.Good (d : GridDim) : Prop := 2 ≤ d.size ∧ d.min < d.max

/-- The number of nodes of a grid. -/
def gridCount : List GridDim → ℕ
  | [] => 1
  | d :: r => d.size * gridCount r

/-- The number of a node: the last dimension varies first. -/
def gridRank : List GridDim → List ℕ → ℕ
  | _ :: r, k :: ks => k * gridCount r + gridRank r ks
  | _, _ => 0

/-- The indices are inside of the grid. -/
def InGrid (dims : List GridDim) (k : List ℕ) : Prop := List.Forall₂ (fun d i => i < d.size) dims k

/-- The node `k` is regularly spaced between the bounds, that are nodes. -/
def gridNode (dims : List GridDim) (k : List ℕ) : List ℝ :=
  (dims.zip k).map fun q => q.1.min + (q.2 : ℝ) * ((q.1.max - q.1.min) / ((q.1.size : ℝ) - 1))

/-- `x` is between the nodes `k` and `k + 1`, at the fraction `t`; the last node has no successor. -/
def AtGrid (d : GridDim) (x : ℝ) (k : ℕ) (t : ℝ) : Prop :=
  k < d.size ∧ 0 ≤ t ∧ t < 1 ∧ (k + 1 = d.size → t = 0) ∧
    x = d.min + ((k : ℝ) + t) * ((d.max - d.min) / ((d.size : ℝ) - 1))

/-- in each dimension -/
def AtGrids : List GridDim → List ℝ → List (ℕ × ℝ) → Prop
  | [], [], [] => True
  | d :: ds, x :: xs, q :: qs => AtGrid d x q.1 q.2 ∧ AtGrids ds xs qs
  | _, _, _ => False

/-- Multilinear interpolation of a function of the nodes. -/
def multilinear : List (ℕ × ℝ) → (List ℕ → ℝ) → ℝ
  | [], f => f []
  | q :: r, f => (1 - q.2) * multilinear r (fun ks => f (q.1 :: ks)) + q.2 * multilinear r (fun ks => f ((q.1 + 1) :: ks))

/-- The storage of a grid: one row for each node, that begins with the abscissa of the node. -/
structure GridRows (dims : List GridDim) (dimY : ℕ) (rows : List (List ℝ)) : Prop where
  good : ∀ d ∈ dims, d.Good
  count : rows.length = gridCount dims
  abscissa : ∀ k, InGrid dims k → ∀ r, rows[gridRank dims k]? = some r → r.take dims.length = gridNode dims k ∧
    r.length = dims.length + dimY

/-- The coordinate `c` of the value stored in a node. -/
def gridStored (dims : List GridDim) (rows : List (List ℝ)) (c : ℕ) (k : List ℕ) : ℝ :=
  arr (rows.getD (gridRank dims k) []) (dims.length + c)

/-! ### Indices -/

theorem gridRank_lt : ∀ (dims : List GridDim) (k : List ℕ), InGrid dims k → gridRank dims k < gridCount dims := by
  intro dims k h
  induction h with
  | nil => simp [gridRank, gridCount]
  | @cons d i ds ks hd _ ih =>
    simp only [gridRank, gridCount]
    have : (i + 1) * gridCount ds ≤ d.size * gridCount ds := Nat.mul_le_mul_right _ hd
    nlinarith

theorem gridIndex_foldl : ∀ (dims : List GridDim) (k : List ℕ), dims.length = k.length → ∀ N : ℤ,
    (dims.zip (k.map (fun i : ℕ => (i : ℤ)))).foldl (fun (N : ℤ) (q : GridDim × ℤ) => N * q.1.size + q.2) N = N * gridCount dims + gridRank dims k
  | [], [], _, N => by simp [gridCount, gridRank]
  | d :: ds, i :: ks, h, N => by
    simp only [List.map_cons, List.zip_cons_cons, List.foldl_cons, gridCount, gridRank]
    rw [gridIndex_foldl ds ks (by simpa using h)]
    push_cast
    ring
  | [], _ :: _, h, _ => by simp at h
  | _ :: _, [], h, _ => by simp at h

/-- C45: the index of a node is its number. -/
theorem grid_index (dims : List GridDim) (k : List ℕ) (h : dims.length = k.length) :
    gridIndex dims (k.map (fun i : ℕ => (i : ℤ))) = gridRank dims k := by
  unfold gridIndex
  rw [gridIndex_foldl dims k h]
  ring

theorem gridCount_append : ∀ (a b : List GridDim), gridCount (a ++ b) = gridCount a * gridCount b
  | [], b => by simp [gridCount]
  | d :: a, b => by simp only [List.cons_append, gridCount, gridCount_append a b]; ring

theorem gridRank_append : ∀ (a : List GridDim) (k : List ℕ) (d : GridDim) (i : ℕ), a.length = k.length →
    gridRank (a ++ [d]) (k ++ [i]) = gridRank a k * d.size + i
  | [], [], d, i, _ => by simp [gridRank, gridCount]
  | e :: a, j :: k, d, i, h => by
    simp only [List.cons_append, gridRank, gridCount_append, gridRank_append a k d i (by simpa using h), gridCount]
    ring
  | [], _ :: _, _, _, h => by simp at h
  | _ :: _, [], _, _, h => by simp at h

theorem gridIndicesRev_rank : ∀ (rdims : List GridDim) (rk : List ℕ), List.Forall₂ (fun d i => i < d.size) rdims rk →
    gridIndicesRev rdims (gridRank rdims.reverse rk.reverse) = rk := by
  intro rdims rk h
  induction h with
  | nil => rfl
  | @cons d i ds ks hd hr ih =>
    rw [List.reverse_cons, List.reverse_cons, gridRank_append _ _ _ _ (by simp [hr.length_eq]), gridIndicesRev]
    have hm : (gridRank ds.reverse ks.reverse * d.size + i) % d.size = i := by
      rw [Nat.add_comm, Nat.add_mul_mod_self_right, Nat.mod_eq_of_lt hd]
    rw [hm, Nat.add_sub_cancel, Nat.mul_div_cancel _ (by omega), ih]

/-- C45: the indices of the number of a node are its indices. -/
theorem grid_indices_rank (dims : List GridDim) (k : List ℕ) (h : InGrid dims k) : gridIndices dims (gridRank dims k) = k := by
  have h' : List.Forall₂ (fun d i => i < GridDim.size d) dims.reverse k.reverse := List.rel_reverse h
  have := gridIndicesRev_rank _ _ h'
  rw [List.reverse_reverse, List.reverse_reverse] at this
  unfold gridIndices
  rw [this, List.reverse_reverse]

/-- C45: each number is that of one node. -/
theorem grid_rank_surjective : ∀ (dims : List GridDim) (N : ℕ), N < gridCount dims → ∃ k, InGrid dims k ∧ gridRank dims k = N
  | [], N, h => ⟨[], List.Forall₂.nil, by simp [gridCount] at h; simp [gridRank, h]⟩
  | d :: r, N, h => by
    simp only [gridCount] at h
    have hp : 0 < gridCount r := by
      rcases Nat.eq_zero_or_pos (gridCount r) with h0 | h0
      · rw [h0] at h; omega
      · exact h0
    obtain ⟨k, h1, h2⟩ := grid_rank_surjective r (N % gridCount r) (Nat.mod_lt _ hp)
    refine ⟨N / gridCount r :: k, List.Forall₂.cons ?_ h1, ?_⟩
    · rw [Nat.div_lt_iff_lt_mul hp]; exact h
    · simp only [gridRank, h2]
      rw [mul_comm]
      exact Nat.div_add_mod N (gridCount r)

/-- C45: `get_indices` and `get_index` are inverse of each other on the numbers of a grid. -/
theorem grid_indices (dims : List GridDim) (N : ℕ) (h : N < gridCount dims) :
    InGrid dims (gridIndices dims N) ∧ gridIndex dims ((gridIndices dims N).map (fun i : ℕ => (i : ℤ))) = N := by
  obtain ⟨k, h1, h2⟩ := grid_rank_surjective dims N h
  rw [← h2, grid_indices_rank dims k h1]
  exact ⟨h1, grid_index dims k h1.length_eq⟩

/-- C45: two nodes have different numbers. -/
theorem grid_rank_injective (dims : List GridDim) (k k' : List ℕ) (h : InGrid dims k) (h' : InGrid dims k')
    (e : gridRank dims k = gridRank dims k') : k = k' := by
  rw [← grid_indices_rank dims k h, e, grid_indices_rank dims k' h']

/-- C45: `get_abscissa` is the abscissa of the node. -/
theorem grid_abscissa (dims : List GridDim) (k : List ℕ) (h : InGrid dims k) :
    gridAbscissa dims (gridRank dims k) = gridNode dims k := by
  unfold gridAbscissa gridNode
  rw [grid_indices_rank dims k h]
  apply List.map_congr_left
  intro q _
  ring

/-- C45: the constructor leaves a grid. -/
theorem grid_init (dims : List GridDim) (dimY : ℕ) (y : ℕ → List ℝ) (hd : ∀ d ∈ dims, d.Good) (hy : ∀ n, (y n).length = dimY) :
    GridRows dims dimY (gridInit dims (gridCount dims) y) := by
  refine ⟨hd, by simp [gridInit], ?_⟩
  intro k hk r hr
  have hlt := gridRank_lt dims k hk
  unfold gridInit at hr
  rw [List.getElem?_map, List.getElem?_range hlt, Option.map_some, Option.some.injEq, grid_abscissa dims k hk] at hr
  have hl : (gridNode dims k).length = dims.length := by
    unfold gridNode
    rw [List.length_map, List.length_zip, ← hk.length_eq, min_self]
  subst hr
  exact ⟨by rw [List.take_left' hl], by rw [List.length_append, hl, hy]⟩

/-! ### Position in the grid -/

/-- every configuration of the domain is somewhere -/
theorem grid_position (d : GridDim) (hd : d.Good) (x : ℝ) (h0 : d.min ≤ x) (h1 : x ≤ d.max) : ∃ k t, AtGrid d x k t := by
  obtain ⟨hs, hm⟩ := hd
  have hs' : (2 : ℝ) ≤ d.size := by exact_mod_cast hs
  have hw : 0 < d.max - d.min := by linarith
  have hs1 : 0 < (d.size : ℝ) - 1 := by linarith
  set y : ℝ := ((d.size : ℝ) - 1) * (x - d.min) / (d.max - d.min) with hy
  have hy0 : 0 ≤ y := div_nonneg (mul_nonneg hs1.le (by linarith)) hw.le
  have hy1 : y ≤ (d.size : ℝ) - 1 := by
    rw [hy, div_le_iff₀ hw]
    exact mul_le_mul_of_nonneg_left (by linarith) hs1.le
  have hx : x = d.min + y * ((d.max - d.min) / ((d.size : ℝ) - 1)) := by
    rw [hy]; field_simp; ring
  obtain ⟨n, hn⟩ := Int.eq_ofNat_of_zero_le (Int.floor_nonneg.2 hy0)
  have f1 : (n : ℝ) ≤ y := by have := Int.floor_le y; rw [hn] at this; exact_mod_cast this
  have f2 : y < n + 1 := by have := Int.lt_floor_add_one y; rw [hn] at this; exact_mod_cast this
  refine ⟨n, y - n, ?_, by linarith, by linarith, ?_, by rw [hx]; ring⟩
  · have : (n : ℝ) < d.size := by linarith
    exact_mod_cast this
  · intro h
    have : (n : ℝ) + 1 = d.size := by exact_mod_cast h
    linarith

theorem atGrid_floor (d : GridDim) (hd : d.Good) (x : ℝ) (k : ℕ) (t : ℝ) (h : AtGrid d x k t) :
    ⌊((d.size : ℝ) - 1) * (x - d.min) / (d.max - d.min)⌋ = (k : ℤ) := by
  obtain ⟨hs, hm⟩ := hd
  have hs' : (2 : ℝ) ≤ d.size := by exact_mod_cast hs
  have hw : d.max - d.min ≠ 0 := by linarith
  have hs1 : (d.size : ℝ) - 1 ≠ 0 := by linarith
  obtain ⟨_, h0, h1, _, hx⟩ := h
  have e : ((d.size : ℝ) - 1) * (x - d.min) / (d.max - d.min) = k + t := by
    rw [hx]; field_simp; ring
  rw [e, Int.floor_eq_iff]
  push_cast
  constructor <;> linarith

theorem indicesAt_eq : ∀ (dims : List GridDim) (x : List ℝ) (kt : List (ℕ × ℝ)), (∀ d ∈ dims, d.Good) → AtGrids dims x kt →
    gridIndicesAt dims x = (kt.map Prod.fst).map (fun i : ℕ => (i : ℤ))
  | [], [], [], _, _ => rfl
  | d :: ds, x :: xs, q :: qs, hd, h => by
    have := indicesAt_eq ds xs qs (fun e he => hd e (List.mem_cons_of_mem _ he)) h.2
    unfold gridIndicesAt at this ⊢
    simp only [List.zip_cons_cons, List.map_cons, this, atGrid_floor d (hd d (List.mem_cons_self ..)) x q.1 q.2 h.1]
  | [], [], _ :: _, _, h => h.elim
  | [], _ :: _, _, _, h => by cases h
  | _ :: _, [], _, _, h => by cases h
  | _ :: _, _ :: _, [], _, h => by cases h

theorem atGrids_inGrid : ∀ (dims : List GridDim) (x : List ℝ) (kt : List (ℕ × ℝ)), AtGrids dims x kt →
    InGrid dims (kt.map Prod.fst)
  | [], [], [], _ => List.Forall₂.nil
  | d :: ds, x :: xs, q :: qs, h => List.Forall₂.cons h.1.1 (atGrids_inGrid ds xs qs h.2)
  | [], [], _ :: _, h => h.elim
  | [], _ :: _, _, h => by cases h
  | _ :: _, [], _, h => by cases h
  | _ :: _, _ :: _, [], h => by cases h

theorem atGrids_length (dims : List GridDim) (x : List ℝ) (kt : List (ℕ × ℝ)) (h : AtGrids dims x kt) :
    dims.length = kt.length := by
  have := (atGrids_inGrid dims x kt h).length_eq
  simpa using this

theorem alphas_eq : ∀ (dims : List GridDim) (x : List ℝ) (kt : List (ℕ × ℝ)), (∀ d ∈ dims, d.Good) → AtGrids dims x kt → ∀ y,
    gridAlphas dims x (gridNode dims (kt.map Prod.fst) ++ y) = kt.map Prod.snd
  | [], [], [], _, _, _ => rfl
  | d :: ds, x :: xs, q :: qs, hd, h, y => by
    have ih := alphas_eq ds xs qs (fun e he => hd e (List.mem_cons_of_mem _ he)) h.2 y
    obtain ⟨hs, hm⟩ := hd d (List.mem_cons_self ..)
    have hs' : (2 : ℝ) ≤ d.size := by exact_mod_cast hs
    have hw : d.max - d.min ≠ 0 := by linarith
    have hs1 : (d.size : ℝ) - 1 ≠ 0 := by linarith
    obtain ⟨_, h0, h1, _, hx⟩ := h.1
    unfold gridAlphas gridNode at ih ⊢
    simp only [List.map_cons, List.zip_cons_cons, List.cons_append, ih, List.cons.injEq, and_true]
    have e : ((d.size : ℝ) - 1) * (x - (d.min + (q.1 : ℝ) * ((d.max - d.min) / ((d.size : ℝ) - 1)))) / (d.max - d.min) = q.2 := by
      rw [hx]; field_simp; ring
    rw [e]
    unfold clampR
    rw [min_eq_left h1.le, max_eq_left h0]
  | [], [], _ :: _, _, h, _ => h.elim
  | [], _ :: _, _, _, h, _ => by cases h
  | _ :: _, [], _, _, h, _ => by cases h
  | _ :: _, _ :: _, [], _, h, _ => by cases h

/-! ### Corners -/

/-- the `n` low bits of a number, the lowest first -/
def lowBits : ℕ → ℕ → List ℕ
  | 0, _ => []
  | n + 1, d => d % 2 :: lowBits n (d / 2)

/-- the weight of the corner with these bits -/
def cornerWeight : List ℝ → ℕ → ℝ
  | [], _ => 1
  | a :: r, d => (if d % 2 = 1 then a else 1 - a) * cornerWeight r (d / 2)

theorem gridCorner_foldl : ∀ (dims : List GridDim) (alphas : List ℝ), dims.length = alphas.length → ∀ (j d : ℕ) (st : ℝ × ℕ),
    ((dims.zip alphas).zipIdx j).foldl (fun st q =>
      let bitset := d.testBit q.2
      let calpha := if bitset then q.1.2 else 1 - q.1.2
      (st.1 * calpha, st.2 * q.1.1.size + if bitset then 1 else 0)) st =
      (st.1 * cornerWeight alphas (d / 2 ^ j), st.2 * gridCount dims + gridRank dims (lowBits dims.length (d / 2 ^ j)))
  | [], [], _, j, d, st => by simp [cornerWeight, gridCount, gridRank]
  | D :: ds, a :: as, h, j, d, st => by
    rw [List.zip_cons_cons, List.zipIdx_cons, List.foldl_cons, gridCorner_foldl ds as (by simpa using h)]
    have hb : d.testBit j = decide (d / 2 ^ j % 2 = 1) := by
      rw [Nat.testBit_eq_decide_div_mod_eq]
    have hd : d / 2 ^ (j + 1) = d / 2 ^ j / 2 := by rw [pow_succ, Nat.div_div_eq_div_mul]
    simp only [hb, decide_eq_true_eq, hd, cornerWeight, gridCount, List.length_cons, lowBits, gridRank, Prod.mk.injEq]
    have hm : (if d / 2 ^ j % 2 = 1 then 1 else 0) = d / 2 ^ j % 2 := by
      rcases Nat.mod_two_eq_zero_or_one (d / 2 ^ j) with h | h <;> simp [h]
    rw [hm]
    exact ⟨by ring, by ring⟩
  | [], _ :: _, h, _, _, _ => by simp at h
  | _ :: _, [], h, _, _, _ => by simp at h

theorem gridCorner_eq (dims : List GridDim) (alphas : List ℝ) (h : dims.length = alphas.length) (d : ℕ) :
    gridCorner dims alphas d = (cornerWeight alphas d, gridRank dims (lowBits dims.length d)) := by
  unfold gridCorner
  rw [gridCorner_foldl dims alphas h]
  simp

theorem gridRank_add : ∀ (dims : List GridDim) (a b : List ℕ), dims.length = a.length → dims.length = b.length →
    gridRank dims a + gridRank dims b = gridRank dims (List.zipWith (· + ·) a b)
  | [], [], [], _, _ => rfl
  | d :: ds, x :: a, y :: b, h1, h2 => by
    have := gridRank_add ds a b (by simpa using h1) (by simpa using h2)
    simp only [gridRank, List.zipWith_cons_cons, ← this]
    ring
  | [], _ :: _, _, h, _ => by simp at h
  | [], [], _ :: _, _, h => by simp at h
  | _ :: _, [], _, h, _ => by simp at h
  | _ :: _, _ :: _, [], _, h => by simp at h

theorem lowBits_length : ∀ n d, (lowBits n d).length = n
  | 0, _ => rfl
  | n + 1, d => by simp [lowBits, lowBits_length n]

theorem sum_even_odd (h : ℕ → ℝ) : ∀ m, ∑ d ∈ Finset.range (2 * m), h d = ∑ e ∈ Finset.range m, (h (2 * e) + h (2 * e + 1))
  | 0 => by simp
  | m + 1 => by
    rw [show 2 * (m + 1) = 2 * m + 1 + 1 by ring, Finset.sum_range_succ, Finset.sum_range_succ, sum_even_odd h m, Finset.sum_range_succ]
    ring

/-- the sum over the corners is the multilinear interpolation -/
theorem corners_multilinear : ∀ (kt : List (ℕ × ℝ)) (f : List ℕ → ℝ),
    ∑ d ∈ Finset.range (2 ^ kt.length), cornerWeight (kt.map Prod.snd) d *
      f (List.zipWith (· + ·) (kt.map Prod.fst) (lowBits kt.length d)) = multilinear kt f
  | [], f => by simp [cornerWeight, multilinear]
  | q :: r, f => by
    rw [List.length_cons, show 2 ^ (r.length + 1) = 2 * 2 ^ r.length by ring, sum_even_odd]
    have e0 : ∀ e, 2 * e % 2 = 0 := fun e => by omega
    have e1 : ∀ e, (2 * e + 1) % 2 = 1 := fun e => by omega
    have e2 : ∀ e, 2 * e / 2 = e := fun e => by omega
    have e3 : ∀ e, (2 * e + 1) / 2 = e := fun e => by omega
    simp only [List.map_cons, cornerWeight, lowBits, List.zipWith_cons_cons, e0, e1, e2, e3, zero_ne_one, if_false, if_true,
      Nat.add_zero, multilinear, ← corners_multilinear r, Finset.mul_sum]
    rw [← Finset.sum_add_distrib]
    apply Finset.sum_congr rfl
    intro d _
    ring

/-- a corner outside of the grid has the weight zero -/
theorem corner_outside : ∀ (dims : List GridDim) (x : List ℝ) (kt : List (ℕ × ℝ)), AtGrids dims x kt → ∀ d,
    InGrid dims (List.zipWith (· + ·) (kt.map Prod.fst) (lowBits kt.length d)) ∨ cornerWeight (kt.map Prod.snd) d = 0
  | [], [], [], _, _ => Or.inl List.Forall₂.nil
  | D :: ds, x :: xs, q :: qs, h, d => by
    simp only [List.map_cons, List.length_cons, lowBits, List.zipWith_cons_cons, cornerWeight]
    rcases corner_outside ds xs qs h.2 (d / 2) with h1 | h1
    · by_cases hin : q.1 + d % 2 < D.size
      · exact Or.inl (List.Forall₂.cons hin h1)
      · right
        obtain ⟨k1, _, _, k2, _⟩ := h.1
        have hm : d % 2 = 1 := by omega
        rw [if_pos hm, k2 (by omega), zero_mul]
    · exact Or.inr (by rw [h1, mul_zero])
  | [], [], _ :: _, h, _ => h.elim
  | [], _ :: _, _, h, _ => by cases h
  | _ :: _, [], _, h, _ => by cases h
  | _ :: _, _ :: _, [], h, _ => by cases h

/-! ### Values -/

theorem foldl_value (dimY : ℕ) (n : ℕ) (w : ℕ → ℝ) (row : ℕ → List ℝ) (g : ℕ → Option (List ℝ)) :
    ∀ m, (∀ d < m, g d = some (row d)) →
    (List.range m).foldl (fun y d => gridAccum n dimY (w d) y (g d)) (some (List.replicate dimY 0)) =
    some ((List.range dimY).map fun c => ∑ d ∈ Finset.range m, w d * arr (row d) (n + c))
  | 0, _ => by
    simp only [List.range_zero, List.foldl_nil, Finset.range_zero, Finset.sum_empty, Option.some.injEq]
    exact (List.map_const' ..).symm ▸ by simp
  | m + 1, h => by
    rw [List.range_succ, List.foldl_append, foldl_value dimY n w row g m (fun d hd => h d (by omega)), List.foldl_cons, List.foldl_nil,
      h m (by omega)]
    simp only [gridAccum, Option.some.injEq]
    apply List.map_congr_left
    intro c hc
    rw [Finset.sum_range_succ]
    congr 1
    have hc := List.mem_range.1 hc
    simp only [arr, List.getD, List.getElem?_map, List.getElem?_range hc, Option.map_some, Option.getD_some]

theorem foldl_none (dimY : ℕ) (n : ℕ) (w : ℕ → ℝ) (g : ℕ → Option (List ℝ)) (m d : ℕ) (hd : d < m) (h : g d = none) :
    (List.range m).foldl (fun y d => gridAccum n dimY (w d) y (g d)) (some (List.replicate dimY 0)) = none := by
  have key : ∀ (l : List ℕ) (y : Option (List ℝ)), (y = none ∨ d ∈ l) →
      l.foldl (fun y d => gridAccum n dimY (w d) y (g d)) y = none := by
    intro l
    induction l with
    | nil => intro y hy; rcases hy with rfl | hy; rfl; cases hy
    | cons e l ih =>
      intro y hy
      rw [List.foldl_cons]
      apply ih
      rcases hy with rfl | hy
      · left; rfl
      · rcases List.mem_cons.1 hy with rfl | hy
        · left
          rw [h]
          cases y <;> rfl
        · exact Or.inr hy
  exact key _ _ (Or.inr (List.mem_range.2 hd))

/-- C45: the value is the multilinear interpolation of the stored values, provided that no corner has
    exactly the number that follows the last row. -/
theorem grid_value (dims : List GridDim) (dimY : ℕ) (rows : List (List ℝ)) (hg : GridRows dims dimY rows) (x : List ℝ)
    (kt : List (ℕ × ℝ)) (hx : AtGrids dims x kt)
    (hsafe : ∀ d < 2 ^ dims.length, gridRank dims (List.zipWith (· + ·) (kt.map Prod.fst) (lowBits dims.length d)) ≠ rows.length) :
    gridValue dims dimY rows x = some ((List.range dimY).map fun c => multilinear kt (gridStored dims rows c)) := by
  have hin := atGrids_inGrid dims x kt hx
  have hlen := atGrids_length dims x kt hx
  have hlt := gridRank_lt dims _ hin
  have hid : gridIndex dims (gridIndicesAt dims x) = (gridRank dims (kt.map Prod.fst) : ℕ) := by
    rw [indicesAt_eq dims x kt hg.good hx, grid_index dims _ (by simpa using hlen)]
  have hget : ∀ n : ℕ, n < rows.length → gridGet rows (n : ℤ) = some (rows.getD n []) := by
    intro n hn
    unfold gridGet
    rw [if_pos (Int.natCast_nonneg _), Int.toNat_natCast, List.getElem?_eq_getElem hn]
    simp [hn]
  have hx0 := hget _ (hg.count ▸ hlt)
  obtain ⟨ha, _⟩ := hg.abscissa _ hin _ (by rw [← hx0]; unfold gridGet; rw [if_pos (Int.natCast_nonneg _), Int.toNat_natCast])
  have hal : gridAlphas dims x (rows.getD (gridRank dims (kt.map Prod.fst)) []) = kt.map Prod.snd := by
    rw [← List.take_append_drop dims.length (rows.getD (gridRank dims (kt.map Prod.fst)) []), ha]
    exact alphas_eq dims x kt hg.good hx _
  unfold gridValue
  simp only [hid, hx0, hal]
  have hc : ∀ d, gridCorner dims (kt.map Prod.snd) d = (cornerWeight (kt.map Prod.snd) d, gridRank dims (lowBits dims.length d)) :=
    fun d => gridCorner_eq dims _ (by simpa using hlen) d
  simp only [hc]
  have hadd : ∀ d, gridRank dims (kt.map Prod.fst) + gridRank dims (lowBits dims.length d) =
      gridRank dims (List.zipWith (· + ·) (kt.map Prod.fst) (lowBits dims.length d)) := fun d =>
    gridRank_add dims _ _ (by simpa using hlen) (lowBits_length _ _).symm
  have hsh : ∀ d < 2 ^ dims.length, gridGet rows (gridShift rows.length (gridRank dims (kt.map Prod.fst) : ℕ) (gridRank dims (lowBits dims.length d))) =
      some (rows.getD (if gridRank dims (List.zipWith (· + ·) (kt.map Prod.fst) (lowBits dims.length d)) < rows.length
        then gridRank dims (List.zipWith (· + ·) (kt.map Prod.fst) (lowBits dims.length d)) else gridRank dims (kt.map Prod.fst)) []) := by
    intro d hd
    have hs := hsafe d hd
    unfold gridShift
    rw [show (gridRank dims (kt.map Prod.fst) : ℤ) + (gridRank dims (lowBits dims.length d) : ℤ) =
      ((gridRank dims (List.zipWith (· + ·) (kt.map Prod.fst) (lowBits dims.length d)) : ℕ) : ℤ) by rw [← hadd]; push_cast; ring]
    by_cases h1 : gridRank dims (List.zipWith (· + ·) (kt.map Prod.fst) (lowBits dims.length d)) < rows.length
    · rw [if_neg (by push_cast; omega), if_pos h1, hget _ h1]
    · rw [if_pos (by push_cast; omega), if_neg h1, hx0]
  rw [foldl_value dimY dims.length (cornerWeight (kt.map Prod.snd)) _ _ _ hsh]
  congr 1
  apply List.map_congr_left
  intro c _
  rw [← corners_multilinear, ← hlen]
  apply Finset.sum_congr rfl
  intro d _
  rcases corner_outside dims x kt hx d with h | h
  · rw [← hlen] at h
    have hl := gridRank_lt dims _ h
    rw [← hg.count] at hl
    rw [if_pos hl]
    rfl
  · rw [h, zero_mul, zero_mul]

/-- C45 (limit): and there is a read after the last row otherwise (the test of the code is `>` instead
    of `>=`). -/
theorem grid_value_overrun (dims : List GridDim) (dimY : ℕ) (rows : List (List ℝ)) (hg : GridRows dims dimY rows) (x : List ℝ)
    (kt : List (ℕ × ℝ)) (hx : AtGrids dims x kt) (d : ℕ) (hd : d < 2 ^ dims.length)
    (h : gridRank dims (List.zipWith (· + ·) (kt.map Prod.fst) (lowBits dims.length d)) = rows.length) :
    gridValue dims dimY rows x = none := by
  have hin := atGrids_inGrid dims x kt hx
  have hlen := atGrids_length dims x kt hx
  have hid : gridIndex dims (gridIndicesAt dims x) = (gridRank dims (kt.map Prod.fst) : ℕ) := by
    rw [indicesAt_eq dims x kt hg.good hx, grid_index dims _ (by simpa using hlen)]
  unfold gridValue
  simp only [hid]
  split
  · rfl
  · rename_i x0 hx0
    have hget : ∀ n : ℕ, gridGet rows (n : ℤ) = rows[n]? := by
      intro n
      unfold gridGet
      rw [if_pos (Int.natCast_nonneg _), Int.toNat_natCast]
    rw [hget] at hx0
    have ha := (hg.abscissa _ hin _ hx0).1
    have hal : gridAlphas dims x x0 = kt.map Prod.snd := by
      rw [← List.take_append_drop dims.length x0, ha]
      exact alphas_eq dims x kt hg.good hx _
    simp only [hal]
    have hc : ∀ d, gridCorner dims (kt.map Prod.snd) d = (cornerWeight (kt.map Prod.snd) d, gridRank dims (lowBits dims.length d)) :=
      fun d => gridCorner_eq dims _ (by simpa using hlen) d
    simp only [hc]
    refine foldl_none dimY dims.length _ _ _ d hd ?_
    have hadd := gridRank_add dims (kt.map Prod.fst) (lowBits dims.length d) (by simpa using hlen) (lowBits_length _ _).symm
    unfold gridShift
    rw [show (gridRank dims (kt.map Prod.fst) : ℤ) + (gridRank dims (lowBits dims.length d) : ℤ) = ((rows.length : ℕ) : ℤ) by
      rw [← h, ← hadd]; push_cast; ring, if_neg (by omega), hget]
    simp

/-! ### Consequences -/

/-- The weights of the interpolation sum to one. -/
theorem multilinear_const (kt : List (ℕ × ℝ)) (c : ℝ) : multilinear kt (fun _ => c) = c := by
  induction kt with
  | nil => rfl
  | cons q r ih => simp only [multilinear, ih]; ring

/-- the nodes that the interpolation reads with a weight that is not zero -/
def Near : List (ℕ × ℝ) → List ℕ → Prop
  | [], ks => ks = []
  | q :: r, ks => ∃ k ks', ks = k :: ks' ∧ (k = q.1 ∨ (k = q.1 + 1 ∧ q.2 ≠ 0)) ∧ Near r ks'

theorem multilinear_bounds : ∀ (kt : List (ℕ × ℝ)) (f : List ℕ → ℝ) (lo hi : ℝ), (∀ q ∈ kt, 0 ≤ q.2 ∧ q.2 < 1) →
    (∀ ks, Near kt ks → lo ≤ f ks ∧ f ks ≤ hi) → lo ≤ multilinear kt f ∧ multilinear kt f ≤ hi
  | [], f, lo, hi, _, h => h [] rfl
  | q :: r, f, lo, hi, hq, h => by
    obtain ⟨q0, q1⟩ := hq q (List.mem_cons_self ..)
    obtain ⟨a1, a2⟩ := multilinear_bounds r (fun ks => f (q.1 :: ks)) lo hi (fun e he => hq e (List.mem_cons_of_mem _ he))
      (fun ks hk => h _ ⟨_, _, rfl, Or.inl rfl, hk⟩)
    simp only [multilinear]
    by_cases hz : q.2 = 0
    · rw [hz]
      constructor <;> linarith
    · obtain ⟨b1, b2⟩ := multilinear_bounds r (fun ks => f ((q.1 + 1) :: ks)) lo hi (fun e he => hq e (List.mem_cons_of_mem _ he))
        (fun ks hk => h _ ⟨_, _, rfl, Or.inr ⟨rfl, hz⟩, hk⟩)
      constructor <;> nlinarith

theorem multilinear_node : ∀ (kt : List (ℕ × ℝ)) (f : List ℕ → ℝ), (∀ q ∈ kt, q.2 = 0) → multilinear kt f = f (kt.map Prod.fst)
  | [], _, _ => rfl
  | q :: r, f, h => by
    simp only [multilinear, h q (List.mem_cons_self ..), multilinear_node r _ (fun e he => h e (List.mem_cons_of_mem _ he)), List.map_cons]
    ring

theorem near_inGrid : ∀ (dims : List GridDim) (x : List ℝ) (kt : List (ℕ × ℝ)), AtGrids dims x kt → ∀ ks, Near kt ks → InGrid dims ks
  | [], [], [], _, ks, h => by rw [show ks = [] from h]; exact List.Forall₂.nil
  | d :: ds, x :: xs, q :: qs, h, ks, hn => by
    obtain ⟨k, ks', rfl, hk, hn'⟩ := hn
    refine List.Forall₂.cons ?_ (near_inGrid ds xs qs h.2 ks' hn')
    obtain ⟨k1, _, _, k2, _⟩ := h.1
    rcases hk with rfl | ⟨rfl, hz⟩
    · exact k1
    · by_contra hc
      exact hz (k2 (by omega))
  | [], [], _ :: _, h, _, _ => h.elim
  | [], _ :: _, _, h, _, _ => by cases h
  | _ :: _, [], _, h, _, _ => by cases h
  | _ :: _, _ :: _, [], h, _, _ => by cases h

theorem atGrids_frac : ∀ (dims : List GridDim) (x : List ℝ) (kt : List (ℕ × ℝ)), AtGrids dims x kt → ∀ q ∈ kt, 0 ≤ q.2 ∧ q.2 < 1
  | [], [], [], _, q, h => by cases h
  | d :: ds, x :: xs, q :: qs, h, e, he => by
    rcases List.mem_cons.1 he with rfl | he
    · exact ⟨h.1.2.1, h.1.2.2.1⟩
    · exact atGrids_frac ds xs qs h.2 e he
  | [], [], _ :: _, h, _, _ => h.elim
  | [], _ :: _, _, h, _, _ => by cases h
  | _ :: _, [], _, h, _, _ => by cases h
  | _ :: _, _ :: _, [], h, _, _ => by cases h

/-- below the maxima, the position is in an inner cell -/
theorem grid_inner : ∀ (dims : List GridDim) (x : List ℝ), (∀ d ∈ dims, d.Good) →
    List.Forall₂ (fun d y => GridDim.min d ≤ y ∧ y < d.max) dims x →
    ∃ kt, AtGrids dims x kt ∧ List.Forall₂ (fun d k => k + 1 < GridDim.size d) dims (kt.map Prod.fst) := by
  intro dims x hd h
  induction h with
  | nil => exact ⟨[], trivial, List.Forall₂.nil⟩
  | @cons d y ds ys hy _ ih =>
    obtain ⟨kt, h1, h2⟩ := ih (fun e he => hd e (List.mem_cons_of_mem _ he))
    have hgood := hd d (List.mem_cons_self ..)
    obtain ⟨k, t, hk⟩ := grid_position d hgood y hy.1 hy.2.le
    refine ⟨(k, t) :: kt, ⟨hk, h1⟩, List.Forall₂.cons ?_ h2⟩
    obtain ⟨k1, _, _, k2, k3⟩ := hk
    rcases Nat.lt_or_ge (k + 1) d.size with h | h
    · exact h
    · exfalso
      have e : k + 1 = d.size := by omega
      rw [k2 e] at k3
      have hs : (k : ℝ) = (d.size : ℝ) - 1 := by rw [← e]; push_cast; ring
      have h2 : (2 : ℝ) ≤ d.size := by exact_mod_cast hgood.1
      rw [add_zero, hs, mul_div_cancel₀ _ (by linarith)] at k3
      linarith [hy.2]

theorem inner_corner : ∀ (dims : List GridDim) (k : List ℕ), List.Forall₂ (fun d k => k + 1 < GridDim.size d) dims k → ∀ e,
    InGrid dims (List.zipWith (· + ·) k (lowBits dims.length e)) := by
  intro dims k h
  induction h with
  | nil => intro e; exact List.Forall₂.nil
  | @cons d i ds ks hd _ ih =>
    intro e
    simp only [List.length_cons, lowBits, List.zipWith_cons_cons]
    refine List.Forall₂.cons ?_ (ih (e / 2))
    have := Nat.mod_lt e (show 0 < 2 by norm_num)
    omega

/-- C45: below the maxima of the domain, no read is outside of the storage and the value is the
    multilinear interpolation of the values stored in the nodes of the cell. -/
theorem grid_value_inner (dims : List GridDim) (dimY : ℕ) (rows : List (List ℝ)) (hg : GridRows dims dimY rows) (x : List ℝ)
    (hx : List.Forall₂ (fun d y => GridDim.min d ≤ y ∧ y < d.max) dims x) :
    ∃ kt, AtGrids dims x kt ∧
      gridValue dims dimY rows x = some ((List.range dimY).map fun c => multilinear kt (gridStored dims rows c)) := by
  obtain ⟨kt, h1, h2⟩ := grid_inner dims x hg.good hx
  refine ⟨kt, h1, grid_value dims dimY rows hg x kt h1 fun e he => ?_⟩
  have := gridRank_lt dims _ (inner_corner dims _ h2 e)
  rw [hg.count]
  omega

/-- C45: hence the value is between the bounds of the stored values. -/
theorem grid_bounds (dims : List GridDim) (dimY : ℕ) (rows : List (List ℝ)) (hg : GridRows dims dimY rows) (x : List ℝ)
    (hx : List.Forall₂ (fun d y => GridDim.min d ≤ y ∧ y < d.max) dims x) (lo hi : ℝ)
    (hr : ∀ c < dimY, ∀ k, InGrid dims k → lo ≤ gridStored dims rows c k ∧ gridStored dims rows c k ≤ hi) :
    ∃ v, gridValue dims dimY rows x = some v ∧ v.length = dimY ∧ ∀ y ∈ v, lo ≤ y ∧ y ≤ hi := by
  obtain ⟨kt, h1, h2⟩ := grid_value_inner dims dimY rows hg x hx
  refine ⟨_, h2, by simp, ?_⟩
  intro y hy
  obtain ⟨c, hc, rfl⟩ := List.mem_map.1 hy
  exact multilinear_bounds kt _ lo hi (atGrids_frac dims x kt h1) fun ks hk => hr c (List.mem_range.1 hc) ks (near_inGrid dims x kt h1 ks hk)

theorem node_atGrids : ∀ (dims : List GridDim) (k : List ℕ), InGrid dims k → AtGrids dims (gridNode dims k) (k.map fun i => (i, 0)) := by
  intro dims k h
  induction h with
  | nil => trivial
  | @cons d i ds ks hd _ ih =>
    exact ⟨⟨hd, le_refl _, one_pos, fun _ => rfl, by simp⟩, ih⟩

/-- C45: the value in a node is the value stored for it, if the reads are in the storage. -/
theorem grid_value_node (dims : List GridDim) (dimY : ℕ) (rows : List (List ℝ)) (hg : GridRows dims dimY rows) (k : List ℕ)
    (hk : InGrid dims k)
    (hsafe : ∀ d < 2 ^ dims.length, gridRank dims (List.zipWith (· + ·) k (lowBits dims.length d)) ≠ rows.length) :
    gridValue dims dimY rows (gridNode dims k) = some ((List.range dimY).map fun c => gridStored dims rows c k) := by
  have e : (k.map fun i => (i, (0 : ℝ))).map Prod.fst = k := by rw [List.map_map]; exact List.map_id k
  rw [grid_value dims dimY rows hg _ _ (node_atGrids dims k hk) (by rw [e]; exact hsafe)]
  congr 1
  apply List.map_congr_left
  intro c _
  rw [multilinear_node _ _ (by simp), e]

/-- C45: in particular in every node that is not on the upper boundary. -/
theorem grid_value_inner_node (dims : List GridDim) (dimY : ℕ) (rows : List (List ℝ)) (hg : GridRows dims dimY rows) (k : List ℕ)
    (hk : List.Forall₂ (fun d k => k + 1 < GridDim.size d) dims k) :
    gridValue dims dimY rows (gridNode dims k) = some ((List.range dimY).map fun c => gridStored dims rows c k) := by
  refine grid_value_node dims dimY rows hg k (hk.imp fun _ _ h => by omega) fun e he => ?_
  have := gridRank_lt dims _ (inner_corner dims _ hk e)
  rw [hg.count]
  omega

theorem rank_last : ∀ (dims : List GridDim), (∀ d ∈ dims, d.Good) →
    InGrid dims (dims.map fun d => d.size - 1) ∧ gridRank dims (dims.map fun d => d.size - 1) + 1 = gridCount dims
  | [], _ => ⟨List.Forall₂.nil, rfl⟩
  | d :: r, h => by
    obtain ⟨h1, h2⟩ := rank_last r (fun e he => h e (List.mem_cons_of_mem _ he))
    have hd := (h d (List.mem_cons_self ..)).1
    refine ⟨List.Forall₂.cons (by simp only; omega) h1, ?_⟩
    simp only [List.map_cons, gridRank, gridCount]
    obtain ⟨m, hm⟩ : ∃ m, d.size = m + 1 := ⟨d.size - 1, by omega⟩
    rw [hm, Nat.add_sub_cancel, add_assoc, h2]
    ring

theorem rank_oneLast : ∀ (r : List GridDim) (d : GridDim), gridRank (d :: r) (lowBits (r.length + 1) (2 ^ r.length)) = 1
  | [], d => by simp [lowBits, gridRank, gridCount]
  | e :: r, d => by
    have := rank_oneLast r e
    rw [List.length_cons, lowBits]
    have h1 : 2 ^ (r.length + 1) % 2 = 0 := by rw [pow_succ]; omega
    have h2 : 2 ^ (r.length + 1) / 2 = 2 ^ r.length := by rw [pow_succ]; omega
    rw [h1, h2, gridRank, zero_mul, zero_add, this]

theorem node_last (dims : List GridDim) (h : ∀ d ∈ dims, d.Good) :
    gridNode dims (dims.map fun d => d.size - 1) = dims.map GridDim.max := by
  induction dims with
  | nil => rfl
  | cons d r ih =>
    have hd := h d (List.mem_cons_self ..)
    have h2 : (2 : ℝ) ≤ d.size := by exact_mod_cast hd.1
    have ih := ih (fun e he => h e (List.mem_cons_of_mem _ he))
    unfold gridNode at ih ⊢
    simp only [List.map_cons, List.zip_cons_cons, ih, List.cons.injEq, and_true]
    rw [Nat.cast_sub (by have := hd.1; omega), Nat.cast_one, mul_div_cancel₀ _ (by linarith)]
    ring

/-- C45 (limit): in the last node, that is where every coordinate is the maximum of its domain, `value`
    reads after the last row. -/
theorem grid_value_max (d : GridDim) (r : List GridDim) (dimY : ℕ) (rows : List (List ℝ)) (hg : GridRows (d :: r) dimY rows) :
    gridValue (d :: r) dimY rows ((d :: r).map GridDim.max) = none := by
  obtain ⟨h1, h2⟩ := rank_last (d :: r) hg.good
  rw [← node_last (d :: r) hg.good]
  have e : (((d :: r).map fun d => d.size - 1).map fun i => (i, (0 : ℝ))).map Prod.fst = (d :: r).map fun d => d.size - 1 := by
    rw [List.map_map]; exact List.map_id _
  refine grid_value_overrun (d :: r) dimY rows hg _ _ (node_atGrids _ _ h1) (2 ^ r.length) ?_ ?_
  · rw [List.length_cons, pow_succ]
    have := Nat.pos_of_ne_zero (pow_ne_zero r.length (show (2 : ℕ) ≠ 0 by norm_num))
    omega
  · rw [e, ← gridRank_add _ _ _ (by simp) (lowBits_length _ _).symm]
    have := rank_oneLast r d
    rw [List.length_cons, this, h2, hg.count]

/-! ### Domains -/

/-- C45: the domains have the dimension of the parametrization and are not empty. -/
theorem grid_domain (p : Input) (lo hi : List ℝ) (h1 : gridMin p = some lo) (h2 : gridMax p = some hi) :
    (lo.length : ℤ) = inputDim p ∧ List.Forall₂ (· < ·) lo hi := by
  have hpi := Real.pi_pos
  cases p <;> simp only [gridMin, gridMax, reduceCtorEq, Option.some.injEq] at h1 h2 <;> subst h1 <;> subst h2 <;>
    refine ⟨by decide, ?_⟩ <;> simp only [List.forall₂_cons, List.Forall₂.nil, and_true] <;>
    (try constructor) <;> (try constructor) <;> linarith

/-- C45 (limit): the domain of RUSIN_TH_TD_PD begins at phi_d = 0 while the conversion gives negative
    angles, for which `value` reads before the storage or in another cell. -/
theorem grid_domain_rusin : ∃ (c : Cart) (x : List ℝ) (lo : List ℝ), fromCartesian c .RUSIN_TH_TD_PD = some x ∧
    gridMin .RUSIN_TH_TD_PD = some lo ∧ 0 ≤ c.v.z ∧ 0 ≤ c.l.z ∧ arr x 2 < arr lo 2 := by
  have hpi := Real.pi_pos
  have hh : halfVector ⟨⟨0, -(3 / 5), 4 / 5⟩, ⟨0, 3 / 5, 4 / 5⟩⟩ = ⟨0, 0, 1⟩ := by
    have hs : √((4 / 5 + 4 / 5 : ℝ) * (4 / 5 + 4 / 5)) = 4 / 5 + 4 / 5 := Real.sqrt_mul_self (by norm_num)
    unfold halfVector
    simp only []
    rw [if_neg (by norm_num)]
    have e : ((0 : ℝ) + 0) * (0 + 0) + (-(3 / 5) + 3 / 5) * (-(3 / 5) + 3 / 5) + (4 / 5 + 4 / 5) * (4 / 5 + 4 / 5) =
        (4 / 5 + 4 / 5) * (4 / 5 + 4 / 5) := by norm_num
    rw [e, hs]
    norm_num
  have ha0 : atan2 0 0 = 0 := by
    unfold atan2
    exact Complex.arg_zero
  have hr : rotate ⟨0, -(3 / 5), 4 / 5⟩ (-atan2 0 0) (-Real.arccos 1) = ⟨0, -(3 / 5), 4 / 5⟩ := by
    rw [ha0, Real.arccos_one]
    unfold rotate rotateBinormal rotateNormal
    simp
  have hna : ¬ alongsideZ ⟨0, -(3 / 5), 4 / 5⟩ := by
    unfold alongsideZ isZero closeTo
    norm_num [abs_of_pos, abs_of_neg]
  have hat : atan2 (-(3 / 5)) 0 < 0 := by
    unfold atan2
    rw [Complex.arg_neg_iff]
    norm_num
  refine ⟨⟨⟨0, -(3 / 5), 4 / 5⟩, ⟨0, 3 / 5, 4 / 5⟩⟩, [Real.arccos 1, Real.arccos (4 / 5), atan2 (-(3 / 5)) 0], [0, 0, 0], ?_, rfl, by norm_num, by norm_num, ?_⟩
  · unfold fromCartesian
    rw [if_pos (by unfold halfAsserts; rw [hh]; norm_num)]
    unfold fromCartesianSwitch
    simp only [hh, hr]
    rw [if_neg (by rw [hh]; simp only [hr]; exact hna)]
  · exact hat

/-! ### Example -/

/-- a grid of 2 x 3 nodes with one ordinate, that is the number of the node -/
def grid23 : List GridDim := [⟨2, 0, 1⟩, ⟨3, 0, 1⟩]

example : GridRows grid23 1 (gridInit grid23 (gridCount grid23) (fun n => [(n : ℝ)])) ∧ gridCount grid23 = 6 ∧
    gridIndices grid23 5 = [1, 2] ∧ InGrid grid23 [1, 2] ∧
    List.Forall₂ (fun d y => GridDim.min d ≤ y ∧ y < d.max) grid23 [1 / 3, 1 / 5] := by
  have hg : ∀ d ∈ grid23, d.Good := by
    intro d hd
    simp only [grid23, List.mem_cons, List.not_mem_nil, or_false] at hd
    rcases hd with rfl | rfl <;> exact ⟨by norm_num, by norm_num⟩
  refine ⟨grid_init grid23 1 _ hg (fun _ => rfl), rfl, rfl, ?_, ?_⟩
  · exact List.Forall₂.cons (by norm_num) (List.Forall₂.cons (by norm_num) List.Forall₂.nil)
  · exact List.Forall₂.cons (by norm_num) (List.Forall₂.cons (by norm_num) List.Forall₂.nil)

end
end Alta
