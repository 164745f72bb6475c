import Verif.Model.Quadprog
import Mathlib.Data.Finset.Card
import Mathlib.Logic.Function.Iterate
import Mathlib.Tactic.Linarith
/-
The order in which quadprog.cpp writes the columns of the matrix is a permutation.
-/
namespace Alta
open Finset

/-- `k0`, `k1` after one iteration -/
def slotStep (M : ℕ) (s : ℕ × ℕ) : ℕ × ℕ :=
  if M ≤ s.1 + 32 then (s.2, s.2 + 1) else (s.1 + 32, s.2)

/-- `k0`, `k1` at iteration `i` -/
def slotAt (M i : ℕ) : ℕ × ℕ := (slotStep M)^[i] (0, 1)

theorem slotAt_succ (M i : ℕ) : slotAt M (i + 1) = slotStep M (slotAt M i) :=
  Function.iterate_succ_apply' ..

/-- the slots written before slot `k` -/
def slotsBefore (M k : ℕ) : Finset ℕ :=
  (range M).filter fun n => n % 32 < k % 32 ∨ (n % 32 = k % 32 ∧ n < k)

theorem slot_inv (M : ℕ) : ∀ i, i < M →
    (slotAt M i).1 < M ∧ (slotAt M i).2 = (slotAt M i).1 % 32 + 1 ∧
      (slotsBefore M (slotAt M i).1).card = i ∧
      (i + 1 < M → slotsBefore M (slotAt M (i + 1)).1 =
        insert (slotAt M i).1 (slotsBefore M (slotAt M i).1)) := by
  have key : ∀ i, (slotAt M i).1 < M → (slotAt M i).2 = (slotAt M i).1 % 32 + 1 →
      (slotsBefore M (slotAt M i).1).card = i → i + 1 < M →
      (slotAt M (i + 1)).1 < M ∧ (slotAt M (i + 1)).2 = (slotAt M (i + 1)).1 % 32 + 1 ∧
      slotsBefore M (slotAt M (i + 1)).1 =
        insert (slotAt M i).1 (slotsBefore M (slotAt M i).1) := by
    intro i h1 h2 h3 hi
    rw [slotAt_succ]
    generalize hs : slotAt M i = s at *
    obtain ⟨k0, k1⟩ := s
    simp only at h1 h2 h3 ⊢
    have hnot : k0 ∉ slotsBefore M k0 := by simp [slotsBefore]
    have hcard : (insert k0 (slotsBefore M k0)).card = i + 1 := by
      rw [card_insert_of_notMem hnot, h3]
    have hsub : insert k0 (slotsBefore M k0) ⊆ range M := by
      intro n hn
      simp only [mem_insert, slotsBefore, mem_filter] at hn
      rcases hn with rfl | hn
      · simpa using h1
      · exact hn.1
    unfold slotStep
    by_cases hM : M ≤ k0 + 32
    · simp only [hM, if_true]
      have hlt : k1 < 32 ∧ k1 < M := by
        by_contra hcon
        have hall : insert k0 (slotsBefore M k0) = range M := by
          apply subset_antisymm hsub
          intro n hn
          have hn' : n < M := by simpa using hn
          simp only [mem_insert, slotsBefore, mem_filter, mem_range]
          omega
        rw [hall, card_range] at hcard
        omega
      refine ⟨hlt.2, by omega, ?_⟩
      ext n
      simp only [mem_insert, slotsBefore, mem_filter, mem_range]
      omega
    · simp only [hM, if_false]
      refine ⟨by omega, by omega, ?_⟩
      ext n
      simp only [mem_insert, slotsBefore, mem_filter, mem_range]
      omega
  intro i
  induction i with
  | zero =>
    intro hi
    have h0 : slotAt M 0 = (0, 1) := rfl
    have hc : (slotsBefore M (slotAt M 0).1).card = 0 := by
      simp [h0, slotsBefore]
    refine ⟨by rw [h0]; exact hi, by simp [h0], hc, fun h => ?_⟩
    exact (key 0 (by rw [h0]; exact hi) (by simp [h0]) hc h).2.2
  | succ i ih =>
    intro hi
    obtain ⟨h1, h2, h3, h4⟩ := ih (by omega)
    obtain ⟨e1, e2, e3⟩ := key i h1 h2 h3 hi
    have hnot : (slotAt M i).1 ∉ slotsBefore M (slotAt M i).1 := by simp [slotsBefore]
    have hc : (slotsBefore M (slotAt M (i + 1)).1).card = i + 1 := by
      rw [e3, card_insert_of_notMem hnot, h3]
    exact ⟨e1, e2, hc, fun h => (key (i + 1) e1 e2 hc h).2.2⟩

theorem slot_lt (M i : ℕ) (h : i < M) : (slotAt M i).1 < M := (slot_inv M i h).1

theorem slot_mem_before (M i j : ℕ) (hij : i < j) (hj : j < M) :
    (slotAt M i).1 ∈ slotsBefore M (slotAt M j).1 := by
  induction j with
  | zero => omega
  | succ j ih =>
    rw [(slot_inv M j (by omega)).2.2.2 hj]
    rcases Nat.lt_or_ge i j with h | h
    · exact mem_insert_of_mem (ih h (by omega))
    · rw [show i = j by omega]; exact mem_insert_self _ _

theorem slot_injective (M i j : ℕ) (hi : i < M) (hj : j < M)
    (h : (slotAt M i).1 = (slotAt M j).1) : i = j := by
  by_contra hne
  have hnot : ∀ k, (slotAt M k).1 ∉ slotsBefore M (slotAt M k).1 := fun k => by simp [slotsBefore]
  rcases Nat.lt_or_gt_of_ne hne with hlt | hlt
  · have := slot_mem_before M i j hlt hj
    rw [h] at this
    exact hnot j this
  · have := slot_mem_before M j i hlt hi
    rw [← h] at this
    exact hnot i this

/-- every slot is written -/
theorem slot_surjective (M n : ℕ) (hn : n < M) : ∃ i < M, (slotAt M i).1 = n := by
  have hmaps : Set.MapsTo (fun i => (slotAt M i).1) (range M) (range M) := by
    intro i hi
    simp only [coe_range, Set.mem_Iio] at hi ⊢
    exact slot_lt M i hi
  have hinj : Set.InjOn (fun i => (slotAt M i).1) (range M) := by
    intro i hi j hj h
    simp only [coe_range, Set.mem_Iio] at hi hj
    exact slot_injective M i j hi hj h
  obtain ⟨i, hi, h⟩ := Finset.surjOn_of_injOn_of_card_le _ hmaps hinj le_rfl
    (by simpa using hn : n ∈ (range M : Set ℕ))
  exact ⟨i, by simpa using hi, h⟩

noncomputable section

/-- the state of the filling loop after the first pairs -/
theorem fill_inv (delta : ℝ) (M : ℕ) (pairs : List (List ℝ × List ℝ)) (init : List Constraint)
    (hinit : init.length = 2 * M) : ∀ n, n ≤ pairs.length → n ≤ M →
    ∃ s, (pairs.take n).foldlM (fillStep delta M) ⟨0, 1, init⟩ = some s ∧
      (s.k0, s.k1) = slotAt M n ∧ s.cols.length = 2 * M ∧
      ∀ i < n, ∀ pr, pairs[i]? = some pr →
        s.cols[2 * (slotAt M i).1]? = some (withOffset delta pr.1) ∧
        s.cols[2 * (slotAt M i).1 + 1]? = some (withOffset delta pr.2) := by
  intro n
  induction n with
  | zero => intro _ _; exact ⟨⟨0, 1, init⟩, rfl, rfl, hinit, by simp⟩
  | succ n ih =>
    intro hn hM
    obtain ⟨s, h1, h2, h3, h4⟩ := ih (by omega) (by omega)
    have hk0 : s.k0 = (slotAt M n).1 := congrArg Prod.fst h2
    have hk1 : s.k1 = (slotAt M n).2 := congrArg Prod.snd h2
    have hlt : s.k0 < M := by rw [hk0]; exact slot_lt M n (by omega)
    obtain ⟨pr, hpr⟩ : ∃ pr, pairs[n]? = some pr := ⟨pairs[n], List.getElem?_eq_getElem (by omega)⟩
    have htake : pairs.take (n + 1) = pairs.take n ++ [pr] := by
      rw [List.take_add_one, hpr]; rfl
    refine ⟨{
      k0 := if M ≤ s.k0 + 32 then s.k1 else s.k0 + 32
      k1 := if M ≤ s.k0 + 32 then s.k1 + 1 else s.k1
      cols := (s.cols.set (2 * s.k0) (withOffset delta pr.1)).set (2 * s.k0 + 1)
        (withOffset delta pr.2) }, ?_, ?_, ?_, ?_⟩
    · rw [htake, List.foldlM_append, h1]
      simp only [Option.bind_eq_bind, Option.bind_some, List.foldlM_cons, List.foldlM_nil]
      rw [fillStep, if_pos (by omega)]
      rfl
    · rw [slotAt_succ, ← h2]
      unfold slotStep
      by_cases hc : M ≤ s.k0 + 32 <;> simp [hc]
    · simp [h3]
    · intro i hi pr' hpr'
      simp only
      rcases Nat.lt_or_ge i n with hin | hin
      · have hne : (slotAt M i).1 ≠ s.k0 := by
          rw [hk0]
          intro h
          have := slot_injective M i n (by omega) (by omega) h
          omega
        obtain ⟨e1, e2⟩ := h4 i hin pr' hpr'
        rw [List.getElem?_set_ne (by omega), List.getElem?_set_ne (by omega),
          List.getElem?_set_ne (by omega), List.getElem?_set_ne (by omega)]
        exact ⟨e1, e2⟩
      · have hin' : i = n := by omega
        subst hin'
        rw [hpr] at hpr'
        cases hpr'
        rw [← hk0]
        constructor
        · rw [List.getElem?_set_ne (by omega), List.getElem?_set_self (by omega)]
        · rw [List.getElem?_set_self (by simp; omega)]

/-- The matrix has the columns of all the data points, and no other. -/
theorem fillMatrix_spec (delta : ℝ) (N M : ℕ) (pairs : List (List ℝ × List ℝ))
    (hl : pairs.length = M) :
    ∃ prog, fillMatrix delta N M pairs = some prog ∧ prog.length = 2 * M ∧
      ∀ c, c ∈ prog ↔ ∃ pr ∈ pairs, c = withOffset delta pr.1 ∨ c = withOffset delta pr.2 := by
  obtain ⟨s, h1, h2, h3, h4⟩ := fill_inv delta M pairs
    (List.replicate (2 * M) (List.replicate N 0, 0)) (by simp) M (by omega) le_rfl
  rw [List.take_of_length_le (by omega)] at h1
  refine ⟨s.cols, by rw [fillMatrix, h1]; rfl, h3, fun c => ⟨fun hc => ?_, ?_⟩⟩
  · obtain ⟨k, hk, hck⟩ := List.getElem_of_mem hc
    obtain ⟨i, hi, hik⟩ := slot_surjective M (k / 2) (by omega)
    have hpr : pairs[i]? = some pairs[i] := List.getElem?_eq_getElem (by omega)
    obtain ⟨e1, e2⟩ := h4 i hi _ hpr
    refine ⟨pairs[i], List.getElem_mem _, ?_⟩
    rw [hik] at e1 e2
    have hck' : s.cols[k]? = some c := by rw [List.getElem?_eq_getElem hk, hck]
    rcases Nat.mod_two_eq_zero_or_one k with h | h
    · rw [show 2 * (k / 2) = k by omega, hck'] at e1
      exact Or.inl (Option.some.inj e1)
    · rw [show 2 * (k / 2) + 1 = k by omega, hck'] at e2
      exact Or.inr (Option.some.inj e2)
  · rintro ⟨pr, hpr, hc⟩
    obtain ⟨i, hi, hip⟩ := List.getElem_of_mem hpr
    have hpr : pairs[i]? = some pr := by rw [List.getElem?_eq_getElem hi, hip]
    obtain ⟨e1, e2⟩ := h4 i (by omega) pr hpr
    rcases hc with rfl | rfl
    · exact List.mem_of_getElem? e1
    · exact List.mem_of_getElem? e2

end
end Alta
