import Verif.Model.Output
import Mathlib.Tactic.Linarith
import Mathlib.Tactic.FieldSimp
/-
Property C15: conversion of output values.
-/
namespace Alta
open Finset

theorem writeLoop_get (n : ℕ) (f out : ℕ → ℝ) (j : ℕ) :
    writeLoop n f out j = if j < n then f j else out j := by
  induction n with
  | zero => simp [writeLoop]
  | succ n ih =>
    have : writeLoop (n + 1) f out = fun j => if j = n then f n else writeLoop n f out j := by
      unfold writeLoop; rw [List.range_succ, List.foldl_append]; rfl
    rw [this]
    simp only [ih]
    by_cases h : j = n
    · subst h; simp
    · have : j < n + 1 ↔ j < n := by omega
      simp [h, this]

theorem sumLoop_get (n : ℕ) (inv out : ℕ → ℝ) (j : ℕ) :
    sumLoop n inv out j = if j = 0 then out 0 + ∑ i ∈ range n, inv i else out j := by
  induction n generalizing j with
  | zero => by_cases h : j = 0 <;> simp [sumLoop, h]
  | succ n ih =>
    have : sumLoop (n + 1) inv out = fun j => if j = 0 then sumLoop n inv out 0 + inv n
        else sumLoop n inv out j := by
      unfold sumLoop; rw [List.range_succ, List.foldl_append]; rfl
    rw [this]
    simp only [ih, sum_range_succ]
    by_cases h : j = 0
    · simp [h, add_assoc]
    · simp [h]

/-- Specification of C15: `o` is the converted value: nothing is written past
    `outdim`, and the written values are the copy, the broadcast of a single
    value, or the mean of the input values. -/
def IsConverted (inv : ℕ → ℝ) (indim outdim : ℕ) (out o : ℕ → ℝ) : Prop :=
  (∀ j, outdim ≤ j → o j = out j) ∧
  (outdim = indim → ∀ j < outdim, o j = inv j) ∧
  (indim = 1 → ∀ j < outdim, o j = inv 0) ∧
  (outdim = 1 → indim ≠ 1 → o 0 = (∑ i ∈ range indim, inv i) / indim)

/-- C15: the conversion accepts exactly equal sizes, a single input and a single
    output. -/
theorem convertOutput_isSome (inv out : ℕ → ℝ) (indim outdim : ℕ) :
    (convertOutput inv indim outdim out).isSome ↔ outdim = indim ∨ indim = 1 ∨ outdim = 1 := by
  unfold convertOutput
  split_ifs <;> simp [*]

/-- C15: copy and broadcast, whatever the content of the output array before the
    call. -/
theorem convertOutput_copy (inv out : ℕ → ℝ) (indim outdim : ℕ)
    (h : outdim = indim ∨ indim = 1) :
    ∃ o, convertOutput inv indim outdim out = some o ∧ IsConverted inv indim outdim out o := by
  unfold convertOutput
  by_cases h1 : outdim = indim
  · rw [if_pos h1]
    refine ⟨_, rfl, ?_, ?_, ?_, ?_⟩
    · intro j hj; rw [writeLoop_get, if_neg (by omega)]
    · intro _ j hj; rw [writeLoop_get, if_pos hj]
    · intro h2 j hj
      rw [writeLoop_get, if_pos hj]
      have : j = 0 := by omega
      rw [this]
    · intro h2 h3; omega
  · have h2 := h.resolve_left h1
    rw [if_neg h1, if_pos h2]
    refine ⟨_, rfl, ?_, ?_, ?_, ?_⟩
    · intro j hj; rw [writeLoop_get, if_neg (by omega)]
    · intro h3; exact absurd h3 h1
    · intro _ j hj; rw [writeLoop_get, if_pos hj]
    · intro _ h3; exact absurd h2 h3

example : (3 : ℕ) = 3 ∨ (3 : ℕ) = 1 := by decide

/-- C15 (partial): the average is right when the output cell is zero before the
    call.  Missing: any other content, where it is wrong (next theorem). -/
theorem convertOutput_average_partial (inv out : ℕ → ℝ) (indim : ℕ) (h1 : indim ≠ 1)
    (h0 : out 0 = 0) :
    ∃ o, convertOutput inv indim 1 out = some o ∧ IsConverted inv indim 1 out o := by
  unfold convertOutput
  rw [if_neg (Ne.symm h1), if_neg h1, if_pos rfl]
  refine ⟨_, rfl, ?_, ?_, ?_, ?_⟩
  · intro j hj
    have : j ≠ 0 := by omega
    simp only [if_neg this, sumLoop_get]
  · intro h; exact absurd h.symm h1
  · intro h; exact absurd h h1
  · intro _ _
    simp only [if_true, sumLoop_get, h0, zero_add]

example : (fun _ => 0 : ℕ → ℝ) 0 = 0 ∧ (3 : ℕ) ≠ 1 := by simp

/-- C15, limit of the code: the sum starts from the previous content of the
    output cell, so the result is the mean exactly when that content is zero. -/
theorem convertOutput_average_stale (inv out : ℕ → ℝ) (indim : ℕ) (h1 : indim ≠ 1)
    (h2 : 0 < indim) :
    ∃ o, convertOutput inv indim 1 out = some o ∧
      o 0 = (out 0 + ∑ i ∈ range indim, inv i) / indim ∧
      (o 0 = (∑ i ∈ range indim, inv i) / indim ↔ out 0 = 0) := by
  unfold convertOutput
  rw [if_neg (Ne.symm h1), if_neg h1, if_pos rfl]
  have hpos : (0 : ℝ) < indim := by exact_mod_cast h2
  refine ⟨_, rfl, ?_, ?_⟩
  · simp only [if_true, sumLoop_get]
  · simp only [if_true, sumLoop_get]
    rw [div_left_inj' hpos.ne']
    constructor <;> intro h <;> linarith

example : (3 : ℕ) ≠ 1 ∧ 0 < 3 := by decide

end Alta
