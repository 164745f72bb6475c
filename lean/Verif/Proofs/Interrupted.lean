import Verif.Props.TextSave
import Verif.Props.Merl
/-
Lemmas for property C92: headers and bodies that are cut.
-/
namespace Alta

/-- The part of a header that was written before a cut is read to its end. -/
theorem parseHeaderFrom_cut (ls : List HLine) (h : ∀ l ∈ ls, l.WellFormed) (n : ℕ) (m : SMap) :
    (parseHeaderFrom ((headerText ls).take n) m).2 = [] := by
  induction ls generalizing m n with
  | nil => simp only [headerText, List.take_nil]; rw [parseHeaderFrom.eq_def]
  | cons l ls ih =>
    obtain ⟨t, ht⟩ := l.text_cons
    have hl := h l (by simp)
    have hn := l.newline hl
    rw [ht] at hn
    have e : headerText (l :: ls) = '#' :: (t ++ '\n' :: headerText ls) := by simp [headerText, ht]
    rw [e]
    cases n with
    | zero => rw [List.take_zero, parseHeaderFrom.eq_def]
    | succ n =>
      rw [List.take_succ_cons, parseHeaderFrom]
      by_cases hlen : n ≤ t.length
      · have hg : getLine ((t ++ '\n' :: headerText ls).take n) = ((t ++ '\n' :: headerText ls).take n, []) := by
          apply getLine_noNewline
          rw [List.take_append_of_le_length hlen]
          intro hc
          exact hn (List.mem_cons_of_mem _ (List.mem_of_mem_take hc))
        simp only [hg]
        split
        · rw [parseHeaderFrom.eq_def]
        · rfl
      · obtain ⟨k, rfl⟩ : ∃ k, n = t.length + (k + 1) := ⟨n - t.length - 1, by omega⟩
        rw [List.take_length_add_append, List.take_succ_cons]
        have hg := getLine_append t ((headerText ls).take k) (fun hc => hn (by simp [hc]))
        simp only [hg, headerLine_text l t ht hl m]
        exact ih (fun l hl => h l (by simp [hl])) k _

theorem parseHeader_cut (ls : List HLine) (h : ∀ l ∈ ls, l.WellFormed) (n : ℕ) :
    (parseHeader ((headerText ls).take n)).2 = [] := parseHeaderFrom_cut ls h n []

/-- The rows of a text made of whole lines and of something more. -/
theorem loadRows_append (c : LoadSetup) (s t : Str) (hs : s = [] ∨ s.getLast? = some '\n') :
    loadRows c (s ++ t) = (loadRows c s).bind fun a => (loadRows c t).map fun b => a ++ b := by
  induction hn : s.length using Nat.strong_induction_on generalizing s with
  | _ n ih =>
    rcases hs with rfl | hs
    · rw [List.nil_append, loadRows_nil]
      simp
    · have hmem : '\n' ∈ s := List.mem_of_getLast? hs
      obtain ⟨l, r, rfl, hl⟩ := split_newline s hmem
      have hr : r = [] ∨ r.getLast? = some '\n' := by
        cases hr : r with
        | nil => exact .inl rfl
        | cons a u =>
          right
          rw [hr] at hs
          have e : (l ++ '\n' :: a :: u).getLast? = (a :: u).getLast? := by
            simp [List.getLast?_append, List.getLast?_cons]
          rw [← e, hs]
      have hi := ih r.length (by rw [← hn, List.length_append, List.length_cons]; omega) r hr rfl
      rw [List.append_assoc, List.cons_append, loadRows_line c l _ hl, loadRows_line c l _ hl, hi]
      by_cases hb : l = [] ∨ l.head? = some '#'
      · rw [if_pos hb, if_pos hb]
      · rw [if_neg hb, if_neg hb]
        cases loadRow c l with
        | none => rfl
        | some o =>
          cases o with
          | none => cases loadRows c r <;> cases loadRows c t <;> rfl
          | some v => cases loadRows c r <;> cases loadRows c t <;> rfl

/-- A line without its end gives one row at most. -/
theorem loadRows_last (c : LoadSetup) (t : Str) (ht : '\n' ∉ t) (rows : List (List ℝ)) (h : loadRows c t = some rows) :
    rows.length ≤ 1 := by
  cases t with
  | nil => rw [loadRows_nil] at h; cases h; simp
  | cons a t =>
    rw [loadRows] at h
    rw [getLine_noNewline _ ht] at h
    simp only [loadRows_nil] at h
    split at h
    · cases h; simp
    · split at h
      · rename_i h2; cases h2; cases h; simp
      · rename_i h2; cases h2; cases h; simp
      · cases h

end Alta
