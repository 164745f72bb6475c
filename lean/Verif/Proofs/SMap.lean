import Verif.Model.Args
/-
Lemmas on the ordered maps of `arguments`.
-/
namespace Alta

/-- the entries are in increasing key order (invariant of `std::map`) -/
def SMap.Ordered (m : SMap) : Prop := m.Pairwise (fun a b => a.1 < b.1)

theorem SMap.ordered_nil : SMap.Ordered [] := List.Pairwise.nil

theorem SMap.find_eq_none_of_lt (m : SMap) (k : Str) (h : ∀ e ∈ m, k < e.1) : m.find k = none := by
  induction m with
  | nil => rfl
  | cons e r ih =>
    have h1 := h e (by simp)
    simp only [SMap.find, if_neg (ne_of_lt h1)]
    exact ih fun e he => h e (by simp [he])

theorem SMap.mem_insert {m : SMap} {k v : Str} {e : Str × Str} (h : e ∈ m.insert k v) :
    e = (k, v) ∨ e ∈ m := by
  induction m with
  | nil => simpa [SMap.insert] using h
  | cons f r ih =>
    simp only [SMap.insert] at h
    split at h
    · simpa using h
    · split at h
      · right; exact h
      · rcases List.mem_cons.1 h with h | h
        · right; simp [h]
        · rcases ih h with h | h
          · left; exact h
          · right; simp [h]

theorem SMap.mem_update {m : SMap} {k v : Str} {e : Str × Str} (h : e ∈ m.update k v) :
    e = (k, v) ∨ e ∈ m := by
  induction m with
  | nil => simpa [SMap.update] using h
  | cons f r ih =>
    simp only [SMap.update] at h
    split at h
    · simpa using h
    · split at h
      · rename_i h2
        rcases List.mem_cons.1 h with h | h
        · left; rw [h, h2]
        · right; simp [h]
      · rcases List.mem_cons.1 h with h | h
        · right; simp [h]
        · rcases ih h with h | h
          · left; exact h
          · right; simp [h]

theorem SMap.Ordered.insert {m : SMap} (h : m.Ordered) (k v : Str) : (m.insert k v).Ordered := by
  unfold SMap.Ordered at *
  induction m with
  | nil => simp [SMap.insert]
  | cons f r ih =>
    have hf := List.pairwise_cons.1 h
    simp only [SMap.insert]
    split
    · rename_i h1
      refine List.pairwise_cons.2 ⟨?_, h⟩
      intro e he
      rcases List.mem_cons.1 he with rfl | he
      · exact h1
      · exact lt_trans h1 (hf.1 e he)
    · split
      · exact h
      · rename_i h1 h2
        refine List.pairwise_cons.2 ⟨?_, ih hf.2⟩
        intro e he
        rcases SMap.mem_insert he with rfl | he
        · exact lt_of_le_of_ne (not_lt.1 h1) (Ne.symm h2)
        · exact hf.1 e he

theorem SMap.Ordered.update {m : SMap} (h : m.Ordered) (k v : Str) : (m.update k v).Ordered := by
  unfold SMap.Ordered at *
  induction m with
  | nil => simp [SMap.update]
  | cons f r ih =>
    have hf := List.pairwise_cons.1 h
    simp only [SMap.update]
    split
    · rename_i h1
      refine List.pairwise_cons.2 ⟨?_, h⟩
      intro e he
      rcases List.mem_cons.1 he with rfl | he
      · exact h1
      · exact lt_trans h1 (hf.1 e he)
    · split
      · exact List.pairwise_cons.2 ⟨hf.1, hf.2⟩
      · rename_i h1 h2
        refine List.pairwise_cons.2 ⟨?_, ih hf.2⟩
        intro e he
        rcases SMap.mem_update he with rfl | he
        · exact lt_of_le_of_ne (not_lt.1 h1) (Ne.symm h2)
        · exact hf.1 e he

/-- `insert` keeps a value already present -/
theorem SMap.find_insert {m : SMap} (h : m.Ordered) (k v k' : Str) :
    (m.insert k v).find k' = if k' = k then some ((m.find k).getD v) else m.find k' := by
  induction m with
  | nil => simp [SMap.insert, SMap.find]
  | cons f r ih =>
    have hf := List.pairwise_cons.1 h
    simp only [SMap.insert]
    split
    · rename_i h1
      have hn : SMap.find (f :: r) k = none := by
        apply SMap.find_eq_none_of_lt
        intro e he
        rcases List.mem_cons.1 he with rfl | he
        · exact h1
        · exact lt_trans h1 (hf.1 e he)
      by_cases hk : k' = k
      · subst hk; simp [SMap.find]; rw [SMap.find] at hn; rw [hn]; rfl
      · simp [SMap.find, hk]
    · split
      · rename_i h1 h2
        by_cases hk : k' = k
        · subst hk; simp [SMap.find, h2]
        · simp [hk]
      · rename_i h1 h2
        simp only [SMap.find, ih hf.2, if_neg h2]
        by_cases hk : k' = f.1
        · subst hk; simp [Ne.symm h2]
        · simp [hk]

/-- `update` stores the new value -/
theorem SMap.find_update {m : SMap} (h : m.Ordered) (k v k' : Str) :
    (m.update k v).find k' = if k' = k then some v else m.find k' := by
  induction m with
  | nil => simp [SMap.update, SMap.find]
  | cons f r ih =>
    have hf := List.pairwise_cons.1 h
    simp only [SMap.update]
    split
    · by_cases hk : k' = k <;> simp [SMap.find, hk]
    · split
      · rename_i h1 h2
        by_cases hk : k' = k
        · subst hk; simp [SMap.find, h2]
        · simp [SMap.find, hk, ← h2]
      · rename_i h1 h2
        simp only [SMap.find, ih hf.2]
        by_cases hk : k' = f.1
        · subst hk; simp [Ne.symm h2]
        · simp [hk]

end Alta
