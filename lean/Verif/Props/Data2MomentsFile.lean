import Verif.Props.MomentsLimits
import Verif.Props.Astm
import Verif.Props.Brdf2GnuplotFile
import Verif.Props.Binary
import Verif.Spec.Data2MomentsMain
/-
C91: the options and the file of `data2moments`.
-/
namespace Alta
noncomputable section

/-! ### Options -/

/-- A text without the character, or the text before the first one and the text after it. -/
theorem uncut (c : Char) (s : Str) : (c ∉ s ∧ cutAt c s = [s]) ∨
    ∃ a b, c ∉ a ∧ s = a ++ c :: b ∧ cutAt c s = a :: cutAt c b := by
  induction s with
  | nil => exact Or.inl ⟨by simp, rfl⟩
  | cons x r ih =>
    by_cases hx : x = c
    · refine Or.inr ⟨[], r, by simp, by rw [hx]; rfl, ?_⟩
      rw [cutAt, if_pos hx]
    · rcases ih with ⟨h1, -⟩ | ⟨a, b, h1, h2, -⟩
      · have hc : c ∉ x :: r := by
          intro h
          rcases List.mem_cons.1 h with h | h
          · exact hx h.symm
          · exact h1 h
        exact Or.inl ⟨hc, cutAt_none c _ hc⟩
      · have hc : c ∉ x :: a := by
          intro h
          rcases List.mem_cons.1 h with h | h
          · exact hx h.symm
          · exact h1 h
        refine Or.inr ⟨x :: a, b, hc, by rw [h2]; rfl, ?_⟩
        rw [h2, show x :: (a ++ c :: b) = (x :: a) ++ c :: b from rfl, cutAt_append c _ _ hc]

/-- The words of the elements of a list of whole numbers. -/
theorem vecWords_numbers (l : List ℕ) : ∀ inside : Str, List.Forall₂ (fun (part : Str) n => part.length ≤ 255 ∧ n < 2 ^ 31 ∧
    ∃ before after, part = before ++ (showNat n ++ after) ∧ Blank before ∧ Blank after) (cutAt ',' inside) l →
    vecWords inside = l.map showNat := by
  have column : ∀ (part : Str) (n : ℕ), ',' ∉ part → part.length ≤ 255 → (∃ before after : Str,
      part = before ++ (showNat n ++ after) ∧ Blank before ∧ Blank after) →
      ∃ v : AstmColumn, v.WellFormed ∧ v.text = part ∧ v.name = showNat n := by
    rintro part n hc hl ⟨before, after, rfl, hb, ha⟩
    refine ⟨⟨before, showNat n, after⟩, ⟨hb, showNat_isWord n, ?_, hc, ?_, hl⟩, rfl, rfl⟩
    · intro c r hr
      exact (ha c (by simp only at hr; rw [hr]; simp)).1
    · intro h
      rcases List.mem_append.1 h with h | h
      · exact (hb _ h).2 rfl
      · rcases List.mem_append.1 h with h | h
        · exact showNat_avoids n '\n' (by decide) h
        · exact (ha _ h).2 rfl
  induction l with
  | nil =>
    intro inside h
    exact absurd (List.forall₂_nil_right_iff.1 h) (cutAt_ne_nil ',' inside)
  | cons n l ih =>
    intro inside h
    rcases uncut ',' inside with ⟨h1, h2⟩ | ⟨a, b, h1, h2, h3⟩
    · rw [h2] at h
      obtain ⟨⟨hl, -, hp⟩, ht⟩ := List.forall₂_cons.1 h
      cases ht
      obtain ⟨v, g1, g2, g3⟩ := column inside n h1 hl hp
      rw [← g2, vecWords_last v g1, g3]
      rfl
    · rw [h3] at h
      obtain ⟨⟨hl, -, hp⟩, ht⟩ := List.forall₂_cons.1 h
      obtain ⟨v, g1, g2, g3⟩ := column a n h1 hl hp
      rw [h2, ← g2, vecWords_cons v g1, g3, ih b ht]
      rfl

theorem wordInt_showNat (n : ℕ) (h : n < 2 ^ 31) : wordInt (showNat n) = some (n : ℤ) := by
  unfold wordInt
  rw [if_neg (showNat_ne_nil n), atoi_showNat]
  congr 1
  omega

theorem naturals_numbers (l : List ℕ) (h : ∀ n ∈ l, n < 2 ^ 31) : naturals ((l.map showNat).map wordInt) = some l := by
  unfold naturals
  induction l with
  | nil => rfl
  | cons n l ih =>
    rw [List.map_cons, List.map_cons, List.mapM_cons, ih (fun m hm => h m (List.mem_cons_of_mem _ hm)),
      wordInt_showNat n (h n List.mem_cons_self)]
    simp

/-- **C91.**  An option that is a list of whole numbers gives these numbers. -/
theorem momentsOption_numbers (args : SMap) (key text : Str) (l : List ℕ) (hk : args.find key = some text)
    (ht : NumbersText text l) : momentsOption args key = some (some l) := by
  obtain ⟨inside, h1, h2⟩ := ht
  unfold momentsOption
  rw [if_pos (by rw [SMap.isDefined, hk]; rfl)]
  have hlt : ∀ n ∈ l, n < 2 ^ 31 := by
    intro n hn
    obtain ⟨i, hi, rfl⟩ := List.getElem_of_mem hn
    exact ((List.forall₂_iff_get.1 h2).2 i (by rw [h2.length_eq]; exact hi) hi).2.1
  have hw : args.getVecWords key = l.map showNat := by
    unfold SMap.getVecWords
    rw [hk]
    simp only
    rw [if_pos ⟨by rw [h1]; rfl, by rw [h1, ← List.cons_append, List.getLast?_append]; rfl⟩, h1]
    have : ((('[' :: (inside ++ [']'])) : Str).drop 1).dropLast = inside := by simp
    rw [this]
    exact vecWords_numbers l inside h2
  rw [SMap.getVecInts, hw, naturals_numbers l hlt]
  rfl

/-! ### File -/

theorem vecCells_map (fmt : ℝ → Decimal) (v : List ℝ) : vecCells (v.map fun x => (fmt x).text) = vecText fmt v := by
  unfold vecCells vecText
  rw [List.length_map]
  congr 2
  apply List.flatMap_congr
  intro i hi
  have hi' := List.mem_range.1 hi
  congr 1
  simp [arr, List.getD, hi']

/-- A line with a name and a vector. -/
theorem momentLine_vec (fmt : ℝ → Decimal) (hfmt : ∀ v, (fmt v).ip ≠ [] ∨ (fmt v).fp ≠ []) (name : Str) (v : List ℝ) (hv : v ≠ [])
    (hn : '=' ∉ name ∧ ' ' ∉ name) :
    momentLine (name ++ " = ".toList ++ vecText fmt v) = some (name, v.map fun x => ((fmt x).value : ℝ)) := by
  have hr := vecText_avoids fmt '=' v (by decide) (by decide) (by decide)
  have h1 : '=' ∉ name ++ [' '] := by
    intro h
    rcases List.mem_append.1 h with h | h
    · exact hn.1 h
    · simp at h
  have e : name ++ " = ".toList ++ vecText fmt v = (name ++ [' ']) ++ '=' :: (' ' :: vecText fmt v) := by
    rw [show " = ".toList = [' ', '=', ' '] from rfl]
    simp
  have h2 : '=' ∉ ' ' :: vecText fmt v := by
    intro h
    rcases List.mem_cons.1 h with h | h
    · exact absurd h (by decide)
    · exact hr h
  unfold momentLine
  rw [e, cutAt_append '=' _ _ h1, cutAt_none '=' _ h2]
  simp only
  have h3 : (' ' :: vecText fmt v).dropWhile (· = ' ') = vecText fmt v := by
    rw [vecText_eq]
    rfl
  have h4 : (name ++ [' ']).takeWhile (· ≠ ' ') = name := by
    have := takeWhile_append_stop (p := fun c : Char => decide (c ≠ ' ')) name [' ']
      (fun c hc => by simp; rintro rfl; exact hn.2 hc) (by intro c r he; cases he; simp)
    exact this.1
  rw [h3, h4, readVector_vecText fmt hfmt v hv]
  rfl

theorem momentQuotientLine_vec (fmt : ℝ → Decimal) (name : String) (f : Moments → ℝ) (sums : List Moments)
    (h0 : ∀ m ∈ sums, m.m0 ≠ 0) :
    momentQuotientLine fmt name f sums = (name.toList ++ " = ".toList ++ vecText fmt (sums.map fun m => f m / m.m0)) ++ ['\n'] := by
  unfold momentQuotientLine
  rw [← vecCells_map, List.map_map]
  congr 3
  apply List.map_congr_left
  intro m hm
  unfold quotientText
  rw [if_pos (h0 m hm)]
  rfl

theorem range_map_getD {α β γ : Type} (l : List α) (g : α → β) (f : β → γ) (z : β) :
    ((List.range l.length).map fun k => f ((l.map g).getD k z)) = l.map fun x => f (g x) := by
  apply List.ext_getElem
  · simp
  · intro i h1 h2
    have hi : i < l.length := by simpa using h1
    simp [List.getD, hi]

/-- The lines of a file of moments. -/
theorem readMoments_lines (fmt : ℝ → Decimal) (hfmt : ∀ v, (fmt v).ip ≠ [] ∨ (fmt v).fp ≠ []) (l : List (Str × List ℝ))
    (hl : ∀ s ∈ l, s.2 ≠ [] ∧ '=' ∉ s.1 ∧ ' ' ∉ s.1 ∧ '\n' ∉ s.1) :
    readMoments (l.flatMap fun s => (s.1 ++ " = ".toList ++ vecText fmt s.2) ++ ['\n']) = some (printedStats fmt l) := by
  have e : (l.flatMap fun s => (s.1 ++ " = ".toList ++ vecText fmt s.2) ++ ['\n']) =
      (l.map fun s => s.1 ++ " = ".toList ++ vecText fmt s.2).flatMap fun t => t ++ ['\n'] := by
    rw [List.flatMap_map]
  unfold readMoments
  rw [e, endedBy_ended, Option.bind_some,
    mapM_map_some momentLine _ (fun s : Str × List ℝ => (s.1, s.2.map fun x => ((fmt x).value : ℝ))) l (fun s hs =>
      momentLine_vec fmt hfmt s.1 s.2 (hl s hs).1 ⟨(hl s hs).2.1, (hl s hs).2.2.1⟩)]
  · rfl
  · intro t ht
    obtain ⟨s, hs, rfl⟩ := List.mem_map.1 ht
    have hv := vecText_avoids fmt '\n' s.2 (by decide) (by decide) (by decide)
    intro h
    rcases List.mem_append.1 h with h | h
    · rcases List.mem_append.1 h with h | h
      · exact (hl s hs).2.2.2 h
      · revert h; decide
    · exact hv h

/-- **C91.**  Read again, the file of the moments has exactly the ten moments, in this order and with their names, as they are
    printed. -/
theorem momentsFile_read (fmt : ℝ → Decimal) (hfmt : ∀ v, (fmt v).ip ≠ [] ∨ (fmt v).fp ≠ []) (sums : List Moments)
    (hne : sums ≠ []) (h0 : ∀ m ∈ sums, m.m0 ≠ 0) :
    readMoments (momentsFile fmt sums) = some (printedStats fmt (momentsNamed sums.length fun k =>
      (sums.map Moments.normalize).getD k Moments.zero)) := by
  have hm : ∀ f : Moments → ℝ, (sums.map f) ≠ [] := fun f h => hne (List.map_eq_nil_iff.1 h)
  have e : momentsFile fmt sums = (momentsNamed sums.length fun k => (sums.map Moments.normalize).getD k Moments.zero).flatMap
      fun s => (s.1 ++ " = ".toList ++ vecText fmt s.2) ++ ['\n'] := by
    unfold momentsFile momentsNamed
    simp only [momentQuotientLine_vec fmt _ _ sums h0, range_map_getD, List.flatMap_cons, List.flatMap_nil, List.append_nil,
      Moments.normalize]
    have h := vecCells_map fmt (sums.map Moments.m0)
    rw [List.map_map] at h
    have h' : vecCells (sums.map fun m => (fmt m.m0).text) = vecText fmt (sums.map fun m => m.m0) := h
    rw [h', show "\\mu_0 = ".toList = "\\mu_0".toList ++ " = ".toList from rfl, show "\n".toList = ['\n'] from rfl]
    simp only [List.append_assoc]
  rw [e]
  apply readMoments_lines fmt hfmt
  unfold momentsNamed
  simp only [range_map_getD, List.forall_mem_cons, List.not_mem_nil, false_imp_iff, implies_true, and_true]
  refine ⟨?_, ?_, ?_, ?_, ?_, ?_, ?_, ?_, ?_, ?_⟩ <;> exact ⟨hm _, by decide, by decide, by decide⟩

end
end Alta
