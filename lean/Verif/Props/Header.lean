import Verif.Props.ArgsCmd
import Verif.Spec.Header
/-
Property C21: the header of an ALTA file.
-/
namespace Alta

theorem getLine_append (l rest : Str) (h : '\n' ∉ l) : getLine (l ++ '\n' :: rest) = (l, rest) := by
  unfold getLine
  induction l with
  | nil => simp
  | cons c l ih =>
    simp only [List.mem_cons, not_or] at h
    have := ih h.2
    simp only [Prod.mk.injEq] at this
    have hc : c ≠ '\n' := fun e => h.1 e.symm
    simp only [List.cons_append, List.takeWhile_cons, List.dropWhile_cons, hc, ne_eq, not_false_eq_true,
      decide_true, if_true, Prod.mk.injEq, List.cons.injEq, true_and]
    exact this

theorem takeWhile_all {α} (p : α → Bool) (l : List α) (h : ∀ x ∈ l, p x = true) : l.takeWhile p = l := by
  induction l with
  | nil => rfl
  | cons c l ih => simp only [List.takeWhile_cons, h c (by simp), if_true, ih (fun x hx => h x (by simp [hx]))]

theorem dropWhile_all {α} (p : α → Bool) (l : List α) (h : ∀ x ∈ l, p x = true) : l.dropWhile p = [] := by
  induction l with
  | nil => rfl
  | cons c l ih => simp only [List.dropWhile_cons, h c (by simp), if_true, ih (fun x hx => h x (by simp [hx]))]

theorem readWord_word (ws w rest : Str) (hs : ∀ c ∈ ws, isSpace c = true) (hw : IsWord w)
    (hr : SpaceAhead rest) : readWord (ws ++ (w ++ rest)) = (w, rest) := by
  unfold readWord
  have h1 := dropWhile_word ws w rest hs hw
  have h2 := takeWhile_word w rest hw.2 hr
  simp only [h1, h2.1, h2.2]

theorem newline_isSpace : isSpace '\n' = true := by decide

theorem IsWord.newline {w : Str} (h : IsWord w) : '\n' ∉ w := by
  intro hc; have := h.2 _ hc; rw [newline_isSpace] at this; cases this

theorem HLine.text_cons (l : HLine) : ∃ t, l.text = '#' :: t := by
  cases l <;> exact ⟨_, rfl⟩

theorem HLine.newline (l : HLine) (h : l.WellFormed) : '\n' ∉ l.text := by
  cases l with
  | comment t =>
    simp only [HLine.WellFormed] at h
    simp [HLine.text, h]
  | empty => simp [HLine.text]
  | bind k sep v cr =>
    obtain ⟨h1, -, h3, -, -, h6, -⟩ := h
    have h3' : '\n' ∉ sep := fun hc => (h3 _ hc).2 rfl
    have := h1.newline
    cases cr <;> simp [HLine.text, h6, h3', this]
  | alta a b =>
    obtain ⟨h1, h2, -⟩ := h
    simp [HLine.text, h1.newline, h2.newline]

/-- what a line adds to the map -/
def HLine.apply (l : HLine) (m : SMap) : SMap :=
  match l with
  | .bind k _ v _ => m.update k v
  | _ => m

theorem word_head {k : Str} (h : IsWord k) : ∃ c r, k = c :: r ∧ isSpace c = false := by
  cases k with
  | nil => exact absurd rfl h.1
  | cons c r => exact ⟨c, r, rfl, h.2 c (by simp)⟩

theorem takeWhile_cr (v : Str) (h : '\r' ∉ v) (t : Str) (ht : t = [] ∨ ∃ r, t = '\r' :: r) :
    (v ++ t).takeWhile (· ≠ '\r') = v := by
  induction v with
  | nil => rcases ht with rfl | ⟨r, rfl⟩ <;> simp
  | cons c v ih =>
    simp only [List.mem_cons, not_or] at h
    have hc : c ≠ '\r' := fun e => h.1 e.symm
    simp only [List.cons_append, List.takeWhile_cons, hc, ne_eq, not_false_eq_true, decide_true, if_true]
    congr 1
    exact ih h.2

theorem headerLine_text (l : HLine) (t : Str) (ht : l.text = '#' :: t) (h : l.WellFormed) (m : SMap) :
    headerLine t m = some (l.apply m) := by
  cases l with
  | comment u =>
    simp only [HLine.text, List.cons.injEq, true_and] at ht
    subst ht
    simp [headerLine, HLine.apply]
  | empty =>
    simp only [HLine.text, List.cons.injEq, true_and] at ht
    subst ht
    simp [headerLine, HLine.apply, readWord]
  | bind k sep v cr =>
    simp only [HLine.text, List.cons.injEq, true_and] at ht
    subst ht
    obtain ⟨h1, h2, h3, h4, h5, h6, h7⟩ := h
    obtain ⟨c, r, hk, hc⟩ := word_head h1
    have hnot : ¬ ((k ++ (sep ++ (v ++ if cr then ['\r'] else []))).head? = some ' ') := by
      rw [hk]; simp only [List.cons_append, List.head?_cons, Option.some.injEq]
      rintro rfl; revert hc; decide
    have hahead : SpaceAhead (sep ++ (v ++ if cr then ['\r'] else [])) := by
      intro c r he
      cases sep with
      | cons a b => simp only [List.cons_append, List.cons.injEq] at he; rw [← he.1]; exact (h3 a (by simp)).1
      | nil =>
        have hv : v = [] := by by_contra hv; exact h4 hv rfl
        subst hv
        cases cr <;> simp at he
        rw [← he.1]; decide
    have hread := readWord_word [] k (sep ++ (v ++ if cr then ['\r'] else [])) (by simp) h1 hahead
    rw [List.nil_append] at hread
    have hdata : ((sep ++ (v ++ if cr then ['\r'] else [])).dropWhile isSpace).takeWhile (· ≠ '\r') = v := by
      have hd : ∀ (u : Str), (sep ++ u).dropWhile isSpace = u.dropWhile isSpace := by
        intro u
        have : ∀ c ∈ sep, isSpace c = true := fun c hc => (h3 c hc).1
        clear hread hahead hnot h3 h4
        induction sep with
        | nil => rfl
        | cons a b ih =>
          simp only [List.cons_append, List.dropWhile_cons, this a (by simp), if_true]
          exact ih (fun c hc => this c (by simp [hc]))
      rw [hd]
      cases v with
      | nil => cases cr <;> simp [isSpace]
      | cons a b =>
        have ha := h5 a b rfl
        have e : ((a :: b) ++ (if cr then ['\r'] else [])).dropWhile isSpace
            = (a :: b) ++ (if cr then ['\r'] else []) := by simp [ha]
        rw [e]
        apply takeWhile_cr _ h7
        cases cr
        · exact Or.inl rfl
        · exact Or.inr ⟨[], rfl⟩
    simp only [headerLine, if_neg hnot, hread, if_neg h1.1, if_neg h2, hdata, HLine.apply]
  | alta a b =>
    simp only [HLine.text, List.cons.injEq, true_and] at ht
    subst ht
    obtain ⟨h1, h2, h3⟩ := h
    have hr0 : readWord ("ALTA ".toList ++ (a ++ ' ' :: b)) = ("ALTA".toList, ' ' :: (a ++ ' ' :: b)) :=
      readWord_word [] "ALTA".toList (' ' :: (a ++ ' ' :: b)) (by simp)
        ⟨by simp, by decide⟩ (by intro c r h; simp at h; rw [← h.1]; decide)
    have hr1 : readWord (' ' :: (a ++ ' ' :: b)) = (a, ' ' :: b) :=
      readWord_word [' '] a (' ' :: b) (by simp [isSpace]) h1 (by intro c r h; simp at h; rw [← h.1]; decide)
    have hr2 : readWord (' ' :: b) = (b, []) := by
      have := readWord_word [' '] b [] (by simp [isSpace]) h2 (by intro c r h; cases h)
      rwa [List.append_nil] at this
    have hnot : ¬ (("ALTA ".toList ++ (a ++ ' ' :: b)).head? = some ' ') := by simp
    simp only [headerLine, if_neg hnot, hr0, hr1, hr2, if_neg h3, HLine.apply]
    simp

theorem parseHeaderFrom_lines (ls : List HLine) (h : ∀ l ∈ ls, l.WellFormed) (rest : Str)
    (hrest : ∀ r, rest ≠ '#' :: r) (m : SMap) :
    parseHeaderFrom (headerText ls ++ rest) m = (ls.foldl (fun m l => l.apply m) m, rest) := by
  induction ls generalizing m with
  | nil =>
    rw [headerText, List.nil_append, parseHeaderFrom.eq_def]
    split
    · exact absurd rfl (hrest _)
    · rfl
  | cons l ls ih =>
    obtain ⟨t, ht⟩ := l.text_cons
    have hl := h l (by simp)
    have hn := l.newline hl
    rw [ht] at hn
    have e : headerText (l :: ls) ++ rest = '#' :: (t ++ '\n' :: (headerText ls ++ rest)) := by
      simp [headerText, ht]
    have hg : getLine (t ++ '\n' :: (headerText ls ++ rest)) = (t, headerText ls ++ rest) :=
      getLine_append _ _ (fun hc => hn (by simp [hc]))
    rw [e, parseHeaderFrom]
    simp only [hg, headerLine_text l t ht hl m]
    rw [ih (fun l hl => h l (by simp [hl]))]
    rfl

theorem foldl_apply (ls : List HLine) (m : SMap) (hm : m.Ordered) :
    (ls.foldl (fun m l => l.apply m) m).Ordered ∧
    ∀ k, (ls.foldl (fun m l => l.apply m) m).find k = (lastBinding k ls).or (m.find k) := by
  induction ls generalizing m with
  | nil => exact ⟨hm, fun k => rfl⟩
  | cons l ls ih =>
    rw [List.foldl_cons]
    have hm' : (l.apply m).Ordered := by
      cases l with
      | bind k _ v _ => exact hm.update k v
      | _ => exact hm
    refine ⟨(ih _ hm').1, fun k => ?_⟩
    rw [(ih _ hm').2 k]
    cases l with
    | bind k' _ v _ =>
      simp only [lastBinding, HLine.apply, SMap.find_update hm]
      cases hlb : lastBinding k ls with
      | some v => rfl
      | none =>
        simp only [Option.none_or]
        split <;> rfl
    | _ =>
      simp only [lastBinding, HLine.apply]
      cases hlb : lastBinding k ls <;> rfl

/-- C21: a header is read as the bindings of its lines, the last one of each key
    winning, and reading stops exactly at the first line that is not a header
    line. -/
theorem parseHeader_spec (ls : List HLine) (h : ∀ l ∈ ls, l.WellFormed) (rest : Str)
    (hrest : ∀ r, rest ≠ '#' :: r) :
    (parseHeader (headerText ls ++ rest)).2 = rest ∧
    (∀ k, (parseHeader (headerText ls ++ rest)).1.find k = lastBinding k ls) ∧
    (∀ k, (parseHeader (headerText ls ++ rest)).1.isDefined k = (lastBinding k ls).isSome) := by
  have e := parseHeaderFrom_lines ls h rest hrest []
  have hf := (foldl_apply ls [] SMap.ordered_nil).2
  have hf' : ∀ k, (parseHeader (headerText ls ++ rest)).1.find k = lastBinding k ls := by
    intro k
    unfold parseHeader
    rw [e]
    simp only [hf]
    cases lastBinding k ls <;> rfl
  refine ⟨?_, hf', ?_⟩
  · unfold parseHeader; rw [e]
  · intro k; unfold SMap.isDefined; rw [hf' k]

/-- C21: every line starting with '#' at the front of the file is consumed, whatever
    its content, unless it says `#ALTA END HEADER`: what is left never starts with '#'
    unless such a line stopped the reading. -/
theorem parseHeader_rest (s : Str) :
    (∀ r, (parseHeader s).2 ≠ '#' :: r) ∨
    ∃ before line, '\n' ∉ line ∧ (∀ m, headerLine line m = none) ∧
      (s = before ++ '#' :: line ++ '\n' :: (parseHeader s).2 ∨
       (s = before ++ '#' :: line ∧ (parseHeader s).2 = [])) := by
  unfold parseHeader
  generalize ([] : SMap) = m
  induction hn : s.length using Nat.strong_induction_on generalizing s m with
  | _ n ih =>
  subst hn
  cases s with
  | nil => left; rw [parseHeaderFrom.eq_def]; simp
  | cons c r =>
    by_cases hc : c = '#'
    · subst hc
      rw [parseHeaderFrom]
      have hsplit : (∃ l t, r = l ++ '\n' :: t ∧ '\n' ∉ l ∧ getLine r = (l, t)) ∨
          ('\n' ∉ r ∧ getLine r = (r, [])) := by
        by_cases hr : '\n' ∈ r
        · left
          obtain ⟨l, t, rfl, hl⟩ := List.eq_append_cons_of_mem hr
          exact ⟨l, t, rfl, hl, getLine_append l t hl⟩
        · right
          refine ⟨hr, ?_⟩
          unfold getLine
          have h1 : r.takeWhile (· ≠ '\n') = r := by
            apply takeWhile_all; intro x hx; simp; rintro rfl; exact hr hx
          have h2 : r.dropWhile (· ≠ '\n') = [] := by
            apply dropWhile_all; intro x hx; simp; rintro rfl; exact hr hx
          rw [h1, h2]; rfl
      have hindep : ∀ (l : Str) (m m' : SMap), headerLine l m = none → headerLine l m' = none := by
        intro l m m' h
        unfold headerLine at h ⊢
        simp only at h ⊢
        split at h
        · cases h
        · rename_i h0
          rw [if_neg h0]
          split at h
          · cases h
          · rename_i h1
            rw [if_neg h1]
            split at h
            · rename_i h2
              rw [if_pos h2]
              split at h
              · rename_i h3
                rw [if_pos h3]
                split at h
                · cases h
                · rename_i h4; rw [if_neg h4]
              · cases h
            · cases h
      rcases hsplit with ⟨l, t, rfl, hl, hg⟩ | ⟨hr, hg⟩
      · rw [hg]
        simp only
        cases hh : headerLine l m with
        | none =>
          right
          exact ⟨[], l, hl, fun m' => hindep l m m' hh, Or.inl rfl⟩
        | some m' =>
          simp only
          rcases ih t.length (by simp; omega) t m' rfl with h | ⟨b, l', h1, h2, h3⟩
          · exact Or.inl h
          · right
            refine ⟨'#' :: l ++ '\n' :: b, l', h1, h2, ?_⟩
            rcases h3 with h3 | ⟨h3, h4⟩
            · left; simp only [List.cons_append, List.append_assoc]
              congr 3
              simpa using h3
            · right; refine ⟨?_, h4⟩
              simp only [List.cons_append, List.append_assoc]
              rw [h3]
      · rw [hg]
        simp only
        cases hh : headerLine r m with
        | none =>
          right
          exact ⟨[], r, hr, fun m' => hindep r m m' hh, Or.inr ⟨rfl, rfl⟩⟩
        | some m' =>
          left
          simp only
          rw [parseHeaderFrom.eq_def]; simp
    · left
      rw [parseHeaderFrom.eq_def]
      split
      · rename_i h; exact absurd (List.cons.inj h).1 hc
      · intro r' h; exact hc (List.cons.inj h).1

/-- a whole header, with a repeated key -/
example : (∀ l ∈ [HLine.alta "HEADER".toList "BEGIN".toList, .bind "DIM".toList " ".toList "3 1".toList false,
      .comment "made by hand".toList, .bind "VS".toList [] [] true,
      .bind "DIM".toList "  ".toList "2 1".toList true], l.WellFormed) ∧
    lastBinding "DIM".toList [HLine.alta "HEADER".toList "BEGIN".toList,
      .bind "DIM".toList " ".toList "3 1".toList false,
      .comment "made by hand".toList, .bind "VS".toList [] [] true,
      .bind "DIM".toList "  ".toList "2 1".toList true] = some "2 1".toList := by
  refine ⟨?_, by decide⟩
  intro l hl
  simp only [List.mem_cons, List.not_mem_nil, or_false] at hl
  rcases hl with rfl | rfl | rfl | rfl | rfl
  · exact ⟨⟨by simp, by decide⟩, ⟨by simp, by decide⟩, by decide⟩
  · exact ⟨⟨by simp, by decide⟩, by decide, by decide, by simp,
      by intro c r h; simp at h; rw [← h.1]; decide, by decide, by decide⟩
  · show '\n' ∉ "made by hand".toList; decide
  · exact ⟨⟨by simp, by decide⟩, by decide, by decide, by simp, by simp, by decide, by decide⟩
  · exact ⟨⟨by simp, by decide⟩, by decide, by decide, by simp,
      by intro c r h; simp at h; rw [← h.1]; decide, by decide, by decide⟩

/-- C21, limit of the code: the documented last line `#ALTA HEADER END` does not end
    the header; `#`-lines after it are still read as bindings. -/
theorem parseHeader_HEADER_END :
    (parseHeader "#ALTA HEADER END\n#DIM 1 1\n0 0".toList).1.find "DIM".toList = some "1 1".toList := by
  have h := (parseHeader_spec [.alta "HEADER".toList "END".toList, .bind "DIM".toList [' '] "1 1".toList false]
    (by
      intro l hl
      simp only [List.mem_cons, List.not_mem_nil, or_false] at hl
      rcases hl with rfl | rfl
      · exact ⟨⟨by simp, by decide⟩, ⟨by simp, by decide⟩, by decide⟩
      · exact ⟨⟨by simp, by decide⟩, by decide, by decide, by simp,
          by intro c r h; simp at h; rw [← h.1]; decide, by decide, by decide⟩) "0 0".toList
      (by intro r h; simp at h)).2.1 "DIM".toList
  exact h

end Alta
