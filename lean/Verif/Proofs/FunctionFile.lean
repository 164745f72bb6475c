import Verif.Spec.FunctionFile
import Verif.Props.LobesLawful
/-
Reading what was written: lines of a function file.
-/
namespace Alta
noncomputable section

/-- Only ends of line. -/
def Newlines (s : Str) : Prop := ∀ c ∈ s, c = '\n'

/-- Lines that do not start with `#` and fit in the buffer. -/
inductive Skippable : Str → Prop
  | nil : Skippable []
  | line (l rest : Str) : (∀ r, l ≠ '#' :: r) → '\n' ∉ l → l.length ≤ 255 → Skippable rest →
      Skippable (l ++ '\n' :: rest)

theorem Skippable.append {a b : Str} (ha : Skippable a) (hb : Skippable b) : Skippable (a ++ b) := by
  induction ha with
  | nil => exact hb
  | line l rest h1 h2 h3 _ ih =>
    have : l ++ '\n' :: rest ++ b = l ++ '\n' :: (rest ++ b) := by simp
    rw [this]; exact .line l _ h1 h2 h3 ih

theorem Newlines.skippable {s : Str} (h : Newlines s) : Skippable s := by
  induction s with
  | nil => exact .nil
  | cons c s ih =>
    have hc : c = '\n' := h c (by simp)
    subst hc
    exact Skippable.line [] s (by simp) (by simp) (by simp) (ih fun c hc => h c (by simp [hc]))

theorem Newlines.spaces {s : Str} (h : Newlines s) : Spaces s := fun c hc => by
  rw [h c hc]; decide

theorem newlines_nil : Newlines [] := by intro c h; cases h
theorem newlines_one : Newlines ['\n'] := by intro c h; simpa using h
theorem Newlines.append {a b : Str} (ha : Newlines a) (hb : Newlines b) : Newlines (a ++ b) := by
  intro c hc
  rcases List.mem_append.1 hc with h | h
  · exact ha c h
  · exact hb c h

theorem takeWhile_line (l rest : Str) (h : '\n' ∉ l) :
    (l ++ '\n' :: rest).takeWhile (· ≠ '\n') = l ∧ (l ++ '\n' :: rest).dropWhile (· ≠ '\n') = '\n' :: rest := by
  have hall : ∀ c ∈ l, decide (c ≠ '\n') = true := by
    intro c hc
    simp only [ne_eq, decide_not, Bool.not_eq_eq_eq_not, Bool.not_true, decide_eq_false_iff_not]
    rintro rfl; exact h hc
  constructor
  · rw [List.takeWhile_append_of_pos hall]; simp
  · rw [List.dropWhile_append_of_pos hall]; simp

theorem skipLines_line (l rest : Str) (h1 : ∀ r, l ≠ '#' :: r) (h2 : '\n' ∉ l) (h3 : l.length ≤ 255) :
    skipLines (l ++ '\n' :: rest) = skipLines rest := by
  obtain ⟨e1, e2⟩ := takeWhile_line l rest h2
  rw [skipLines.eq_def]
  split
  · rename_i r heq
    cases l with
    | nil => simp at heq
    | cons c l => simp only [List.cons_append, List.cons.injEq] at heq; exact absurd (by rw [heq.1]) (h1 l)
  · rename_i heq; simp at heq
  · rename_i c r _ heq
    rw [heq] at e1 e2
    rw [e1, if_neg (by omega)]
    split
    · rename_i h; rw [e2] at h; cases h
    · rename_i h; rw [e2] at h; cases h; rfl

theorem skipLines_skippable {pre : Str} (h : Skippable pre) (rest : Str) :
    skipLines (pre ++ rest) = skipLines rest := by
  induction h with
  | nil => rfl
  | line l r h1 h2 h3 _ ih =>
    have : l ++ '\n' :: r ++ rest = l ++ '\n' :: (r ++ rest) := by simp
    rw [this, skipLines_line l _ h1 h2 h3, ih]

theorem skipLines_hash (r : Str) : skipLines ('#' :: r) = .found ('#' :: r) := by
  rw [skipLines]

theorem readToken_word (w ws u rest : Str) (hs : Spaces ws) (hu : IsWord u) (hr : SpaceAhead rest) :
    readToken w (some (ws ++ (u ++ rest))) = (decide (u = w), some rest) := by
  unfold readToken
  simp only [readWord_word ws u rest hs hu hr, if_neg hu.1]

theorem isWord_func : IsWord "#FUNC".toList := ⟨by decide, by decide⟩

/-- the head of a block: `name` is the class that reads, `name'` the one that wrote -/
theorem readHead_saved {pre : Str} (hp : Skippable pre) (name name' rest : Str) (hn : IsWord name') :
    readHead name (some (pre ++ (funcLine name' ++ rest))) =
      (decide (name' = name), some ('\n' :: rest)) := by
  have e : funcLine name' ++ rest = "#FUNC".toList ++ (' ' :: (name' ++ '\n' :: rest)) := by
    simp only [funcLine]; simp
  have e2 : "#FUNC".toList ++ (' ' :: (name' ++ '\n' :: rest)) =
      '#' :: (['F', 'U', 'N', 'C'] ++ (' ' :: (name' ++ '\n' :: rest))) := rfl
  have h1 : skipLines (pre ++ (funcLine name' ++ rest)) =
      .found ("#FUNC".toList ++ (' ' :: (name' ++ '\n' :: rest))) := by
    rw [skipLines_skippable hp, e, e2, skipLines_hash]
  have h2 := readToken_word "#FUNC".toList [] "#FUNC".toList (' ' :: (name' ++ '\n' :: rest))
    (by intro c h; cases h) isWord_func (spaceAhead_cons _ _ (by decide))
  have h3 := readToken_word name [' '] name' ('\n' :: rest) (by intro c h; simp at h; rw [h]; decide) hn
    (spaceAhead_cons _ _ (by decide))
  simp only [List.nil_append] at h2
  unfold readHead
  simp only [h1, h2, decide_true, if_true]
  exact h3

/-- A key: a word and white space. -/
def GoodKey (k : Str) : Prop := ∃ w sp, k = w ++ sp ∧ IsWord w ∧ Spaces sp ∧ sp ≠ []

theorem readField_line (fmt : ℝ → Decimal) (hf : PrintsDigits fmt) (old : ℝ) (ws key rest : Str) (v : ℝ)
    (hw : Spaces ws) (hk : GoodKey key) :
    readField old (some (ws ++ (line fmt key v ++ rest))) = (printed fmt v, some ('\n' :: rest)) := by
  obtain ⟨w, sp, rfl, h1, h2, h3⟩ := hk
  have e : ws ++ (line fmt (w ++ sp) v ++ rest) = ws ++ (w ++ (sp ++ ((fmt v).text ++ ('\n' :: rest)))) := by
    simp only [line]; simp
  have hsa : SpaceAhead (sp ++ ((fmt v).text ++ ('\n' :: rest))) := by
    cases sp with
    | nil => exact absurd rfl h3
    | cons c sp => exact spaceAhead_cons _ _ (h2 c (by simp))
  unfold readField
  rw [e]
  simp only [readWord_word ws w _ hw h1 hsa, if_neg h1.1,
    strtod_text sp ('\n' :: rest) (fmt v) h2 (hf v) (numberEnds_space _ _ (by decide)), printed]

/-- Lines, each made of a key and a number. -/
def keyLines (fmt : ℝ → Decimal) (l : List (Str × ℝ)) : Str := l.flatMap fun p => line fmt p.1 p.2

theorem readFields_lines (fmt : ℝ → Decimal) (hf : PrintsDigits fmt) (l : List (Str × ℝ)) :
    ∀ (olds : List ℝ) (ws rest : Str), Newlines ws → olds.length = l.length → (∀ p ∈ l, GoodKey p.1) →
    ∃ ws', Newlines ws' ∧
      readFields olds (some (ws ++ (keyLines fmt l ++ rest))) =
        (l.map fun p => printed fmt p.2, some (ws' ++ rest)) := by
  induction l with
  | nil =>
    intro olds ws rest hw hl _
    rw [List.length_nil, List.length_eq_zero_iff] at hl
    subst hl
    exact ⟨ws, hw, rfl⟩
  | cons p l ih =>
    intro olds ws rest hw hl hk
    obtain ⟨o, os, rfl⟩ : ∃ o os, olds = o :: os := by
      cases olds with
      | nil => simp at hl
      | cons o os => exact ⟨o, os, rfl⟩
    have e : ws ++ (keyLines fmt (p :: l) ++ rest) = ws ++ (line fmt p.1 p.2 ++ (keyLines fmt l ++ rest)) := by
      simp [keyLines]
    obtain ⟨ws', h1, h2⟩ := ih os ['\n'] rest newlines_one (by simpa using hl) (fun q hq => hk q (by simp [hq]))
    refine ⟨ws', h1, ?_⟩
    rw [e]
    simp only [readFields, readField_line fmt hf o ws p.1 _ p.2 hw.spaces (hk p (by simp))]
    simp only [List.singleton_append] at h2
    rw [h2]
    rfl

theorem readFields_append (a b : List ℝ) (st : Stream) :
    readFields (a ++ b) st =
      ((readFields a st).1 ++ (readFields b (readFields a st).2).1, (readFields b (readFields a st).2).2) := by
  induction a generalizing st with
  | nil => rfl
  | cons v a ih => simp only [List.cons_append, readFields, ih]

theorem readFields_length (a : List ℝ) (st : Stream) : (readFields a st).1.length = a.length := by
  induction a generalizing st with
  | nil => rfl
  | cons v a ih => simp [readFields, ih]

theorem readBlock_saved {σ : Type} (fmt : ℝ → Decimal) (hf : PrintsDigits fmt) (name : Str) (hn : IsWord name)
    (l : List (Str × ℝ)) (hk : ∀ p ∈ l, GoodKey p.1) (olds : List ℝ) (hl : olds.length = l.length)
    (store : List ℝ → σ) (s : σ) {pre : Str} (hp : Skippable pre) (tl rest : Str) (ht : Newlines tl) :
    ∃ ws', Newlines ws' ∧
      readBlock name olds store s (some (pre ++ (funcLine name ++ (keyLines fmt l ++ (tl ++ rest))))) =
        (true, store (l.map fun p => printed fmt p.2), some (ws' ++ rest)) := by
  obtain ⟨ws', h1, h2⟩ := readFields_lines fmt hf l olds ['\n'] (tl ++ rest) newlines_one hl hk
  refine ⟨ws' ++ tl, h1.append ht, ?_⟩
  unfold readBlock
  rw [readHead_saved hp name name _ hn]
  simp only [decide_true, if_true]
  simp only [List.singleton_append] at h2
  rw [h2]
  simp

theorem readBlock_other {σ : Type} (name name' : Str) (hn : IsWord name') (hne : name' ≠ name)
    (olds : List ℝ) (store : List ℝ → σ) (s : σ) {pre : Str} (hp : Skippable pre) (rest : Str) :
    readBlock name olds store s (some (pre ++ (funcLine name' ++ rest))) =
        (false, s, some ('\n' :: rest)) := by
  unfold readBlock
  rw [readHead_saved hp name name' _ hn]
  simp [hne]

mutual
/-- Two functions built in the same way of plugin objects that are the same functions. -/
def FT.LeafSame : FT LobeObj → FT LobeObj → Prop
  | .leaf l, .leaf m => Fn.Same l.toFn m.toFn
  | .compound p fs, .compound q gs => p = q ∧ fs.LeafSame gs
  | .product p f g a b, .product q f' g' a' b' => p = q ∧ a = a' ∧ b = b' ∧ f.LeafSame f' ∧ g.LeafSame g'
  | _, _ => False
/-- the members of a compound -/
def FTs.LeafSame : FTs LobeObj → FTs LobeObj → Prop
  | .nil, .nil => True
  | .cons a f r, .cons b g r' => a.isDefined "fixed".toList = b.isDefined "fixed".toList ∧ f.LeafSame g ∧ r.LeafSame r'
  | _, _ => False
end

end
end Alta
