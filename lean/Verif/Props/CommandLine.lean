import Verif.Proofs.SMap
import Verif.Spec.CommandLine
/-
Properties C16 (command line parsing) and C19 (update).
-/
namespace Alta

theorem endsBracket_iff (s : Str) : endsBracket s = true ↔ ∃ r, s = r ++ [']'] := by
  unfold endsBracket
  rw [decide_eq_true_iff, List.getLast?_eq_some_iff]

theorem take2_iff (w : Str) : w.take 2 = ['-', '-'] ↔ ∃ k, w = optWord k := by
  constructor
  · intro h
    match w, h with
    | a :: b :: r, h => simp at h; exact ⟨r, by simp [optWord, h.1, h.2]⟩
  · rintro ⟨k, rfl⟩; simp [optWord]

theorem drop2_optWord (k : Str) : (optWord k).drop 2 = k := rfl

theorem parseArgs_nil (m : SMap) : parseArgs [] m = some m := by rw [parseArgs]

theorem parseArgs_stray (w : Str) (rest : List Str) (m : SMap) (h : ∀ k, w ≠ optWord k) :
    parseArgs (w :: rest) m = parseArgs rest m := by
  rw [parseArgs]
  rw [if_neg]
  rw [take2_iff]; rintro ⟨k, hk⟩; exact h k hk

theorem parseArgs_last (k : Str) (m : SMap) :
    parseArgs [optWord k] m = some (m.insert k []) := by
  rw [parseArgs]
  rw [if_pos ((take2_iff _).2 ⟨k, rfl⟩)]
  rfl

theorem parseArgs_flag (k w : Str) (rest : List Str) (m : SMap) :
    parseArgs (optWord k :: ('-' :: w) :: rest) m
      = parseArgs (('-' :: w) :: rest) (m.insert k []) := by
  rw [parseArgs]
  rw [if_pos ((take2_iff _).2 ⟨k, rfl⟩)]
  simp only [drop2_optWord, List.head?_cons, if_true]

theorem parseArgs_word (k w : Str) (rest : List Str) (m : SMap) (h1 : w.head? ≠ some '-')
    (h2 : ¬ (w.head? = some '[' ∧ ¬ endsBracket w)) :
    parseArgs (optWord k :: w :: rest) m = parseArgs rest (m.insert k w) := by
  rw [parseArgs]
  rw [if_pos ((take2_iff _).2 ⟨k, rfl⟩)]
  simp only [drop2_optWord, if_neg h1, if_neg h2]

theorem parseArgs_vec (k w : Str) (rest : List Str) (m : SMap) (h1 : w.head? = some '[')
    (h2 : ¬ endsBracket w) (d : Str) (r : List Str) (hj : joinVec w w rest = some (d, r)) :
    parseArgs (optWord k :: w :: rest) m = parseArgs r (m.insert k d) := by
  rw [parseArgs]
  rw [if_pos ((take2_iff _).2 ⟨k, rfl⟩)]
  have h0 : w.head? ≠ some '-' := by rw [h1]; decide
  simp only [drop2_optWord, if_neg h0, if_pos (And.intro h1 h2)]
  split
  · rename_i hh; rw [hj] at hh; cases hh
  · rename_i hh; rw [hj] at hh; cases hh; rfl

/-- the collecting loop reads exactly the words up to the closing bracket -/
theorem joinVec_eq (data cur : Str) (ws next : List Str)
    (h : ∀ u ∈ (cur :: ws).dropLast, u ≠ [] ∧ ¬ endsBracket u)
    (hl : next = [] ∨ ((cur :: ws).getLast (by simp) ≠ [] ∧ endsBracket ((cur :: ws).getLast (by simp)))) :
    joinVec data cur (ws ++ next) = some (ws.foldl (fun d w => d ++ ' ' :: w) data, next) := by
  induction ws generalizing data cur with
  | nil =>
    simp only [List.nil_append, List.foldl_nil]
    cases next with
    | nil => rfl
    | cons n rest =>
      simp only [joinVec]
      rcases hl with hl | hl
      · cases hl
      · simp only [List.getLast_singleton] at hl
        rw [if_neg hl.1, if_pos hl.2]
  | cons w ws ih =>
    have hc := h cur (by simp)
    simp only [List.cons_append, joinVec, List.foldl_cons]
    rw [if_neg hc.1, if_neg hc.2]
    apply ih
    · intro u hu; exact h u (by simp only [List.dropLast_cons_cons, List.mem_cons] at *; right; exact hu)
    · rcases hl with hl | hl
      · left; exact hl
      · right; simpa using hl

theorem foldl_join (w : Str) (ws : List Str) :
    ws.foldl (fun d w => d ++ ' ' :: w) w = joinWords (w :: ws) := by
  induction ws generalizing w with
  | nil => rfl
  | cons v ws ih =>
    rw [List.foldl_cons, ih]
    cases ws with
    | nil => rfl
    | cons a b => simp [joinWords]

/-- C16: parsing a command line.  The map holds, for each option name, the
    value of its first item (a value already in the map stays). -/
theorem parseArgs_items (is : List Item) (m : SMap) (hm : m.Ordered) (h : ReadableLine is) :
    ∃ m', parseArgs (lineWords is) m = some m' ∧ m'.Ordered ∧
      ∀ k, m'.find k = (m.find k).or (firstBinding k is) := by
  induction is generalizing m with
  | nil => exact ⟨m, parseArgs_nil m, hm, fun k => by simp [firstBinding]⟩
  | cons i is ih =>
    obtain ⟨hi, his⟩ := h
    have step : ∀ k v, i.binding = some (k, v) → ∀ m',
        (∀ k', SMap.find m' k' = ((m.insert k v).find k').or (firstBinding k' is)) →
        ∀ k', SMap.find m' k' = (m.find k').or (firstBinding k' (i :: is)) := by
      intro k v hb m' h' k'
      rw [h', SMap.find_insert hm]
      simp only [firstBinding, hb]
      by_cases hk : k' = k
      · subst hk
        simp only [if_true]
        cases m.find k' <;> simp
      · simp [hk]
    cases i with
    | stray w =>
      obtain ⟨m', h1, h2, h3⟩ := ih m hm his
      refine ⟨m', ?_, h2, ?_⟩
      · rw [← h1]; exact parseArgs_stray w _ m hi
      · intro k; rw [h3]; rfl
    | flag k =>
      rcases hi with hi | ⟨w, ws, hi⟩
      · have : lineWords (Item.flag k :: is) = [optWord k] := by
          show [optWord k] ++ lineWords is = _; rw [hi]; rfl
        rw [this]
        obtain ⟨m', h1, h2, h3⟩ := ih (m.insert k []) (hm.insert _ _) his
        rw [hi, parseArgs_nil] at h1
        cases h1
        exact ⟨_, parseArgs_last k m, h2, step k [] rfl _ h3⟩
      · obtain ⟨m', h1, h2, h3⟩ := ih (m.insert k []) (hm.insert _ _) his
        refine ⟨m', ?_, h2, step k [] rfl _ h3⟩
        show parseArgs (optWord k :: lineWords is) m = _
        rw [hi, parseArgs_flag, ← hi, h1]
    | word k w =>
      obtain ⟨m', h1, h2, h3⟩ := ih (m.insert k w) (hm.insert _ _) his
      refine ⟨m', ?_, h2, step k w rfl _ h3⟩
      show parseArgs (optWord k :: w :: lineWords is) m = _
      rw [parseArgs_word, h1]
      · intro hh
        cases w with
        | nil => simp at hh
        | cons c r => simp at hh; exact hi.1 r (by rw [hh])
      · rintro ⟨hh, he⟩
        cases w with
        | nil => simp at hh
        | cons c r =>
          simp at hh
          exact he ((endsBracket_iff _).2 (hi.2 ⟨r, by rw [hh]⟩))
    | vec k w ws =>
      obtain ⟨⟨r, hw⟩, hne, hall, hlast⟩ := hi
      obtain ⟨m', h1, h2, h3⟩ := ih (m.insert k (joinWords (w :: ws))) (hm.insert _ _) his
      refine ⟨m', ?_, h2, step k _ rfl _ h3⟩
      show parseArgs (optWord k :: w :: (ws ++ lineWords is)) m = _
      have hall' : ∀ u ∈ (w :: ws).dropLast, u ≠ [] ∧ ¬ endsBracket u := by
        intro u hu
        refine ⟨(hall u hu).1, ?_⟩
        rw [endsBracket_iff]; rintro ⟨q, hq⟩; exact (hall u hu).2 q hq
      have hwe : ¬ endsBracket w := by
        rw [endsBracket_iff]; rintro ⟨q, hq⟩; exact hne q hq
      rw [parseArgs_vec k w _ m (by rw [hw]; rfl) hwe _ _ (joinVec_eq w w ws (lineWords is) hall' ?_),
        foldl_join, h1]
      rcases hlast with hl | ⟨q, hq⟩
      · left; exact hl
      · right
        rw [List.getLast?_eq_getLast_of_ne_nil (by simp), Option.some.injEq] at hq
        rw [hq]
        exact ⟨by simp, (endsBracket_iff _).2 ⟨q, rfl⟩⟩

example : ReadableLine [.stray "prog".toList, .word "input".toList "f.dat".toList,
    .flag "verbose".toList, .vec "min".toList "[0,".toList ["1]".toList], .flag "x".toList] := by
  refine ⟨?_, ⟨?_, ?_⟩, ?_, ⟨⟨_, rfl⟩, ?_, ?_, ?_⟩, Or.inl rfl, trivial⟩
  · intro k h; simp [optWord] at h
  · intro r h; simp at h
  · rintro ⟨r, h⟩; simp at h
  · exact Or.inr ⟨_, _, rfl⟩
  · intro r h
    have := congrArg List.getLast? h
    simp at this
  · intro u hu
    simp at hu; subst hu
    refine ⟨by simp, ?_⟩
    intro r h
    have := congrArg List.getLast? h
    simp at this
  · exact Or.inr ⟨['1'], rfl⟩

/-- the words up to the first one that ends with a closing bracket -/
def splitClose : List Str → List Str × List Str
  | [] => ([], [])
  | w :: r =>
    if endsBracket w then ([w], r) else (w :: (splitClose r).1, (splitClose r).2)

theorem splitClose_append (l : List Str) : (splitClose l).1 ++ (splitClose l).2 = l := by
  induction l with
  | nil => rfl
  | cons w r ih => simp only [splitClose]; split <;> simp [ih]

theorem splitClose_spec (w : Str) (l : List Str) (hw : ¬ endsBracket w) :
    (∀ u ∈ (w :: (splitClose l).1).dropLast, ¬ endsBracket u) ∧
    ((splitClose l).2 = [] ∨ ∃ u, (w :: (splitClose l).1).getLast? = some u ∧ endsBracket u) := by
  induction l generalizing w with
  | nil => simp [splitClose]
  | cons v r ih =>
    simp only [splitClose]
    split
    · rename_i hv
      refine ⟨?_, Or.inr ⟨v, by simp, hv⟩⟩
      intro u hu; simp at hu; rw [hu]; exact hw
    · rename_i hv
      obtain ⟨h1, h2⟩ := ih v hv
      refine ⟨?_, ?_⟩
      · intro u hu
        rw [List.dropLast_cons_cons] at hu
        rcases List.mem_cons.1 hu with rfl | hu
        · exact hw
        · exact h1 u hu
      · rcases h2 with h2 | ⟨u, h2, h3⟩
        · left; exact h2
        · right; exact ⟨u, by rw [List.getLast?_cons_cons]; exact h2, h3⟩

/-- every command line without empty words is a readable one -/
theorem exists_items (n : ℕ) (argv : List Str) (hn : argv.length ≤ n) (h : ∀ w ∈ argv, w ≠ []) :
    ∃ is, ReadableLine is ∧ lineWords is = argv := by
  induction n generalizing argv with
  | zero =>
    have : argv = [] := List.length_eq_zero_iff.1 (by omega)
    exact ⟨[], trivial, this.symm ▸ rfl⟩
  | succ n ih =>
    cases argv with
    | nil => exact ⟨[], trivial, rfl⟩
    | cons w rest =>
      simp only [List.length_cons] at hn
      have hrest : ∀ u ∈ rest, u ≠ [] := fun u hu => h u (by simp [hu])
      by_cases hw : ∃ k, w = optWord k
      · obtain ⟨k, rfl⟩ := hw
        cases rest with
        | nil => exact ⟨[.flag k], ⟨Or.inl rfl, trivial⟩, rfl⟩
        | cons v rest' =>
          simp only [List.length_cons] at hn
          have hv : v ≠ [] := hrest v (by simp)
          have hrest' : ∀ u ∈ rest', u ≠ [] := fun u hu => hrest u (by simp [hu])
          by_cases hd : ∃ r, v = '-' :: r
          · obtain ⟨r, rfl⟩ := hd
            obtain ⟨is, h1, h2⟩ := ih (('-' :: r) :: rest') (by simp only [List.length_cons]; omega) hrest
            exact ⟨.flag k :: is, ⟨Or.inr ⟨r, rest', h2⟩, h1⟩,
              by show [optWord k] ++ lineWords is = _; rw [h2]; rfl⟩
          · by_cases hb : (∃ r, v = '[' :: r) ∧ ¬ endsBracket v
            · have hs := splitClose_spec v rest' hb.2
              have ha := splitClose_append rest'
              have hlen : (splitClose rest').2.length ≤ rest'.length := by
                rw [← congrArg List.length ha]; simp
              obtain ⟨is, h1, h2⟩ := ih (splitClose rest').2 (by omega)
                (fun u hu => hrest' u (by rw [← ha]; simp [hu]))
              refine ⟨.vec k v (splitClose rest').1 :: is, ⟨⟨hb.1, ?_, ?_, ?_⟩, h1⟩, ?_⟩
              · intro r hr; exact hb.2 ((endsBracket_iff _).2 ⟨r, hr⟩)
              · intro u hu
                refine ⟨?_, fun r hr => hs.1 u hu ((endsBracket_iff _).2 ⟨r, hr⟩)⟩
                rcases List.mem_cons.1 ((List.dropLast_sublist _).subset hu) with rfl | hu
                · exact hv
                · exact hrest' u (by rw [← ha]; simp [hu])
              · rw [h2]
                rcases hs.2 with hs | ⟨u, hs, hu⟩
                · left; exact hs
                · right
                  obtain ⟨r, hr⟩ := (endsBracket_iff _).1 hu
                  exact ⟨r, hr ▸ hs⟩
              · show optWord k :: v :: ((splitClose rest').1 ++ lineWords is) = _
                rw [h2, ha]
            · obtain ⟨is, h1, h2⟩ := ih rest' (by omega) hrest'
              refine ⟨.word k v :: is, ⟨⟨fun r hr => hd ⟨r, hr⟩, ?_⟩, h1⟩, ?_⟩
              · intro hh
                by_contra hc
                exact hb ⟨hh, fun he => hc ((endsBracket_iff _).1 he)⟩
              · show optWord k :: v :: lineWords is = _
                rw [h2]
      · obtain ⟨is, h1, h2⟩ := ih rest (by omega) hrest
        refine ⟨.stray w :: is, ⟨fun k hk => hw ⟨k, hk⟩, h1⟩, ?_⟩
        show [w] ++ lineWords is = _
        rw [h2]; rfl

/-- C16: whatever the words on the command line (none of them empty), they are
    read as a sequence of options and stray words, and the arguments object
    defines exactly the options of that sequence, each with the value of its first
    occurrence. -/
theorem parseArgs_spec (argv : List Str) (h : ∀ w ∈ argv, w ≠ []) :
    ∃ is m, ReadableLine is ∧ lineWords is = argv ∧ parseArgs argv [] = some m ∧ m.Ordered ∧
      ∀ k, m.find k = firstBinding k is := by
  obtain ⟨is, h1, h2⟩ := exists_items argv.length argv le_rfl h
  obtain ⟨m, h3, h4, h5⟩ := parseArgs_items is [] SMap.ordered_nil h1
  rw [h2] at h3
  exact ⟨is, m, h1, h2, h3, h4, fun k => by rw [h5]; rfl⟩

example : ∀ w ∈ ["prog".toList, "--min".toList, "[0,".toList, "1]".toList], w ≠ [] := by simp

/-- C16: an option is defined only if its name is a word of the command line. -/
theorem parseArgs_defined (argv : List Str) (h : ∀ w ∈ argv, w ≠ []) (m : SMap)
    (hm : parseArgs argv [] = some m) (k : Str) (hk : m.isDefined k) : optWord k ∈ argv := by
  obtain ⟨is, m', h1, h2, h3, -, h5⟩ := parseArgs_spec argv h
  rw [hm] at h3; cases h3
  rw [← h2]
  unfold SMap.isDefined at hk
  rw [h5] at hk
  clear hm h5 h2 h1
  induction is with
  | nil => simp [firstBinding] at hk
  | cons i is ih =>
    have : lineWords (i :: is) = i.words ++ lineWords is := rfl
    rw [this, List.mem_append]
    cases i with
    | stray w => right; exact ih hk
    | flag k' =>
      by_cases hkk : k = k'
      · left; simp [Item.words, hkk]
      · right; apply ih; simpa [firstBinding, Item.binding, hkk] using hk
    | word k' w =>
      by_cases hkk : k = k'
      · left; simp [Item.words, hkk]
      · right; apply ih; simpa [firstBinding, Item.binding, hkk] using hk
    | vec k' w ws =>
      by_cases hkk : k = k'
      · left; simp [Item.words, hkk]
      · right; apply ih; simpa [firstBinding, Item.binding, hkk] using hk

/-- C16: an option name directly after a complete item is defined, with the next
    word as value when that word does not start with a dash or a bracket. -/
theorem parseArgs_value (is js : List Item) (k w : Str) (hk : firstBinding k is = none)
    (h : ReadableLine (is ++ .word k w :: js)) :
    ∃ m, parseArgs (lineWords is ++ [optWord k, w] ++ lineWords js) [] = some m ∧
      m.find k = some w := by
  obtain ⟨m, h1, -, h3⟩ := parseArgs_items _ [] SMap.ordered_nil h
  refine ⟨m, ?_, ?_⟩
  · rw [← h1]; simp [lineWords, Item.words]
  · rw [h3]
    simp only [SMap.find, Option.none_or]
    clear h h1 h3
    induction is with
    | nil => simp [firstBinding, Item.binding]
    | cons i is ih =>
      simp only [List.cons_append, firstBinding] at *
      split
      · rename_i k' v hb
        simp only [hb] at hk
        split at hk
        · cases hk
        · rename_i hne; rw [if_neg hne]; exact ih hk
      · rename_i hb
        simp only [hb] at hk
        exact ih hk

example : ReadableLine ([] ++ .word "input".toList "f.dat".toList :: []) := by
  refine ⟨⟨?_, ?_⟩, trivial⟩
  · intro r h; simp at h
  · rintro ⟨r, h⟩; simp at h

/-- C16, limit of the code: a value that starts with a dash (a negative number)
    is not read as a value. -/
theorem parseArgs_negative (k w : Str) (hw : ∀ r, w ≠ '-' :: r) :
    ∃ m, parseArgs [optWord k, '-' :: w] [] = some m ∧ m.find k = some [] := by
  refine ⟨SMap.insert [] k [], ?_, by simp [SMap.insert, SMap.find]⟩
  rw [parseArgs_flag, parseArgs_stray, parseArgs_nil]
  rintro k' h
  simp only [optWord, List.cons.injEq, true_and] at h
  exact hw _ h

example : ∀ r, "0.5".toList ≠ '-' :: r := by intro r h; simp at h

/-- C16, limit of the code: an empty word inside an unclosed bracket makes the
    parser read before the start of a string. -/
theorem parseArgs_empty_word (k : Str) :
    parseArgs [optWord k, "[0".toList, [], "1]".toList] [] = none := by
  rw [parseArgs, if_pos ((take2_iff _).2 ⟨k, rfl⟩)]
  simp only
  rw [if_neg (by decide), if_pos (by decide)]
  rfl

/-- C19: `update` makes the key return the value and leaves every other key as it
    was. -/
theorem update_spec (m : SMap) (hm : m.Ordered) (k v : Str) :
    (m.update k v).Ordered ∧ (m.update k v).isDefined k = true ∧ (m.update k v).get k = v ∧
    ∀ k', k' ≠ k → (m.update k v).isDefined k' = m.isDefined k' ∧
      (m.update k v).get k' = m.get k' := by
  refine ⟨hm.update k v, ?_, ?_, ?_⟩
  · simp [SMap.isDefined, SMap.find_update hm]
  · simp [SMap.get, SMap.find_update hm]
  · intro k' hk
    simp [SMap.isDefined, SMap.get, SMap.find_update hm, hk]

example : SMap.Ordered [("a".toList, "1".toList), ("b".toList, "2".toList)] := by
  unfold SMap.Ordered
  rw [List.pairwise_cons]
  refine ⟨?_, by simp⟩
  intro e he
  simp at he; rw [he]; decide

end Alta
