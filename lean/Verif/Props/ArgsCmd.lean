import Verif.Props.CommandLine
/-
Property C20: rebuilding the arguments from the command line they describe.
-/
namespace Alta

/-- a text that continues with white space, or ends -/
def SpaceAhead (s : Str) : Prop := ∀ c r, s = c :: r → isSpace c = true

theorem dropWhile_word (ws w rest : Str) (hs : ∀ c ∈ ws, isSpace c = true) (hw : IsWord w) :
    (ws ++ (w ++ rest)).dropWhile isSpace = w ++ rest := by
  induction ws with
  | nil =>
    cases w with
    | nil => exact absurd rfl hw.1
    | cons c r => simp [hw.2 c (by simp)]
  | cons c ws ih =>
    simp only [List.cons_append, List.dropWhile_cons, hs c (by simp), if_true]
    exact ih (fun c hc => hs c (by simp [hc]))

theorem takeWhile_word (w rest : Str) (hw : ∀ c ∈ w, isSpace c = false) (hr : SpaceAhead rest) :
    (w ++ rest).takeWhile (fun c => !isSpace c) = w ∧
    (w ++ rest).dropWhile (fun c => !isSpace c) = rest := by
  induction w with
  | nil =>
    cases rest with
    | nil => simp
    | cons c r => simp [hr c r rfl]
  | cons c w ih =>
    have := ih (fun c hc => hw c (by simp [hc]))
    simp [hw c (by simp), this.1, this.2]

theorem streamWords_congr (s t : Str) (h : s.dropWhile isSpace = t.dropWhile isSpace) :
    streamWords s = streamWords t := by
  rw [streamWords, streamWords, h]

theorem streamWords_space (c : Char) (s : Str) (h : isSpace c = true) :
    streamWords (c :: s) = streamWords s := by
  apply streamWords_congr; simp [h]

theorem streamWords_word (ws w rest : Str) (hs : ∀ c ∈ ws, isSpace c = true) (hw : IsWord w)
    (hr : SpaceAhead rest) (hne : rest ≠ []) :
    streamWords (ws ++ (w ++ rest)) = w :: streamWords rest := by
  rw [streamWords]
  have h1 := dropWhile_word ws w rest hs hw
  have h2 := takeWhile_word w rest hw.2 hr
  simp only [h1, h2.1]
  split
  · rename_i heq; rw [h1, h2.2] at heq; exact absurd heq hne
  · rename_i heq; rw [h1, h2.2] at heq; rw [heq]

theorem streamWords_last (ws w : Str) (hs : ∀ c ∈ ws, isSpace c = true) (hw : IsWord w) :
    streamWords (ws ++ w) = [w] := by
  rw [streamWords]
  have h1 := dropWhile_word ws w [] hs hw
  have h2 := takeWhile_word w [] hw.2 (by intro c r h; cases h)
  simp only [List.append_nil] at h1 h2
  simp only [h1, h2.1]
  split
  · rfl
  · rename_i heq; rw [h1, h2.2] at heq; cases heq

theorem streamWords_nil : streamWords [] = [[]] := by
  rw [streamWords]; rfl

theorem streamWords_join (w : Str) (ws : List Str) (rest : Str) (h : ∀ u ∈ w :: ws, IsWord u)
    (hr : SpaceAhead rest) :
    streamWords (' ' :: (joinWords (w :: ws) ++ rest))
      = (w :: ws) ++ (if rest = [] then [] else streamWords rest) := by
  induction ws generalizing w with
  | nil =>
    have hw := h w (by simp)
    simp only [joinWords]
    split
    · rename_i hrest
      subst hrest
      rw [List.append_nil]
      exact streamWords_last [' '] w (by simp [isSpace]) hw
    · rename_i hrest
      exact streamWords_word [' '] w rest (by simp [isSpace]) hw hr hrest
  | cons v ws ih =>
    have hw := h w (by simp)
    have e : joinWords (w :: v :: ws) ++ rest = w ++ (' ' :: (joinWords (v :: ws) ++ rest)) := by
      simp [joinWords]
    rw [e]
    have := streamWords_word [' '] w (' ' :: (joinWords (v :: ws) ++ rest)) (by simp [isSpace]) hw
      (by intro c r h; simp at h; rw [← h.1]; decide) (by simp)
    simp only [List.cons_append, List.nil_append] at this
    rw [this, ih v (fun u hu => h u (by simp at hu ⊢; tauto))]
    simp

/-- Specification of C20: a value that survives being written on a command line:
    empty, one word that does not look like an option or an unclosed bracket, or a
    bracketed list cut by single spaces. -/
inductive CmdValue : Str → Prop
  | empty : CmdValue []
  | word (w : Str) : IsWord w → (∀ r, w ≠ '-' :: r) → ((∃ r, w = '[' :: r) → ∃ r, w = r ++ [']']) →
      CmdValue w
  | vec (w : Str) (ws : List Str) : ws ≠ [] → (∀ u ∈ w :: ws, IsWord u) → (∃ r, w = '[' :: r) →
      (∀ u ∈ (w :: ws).dropLast, ∀ r, u ≠ r ++ [']']) → (∃ r, (w :: ws).getLast? = some (r ++ [']'])) →
      CmdValue (joinWords (w :: ws))

/-- Specification of C20: names are words, values survive. -/
def CmdMap (m : SMap) : Prop := ∀ e ∈ m, IsWord e.1 ∧ CmdValue e.2

theorem getCmd_space (m : SMap) (h : CmdMap m) : SpaceAhead m.getCmd := by
  intro c r hc
  cases m with
  | nil => cases hc
  | cons e m =>
    have := (h e (by simp)).1.1
    simp only [SMap.getCmd, if_neg this, List.cons_append, List.cons.injEq] at hc
    rw [← hc.1]; decide

theorem getCmd_ne_nil (e : Str × Str) (m : SMap) (h : IsWord e.1) : SMap.getCmd (e :: m) ≠ [] := by
  simp [SMap.getCmd, h.1]

/-- the words of the rebuilt command line form a readable line with the same
    bindings -/
theorem getCmd_items (e : Str × Str) (m : SMap) (h : CmdMap (e :: m)) :
    ∃ is, ReadableLine is ∧ streamWords (SMap.getCmd (e :: m)) = lineWords is ∧
      (∃ w ws, lineWords is = ('-' :: w) :: ws) ∧
      ∀ k, firstBinding k is = SMap.find (e :: m) k := by
  induction m generalizing e with
  | nil =>
    obtain ⟨hk, hv⟩ := h e (by simp)
    obtain ⟨k, v⟩ := e
    have hopt : IsWord (optWord k) := ⟨by simp [optWord], by
      intro c hc; simp only [optWord, List.mem_cons] at hc
      rcases hc with rfl | rfl | hc
      · decide
      · decide
      · exact hk.2 c hc⟩
    have e1 : SMap.getCmd [(k, v)] = [' '] ++ (optWord k ++ (' ' :: v)) := by
      simp [SMap.getCmd, hk.1, optWord]
    have e2 : streamWords (SMap.getCmd [(k, v)]) = optWord k :: streamWords (' ' :: v) := by
      rw [e1]
      exact streamWords_word _ _ _ (by simp [isSpace]) hopt
        (by intro c r h; simp at h; rw [← h.1]; decide) (by simp)
    have hfind : ∀ (i : Item), i.binding = some (k, v) →
        ∀ k', firstBinding k' [i] = SMap.find [(k, v)] k' := by
      intro i hb k'
      simp only [firstBinding, hb, SMap.find]
    cases hv with
    | empty =>
      refine ⟨[.word k []], ⟨⟨by simp, by rintro ⟨r, h⟩; cases h⟩, trivial⟩, ?_, ⟨_, _, rfl⟩, hfind _ rfl⟩
      rw [e2, streamWords_space ' ' [] (by decide), streamWords_nil]; rfl
    | word _ h1 h2 h3 =>
      refine ⟨[.word k v], ⟨⟨h2, h3⟩, trivial⟩, ?_, ⟨_, _, rfl⟩, hfind _ rfl⟩
      have := streamWords_last [' '] v (by simp [isSpace]) h1
      rw [List.singleton_append] at this
      rw [e2, this]; rfl
    | vec w ws h1 h2 h3 h4 h5 =>
      refine ⟨[.vec k w ws], ⟨⟨h3, ?_, ?_, Or.inr h5⟩, trivial⟩, ?_, ⟨_, _, rfl⟩, hfind _ rfl⟩
      · cases ws with
        | nil => exact absurd rfl h1
        | cons a b => exact h4 w (by simp)
      · intro u hu; exact ⟨(h2 u ((List.dropLast_sublist _).subset hu)).1, h4 u hu⟩
      · rw [e2]
        have := streamWords_join w ws [] h2 (by intro c r h; cases h)
        rw [List.append_nil] at this
        rw [this]; simp [lineWords, Item.words]
  | cons e' m ih =>
    obtain ⟨hk, hv⟩ := h e (by simp)
    obtain ⟨k, v⟩ := e
    have hm : CmdMap (e' :: m) := fun f hf => h f (by simp at hf ⊢; tauto)
    obtain ⟨is, r1, r2, ⟨w0, ws0, r3⟩, r4⟩ := ih e' hm
    have hopt : IsWord (optWord k) := ⟨by simp [optWord], by
      intro c hc; simp only [optWord, List.mem_cons] at hc
      rcases hc with rfl | rfl | hc
      · decide
      · decide
      · exact hk.2 c hc⟩
    have hne := getCmd_ne_nil e' m (h e' (by simp)).1
    have hsp := getCmd_space (e' :: m) hm
    have e1 : SMap.getCmd ((k, v) :: e' :: m)
        = [' '] ++ (optWord k ++ (' ' :: (v ++ SMap.getCmd (e' :: m)))) := by
      conv_lhs => rw [SMap.getCmd]
      simp [hk.1, optWord]
    have e2 : streamWords (SMap.getCmd ((k, v) :: e' :: m))
        = optWord k :: streamWords (' ' :: (v ++ SMap.getCmd (e' :: m))) := by
      rw [e1]
      exact streamWords_word _ _ _ (by simp [isSpace]) hopt
        (by intro c r h; simp at h; rw [← h.1]; decide) (by simp)
    have hfind : ∀ (i : Item), i.binding = some (k, v) →
        ∀ k', firstBinding k' (i :: is) = SMap.find ((k, v) :: e' :: m) k' := by
      intro i hb k'
      rw [SMap.find]
      simp only [firstBinding, hb, r4]
    cases hv with
    | empty =>
      refine ⟨.flag k :: is, ⟨Or.inr ⟨_, _, r3⟩, r1⟩, ?_, ⟨_, _, rfl⟩, hfind _ rfl⟩
      rw [e2, streamWords_space ' ' _ (by decide), List.nil_append, r2]; rfl
    | word _ h1 h2 h3 =>
      refine ⟨.word k v :: is, ⟨⟨h2, h3⟩, r1⟩, ?_, ⟨_, _, rfl⟩, hfind _ rfl⟩
      rw [e2]
      have := streamWords_word [' '] v (SMap.getCmd (e' :: m)) (by simp [isSpace]) h1 hsp hne
      rw [List.singleton_append] at this
      rw [this, r2]; rfl
    | vec w ws h1 h2 h3 h4 h5 =>
      refine ⟨.vec k w ws :: is, ⟨⟨h3, ?_, ?_, Or.inr h5⟩, r1⟩, ?_, ⟨_, _, rfl⟩, hfind _ rfl⟩
      · cases ws with
        | nil => exact absurd rfl h1
        | cons a b => exact h4 w (by simp)
      · intro u hu; exact ⟨(h2 u ((List.dropLast_sublist _).subset hu)).1, h4 u hu⟩
      · rw [e2, streamWords_join w ws _ h2 hsp, if_neg hne, r2]; simp [lineWords, Item.words]

/-- two ordered maps with the same content are the same -/
theorem SMap.ext_of_find {m m' : SMap} (h : m.Ordered) (h' : m'.Ordered)
    (hf : ∀ k, m.find k = m'.find k) : m = m' := by
  induction m generalizing m' with
  | nil =>
    cases m' with
    | nil => rfl
    | cons e r => have := hf e.1; simp [SMap.find] at this
  | cons e r ih =>
    cases m' with
    | nil => have := hf e.1; simp [SMap.find] at this
    | cons e' r' =>
      have ho := List.pairwise_cons.1 h
      have ho' := List.pairwise_cons.1 h'
      have hlow : ∀ {k : Str} {f : Str × Str} {s : SMap}, (∀ a ∈ s, f.1 < a.1) → k < f.1 →
          SMap.find (f :: s) k = none := by
        intro k f s hs hk
        apply SMap.find_eq_none_of_lt
        intro a ha
        rcases List.mem_cons.1 ha with rfl | ha
        · exact hk
        · exact lt_trans hk (hs a ha)
      have hk : e.1 = e'.1 := by
        rcases lt_trichotomy e.1 e'.1 with hlt | heq | hgt
        · have := hf e.1
          rw [hlow ho'.1 hlt] at this
          simp [SMap.find] at this
        · exact heq
        · have := hf e'.1
          rw [hlow ho.1 hgt] at this
          simp [SMap.find] at this
      have hv : e.2 = e'.2 := by
        have := hf e.1
        simp only [SMap.find, if_true] at this
        rw [if_pos hk] at this
        exact Option.some.inj this
      have he : e = e' := Prod.ext hk hv
      subst he
      congr 1
      apply ih ho.2 ho'.2
      intro k
      by_cases hke : k = e.1
      · subst hke
        rw [SMap.find_eq_none_of_lt r _ ho.1, SMap.find_eq_none_of_lt r' _ ho'.1]
      · have := hf k
        simpa [SMap.find, hke] using this

/-- C20: the arguments rebuilt from the reconstructed command line are the same
    arguments. -/
theorem createArguments_getCmd (m : SMap) (hm : m.Ordered) (h : CmdMap m) :
    createArguments m.getCmd = some m := by
  unfold createArguments
  cases m with
  | nil =>
    simp only [SMap.getCmd, streamWords_nil]
    rw [parseArgs_stray _ _ _ (by intro k h; cases h), parseArgs_nil]
  | cons e m =>
    obtain ⟨is, h1, h2, -, h4⟩ := getCmd_items e m h
    obtain ⟨m', h5, h6, h7⟩ := parseArgs_items is [] SMap.ordered_nil h1
    rw [h2, h5]
    congr 1
    apply SMap.ext_of_find h6 hm
    intro k
    rw [h7, h4]; rfl

example : CmdMap [("input".toList, "f.dat".toList), ("min".toList, joinWords ["[0,".toList, "1]".toList]),
    ("verbose".toList, [])] := by
  have w : ∀ (s : Str), s ≠ [] → (s.all fun c => !isSpace c) = true → IsWord s := by
    intro s h1 h2
    refine ⟨h1, fun c hc => ?_⟩
    have := List.all_eq_true.1 h2 c hc
    simpa using this
  intro e he
  simp only [List.mem_cons, List.not_mem_nil, or_false] at he
  rcases he with rfl | rfl | rfl
  · refine ⟨w _ (by simp) (by decide), .word _ (w _ (by simp) (by decide)) ?_ ?_⟩
    · intro r h; simp at h
    · rintro ⟨r, h⟩; simp at h
  · refine ⟨w _ (by simp) (by decide), .vec _ _ (by simp) ?_ ⟨_, rfl⟩ ?_ ⟨['1'], rfl⟩⟩
    · intro u hu; simp only [List.mem_cons, List.not_mem_nil, or_false] at hu
      rcases hu with rfl | rfl
      · exact w _ (by simp) (by decide)
      · exact w _ (by simp) (by decide)
    · intro u hu r h
      simp at hu; subst hu
      have := congrArg List.getLast? h
      simp at this
  · exact ⟨w _ (by simp) (by decide), .empty⟩

/-- C20, limit of the code: a negative number is lost when the command line is
    rebuilt. -/
theorem createArguments_negative :
    ∃ m, createArguments (SMap.getCmd [("dt".toList, "-1".toList)]) = some m ∧
      m.find "dt".toList = some [] := by
  have h : streamWords (SMap.getCmd [("dt".toList, "-1".toList)]) = [optWord "dt".toList, '-' :: "1".toList] := by
    have w : ∀ (s : Str), s ≠ [] → (s.all fun c => !isSpace c) = true → IsWord s := by
      intro s h1 h2
      refine ⟨h1, fun c hc => ?_⟩
      have := List.all_eq_true.1 h2 c hc
      simpa using this
    have e1 : SMap.getCmd [("dt".toList, "-1".toList)]
        = [' '] ++ (optWord "dt".toList ++ ([' '] ++ '-' :: "1".toList)) := by
      simp [SMap.getCmd, optWord]
    rw [e1, streamWords_word _ _ _ (by simp [isSpace]) (w _ (by simp [optWord]) (by decide))
      (by intro c r h; simp at h; rw [← h.1]; decide) (by simp),
      streamWords_last _ _ (by simp [isSpace]) (w _ (by simp) (by decide))]
  unfold createArguments
  rw [h]
  exact parseArgs_negative _ _ (by intro r h; simp at h)

end Alta
