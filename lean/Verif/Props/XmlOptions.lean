import Verif.Props.XmlCmd
/-
Property C82: the options a program gets from an action of a script in XML.
-/
namespace Alta
variable {W : Type} {L : Type}

/-! ### Cutting a command into words -/

theorem isWord_blank (w : Str) (h : IsWord w) : ∀ c ∈ w, ¬ (c = ' ' ∨ c = '\t') := by
  intro c hc hb
  have := h.2 c hc
  rcases hb with rfl | rfl <;> simp [isSpace] at this

theorem shellSplit_word (w cur rest : Str) (h : ∀ c ∈ w, ¬ (c = ' ' ∨ c = '\t')) :
    shellSplit cur (w ++ rest) = shellSplit (cur ++ w) rest := by
  induction w generalizing cur with
  | nil => simp
  | cons c w ih =>
    rw [List.cons_append, shellSplit, if_neg (h c (by simp)), ih _ fun d hd => h d (by simp [hd])]
    simp

/-- the rest of a command after a word -/
def Ends (rest : Str) : Prop := rest = [] ∨ ∃ r, rest = ' ' :: r

theorem shellSplit_ends (w rest : Str) (hw : IsWord w) (hr : Ends rest) :
    shellSplit [] (w ++ rest) = w :: shellSplit [] rest := by
  rw [shellSplit_word w [] rest (isWord_blank w hw), List.nil_append]
  rcases hr with rfl | ⟨r, rfl⟩
  · simp [shellSplit, hw.1]
  · simp [shellSplit, hw.1]

theorem shellSplit_space (r : Str) : shellSplit [] (' ' :: r) = shellSplit [] r := by
  simp [shellSplit]

theorem shellSplit_joinWords (w : Str) (ws : List Str) (rest : Str) (hw : ∀ u ∈ w :: ws, IsWord u) (hr : Ends rest) :
    shellSplit [] (joinWords (w :: ws) ++ rest) = (w :: ws) ++ shellSplit [] rest := by
  induction ws generalizing w with
  | nil => exact shellSplit_ends w rest (hw w (by simp)) hr
  | cons u us ih =>
    rw [joinWords_cons _ _ (by simp), List.append_assoc, List.cons_append, shellSplit_ends w _ (hw w (by simp)) (Or.inr ⟨_, rfl⟩),
      shellSplit_space, ih u fun v hv => hw v (by simp only [List.mem_cons] at hv ⊢; tauto)]
    rfl

theorem optWord_isWord (k : Str) (h : IsWord k) : IsWord (optWord k) := by
  refine ⟨by simp [optWord], ?_⟩
  intro c hc
  simp only [optWord, List.mem_cons] at hc
  rcases hc with rfl | rfl | hc
  · decide
  · decide
  · exact h.2 c hc

/-- an option in a command is an item of the command line -/
theorem option_item (p : Str × Str) (hp : GoodOption p) : ∃ i : Item, i.binding = some p ∧
    (∃ ws, i.words = ('-' :: '-' :: p.1) :: ws) ∧
    (∀ rest, Ends rest → shellSplit [] (optionText p ++ rest) = i.words ++ shellSplit [] rest) ∧
    ∀ next, (next = [] ∨ ∃ w ws, next = ('-' :: w) :: ws) → i.Readable next := by
  obtain ⟨k, v⟩ := p
  have hk := optWord_isWord k hp.name
  have hsplit : ∀ rest, shellSplit [] (optionText (k, v) ++ rest) = optWord k :: shellSplit [] (v ++ rest) := by
    intro rest
    have : optionText (k, v) ++ rest = ' ' :: (optWord k ++ (' ' :: (v ++ rest))) := by
      simp [optionText, optWord]
    rw [this, shellSplit_space, shellSplit_ends _ _ hk (Or.inr ⟨_, rfl⟩), shellSplit_space]
  rcases hp.value with h | ⟨hw, hr⟩ | ⟨w, u, us, h, hw, hr⟩
  · simp only at h
    subst h
    refine ⟨.flag k, rfl, ⟨[], rfl⟩, ?_, fun next hn => hn⟩
    intro rest _
    rw [hsplit]
    rfl
  · refine ⟨.word k v, rfl, ⟨[v], rfl⟩, ?_, fun _ _ => hr⟩
    intro rest hrest
    rw [hsplit, shellSplit_ends v rest hw hrest]
    rfl
  · simp only at h
    subst h
    refine ⟨.vec k w (u :: us), rfl, ⟨w :: u :: us, rfl⟩, ?_, fun next _ => hr next⟩
    intro rest hrest
    rw [hsplit, shellSplit_joinWords w (u :: us) rest hw hrest]
    rfl

theorem options_ends (os : List (Str × Str)) : Ends (os.map optionText).flatten := by
  cases os with
  | nil => exact Or.inl rfl
  | cons p os => exact Or.inr ⟨_, rfl⟩

theorem options_items (os : List (Str × Str)) (h : ∀ p ∈ os, GoodOption p) : ∃ is : List Item,
    shellSplit [] (os.map optionText).flatten = lineWords is ∧ ReadableLine is ∧
    (lineWords is = [] ∨ ∃ w ws, lineWords is = ('-' :: w) :: ws) ∧ ∀ k, firstBinding k is = os.lookup k := by
  induction os with
  | nil => exact ⟨[], rfl, trivial, Or.inl rfl, fun _ => rfl⟩
  | cons p os ih =>
    obtain ⟨is, h1, h2, h3, h4⟩ := ih fun q hq => h q (by simp [hq])
    obtain ⟨i, hi1, ⟨ws, hi2⟩, hi3, hi4⟩ := option_item p (h p (by simp))
    have hl : lineWords (i :: is) = i.words ++ lineWords is := rfl
    refine ⟨i :: is, ?_, ⟨hi4 _ h3, h2⟩, Or.inr ⟨'-' :: p.1, ws ++ lineWords is, ?_⟩, ?_⟩
    · rw [List.map_cons, List.flatten_cons, hi3 _ (options_ends os), h1, hl]
    · rw [hl, hi2]; rfl
    · intro k
      simp only [firstBinding, hi1, h4]
      obtain ⟨k', v⟩ := p
      by_cases hk : k = k'
      · simp [List.lookup, hk]
      · have : (k == k') = false := by simpa using hk
        simp [List.lookup, hk, this]

theorem plain_option (p : Str × Str) (h : GoodOption p) : ShellPlain (optionText p) := by
  intro c hc
  simp only [optionText, List.mem_append, String.toList] at hc
  rcases hc with ((hc | hc) | hc) | hc
  · revert hc; revert c; decide
  · exact h.plain.1 c hc
  · revert hc; revert c; decide
  · exact h.plain.2 c hc

/-- A program that goes through the shell unchanged. -/
structure GoodProgram (program : Str) : Prop where
  word : IsWord program
  plain : ShellPlain program
  notOption : ∀ k, program ≠ optWord k

/-- **C82.**  The options a program gets from a command: each option of the command has the first value
    that the command gives to it, whatever the number of the options and the values, provided that the
    words of the command do not match the names of other files. -/
theorem command_options (glob : Str → List Str) (program : Str) (hp : GoodProgram program)
    (os : List (Str × Str)) (hos : ∀ p ∈ os, GoodOption p)
    (hglob : ∀ w ∈ shellSplit [] (commandText program os), glob w = [] ∨ glob w = [w]) :
    ∃ ws m, shellWords glob (commandText program os) = some (program :: ws) ∧
      parseArgs (program :: ws) [] = some m ∧ m.Ordered ∧ ∀ k, m.find k = os.lookup k := by
  obtain ⟨is, h1, h2, _, h4⟩ := options_items os hos
  have hsplit : shellSplit [] (commandText program os) = program :: lineWords is := by
    rw [commandText_eq, shellSplit_ends _ _ hp.word (options_ends os), h1]
  obtain ⟨m, hm1, hm2, hm3⟩ := parseArgs_items is [] SMap.ordered_nil h2
  refine ⟨lineWords is, m, ?_, ?_, hm2, ?_⟩
  · unfold shellWords
    have hplain : (commandText program os).any shellSpecial = false := by
      rw [List.any_eq_false]
      intro c hc
      rw [commandText_eq, List.mem_append, List.mem_flatten] at hc
      rcases hc with hc | ⟨t, ht, hc⟩
      · simp [hp.plain c hc]
      · obtain ⟨p, hpm, rfl⟩ := List.mem_map.1 ht
        simp [plain_option p (hos p hpm) c hc]
    rw [hplain]
    rw [hsplit] at hglob ⊢
    simp only [Bool.false_eq_true, if_false, Option.some.injEq]
    have : ∀ l : List Str, (∀ w ∈ l, glob w = [] ∨ glob w = [w]) →
        (l.flatMap fun w => if glob w = [] then [w] else glob w) = l := by
      intro l
      induction l with
      | nil => intro _; rfl
      | cons w l ih =>
        intro hl
        rw [List.flatMap_cons, ih fun u hu => hl u (by simp [hu])]
        rcases hl w (by simp) with hg | hg
        · simp [hg]
        · simp [hg]
    exact this _ hglob
  · rw [parseArgs_stray _ _ _ hp.notOption, hm1]
  · intro k
    rw [hm3, h4]
    rfl

/-! ### The sum of several functions is one value -/

/-- the last word is followed by `s` -/
def addLast (s : Str) : List Str → List Str
  | [] => []
  | [w] => [w ++ s]
  | w :: u :: us => w :: addLast s (u :: us)

theorem addLast_ne_nil (s : Str) (l : List Str) (h : l ≠ []) : addLast s l ≠ [] := by
  match l with
  | [_] => simp [addLast]
  | _ :: _ :: _ => simp [addLast]

theorem joinWords_addLast (s : Str) (l : List Str) (h : l ≠ []) : joinWords (addLast s l) = joinWords l ++ s := by
  induction l with
  | nil => exact absurd rfl h
  | cons w ws ih =>
    cases ws with
    | nil => rfl
    | cons u us =>
      rw [addLast, joinWords_cons _ _ (addLast_ne_nil _ _ (by simp)), ih (by simp), joinWords_cons w (u :: us) (by simp)]
      simp

theorem addLast_concat (s : Str) (l : List Str) (w : Str) : addLast s (l ++ [w]) = l ++ [w ++ s] := by
  induction l with
  | nil => rfl
  | cons v l ih =>
    cases h : l ++ [w] with
    | nil => simp at h
    | cons a b =>
      rw [List.cons_append, h, addLast, ← h, ih]
      rfl

/-- the words of a sum, but for the opening bracket -/
def sumWords : List Term → List Str
  | [] => []
  | [t] => addLast [']'] t.words
  | t :: u :: us => addLast [','] t.words ++ sumWords (u :: us)

theorem joinWords_sumWords (t : Term) (ts : List Term) :
    sumWords (t :: ts) ≠ [] ∧ joinWords (sumWords (t :: ts)) =
      t.text ++ (ts.map fun u => ',' :: ' ' :: u.text).flatten ++ [']'] := by
  induction ts generalizing t with
  | nil =>
    refine ⟨addLast_ne_nil _ _ (by simp [Term.words]), ?_⟩
    rw [sumWords, joinWords_addLast _ _ (by simp [Term.words])]
    simp [Term.text]
  | cons u us ih =>
    obtain ⟨h1, h2⟩ := ih u
    refine ⟨by simp [sumWords, h1], ?_⟩
    rw [sumWords, joinWords_append _ _ (addLast_ne_nil _ _ (by simp [Term.words])) h1, h2,
      joinWords_addLast _ _ (by simp [Term.words])]
    simp [Term.text]

theorem term_words_concat (t : Term) : ∃ l w, t.words = l ++ [w] := by
  rcases List.eq_nil_or_concat t.words with h | ⟨l, w, h⟩
  · simp [Term.words] at h
  · exact ⟨l, w, by simpa using h⟩

theorem isWord_append (w s : Str) (hw : IsWord w) (hs : ∀ c ∈ s, isSpace c = false) : IsWord (w ++ s) := by
  refine ⟨by simp [hw.1], ?_⟩
  intro c hc
  rcases List.mem_append.1 hc with hc | hc
  · exact hw.2 c hc
  · exact hs c hc

/-- the words of a sum: only the last one ends with a closing bracket -/
theorem sumWords_spec (t : Term) (ts : List Term) (h : ∀ u ∈ t :: ts, u.Readable) :
    (∀ w ∈ sumWords (t :: ts), IsWord w) ∧
    ∃ l q, sumWords (t :: ts) = l ++ [q ++ [']']] ∧ (∀ w ∈ l, ']' ∉ w) ∧ (2 ≤ (t :: ts).length → l ≠ []) := by
  induction ts generalizing t with
  | nil =>
    obtain ⟨l, w, hl⟩ := term_words_concat t
    have ht := (h t (by simp)).words
    rw [hl] at ht
    rw [sumWords, hl, addLast_concat]
    refine ⟨?_, l, w, rfl, fun v hv => (ht v (by simp [hv])).2.2.2, by simp⟩
    intro v hv
    rcases List.mem_append.1 hv with hv | hv
    · exact (ht v (by simp [hv])).1
    · rw [List.mem_singleton.1 hv]
      exact isWord_append w _ (ht w (by simp)).1 (by decide)
  | cons u us ih =>
    obtain ⟨h1, l, q, h2, h3, _⟩ := ih u fun v hv => h v (by simp only [List.mem_cons] at hv ⊢; tauto)
    obtain ⟨l0, w, hl⟩ := term_words_concat t
    have ht := (h t (by simp)).words
    rw [hl] at ht
    rw [sumWords, hl, addLast_concat]
    refine ⟨?_, l0 ++ [w ++ [',']] ++ l, q, by rw [h2]; simp, ?_, by simp⟩
    · intro v hv
      rcases List.mem_append.1 hv with hv | hv
      · rcases List.mem_append.1 hv with hv | hv
        · exact (ht v (by simp [hv])).1
        · rw [List.mem_singleton.1 hv]
          exact isWord_append w _ (ht w (by simp)).1 (by decide)
      · exact h1 v hv
    · intro v hv
      rcases List.mem_append.1 hv with hv | hv
      · rcases List.mem_append.1 hv with hv | hv
        · exact (ht v (by simp [hv])).2.2.2
        · rw [List.mem_singleton.1 hv]
          have := (ht w (by simp)).2.2.2
          simp [this]
      · exact h3 v hv

/-- a sum of at least two readable terms is a value that is read as itself -/
theorem sumText_good (t u : Term) (us : List Term) (h : ∀ v ∈ t :: u :: us, v.Readable) :
    GoodValue (sumText (t :: u :: us)) := by
  obtain ⟨h1, l, q, h2, h3, h4⟩ := sumWords_spec t (u :: us) h
  obtain ⟨_, h5⟩ := joinWords_sumWords t (u :: us)
  cases l with
  | nil => exact absurd rfl (h4 (by simp))
  | cons w l =>
    have hl : sumWords (t :: u :: us) = w :: (l ++ [q ++ [']']]) := by rw [h2]; rfl
    rw [hl] at h5 h1
    obtain ⟨b, bs, hb⟩ : ∃ b bs, l ++ [q ++ [']']] = b :: bs := by
      cases hh : l ++ [q ++ [']']] with
      | nil => simp at hh
      | cons b bs => exact ⟨b, bs, rfl⟩
    right; right
    refine ⟨'[' :: w, b, bs, ?_, ?_, ?_⟩
    · rw [← hb, joinWords_cons _ _ (by simp)]
      rw [joinWords_cons _ _ (by simp)] at h5
      show '[' :: (t.text ++ ((u :: us).map fun u => ',' :: ' ' :: u.text).flatten ++ [']']) = _
      rw [← h5]
      simp
    · intro x hx
      rcases List.mem_cons.1 hx with rfl | hx
      · refine ⟨by simp, ?_⟩
        intro c hc
        rcases List.mem_cons.1 hc with rfl | hc
        · decide
        · exact (h1 w (by simp)).2 c hc
      · rw [← hb] at hx
        exact h1 x (by simp only [List.mem_cons]; exact Or.inr hx)
    · intro n
      have hw : ']' ∉ w := h3 w (by simp)
      refine ⟨⟨w, rfl⟩, ?_, ?_, Or.inr ⟨q, ?_⟩⟩
      · intro r hr
        have : (']' : Char) ∈ '[' :: w := by rw [hr]; simp
        simp [hw] at this
      · intro v hv
        rw [← hb] at hv
        have hd : (('[' :: w) :: (l ++ [q ++ [']']])).dropLast = ('[' :: w) :: l := by
          rw [← List.cons_append, List.dropLast_concat]
        rw [hd] at hv
        rcases List.mem_cons.1 hv with rfl | hv
        · refine ⟨by simp, ?_⟩
          intro r hr
          have : (']' : Char) ∈ '[' :: w := by rw [hr]; simp
          simp [hw] at this
        · refine ⟨(h1 v (by simp [hv])).1, ?_⟩
          intro r hr
          exact h3 v (by simp [hv]) (by rw [hr]; simp)
      · rw [← hb, ← List.cons_append, List.getLast?_concat]

/-! ### The options of an action -/

/-- The functions of an action go through the shell unchanged. -/
def GoodFunctions (lib : Str) : List FunctionElt → Prop
  | [] => True
  | [f] => GoodOption (kFunc, f.name) ∧ ∀ p ∈ f.options lib, GoodOption p
  | fs => ∀ f ∈ fs, (f.term lib).Readable ∧ ∀ w ∈ (f.term lib).words, ShellPlain w

theorem sum_plain (ts : List Term) (h : ∀ t ∈ ts, ∀ w ∈ t.words, ShellPlain w) : ShellPlain (sumText ts) := by
  have key : ∀ t ∈ ts, ShellPlain t.text := by
    intro t ht c hc
    rcases mem_joinWords _ _ hc with rfl | ⟨w, hw, hc⟩
    · decide
    · exact h t ht w hw c hc
  intro c hc
  cases ts with
  | nil =>
    simp only [sumText, List.mem_cons, List.not_mem_nil, or_false] at hc
    rcases hc with rfl | rfl <;> decide
  | cons t ts =>
    simp only [sumText, List.mem_cons, List.mem_append, List.mem_flatten, List.mem_map, List.not_mem_nil, or_false] at hc
    rcases hc with rfl | (hc | ⟨_, ⟨u, hu, rfl⟩, hc⟩) | rfl
    · decide
    · exact key t (by simp) c hc
    · simp only [List.mem_cons] at hc
      rcases hc with rfl | rfl | hc
      · decide
      · decide
      · exact key u (by simp [hu]) c hc
    · decide

theorem functionOptions_good (lib : Str) (fs : List FunctionElt) (h : GoodFunctions lib fs) :
    ∀ p ∈ functionOptions lib fs, GoodOption p := by
  match fs, h with
  | [], _ => intro p hp; simp [functionOptions] at hp
  | [f], h =>
    intro p hp
    simp only [functionOptions, List.mem_cons] at hp
    rcases hp with rfl | hp
    · exact h.1
    · exact h.2 p hp
  | f :: g :: fs, h =>
    intro p hp
    simp only [functionOptions, List.mem_cons, List.not_mem_nil, or_false] at hp
    subst hp
    refine ⟨by show IsWord kFunc; unfold IsWord; decide, ?_, ⟨by show ShellPlain kFunc; unfold ShellPlain; decide, ?_⟩⟩
    · apply sumText_good
      intro t ht
      simp only [← List.map_cons] at ht
      obtain ⟨e, he, rfl⟩ := List.mem_map.1 ht
      exact (h e he).1
    · show ShellPlain (sumText ((f :: g :: fs).map (FunctionElt.term lib)))
      apply sum_plain
      intro t ht
      obtain ⟨e, he, rfl⟩ := List.mem_map.1 ht
      exact (h e he).2

/-- An action that goes through the shell unchanged. -/
structure ActionElt.Good (lib : Str) (a : ActionElt) : Prop where
  program : GoodProgram (programPath lib a.program)
  functions : GoodFunctions lib a.functions
  plugins : ∀ p ∈ a.plugins, GoodOption p
  params : ∀ p ∈ a.params, GoodOption p

/-- **C82.**  The program of an action gets the options of the action: those of its functions, its
    plugins, its parameters, the input and the output; the first value is kept when an option is
    given twice. -/
theorem xml_action_options (glob : Str → List Str) (lib : Str) (a : ActionElt) (ha : a.Good lib)
    (input output : Str) (hi : GoodOption ("input".toList, input)) (ho : GoodOption ("output".toList, output))
    (hglob : ∀ w ∈ shellSplit [] (commandText (programPath lib a.program) (a.options lib input output)),
      glob w = [] ∨ glob w = [w]) :
    ∃ ws m, shellWords glob (commandText (programPath lib a.program) (a.options lib input output)) =
        some (programPath lib a.program :: ws) ∧
      parseArgs (programPath lib a.program :: ws) [] = some m ∧ m.Ordered ∧
      ∀ k, m.find k = (a.options lib input output).lookup k := by
  apply command_options glob _ ha.program _ _ hglob
  intro p hp
  unfold ActionElt.options at hp
  simp only [List.mem_append] at hp
  rcases hp with ((hp | hp) | hp) | hp
  · exact functionOptions_good lib _ ha.functions p hp
  · exact ha.plugins p hp
  · exact ha.params p hp
  · simp only [List.mem_cons, List.not_mem_nil, or_false] at hp
    rcases hp with rfl | rfl
    · exact hi
    · exact ho

/-- **C82.**  An action with several functions: the function that the program makes is the compound of
    the functions, in the order of the file, each with its own parameters. -/
theorem xml_functions_sum (dir : Str) (env : Option Str) (fs : Str → Option (Symbols (Provider L)))
    (parOf : L → Par) (p : Par) (lib : Str) (a : ActionElt) (ha : a.Good lib) (f g : FunctionElt)
    (gs : List FunctionElt) (hfs : a.functions = f :: g :: gs) (input output : Str) (m : SMap)
    (hm : ∀ k, m.find k = (a.options lib input output).lookup k)
    (hf : ∀ e ∈ f :: g :: gs, ∃ F, (e.term lib).function (libraryOf dir env fs) parOf p = some F)
    (hfr : ∀ q ∈ a.plugins ++ a.params, q.1 ≠ kFresnel) :
    ∃ members, AreMembers (libraryOf dir env fs) parOf p ((f :: g :: gs).map (FunctionElt.term lib)) members ∧
      getFunction dir env fs parOf m p =
        (compoundPar (members.map fun m => m.2.par parOf)).map fun q =>
          .nonlinear (.compound q (FTs.ofList members)) := by
  have hgood := ha.functions
  rw [hfs] at hgood
  refine getFunction_sum dir env fs parOf p (f.term lib) ((g :: gs).map (FunctionElt.term lib)) ?_ ?_ m ?_ ?_
  · intro u hu
    rw [← List.map_cons] at hu
    obtain ⟨e, he, rfl⟩ := List.mem_map.1 hu
    exact (hgood e he).1
  · intro u hu
    rw [← List.map_cons] at hu
    obtain ⟨e, he, rfl⟩ := List.mem_map.1 hu
    exact hf e he
  · rw [hm]
    simp [ActionElt.options, hfs, functionOptions]
  · rw [hm]
    unfold ActionElt.options
    rw [List.lookup_eq_none_iff]
    intro q hq
    rw [hfs] at hq
    simp only [functionOptions, List.mem_append, List.mem_cons, List.not_mem_nil, or_false] at hq
    have hne : ∀ q : Str × Str, q.1 ≠ kFresnel → (kFresnel != q.1) = true := by
      intro q hk
      simpa using fun e => hk e.symm
    rcases hq with ((rfl | hq) | hq) | rfl | rfl
    · exact hne _ (by show kFunc ≠ _; decide)
    · exact hne q (hfr q (by simp [hq]))
    · exact hne q (hfr q (by simp [hq]))
    · exact hne _ (by show "input".toList ≠ _; decide)
    · exact hne _ (by show "output".toList ≠ _; decide)

theorem firstBinding_words (os : List (Str × Str)) (k : Str) :
    firstBinding k (os.map fun p => Item.word p.1 p.2) = os.lookup k := by
  induction os with
  | nil => rfl
  | cons p os ih =>
    obtain ⟨k', v⟩ := p
    simp only [List.map_cons, firstBinding, Item.binding, ih]
    by_cases hk : k = k'
    · simp [List.lookup, hk]
    · have : (k == k') = false := by simpa using hk
      simp [List.lookup, hk, this]

/-- **C82.**  An action with one function: the function that the program makes is the one that the
    element describes. -/
theorem xml_function_single (dir : Str) (env : Option Str) (fs : Str → Option (Symbols (Provider L)))
    (parOf : L → Par) (p : Par) (lib : Str) (a : ActionElt) (f : FunctionElt) (hfs : a.functions = [f])
    (hread : (f.term lib).Readable) (input output : Str) (m : SMap)
    (hm : ∀ k, m.find k = (a.options lib input output).lookup k) (F : FT L)
    (hF : (f.term lib).function (libraryOf dir env fs) parOf p = some F)
    (hfr : ∀ q ∈ a.plugins ++ a.params, q.1 ≠ kFresnel ∧ q.1 ≠ kFixedLobe ∧ q.1 ≠ kFixedFresnel) :
    getFunction dir env fs parOf m p = some (.nonlinear F) := by
  obtain ⟨m', h1, _, h3⟩ := (f.term lib).arguments hread [] (by simp)
  rw [← getFunction_term dir env fs parOf p (f.term lib) hread m' h3 F hF]
  have hterm : ∀ k, (f.term lib).binding k = ((kFunc, f.name) :: f.options lib).lookup k := by
    intro k
    exact firstBinding_words ((kFunc, f.name) :: f.options lib) k
  have hopt : ∀ k, m.find k = (((kFunc, f.name) :: f.options lib).lookup k).or
      ((a.plugins ++ a.params ++ [("input".toList, input), ("output".toList, output)]).lookup k) := by
    intro k
    rw [hm]
    unfold ActionElt.options
    rw [hfs, List.append_assoc, List.append_assoc, List.lookup_append, List.append_assoc]
    rfl
  have hrest : ∀ k, (∀ q ∈ a.plugins ++ a.params, q.1 ≠ k) → k ≠ "input".toList → k ≠ "output".toList →
      m.find k = m'.find k := by
    intro k hk hi ho
    rw [hopt, h3, hterm]
    have : (a.plugins ++ a.params ++ [("input".toList, input), ("output".toList, output)]).lookup k = none := by
      rw [List.lookup_eq_none_iff]
      intro q hq
      rw [List.mem_append] at hq
      rcases hq with hq | hq
      · have := hk q hq
        simpa using fun e => this e.symm
      · simp only [List.mem_cons, List.not_mem_nil, or_false] at hq
        rcases hq with rfl | rfl
        · simpa using hi
        · simpa using ho
    rw [this, Option.or_none]
  apply getFunction_congr
  · rw [hopt, h3, hterm]
    simp [List.lookup]
  · exact hrest _ (fun q hq => (hfr q hq).1) (by decide) (by decide)
  · exact hrest _ (fun q hq => (hfr q hq).2.1) (by decide) (by decide)
  · exact hrest _ (fun q hq => (hfr q hq).2.2) (by decide) (by decide)

end Alta
