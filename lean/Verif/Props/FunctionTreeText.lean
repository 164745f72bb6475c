import Verif.Props.FunctionTree
/-
C55: the text of a sum of terms is read back as itself, and limits of `get_function`.
-/
namespace Alta
variable {L : Type}

/-- a text that is a sequence of words separated by single spaces -/
def Worded (s : Str) : Prop := ∃ w ws, (∀ u ∈ w :: ws, IsWord u) ∧ joinWords (w :: ws) = s

theorem Worded.cons {s : Str} (h : Worded s) (c : Char) (hc : isSpace c = false) : Worded (c :: s) := by
  obtain ⟨w, ws, h1, h2⟩ := h
  refine ⟨c :: w, ws, ?_, ?_⟩
  · intro u hu
    rcases List.mem_cons.1 hu with rfl | hu
    · refine ⟨by simp, ?_⟩
      intro d hd
      rcases List.mem_cons.1 hd with rfl | hd
      · exact hc
      · exact (h1 w (by simp)).2 d hd
    · exact h1 u (by simp [hu])
  · rw [← h2]
    cases ws <;> rfl

theorem joinWords_append (l m : List Str) (hl : l ≠ []) (hm : m ≠ []) :
    joinWords (l ++ m) = joinWords l ++ ' ' :: joinWords m := by
  induction l with
  | nil => exact absurd rfl hl
  | cons w l ih =>
    by_cases h : l = []
    · subst h
      exact joinWords_cons w m hm
    · rw [List.cons_append, joinWords_cons _ _ (by simp [h]), ih h, joinWords_cons _ _ h]
      simp

theorem Worded.append {s s' : Str} (h : Worded s) (h' : Worded s') : Worded (s ++ ' ' :: s') := by
  obtain ⟨w, ws, h1, h2⟩ := h
  obtain ⟨w', ws', h1', h2'⟩ := h'
  refine ⟨w, ws ++ w' :: ws', ?_, ?_⟩
  · intro u hu
    simp only [List.mem_cons, List.mem_append] at hu
    rcases hu with rfl | hu | hu
    · exact h1 u (by simp)
    · exact h1 u (by simp [hu])
    · exact h1' u (by simpa using hu)
  · rw [← List.cons_append, joinWords_append _ _ (by simp) (by simp), h2, h2']

theorem joinWords_snoc (l : List Str) (w : Str) (c : Char) :
    joinWords (l ++ [w ++ [c]]) = joinWords (l ++ [w]) ++ [c] := by
  induction l with
  | nil => rfl
  | cons v l ih =>
    rw [List.cons_append, List.cons_append, joinWords_cons _ _ (by simp), ih,
      joinWords_cons _ _ (by simp)]
    simp

theorem Worded.snoc {s : Str} (h : Worded s) (c : Char) (hc : isSpace c = false) : Worded (s ++ [c]) := by
  obtain ⟨w, ws, h1, h2⟩ := h
  obtain ⟨l, v, hl⟩ : ∃ l v, w :: ws = l ++ [v] :=
    ⟨(w :: ws).dropLast, (w :: ws).getLast (by simp), (List.dropLast_append_getLast (by simp)).symm⟩
  rw [hl] at h1 h2
  have hw : ∀ u ∈ l ++ [v ++ [c]], IsWord u := by
    intro u hu
    rcases List.mem_append.1 hu with hu | hu
    · exact h1 u (by simp [hu])
    · simp only [List.mem_singleton] at hu
      subst hu
      refine ⟨by simp, ?_⟩
      intro d hd
      rcases List.mem_append.1 hd with hd | hd
      · exact (h1 v (by simp)).2 d hd
      · simp only [List.mem_singleton] at hd
        rw [hd]; exact hc
  have hj : joinWords (l ++ [v ++ [c]]) = s ++ [c] := by rw [joinWords_snoc, h2]
  cases hx : l ++ [v ++ [c]] with
  | nil => simp at hx
  | cons a b => exact ⟨a, b, by rw [← hx]; exact hw, by rw [← hx]; exact hj⟩

theorem Term.worded (t : Term) (ht : t.Readable) : Worded t.text :=
  ⟨t.name, lineWords t.opts, fun u hu => (ht.words u hu).1, rfl⟩

theorem Term.text_bracket (t : Term) (ht : t.Readable) : ']' ∉ t.text := by
  intro h
  rcases mem_joinWords _ _ h with h | ⟨w, hw, hc⟩
  · cases h
  · exact (ht.words w hw).2.2.2 hc

/-- the text between the brackets -/
def sumBody (t : Term) (ts : List Term) : Str := t.text ++ (ts.map fun u => ',' :: ' ' :: u.text).flatten

theorem sumText_body (t : Term) (ts : List Term) : sumText (t :: ts) = '[' :: (sumBody t ts ++ [']']) := rfl

theorem sumBody_worded (s : Str) (hs : Worded s) (ts : List Term) (h : ∀ u ∈ ts, u.Readable) :
    Worded (s ++ (ts.map fun u => ',' :: ' ' :: u.text).flatten) := by
  induction ts generalizing s with
  | nil => simpa using hs
  | cons u ts ih =>
    have := ih (s ++ [','] ++ ' ' :: u.text) ((hs.snoc ',' (by decide)).append (u.worded (h u (by simp))))
      (fun x hx => h x (by simp [hx]))
    simpa using this

theorem sumBody_bracket (t : Term) (ts : List Term) (h : ∀ u ∈ t :: ts, u.Readable) : ']' ∉ sumBody t ts := by
  unfold sumBody
  intro hc
  rcases List.mem_append.1 hc with hc | hc
  · exact t.text_bracket (h t (by simp)) hc
  · rw [List.mem_flatten] at hc
    obtain ⟨l, hl, hc⟩ := hc
    obtain ⟨u, hu, rfl⟩ := List.mem_map.1 hl
    simp only [List.mem_cons] at hc
    rcases hc with hc | hc | hc
    · cases hc
    · cases hc
    · exact u.text_bracket (h u (by simp [hu])) hc

/-- a bracketed text with single spaces and no other closing bracket is a value that survives -/
theorem bracket_cmdValue (b : Str) (hw : Worded ('[' :: (b ++ [']']))) (hb : ']' ∉ b) :
    CmdValue ('[' :: (b ++ [']'])) := by
  obtain ⟨w, ws, h1, h2⟩ := hw
  cases ws with
  | nil =>
    have h2' : w = '[' :: (b ++ [']']) := h2
    rw [← h2']
    refine .word w (h1 w (by simp)) (by rintro r rfl; cases h2') (fun _ => ⟨'[' :: b, by rw [h2']; rfl⟩)
  | cons w' ws =>
    rw [← h2]
    obtain ⟨l, v, hl⟩ : ∃ l v, w :: w' :: ws = l ++ [v] :=
      ⟨(w :: w' :: ws).dropLast, (w :: w' :: ws).getLast (by simp), (List.dropLast_append_getLast (by simp)).symm⟩
    have hlne : l ≠ [] := by
      rintro rfl
      simp at hl
    have hj : joinWords l ++ ' ' :: v = '[' :: (b ++ [']']) := by
      rw [← h2, hl, joinWords_append _ _ hlne (by simp)]
      rfl
    have hvne : v ≠ [] := (h1 v (by rw [hl]; simp)).1
    obtain ⟨v', c, rfl⟩ : ∃ v' c, v = v' ++ [c] :=
      ⟨v.dropLast, v.getLast hvne, (List.dropLast_append_getLast hvne).symm⟩
    have hj' : (joinWords l ++ ' ' :: v') ++ [c] = ('[' :: b) ++ [']'] := by simpa using hj
    obtain ⟨hj1, hj2⟩ := List.append_inj' hj' rfl
    have hcl : c = ']' := by simpa using hj2
    refine .vec w (w' :: ws) (by simp) h1 ?_ ?_ ?_
    · have hwne := (h1 w (by simp)).1
      rw [joinWords_cons _ _ (by simp)] at h2
      cases w with
      | nil => exact absurd rfl hwne
      | cons d r =>
        simp only [List.cons_append, List.cons.injEq] at h2
        exact ⟨r, by rw [h2.1]⟩
    · intro u hu r hr
      rw [hl, List.dropLast_concat] at hu
      have hin : ']' ∈ joinWords l := by
        have key : ∀ (l : List Str) (u : Str) (c : Char), u ∈ l → c ∈ u → c ∈ joinWords l := by
          intro l
          induction l with
          | nil => intro u c hu; cases hu
          | cons x l ih =>
            intro u c hu hc
            cases l with
            | nil =>
              simp only [List.mem_singleton] at hu
              rw [← hu]; exact hc
            | cons y l =>
              rw [joinWords_cons _ _ (by simp), List.mem_append, List.mem_cons]
              rcases List.mem_cons.1 hu with rfl | hu
              · exact Or.inl hc
              · exact Or.inr (Or.inr (ih u c hu hc))
        exact key l u ']' hu (by rw [hr]; simp)
      have : ']' ∈ '[' :: b := by rw [← hj1]; simp [hin]
      rcases List.mem_cons.1 this with h | h
      · cases h
      · exact hb h
    · refine ⟨v', ?_⟩
      rw [hl, List.getLast?_append, hcl]
      rfl

/-- The description of a sum is a value that the command line and the header of a file keep. -/
theorem sumText_cmdValue (t : Term) (ts : List Term) (h : ∀ u ∈ t :: ts, u.Readable) :
    CmdValue (sumText (t :: ts)) := by
  rw [sumText_body]
  apply bracket_cmdValue _ _ (sumBody_bracket t ts h)
  exact ((sumBody_worded _ (t.worded (h t (by simp))) ts (fun u hu => h u (by simp [hu]))).snoc ']'
    (by decide)).cons '[' (by decide)

/-- **C55.**  From text to function: the line written for the arguments `--func [t1, …, tn]` is read as
    these arguments, and they give the compound of the functions of the terms. -/
theorem getFunction_line (dir : Str) (env : Option Str) (fs : Str → Option (Symbols (Provider L)))
    (parOf : L → Par) (p : Par) (t : Term) (ts : List Term) (hr : ∀ u ∈ t :: ts, u.Readable)
    (hf : ∀ u ∈ t :: ts, ∃ f, u.function (libraryOf dir env fs) parOf p = some f) :
    ∃ args, createArguments (SMap.getCmd [(kFunc, sumText (t :: ts))]) = some args ∧
    ∃ members, AreMembers (libraryOf dir env fs) parOf p (t :: ts) members ∧
      getFunction dir env fs parOf args p =
        (compoundPar (members.map fun m => m.2.par parOf)).map fun q =>
          .nonlinear (.compound q (FTs.ofList members)) := by
  refine ⟨[(kFunc, sumText (t :: ts))], ?_, ?_⟩
  · apply createArguments_getCmd
    · simp [SMap.Ordered]
    · intro e he
      simp only [List.mem_singleton] at he
      subst he
      have hk : IsWord kFunc := ⟨by decide, by decide⟩
      exact ⟨hk, sumText_cmdValue t ts hr⟩
  · apply getFunction_sum dir env fs parOf p t ts hr hf
    · simp [SMap.find]
    · have : kFresnel ≠ kFunc := by decide
      simp [SMap.find, this]

/-! ### Limits -/

/-- Limit: a plugin that is not found does not give `NULL` but a rational function; the options of the
    description are ignored. -/
theorem getFunction_absent (dir : Str) (env : Option Str) (fs : Str → Option (Symbols (Provider L)))
    (parOf : L → Par) (args : SMap) (p : Par) (n lib : Str) (hn : args.find kFunc = some n)
    (hv : ∀ r, n ≠ '[' :: r) (hlib : libraryName n = some lib)
    (habs : ∀ d ∈ searchPath dir env, fs (d ++ ['/'] ++ lib) = none) :
    getFunction dir env fs parOf args p = some .rational := by
  rw [getFunction_name dir env fs parOf args p n hn hv, (absent_plugin dir env fs n lib hlib habs).1]
  rfl

/-- Limit: an absent plugin in a sum is an error of the program (a rational function is not a nonlinear
    function, and the null pointer of the cast is used). -/
theorem memberOf_absent (dir : Str) (env : Option Str) (fs : Str → Option (Symbols (Provider L)))
    (parOf : L → Par) (p : Par) (t : Term) (ht : t.Readable) (lib : Str)
    (hlib : libraryName t.name = some lib)
    (habs : ∀ d ∈ searchPath dir env, fs (d ++ ['/'] ++ lib) = none) :
    memberOf dir env fs parOf p t.text = none := by
  obtain ⟨a, h1, _, h2⟩ := t.arguments ht [] (by simp)
  simp only [List.nil_append] at h1
  have hname := ht.words t.name (by simp [Term.words])
  unfold memberOf
  rw [h1]
  have := getFunction_absent dir env fs parOf a p t.name lib
    (by rw [h2]; simp [Term.binding, firstBinding, Item.binding])
    (by intro r hr; exact hname.2.2.1 (by rw [hr]; simp)) hlib habs
  simp only [this, Option.bind_some, Made.cast, Option.map_none]

/-- Limit: the program stops when a member of a sum cannot be made; the members that can be made are
    lost. -/
theorem getFunction_member_fails (dir : Str) (env : Option Str) (fs : Str → Option (Symbols (Provider L)))
    (parOf : L → Par) (p : Par) (args : SMap) (hv : args.isVec kFunc = true) (e : Str)
    (he : e ∈ args.getVecStr kFunc) (hm : memberOf dir env fs parOf p e = none) :
    getFunction dir env fs parOf args p = none := by
  rw [getFunction_vec dir env fs parOf args p hv (by intro h; rw [h] at he; cases he)]
  have : ∀ l : List Str, e ∈ l → l.mapM (memberOf dir env fs parOf p) = none := by
    intro l
    induction l with
    | nil => intro h; cases h
    | cons x l ih =>
      intro h
      rw [List.mapM_cons]
      rcases List.mem_cons.1 h with rfl | h
      · rw [hm]; rfl
      · rw [ih h]
        cases memberOf dir env fs parOf p x <;> rfl
  rw [this _ he]
  rfl

/-- Limit: the empty sum `--func []` does not give `NULL`: its list has one element, the empty text,
    and the name of its library makes the program stop. -/
theorem getFunction_empty_sum (dir : Str) (env : Option Str) (fs : Str → Option (Symbols (Provider L)))
    (parOf : L → Par) (p : Par) :
    getFunction dir env fs parOf [(kFunc, ['[', ']'])] p = none := by
  have hv : SMap.isVec [(kFunc, ['[', ']'])] kFunc = true := by decide
  have hl : SMap.getVecStr [(kFunc, ['[', ']'])] kFunc = [[]] := by decide +kernel
  apply getFunction_member_fails dir env fs parOf p _ hv [] (by rw [hl]; simp)
  unfold memberOf
  have : createArguments (funcPrefix ++ []) = some [(kFunc, [])] := by decide +kernel
  rw [this]
  have h2 : getFunction dir env fs parOf [(kFunc, [])] p = none := by
    rw [getFunction_name dir env fs parOf _ p [] (by decide) (by simp)]
    simp [openLibrary, libraryName]
  simp only [h2, Option.bind_none]

/-! ### Examples -/

/-- the file system of the examples: two lobes and a Fresnel term, known by their names -/
def fsTree : Str → Option (Symbols (Provider Str)) := fun f =>
  if f = ['/', 'l', '/', 'a', '.', 's', 'o'] then some (fun s => if s = "provide_function".toList then some ⟨true, fun _ => ['a']⟩ else none)
  else if f = ['/', 'l', '/', 'b', '.', 's', 'o'] then some (fun s => if s = "provide_function".toList then some ⟨true, fun _ => ['b']⟩ else none)
  else if f = ['/', 'l', '/', 'f', '.', 's', 'o'] then some (fun s => if s = "provide_function".toList then some ⟨true, fun _ => ['f']⟩ else none)
  else none

/-- `a.so` -/
def termA : Term := ⟨['a', '.', 's', 'o'], []⟩
/-- `b.so --fresnel f.so --fixed-lobe` -/
def termB : Term := ⟨['b', '.', 's', 'o'], [.word kFresnel ['f', '.', 's', 'o'], .flag kFixedLobe]⟩

theorem termA_readable : termA.Readable := by
  refine ⟨?_, ?_, trivial⟩
  · unfold IsWord; decide
  · intro r h; cases h

theorem termB_readable : termB.Readable := by
  refine ⟨?_, ?_, ?_⟩
  · unfold IsWord; decide
  · intro r h; cases h
  · refine ⟨⟨?_, ?_⟩, ⟨Or.inl rfl, trivial⟩⟩
    · intro r h; cases h
    · rintro ⟨r, h⟩; cases h

theorem libraryOf_fsTree (c : Char) (h : c = 'a' ∨ c = 'b' ∨ c = 'f') :
    libraryOf ['/', 'l'] none fsTree [c, '.', 's', 'o'] = some ⟨true, fun _ => [c]⟩ := by
  rcases h with rfl | rfl | rfl <;> rfl

example : sumText [termA, termB] = "[a.so, b.so --fresnel f.so --fixed-lobe]".toList := by decide +kernel

/-- `--func [a.so, b.so --fresnel f.so --fixed-lobe]` is the sum of `a` and of the product of `b`, fixed,
    with `f`, fitted. -/
example (q : Par) :
    ∃ args, createArguments (SMap.getCmd [(kFunc, sumText [termA, termB])]) = some args ∧
    ∃ x y r, getFunction ['/', 'l'] none fsTree (fun _ => q) args q =
      some (.nonlinear (.compound r (.cons x (.leaf ['a'])
        (.cons y (.product (productPar q q) (.leaf ['b']) (.leaf ['f']) true false) .nil)))) := by
  have hA : termA.function (libraryOf ['/', 'l'] none fsTree) (fun _ => q) q = some (.leaf ['a']) := by
    have : termA.binding kFresnel = none := by decide
    unfold Term.function
    rw [this]
    rfl
  have hB : termB.function (libraryOf ['/', 'l'] none fsTree) (fun _ => q) q =
      some (.product (productPar q q) (.leaf ['b']) (.leaf ['f']) true false) := by
    have h1 : termB.binding kFresnel = some ['f', '.', 's', 'o'] := by decide
    have h2 : (termB.binding kFixedLobe).isSome = true := by decide
    have h3 : (termB.binding kFixedFresnel).isSome = false := by decide
    unfold Term.function
    rw [h1, h2, h3]
    rfl
  obtain ⟨args, h1, ms, h2, h3⟩ := getFunction_line ['/', 'l'] none fsTree (fun _ => q) q termA [termB]
    (by intro u hu
        simp only [List.mem_cons, List.not_mem_nil, or_false] at hu
        rcases hu with rfl | rfl
        · exact termA_readable
        · exact termB_readable)
    (by intro u hu
        simp only [List.mem_cons, List.not_mem_nil, or_false] at hu
        rcases hu with rfl | rfl
        · exact ⟨_, hA⟩
        · exact ⟨_, hB⟩)
  refine ⟨args, h1, ?_⟩
  cases h2 with
  | @cons _ m _ ms' ha hrest =>
    cases hrest with
    | @cons _ m' _ ms'' hb hnil =>
      cases hnil
      obtain ⟨xa, fa⟩ := m
      obtain ⟨xb, fb⟩ := m'
      have e1 : fa = .leaf ['a'] := by have := ha.2; rw [hA] at this; exact (Option.some.inj this).symm
      have e2 : fb = .product (productPar q q) (.leaf ['b']) (.leaf ['f']) true false := by have := hb.2; rw [hB] at this; exact (Option.some.inj this).symm
      subst e1 e2
      rw [h3]
      have hc : ∃ r, compoundPar [q, productPar q q] = some r := by
        simp only [compoundPar, productPar, compoundParLoop, ne_eq, not_true, if_false]
        by_cases h1 : q.input = .UNKNOWN_INPUT <;> by_cases h2 : q.output = .UNKNOWN_OUTPUT <;> simp [h1, h2]
      obtain ⟨r, hr⟩ := hc
      refine ⟨xa, xb, r, ?_⟩
      simp only [List.map_cons, List.map_nil, FT.par, hr, Option.map_some]
      rfl

end Alta
