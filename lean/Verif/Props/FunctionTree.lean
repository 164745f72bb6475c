import Verif.Spec.FunctionTree
import Verif.Props.Plugins
import Verif.Props.ArgsCmd
import Verif.Props.ArgsAccess
/-
C55: the function made from command line arguments is the one they describe.
-/
namespace Alta
variable {L : Type}

/-- a member of a compound, from the text of an element of the list -/
def memberOf (dir : Str) (env : Option Str) (fs : Str → Option (Symbols (Provider L)))
    (parOf : L → Par) (p : Par) (e : Str) : Option (SMap × FT L) :=
  match createArguments (funcPrefix ++ e) with
  | none => none
  | some a => (getFunction dir env fs parOf a p).bind fun m => m.cast.map fun t => (a, t)

/-- the part of `get_function` on the Fresnel term -/
def fresnelStage (dir : Str) (env : Option Str) (fs : Str → Option (Symbols (Provider L)))
    (parOf : L → Par) (args : SMap) (p : Par) (func : Made L) : Option (Made L) :=
  match func.cast with
  | none => some func
  | some t =>
    match fresnelText args with
    | none => some func
    | some e =>
      match createArguments (funcPrefix ++ e) with
      | none => none
      | some a =>
        (getFunction dir env fs parOf a p).map fun g =>
          match g.cast with
          | none => func
          | some u => .nonlinear (newProduct parOf t u (args.isDefined kFixedLobe)
              (args.isDefined kFixedFresnel))

theorem cast_nonlinear (t : FT L) : (Made.nonlinear t).cast = some t := rfl

theorem mapM_attach {α β : Type} (l : List α) (f : α → Option β) :
    (l.attach.mapM fun e => f e.1) = l.mapM f := by
  have h : l.mapM f = (l.attach.map Subtype.val).mapM f := by rw [List.attach_map_subtype_val]
  rw [h]
  generalize l.attach = k
  induction k with
  | nil => rfl
  | cons a k ih => rw [List.map_cons, List.mapM_cons, List.mapM_cons, ih]

theorem getFunction_none (dir : Str) (env : Option Str) (fs : Str → Option (Symbols (Provider L)))
    (parOf : L → Par) (args : SMap) (p : Par) (h : args.isDefined kFunc = false) :
    getFunction dir env fs parOf args p = some .rational := by
  rw [getFunction, if_pos h]

theorem getFunction_vec (dir : Str) (env : Option Str) (fs : Str → Option (Symbols (Provider L)))
    (parOf : L → Par) (args : SMap) (p : Par) (h : args.isVec kFunc = true)
    (hne : args.getVecStr kFunc ≠ []) :
    getFunction dir env fs parOf args p =
      ((args.getVecStr kFunc).mapM (memberOf dir env fs parOf p)).bind fun ts =>
        (newCompound parOf ts).bind fun t =>
          if args.isDefined kFresnel then fresnelStage dir env fs parOf args p (.nonlinear t)
          else some (.nonlinear t) := by
  have hd : args.isDefined kFunc = true := by
    unfold SMap.isVec at h
    unfold SMap.isDefined
    cases hf : args.find kFunc with
    | none => rw [hf] at h; cases h
    | some v => rfl
  have hg : args.get kFunc ≠ [] := by
    unfold SMap.isVec at h
    unfold SMap.get
    cases hf : args.find kFunc with
    | none => rw [hf] at h; cases h
    | some v =>
      rw [hf] at h
      intro hc
      simp only [Option.getD_some] at hc
      rw [hc] at h
      cases h
  rw [getFunction, if_neg (by rw [hd]; decide), dif_neg hg]
  rw [if_pos h, if_neg hne]
  dsimp only
  generalize hm : List.mapM (m := Option) (β := SMap × FT L) _ (args.getVecStr kFunc).attach = r
  have hr : (args.getVecStr kFunc).mapM (memberOf dir env fs parOf p) = r := by
    rw [← mapM_attach, ← hm]
    congr 1
    funext e
    unfold memberOf
    split <;> split <;> simp_all
  rw [hr]
  cases r with
  | none => rfl
  | some ts =>
    simp only [Option.bind_some]
    cases hc : newCompound parOf ts with
    | none => rfl
    | some t =>
      simp only [Option.map_some, Option.bind_some, Bool.false_or]
      cases hfr : args.isDefined kFresnel with
      | false => simp
      | true =>
        simp only [Bool.not_true, Bool.false_eq_true, if_false, if_true]
        unfold fresnelStage
        simp only [cast_nonlinear]
        split
        · rename_i he
          simp only [he]
        · rename_i e he
          simp only [he]
          split
          · rename_i ha
            simp only [ha]
          · rename_i a ha
            simp only [ha]
            rfl

theorem getFunction_name (dir : Str) (env : Option Str) (fs : Str → Option (Symbols (Provider L)))
    (parOf : L → Par) (args : SMap) (p : Par) (n : Str) (hn : args.find kFunc = some n)
    (hv : ∀ r, n ≠ '[' :: r) :
    getFunction dir env fs parOf args p =
      (openLibrary dir env fs n "provide_function".toList).bind fun o =>
        match o with
        | none => some .rational
        | some pr =>
          let func : Made L := if pr.nonlinear then .nonlinear (.leaf (pr.make p)) else .linear (pr.make p)
          if args.isDefined kFresnel then fresnelStage dir env fs parOf args p func else some func := by
  have hd : args.isDefined kFunc = true := by
    unfold SMap.isDefined
    rw [hn]; rfl
  have hg : args.get kFunc = n := by
    unfold SMap.get
    rw [hn]; rfl
  have hnv : args.isVec kFunc = false := by
    unfold SMap.isVec
    rw [hn]
    cases n with
    | nil => rfl
    | cons c r =>
      have : c ≠ '[' := fun hc => hv r (by rw [hc])
      simp [this]
  by_cases hne : n = []
  · subst hne
    rw [getFunction, if_neg (by rw [hd]; decide), dif_pos hg]
    simp [openLibrary, libraryName]
  · rw [getFunction, if_neg (by rw [hd]; decide), dif_neg (by rw [hg]; exact hne)]
    subst hg
    rw [hnv]
    dsimp only
    rw [if_neg (by decide)]
    cases openLibrary dir env fs (args.get kFunc) "provide_function".toList with
    | none => rfl
    | some o =>
      simp only [Option.map_some, Option.bind_some]
      cases o with
      | none => rfl
      | some pr =>
        simp only [Bool.false_or]
        cases hfr : args.isDefined kFresnel with
        | false => simp
        | true =>
          simp only [Bool.not_true, Bool.false_eq_true, if_false, if_true]
          unfold fresnelStage
          cases hpr : pr.nonlinear with
          | false => rfl
          | true =>
            simp only [if_true, cast_nonlinear]
            split
            · rename_i he
              simp only [he]
            · rename_i e he
              simp only [he]
              split
              · rename_i ha
                simp only [ha]
              · rename_i a ha
                simp only [ha]
                rfl

/-! ### Reading the description -/

theorem optWord_func : optWord kFunc = ['-', '-', 'f', 'u', 'n', 'c'] := rfl

theorem joinWords_cons (w : Str) (ws : List Str) (h : ws ≠ []) : joinWords (w :: ws) = w ++ ' ' :: joinWords ws := by
  cases ws with
  | nil => exact absurd rfl h
  | cons _ _ => rfl

theorem streamWords_joinWords (sp : Str) (hsp : ∀ c ∈ sp, isSpace c = true) (w : Str) (ws : List Str)
    (h : ∀ u ∈ w :: ws, IsWord u) : streamWords (sp ++ joinWords (w :: ws)) = w :: ws := by
  have h1 := streamWords_join w ws [] h (by intro c r hc; cases hc)
  simp only [List.append_nil, if_true] at h1
  rw [streamWords_space _ _ (by decide)] at h1
  refine Eq.trans (streamWords_congr _ _ ?_) h1
  clear h1
  induction sp with
  | nil => rfl
  | cons c sp ih =>
    have := hsp c (by simp)
    simp only [List.cons_append, List.dropWhile_cons, this, if_true]
    exact ih fun d hd => hsp d (by simp [hd])

/-- the arguments of a term -/
theorem Term.arguments (t : Term) (ht : t.Readable) (sp : Str) (hsp : ∀ c ∈ sp, isSpace c = true) :
    ∃ a, createArguments (funcPrefix ++ (sp ++ t.text)) = some a ∧ a.Ordered ∧ ∀ k, a.find k = t.binding k := by
  have hw := ht.words
  unfold Term.words at hw
  unfold createArguments Term.text Term.words
  rw [streamWords_func, streamWords_joinWords sp hsp _ _ (fun u hu => (hw u hu).1)]
  have hread : ReadableLine (.word kFunc t.name :: t.opts) := by
    refine ⟨⟨ht.name, ?_⟩, ht.opts⟩
    rintro ⟨r, hr⟩
    exact absurd (by rw [hr]; simp) (hw t.name (by simp)).2.2.1
  obtain ⟨m', h1, h2, h3⟩ := parseArgs_items (.word kFunc t.name :: t.opts) [] SMap.ordered_nil hread
  refine ⟨m', ?_, h2, fun k => ?_⟩
  · rw [← h1]; rfl
  · rw [h3]; rfl

/-- the value of an option in a term is empty or a word of the term -/
theorem Term.binding_word (t : Term) (ht : t.Readable) (k v : Str) (h : t.binding k = some v) :
    v = [] ∨ (v ∈ t.words ∧ ∀ r, v ≠ '-' :: r) := by
  have key : ∀ is : List Item, ReadableLine is → (∀ w ∈ lineWords is, '[' ∉ w) → firstBinding k is = some v →
      v = [] ∨ (v ∈ lineWords is ∧ ∀ r, v ≠ '-' :: r) := by
    intro is
    induction is with
    | nil => intro _ _ h; cases h
    | cons i is ih =>
      intro hr hb h
      have hrest : firstBinding k is = some v → v = [] ∨ (v ∈ lineWords (i :: is) ∧ ∀ r, v ≠ '-' :: r) := by
        intro h'
        rcases ih hr.2 (fun w hw => hb w (by simp only [lineWords, List.flatMap_cons, List.mem_append] at hw ⊢; exact Or.inr hw)) h' with h2 | h2
        · exact Or.inl h2
        · right
          simp only [lineWords, List.flatMap_cons, List.mem_append] at h2 ⊢
          exact ⟨Or.inr h2.1, h2.2⟩
      cases i with
      | stray w => exact hrest h
      | flag k' =>
        simp only [firstBinding, Item.binding] at h
        split at h
        · simp only [Option.some.injEq] at h; exact Or.inl h.symm
        · exact hrest h
      | word k' w =>
        simp only [firstBinding, Item.binding] at h
        split at h
        · simp only [Option.some.injEq] at h
          right
          refine ⟨by simp [lineWords, Item.words, h], ?_⟩
          rw [← h]
          exact hr.1.1
        · exact hrest h
      | vec k' w ws =>
        exfalso
        obtain ⟨r, hr'⟩ := hr.1.1
        exact hb w (by simp [lineWords, Item.words]) (by rw [hr']; simp)
  have hw := ht.words
  unfold Term.binding at h
  simp only [firstBinding, Item.binding] at h
  split at h
  · simp only [Option.some.injEq] at h
    right; rw [← h]; exact ⟨by simp [Term.words], ht.name⟩
  · rcases key t.opts ht.opts (fun w hm => (hw w (by simp [Term.words, hm])).2.2.1) h with h | h
    · exact Or.inl h
    · exact Or.inr ⟨by simp [Term.words, h.1], h.2⟩

/-- the library of a plugin, as `open_library` finds it -/
def libraryOf (dir : Str) (env : Option Str) (fs : Str → Option (Symbols (Provider L))) (n : Str) :
    Option (Provider L) := (openLibrary dir env fs n "provide_function".toList).join

theorem openLibrary_of (dir : Str) (env : Option Str) (fs : Str → Option (Symbols (Provider L))) (n : Str)
    (pr : Provider L) (h : libraryOf dir env fs n = some pr) :
    openLibrary dir env fs n "provide_function".toList = some (some pr) := by
  unfold libraryOf at h
  cases ho : openLibrary dir env fs n "provide_function".toList with
  | none => rw [ho] at h; cases h
  | some o => rw [ho] at h; rw [Option.join_some] at h; rw [h]

theorem leafOf_some (lib : Str → Option (Provider L)) (p : Par) (n : Str) (f : FT L) (h : leafOf lib p n = some f) :
    ∃ pr, lib n = some pr ∧ pr.nonlinear = true ∧ f = .leaf (pr.make p) := by
  unfold leafOf at h
  split at h
  · rename_i pr hpr
    split at h
    · rename_i hn
      simp only [Option.some.injEq] at h
      exact ⟨pr, hpr, hn, h.symm⟩
    · cases h
  · cases h

/-- a plugin alone -/
theorem getFunction_leaf (dir : Str) (env : Option Str) (fs : Str → Option (Symbols (Provider L)))
    (parOf : L → Par) (args : SMap) (p : Par) (n : Str) (hn : args.find kFunc = some n)
    (hv : '[' ∉ n) (hfr : args.find kFresnel = none) (f : FT L)
    (hf : leafOf (libraryOf dir env fs) p n = some f) :
    getFunction dir env fs parOf args p = some (.nonlinear f) := by
  obtain ⟨pr, h1, h2, h3⟩ := leafOf_some _ _ _ _ hf
  rw [getFunction_name dir env fs parOf args p n hn (by rintro r rfl; simp at hv),
    openLibrary_of _ _ _ _ _ h1]
  have : args.isDefined kFresnel = false := by unfold SMap.isDefined; rw [hfr]; rfl
  simp [h2, this, h3]

/-- **C55.**  A term: the object made is the object of the plugin, multiplied by the Fresnel term if
    there is one. -/
theorem getFunction_term (dir : Str) (env : Option Str) (fs : Str → Option (Symbols (Provider L)))
    (parOf : L → Par) (p : Par) (t : Term) (ht : t.Readable) (args : SMap)
    (hargs : ∀ k, args.find k = t.binding k) (f : FT L)
    (hf : t.function (libraryOf dir env fs) parOf p = some f) :
    getFunction dir env fs parOf args p = some (.nonlinear f) := by
  have hn : args.find kFunc = some t.name := by
    rw [hargs]; simp [Term.binding, firstBinding, Item.binding]
  have hname := ht.words t.name (by simp [Term.words])
  have hv : ∀ r, t.name ≠ '[' :: r := by
    intro r hr
    exact hname.2.2.1 (by rw [hr]; simp)
  unfold Term.function at hf
  have hdef : ∀ k, args.isDefined k = (t.binding k).isSome := by
    intro k; unfold SMap.isDefined; rw [hargs]
  have alone : (t.binding kFresnel).getD [] = [] → leafOf (libraryOf dir env fs) p t.name = some f →
      getFunction dir env fs parOf args p = some (.nonlinear f) := by
    intro he hl
    obtain ⟨pr, h1, h2, h3⟩ := leafOf_some _ _ _ _ hl
    rw [getFunction_name dir env fs parOf args p t.name hn hv, openLibrary_of _ _ _ _ _ h1]
    simp only [Option.bind_some, h2, if_true]
    have hget : args.get kFresnel = [] := by unfold SMap.get; rw [hargs]; exact he
    have hnv : args.isVec kFresnel = false := by
      unfold SMap.isVec
      unfold SMap.get at hget
      cases hfx : args.find kFresnel with
      | none => rfl
      | some v =>
        rw [hfx] at hget
        simp only [Option.getD_some] at hget
        rw [hget]; rfl
    split
    · unfold fresnelStage fresnelText
      simp [hget, hnv, Made.cast, h3]
    · rw [h3]
  split at hf
  · rename_i hb
    exact alone (by rw [hb]; rfl) hf
  · rename_i hb
    exact alone (by rw [hb]; rfl) hf
  · rename_i v hne hb
    split at hf
    · rename_i f0 g0 hf0 hg0
      simp only [Option.some.injEq] at hf
      have hvne : v ≠ [] := hne
      obtain ⟨hvw, hvd⟩ := (t.binding_word ht _ _ hb).resolve_left hvne
      obtain ⟨w1, _, w3, _⟩ := ht.words v hvw
      obtain ⟨pr, h1, h2, h3⟩ := leafOf_some _ _ _ _ hf0
      rw [getFunction_name dir env fs parOf args p t.name hn hv, openLibrary_of _ _ _ _ _ h1]
      have hfd : args.isDefined kFresnel = true := by rw [hdef, hb]; rfl
      simp only [Option.bind_some, h2, if_true, hfd]
      have hget : args.get kFresnel = v := by unfold SMap.get; rw [hargs, hb]; rfl
      have hnv : args.isVec kFresnel = false := by
        unfold SMap.isVec
        rw [hargs, hb]
        cases v with
        | nil => rfl
        | cons c r =>
          have : c ≠ '[' := fun hc => w3 (by rw [hc]; simp)
          simp [this]
      have htext : fresnelText args = some v := by
        unfold fresnelText
        simp [hget, hnv, hvne]
      -- the arguments of the Fresnel term
      have hr : Term.Readable ⟨v, []⟩ := by
        refine ⟨?_, ?_, trivial⟩
        · intro w hw
          have : w = v := by simpa [Term.words, lineWords] using hw
          rw [this]; exact ht.words v hvw
        · exact hvd
      obtain ⟨a, ha1, _, ha3⟩ := Term.arguments ⟨v, []⟩ hr [] (by simp)
      have ha1' : createArguments (funcPrefix ++ v) = some a := by
        rw [← ha1]; rfl
      have hbf : Term.binding ⟨v, []⟩ kFresnel = none := by
        have : kFresnel ≠ kFunc := by decide
        simp [Term.binding, firstBinding, Item.binding, this]
      have hg : getFunction dir env fs parOf a p = some (.nonlinear g0) :=
        getFunction_leaf dir env fs parOf a p v (by rw [ha3]; simp [Term.binding, firstBinding, Item.binding])
          w3 (by rw [ha3]; exact hbf) g0 hg0
      unfold fresnelStage
      rw [cast_nonlinear]
      simp only [htext, ha1', hg, Option.map_some, cast_nonlinear, newProduct, hdef, ← hf, h3]
    · cases hf

/-! ### Sums -/

theorem joinComma_sum (t : Term) (ts : List Term) :
    joinComma (t.text :: ts.map fun u => ' ' :: u.text) =
      t.text ++ (ts.map fun u => ',' :: ' ' :: u.text).flatten := by
  have key : ∀ (ts : List Term) (e : Str), joinComma (e :: ts.map fun u => ' ' :: u.text) =
      e ++ (ts.map fun u => ',' :: ' ' :: u.text).flatten := by
    intro ts
    induction ts with
    | nil => intro e; simp [joinComma]
    | cons u ts ih =>
      intro e
      rw [List.map_cons, joinComma, ih]
      · simp
      · simp
  exact key ts t.text

theorem sumText_bracketed (t : Term) (ts : List Term) :
    sumText (t :: ts) = bracketed (t.text :: ts.map fun u => ' ' :: u.text) := by
  unfold sumText bracketed
  rw [joinComma_sum]

theorem mem_joinWords (c : Char) (l : List Str) (h : c ∈ joinWords l) : c = ' ' ∨ ∃ w ∈ l, c ∈ w := by
  induction l with
  | nil => cases h
  | cons w ws ih =>
    cases ws with
    | nil => exact Or.inr ⟨w, by simp, h⟩
    | cons v ws =>
      rw [joinWords_cons _ _ (by simp), List.mem_append, List.mem_cons] at h
      rcases h with h | h | h
      · exact Or.inr ⟨w, by simp, h⟩
      · exact Or.inl h
      · rcases ih h with h | ⟨u, hu, hc⟩
        · exact Or.inl h
        · exact Or.inr ⟨u, by simp only [List.mem_cons] at hu ⊢; tauto, hc⟩

theorem Term.text_comma (t : Term) (ht : t.Readable) : ',' ∉ t.text := by
  intro h
  rcases mem_joinWords _ _ h with h | ⟨w, hw, hc⟩
  · cases h
  · exact (ht.words w hw).2.1 hc

theorem memberOf_term (dir : Str) (env : Option Str) (fs : Str → Option (Symbols (Provider L)))
    (parOf : L → Par) (p : Par) (t : Term) (ht : t.Readable) (f : FT L)
    (hf : t.function (libraryOf dir env fs) parOf p = some f) (sp : Str) (hsp : ∀ c ∈ sp, isSpace c = true) :
    ∃ a, memberOf dir env fs parOf p (sp ++ t.text) = some (a, f) ∧ ∀ k, a.find k = t.binding k := by
  obtain ⟨a, h1, _, h2⟩ := t.arguments ht sp hsp
  refine ⟨a, ?_, h2⟩
  unfold memberOf
  rw [h1]
  simp only [getFunction_term dir env fs parOf p t ht a h2 f hf, Option.bind_some, cast_nonlinear,
    Option.map_some]

theorem members_exist (dir : Str) (env : Option Str) (fs : Str → Option (Symbols (Provider L)))
    (parOf : L → Par) (p : Par) (es : List (Str × Term))
    (hr : ∀ e ∈ es, e.2.Readable ∧ ∀ c ∈ e.1, isSpace c = true)
    (hf : ∀ e ∈ es, ∃ f, e.2.function (libraryOf dir env fs) parOf p = some f) :
    ∃ members, AreMembers (libraryOf dir env fs) parOf p (es.map Prod.snd) members ∧
      (es.map fun e => e.1 ++ e.2.text).mapM (memberOf dir env fs parOf p) = some members := by
  induction es with
  | nil => exact ⟨[], List.Forall₂.nil, rfl⟩
  | cons e es ih =>
    obtain ⟨ms, h1, h2⟩ := ih (fun x hx => hr x (by simp [hx])) (fun x hx => hf x (by simp [hx]))
    obtain ⟨f, hf0⟩ := hf e (by simp)
    obtain ⟨r1, r2⟩ := hr e (by simp)
    obtain ⟨a, ha1, ha2⟩ := memberOf_term dir env fs parOf p e.2 r1 f hf0 e.1 r2
    refine ⟨(a, f) :: ms, List.Forall₂.cons ⟨ha2, hf0⟩ h1, ?_⟩
    rw [List.map_cons, List.mapM_cons, ha1, h2]
    rfl

/-- the list of the members of a sum is read -/
theorem sum_members (dir : Str) (env : Option Str) (fs : Str → Option (Symbols (Provider L)))
    (parOf : L → Par) (p : Par) (t : Term) (ts : List Term) (hr : ∀ u ∈ t :: ts, u.Readable)
    (hf : ∀ u ∈ t :: ts, ∃ f, u.function (libraryOf dir env fs) parOf p = some f)
    (args : SMap) (hargs : args.find kFunc = some (sumText (t :: ts))) :
    args.isVec kFunc = true ∧ args.getVecStr kFunc ≠ [] ∧
    ∃ members, AreMembers (libraryOf dir env fs) parOf p (t :: ts) members ∧
      (args.getVecStr kFunc).mapM (memberOf dir env fs parOf p) = some members := by
  have hb : ∀ a ∈ t.text :: ts.map (fun u => ' ' :: u.text), ',' ∉ a := by
    intro a ha
    rcases List.mem_cons.1 ha with rfl | ha
    · exact t.text_comma (hr t (by simp))
    · obtain ⟨u, hu, rfl⟩ := List.mem_map.1 ha
      have := u.text_comma (hr u (by simp [hu]))
      simp [this]
  rw [sumText_bracketed] at hargs
  obtain ⟨h1, h2⟩ := getVecStr_list args kFunc _ _ hargs hb
  refine ⟨h2, by rw [h1]; simp, ?_⟩
  obtain ⟨ms, h3, h4⟩ := members_exist dir env fs parOf p (([], t) :: ts.map fun u => ([' '], u))
    (by
      intro e he
      rcases List.mem_cons.1 he with rfl | he
      · exact ⟨hr t (by simp), by simp⟩
      · obtain ⟨u, hu, rfl⟩ := List.mem_map.1 he
        exact ⟨hr u (by simp [hu]), by simp [isSpace]⟩)
    (by
      intro e he
      rcases List.mem_cons.1 he with rfl | he
      · exact hf t (by simp)
      · obtain ⟨u, hu, rfl⟩ := List.mem_map.1 he
        exact hf u (by simp [hu]))
  refine ⟨ms, ?_, ?_⟩
  · simpa [List.map_map, Function.comp_def] using h3
  · rw [h1]
    simpa [List.map_map, Function.comp_def] using h4

/-- **C55.**  A sum of terms: the object made is the compound of the functions of the terms, in order,
    each with the arguments of its term. -/
theorem getFunction_sum (dir : Str) (env : Option Str) (fs : Str → Option (Symbols (Provider L)))
    (parOf : L → Par) (p : Par) (t : Term) (ts : List Term) (hr : ∀ u ∈ t :: ts, u.Readable)
    (hf : ∀ u ∈ t :: ts, ∃ f, u.function (libraryOf dir env fs) parOf p = some f)
    (args : SMap) (hargs : args.find kFunc = some (sumText (t :: ts))) (hfr : args.find kFresnel = none) :
    ∃ members, AreMembers (libraryOf dir env fs) parOf p (t :: ts) members ∧
      getFunction dir env fs parOf args p =
        (compoundPar (members.map fun m => m.2.par parOf)).map fun q =>
          .nonlinear (.compound q (FTs.ofList members)) := by
  obtain ⟨h1, h2, ms, h3, h4⟩ := sum_members dir env fs parOf p t ts hr hf args hargs
  refine ⟨ms, h3, ?_⟩
  rw [getFunction_vec dir env fs parOf args p h1 h2, h4, Option.bind_some]
  have hd : args.isDefined kFresnel = false := by unfold SMap.isDefined; rw [hfr]; rfl
  unfold newCompound
  rw [hd]
  cases compoundPar (ms.map fun m => m.2.par parOf) <;> rfl

/-- **C55.**  A sum of terms with a Fresnel term for the whole sum: the product of the compound and
    the object of the Fresnel plugin. -/
theorem getFunction_sum_fresnel (dir : Str) (env : Option Str) (fs : Str → Option (Symbols (Provider L)))
    (parOf : L → Par) (p : Par) (t : Term) (ts : List Term) (hr : ∀ u ∈ t :: ts, u.Readable)
    (hf : ∀ u ∈ t :: ts, ∃ f, u.function (libraryOf dir env fs) parOf p = some f)
    (args : SMap) (hargs : args.find kFunc = some (sumText (t :: ts)))
    (v : Str) (hv : args.find kFresnel = some v) (hw : IsWord v) (hb : '[' ∉ v) (hd : ∀ r, v ≠ '-' :: r)
    (g : FT L) (hg : leafOf (libraryOf dir env fs) p v = some g) :
    ∃ members, AreMembers (libraryOf dir env fs) parOf p (t :: ts) members ∧
      getFunction dir env fs parOf args p =
        (compoundPar (members.map fun m => m.2.par parOf)).map fun q =>
          .nonlinear (.product (productPar q (g.par parOf)) (.compound q (FTs.ofList members)) g
            (args.isDefined kFixedLobe) (args.isDefined kFixedFresnel)) := by
  obtain ⟨h1, h2, ms, h3, h4⟩ := sum_members dir env fs parOf p t ts hr hf args hargs
  refine ⟨ms, h3, ?_⟩
  rw [getFunction_vec dir env fs parOf args p h1 h2, h4, Option.bind_some]
  have hdf : args.isDefined kFresnel = true := by unfold SMap.isDefined; rw [hv]; rfl
  have hget : args.get kFresnel = v := by unfold SMap.get; rw [hv]; rfl
  have hnv : args.isVec kFresnel = false := by
    unfold SMap.isVec
    rw [hv]
    cases v with
    | nil => rfl
    | cons c r =>
      have : c ≠ '[' := fun hc => hb (by rw [hc]; simp)
      simp [this]
  have htext : fresnelText args = some v := by
    unfold fresnelText
    simp [hget, hnv, hw.1]
  have hread : ReadableLine [.word kFunc v] := by
    refine ⟨⟨hd, ?_⟩, trivial⟩
    rintro ⟨r, rfl⟩
    simp at hb
  obtain ⟨a, ha1, _, ha3⟩ := parseArgs_items [.word kFunc v] [] SMap.ordered_nil hread
  have ha : createArguments (funcPrefix ++ v) = some a := by
    unfold createArguments
    have := streamWords_joinWords [] (by simp) v [] (by simpa using hw)
    simp only [List.nil_append, joinWords] at this
    rw [streamWords_func, this, ← ha1]
    rfl
  have hgf : getFunction dir env fs parOf a p = some (.nonlinear g) := by
    apply getFunction_leaf dir env fs parOf a p v _ hb _ g hg
    · rw [ha3]; simp [firstBinding, Item.binding, SMap.find]
    · have : kFresnel ≠ kFunc := by decide
      rw [ha3]; simp [firstBinding, Item.binding, SMap.find, this]
  unfold newCompound
  rw [hdf]
  cases compoundPar (ms.map fun m => m.2.par parOf) with
  | none => rfl
  | some q =>
    simp only [Option.map_some, Option.bind_some, if_true]
    unfold fresnelStage
    simp only [cast_nonlinear, htext, ha, hgf, Option.map_some]
    rfl

end Alta
