import Verif.Model.Plugins
import Mathlib.Data.List.Basic
import Mathlib.Data.List.Infix
import Mathlib.Tactic.Linarith
/-
C47: the plugin search path and the lookup of plugins.
-/
namespace Alta

/-- Specification: the entries of a path are separated by colons. -/
def joinColon : List Str → Str
  | [] => []
  | [e] => e
  | e :: r => e ++ ':' :: joinColon r

theorem findIdx_colon_cases (s : Str) :
    (∃ a b, s = a ++ ':' :: b ∧ ':' ∉ a ∧ s.findIdx (· == ':') = a.length) ∨
    (':' ∉ s ∧ s.findIdx (· == ':') = s.length) := by
  induction s with
  | nil => right; simp
  | cons c s ih =>
    by_cases h : c = ':'
    · left; refine ⟨[], s, by simp [h], by simp, by simp [h, List.findIdx_cons]⟩
    · rcases ih with ⟨a, b, hs, hn, hi⟩ | ⟨hn, hi⟩
      · left
        refine ⟨c :: a, b, by simp [hs], by simp [hn, Ne.symm h], ?_⟩
        simp [List.findIdx_cons, show (c == ':') = false by simpa using h, hi]
      · right
        refine ⟨by simp [hn, Ne.symm h], ?_⟩
        simp [List.findIdx_cons, show (c == ':') = false by simpa using h, hi]

/-- the entry designates the installation directory when it is empty -/
def entryDir (dir e : Str) : Str := if e = [] then dir else e

theorem searchLoop_spec (dir : Str) (n : ℕ) : ∀ (s : Str) (start : ℕ),
    s.length - start = n → start < s.length →
    ∃ entries : List Str, entries ≠ [] ∧ joinColon entries = s.drop start ∧
      (∀ e ∈ entries, ':' ∉ e) ∧ searchLoop dir s start = entries.map (entryDir dir) := by
  induction n using Nat.strong_induction_on with
  | _ n ih =>
    intro s start hn hlt
    rw [searchLoop, dif_pos hlt]
    have hdl : (s.drop start).length = s.length - start := List.length_drop ..
    rcases findIdx_colon_cases (s.drop start) with ⟨a, b, hs, ha, hi⟩ | ⟨ha, hi⟩
    · have hnext : nextColon s start = start + a.length := by simp [nextColon, hi]
      have hlen : s.length = start + a.length + 1 + b.length := by
        have : (s.drop start).length = a.length + (b.length + 1) := by rw [hs]; simp
        omega
      have hentry : (if nextColon s start = start then dir
          else (s.drop start).take (nextColon s start - start)) = entryDir dir a := by
        rw [hnext, hs]
        unfold entryDir
        by_cases h0 : a = []
        · simp [h0]
        · have : a.length ≠ 0 := by simpa using h0
          simp [h0]
      have hdrop : s.drop (start + a.length + 1) = b := by
        have : s.drop (start + (a.length + 1)) = (s.drop start).drop (a.length + 1) := by
          rw [List.drop_drop]
        rw [Nat.add_assoc, this, hs]
        simp
      by_cases hb : b = []
      · subst hb
        have hend : ¬ (start + a.length + 1 < s.length) := by simp at hlen; omega
        refine ⟨[a, []], by simp, by simp [joinColon, hs], by simp [ha], ?_⟩
        simp only [hentry]
        rw [hnext, searchLoop, dif_neg hend]
        have : start + a.length = s.length - 1 := by simp at hlen; omega
        simp [this, entryDir]
      · have hbl : 0 < b.length := by
          rcases b with _ | _
          · exact absurd rfl hb
          · simp
        obtain ⟨entries, hne, hj, hc, hl⟩ := ih (s.length - (start + a.length + 1))
          (by omega) s (start + a.length + 1) rfl (by omega)
        refine ⟨a :: entries, by simp, ?_, ?_, ?_⟩
        · rcases entries with _ | ⟨e, r⟩
          · exact absurd rfl hne
          · rw [hdrop] at hj
            simp only [joinColon, hj, hs]
        · intro e he
          rcases List.mem_cons.1 he with rfl | he
          · exact ha
          · exact hc e he
        · simp only [hentry]
          rw [hnext, hl, if_neg (by omega)]
          simp
    · have hnext : nextColon s start = s.length := by
        simp only [nextColon, hi, hdl]; omega
      refine ⟨[s.drop start], by simp, by simp [joinColon], by simpa using ha, ?_⟩
      simp only [hnext]
      rw [searchLoop, dif_neg (by omega)]
      have hne : s.drop start ≠ [] := by
        intro h; rw [h] at hdl; simp at hdl; omega
      rw [if_neg (by omega), if_neg (by omega), List.take_of_length_le (by omega)]
      simp [entryDir, hne]

theorem joinColon_split (l l' : List Str) (hl : l ≠ []) (hl' : l' ≠ [])
    (h : ∀ e ∈ l, ':' ∉ e) (h' : ∀ e ∈ l', ':' ∉ e) (he : joinColon l = joinColon l') :
    l = l' := by
  have key : ∀ (a b : Str) (c d : List Char), ':' ∉ a → ':' ∉ b →
      a ++ ':' :: c = b ++ ':' :: d → a = b ∧ c = d := by
    intro a
    induction a with
    | nil =>
      intro b c d _ hb he
      rcases b with _ | ⟨x, b⟩
      · simpa using he
      · simp at he hb; exact absurd he.1 hb.1
    | cons x a ih =>
      intro b c d ha hb he
      rcases b with _ | ⟨y, b⟩
      · simp at he ha; exact absurd he.1.symm ha.1
      · simp at he ha hb
        obtain ⟨h1, h2⟩ := ih b c d ha.2 hb.2 he.2
        exact ⟨by rw [he.1, h1], h2⟩
  induction l generalizing l' with
  | nil => exact absurd rfl hl
  | cons a l ih =>
    rcases l' with _ | ⟨b, l'⟩
    · exact absurd rfl hl'
    rcases l with _ | ⟨a2, l⟩ <;> rcases l' with _ | ⟨b2, l'⟩
    · simpa [joinColon] using he
    · simp only [joinColon] at he
      exact absurd (he ▸ (by simp : ':' ∈ b ++ ':' :: joinColon (b2 :: l'))) (h a (by simp))
    · simp only [joinColon] at he
      exact absurd (he ▸ (by simp : ':' ∈ a ++ ':' :: joinColon (a2 :: l))) (h' b (by simp))
    · simp only [joinColon] at he
      obtain ⟨h1, h2⟩ := key _ _ _ _ (h a (by simp)) (h' b (by simp)) he
      rw [h1, ih (b2 :: l') (by simp) (by simp) (fun e he => h e (by simp [he]))
        (fun e he => h' e (by simp [he])) h2]

/-- **C47.**  The search path is made of the entries of the environment variable (the
    unique list of strings without colon whose concatenation with colons is its value),
    in order, an empty entry standing for the installation directory.  Unset, the
    variable has one empty entry. -/
theorem searchPath_spec (dir : Str) (env : Option Str) (entries : List Str)
    (hne : entries ≠ []) (hc : ∀ e ∈ entries, ':' ∉ e)
    (hj : joinColon entries = env.getD []) :
    searchPath dir env = entries.map (fun e => if e = [] then dir else e) := by
  unfold searchPath
  by_cases h0 : env.getD [] = []
  · simp only [h0, if_true]
    have : entries = [[]] := by
      rcases entries with _ | ⟨e, _ | ⟨e', r⟩⟩
      · exact absurd rfl hne
      · simp only [joinColon] at hj; rw [hj, h0]
      · rw [h0] at hj; simp [joinColon] at hj
    simp [this]
  · simp only [h0, if_false]
    obtain ⟨l, hl1, hl2, hl3, hl4⟩ := searchLoop_spec dir _ (env.getD []) 0 rfl
      (by rcases hh : env.getD [] with _ | _
          · exact absurd hh h0
          · simp)
    rw [hl4, joinColon_split entries l hne hl1 hc hl3 (by rw [hj, hl2]; simp)]
    rfl

/-- every value of the variable has such entries -/
theorem entries_exist (s : Str) :
    ∃ entries : List Str, entries ≠ [] ∧ (∀ e ∈ entries, ':' ∉ e) ∧
      joinColon entries = s := by
  by_cases h : s = []
  · exact ⟨[[]], by simp, by simp, by simp [joinColon, h]⟩
  · obtain ⟨l, h1, h2, h3, _⟩ := searchLoop_spec [] _ s 0 rfl
      (by rcases s with _ | _
          · exact absurd rfl h
          · simp)
    exact ⟨l, h1, h3, by simpa using h2⟩

/-- "/a::b:" : two directories, with the installation directory in the middle and at
    the end -/
example : searchPath "/usr".toList (some "/a::b:".toList) =
    ["/a".toList, "/usr".toList, "b".toList, "/usr".toList] :=
  searchPath_spec _ _ ["/a".toList, [], "b".toList, []] (by simp) (by decide) (by decide)

example : searchPath "/usr".toList none = ["/usr".toList] :=
  searchPath_spec _ _ [[]] (by simp) (by simp) (by simp [joinColon])

/-- The libraries that `open_library` may use: those of the given name, in a directory
    of the path, having the symbol. -/
def Offers {α : Type} (fs : Str → Option (Symbols α)) (lib symbol d : Str) (f : α) : Prop :=
  ∃ syms, fs (d ++ ['/'] ++ lib) = some syms ∧ syms symbol = some f

theorem openLoop_spec {α : Type} (fs : Str → Option (Symbols α)) (lib symbol : Str)
    (dirs : List Str) (f : α) :
    openLoop fs lib symbol dirs = some f ↔
      ∃ pre d post, dirs = pre ++ d :: post ∧ Offers fs lib symbol d f ∧
        ∀ d' ∈ pre, ∀ g, ¬ Offers fs lib symbol d' g := by
  induction dirs with
  | nil => simp [openLoop]
  | cons d dirs ih =>
    have step : (∀ g, ¬ Offers fs lib symbol d g) →
        openLoop fs lib symbol (d :: dirs) = openLoop fs lib symbol dirs := by
      intro hno
      rw [openLoop]
      rcases h : fs (d ++ ['/'] ++ lib) with _ | syms
      · rfl
      · rcases h2 : syms symbol with _ | g
        · simp only [h2]
        · exact absurd ⟨syms, h, h2⟩ (hno g)
    by_cases hd : ∃ g, Offers fs lib symbol d g
    · obtain ⟨g, syms, h1, h2⟩ := hd
      have : openLoop fs lib symbol (d :: dirs) = some g := by
        rw [openLoop, h1]; simp only [h2]
      rw [this]
      constructor
      · rintro h
        cases h
        exact ⟨[], d, dirs, rfl, ⟨syms, h1, h2⟩, by simp⟩
      · rintro ⟨pre, d', post, he, ho, hno⟩
        rcases pre with _ | ⟨p, pre⟩
        · simp at he
          obtain ⟨syms', h1', h2'⟩ := ho
          rw [← he.1, h1] at h1'
          cases h1'
          rw [h2] at h2'
          exact h2'
        · simp at he
          exact absurd ⟨syms, by rw [← he.1]; exact h1, h2⟩ (hno p (by simp) g)
    · have hd : ∀ g, ¬ Offers fs lib symbol d g := fun g hg => hd ⟨g, hg⟩
      rw [step hd, ih]
      constructor
      · rintro ⟨pre, d', post, he, ho, hno⟩
        refine ⟨d :: pre, d', post, by simp [he], ho, ?_⟩
        intro x hx
        rcases List.mem_cons.1 hx with rfl | hx
        · exact hd
        · exact hno x hx
      · rintro ⟨pre, d', post, he, ho, hno⟩
        rcases pre with _ | ⟨p, pre⟩
        · simp at he
          exact absurd (he.1 ▸ ho) (hd f)
        · simp at he
          exact ⟨pre, d', post, he.2, ho, fun x hx => hno x (by simp [hx])⟩

/-- the loop finds nothing exactly when no directory offers the symbol -/
theorem openLoop_none {α : Type} (fs : Str → Option (Symbols α)) (lib symbol : Str)
    (dirs : List Str) :
    openLoop fs lib symbol dirs = none ↔ ∀ d ∈ dirs, ∀ f, ¬ Offers fs lib symbol d f := by
  induction dirs with
  | nil => simp [openLoop]
  | cons d dirs ih =>
    rw [openLoop]
    rcases h : fs (d ++ ['/'] ++ lib) with _ | syms
    · simp only [ih, List.forall_mem_cons]
      constructor
      · intro hh; exact ⟨fun f ⟨s, h1, _⟩ => (by rw [h] at h1; cases h1), hh⟩
      · intro hh; exact hh.2
    · rcases h2 : syms symbol with _ | f
      · simp only [h2, ih, List.forall_mem_cons]
        constructor
        · intro hh
          exact ⟨fun f ⟨s, h1, h3⟩ => (by rw [h] at h1; cases h1; rw [h2] at h3; cases h3), hh⟩
        · intro hh; exact hh.2
      · simp only [h2, List.forall_mem_cons]
        constructor
        · intro hh; cases hh
        · intro hh; exact absurd ⟨syms, h, h2⟩ (hh.1 f)

/-- **C47.**  A symbol is taken from the first directory of the path that has a library
    of that name with that symbol, and from no other library. -/
theorem openLibrary_spec {α : Type} (dir : Str) (env : Option Str)
    (fs : Str → Option (Symbols α)) (filename lib symbol : Str) (f : α)
    (hlib : libraryName filename = some lib) :
    openLibrary dir env fs filename symbol = some (some f) ↔
      ∃ pre d post, searchPath dir env = pre ++ d :: post ∧ Offers fs lib symbol d f ∧
        ∀ d' ∈ pre, ∀ g, ¬ Offers fs lib symbol d' g := by
  unfold openLibrary
  simp only [hlib, Option.some.injEq]
  exact openLoop_spec _ _ _ _ _

/-- **C47.**  When no directory of the path has the library with the symbol, nothing is
    found: the data, fitter and function factories return `NULL`. -/
theorem absent_plugin {α : Type} (dir : Str) (env : Option Str)
    (fs : Str → Option (Symbols α)) (filename lib : Str)
    (hlib : libraryName filename = some lib)
    (habs : ∀ d ∈ searchPath dir env, fs (d ++ ['/'] ++ lib) = none) :
    (∀ symbol, openLibrary dir env fs filename symbol = some none) ∧
    getFitter dir env fs filename = some .null ∧
    (filename ≠ "vertical_segment".toList → getData dir env fs filename = some .null) ∧
    (filename ≠ "rational_function".toList →
      getFunctionByName dir env fs filename = some .null) := by
  have hne : filename ≠ [] := by
    intro h; subst h; simp [libraryName] at hlib
  have ho : ∀ symbol, openLibrary dir env fs filename symbol = some none := by
    intro symbol
    unfold openLibrary
    simp only [hlib, Option.some.injEq]
    rw [openLoop_none]
    rintro d hd f ⟨s, h1, _⟩
    rw [habs d hd] at h1; cases h1
  refine ⟨ho, ?_, ?_, ?_⟩
  · simp [getFitter, hne, ho, orNull]
  · intro h; rw [getData, if_neg (by simp [hne]; exact h), ho]; rfl
  · intro h; rw [getFunctionByName, if_neg hne, if_neg h, ho]; rfl

/-- **C47.**  A provider that a factory returns is offered, under the symbol of that
    factory, by a library of the given name in a directory of the path. -/
theorem provided_by_named_library {α : Type} (dir : Str) (env : Option Str)
    (fs : Str → Option (Symbols α)) (n : Str) (f : α) :
    (getFitter dir env fs n = some (.plugin f) →
      ∃ lib, libraryName n = some lib ∧ ∃ d ∈ searchPath dir env,
        Offers fs lib "provide_fitter".toList d f) ∧
    (getData dir env fs n = some (.plugin f) →
      ∃ lib, libraryName n = some lib ∧ ∃ d ∈ searchPath dir env,
        Offers fs lib "provide_data".toList d f) ∧
    (getFunctionByName dir env fs n = some (.plugin f) →
      ∃ lib, libraryName n = some lib ∧ ∃ d ∈ searchPath dir env,
        Offers fs lib "provide_function".toList d f) := by
  have key : ∀ symbol : Str, (openLibrary dir env fs n symbol).map orNull = some (.plugin f) →
      ∃ lib, libraryName n = some lib ∧ ∃ d ∈ searchPath dir env, Offers fs lib symbol d f := by
    intro symbol h
    unfold openLibrary at h
    rcases hlib : libraryName n with _ | lib
    · simp [hlib] at h
    · simp only [hlib, Option.map_some, Option.some.injEq] at h
      rcases ho : openLoop fs lib symbol (searchPath dir env) with _ | g
      · rw [ho] at h; cases h
      · rw [ho] at h
        cases h
        obtain ⟨pre, d, post, hp, hof, _⟩ := (openLoop_spec _ _ _ _ _).1 ho
        exact ⟨lib, rfl, d, by rw [hp]; simp, hof⟩
  refine ⟨?_, ?_, ?_⟩
  · intro h
    unfold getFitter at h
    split_ifs at h
    · cases h
    · exact key _ h
  · intro h
    unfold getData at h
    split_ifs at h
    · cases h
    · exact key _ h
  · intro h
    unfold getFunctionByName at h
    split_ifs at h
    · cases h
    · cases h
    · exact key _ h

/-- The name of a library: `lib….so`, unless it ends with `so`. -/
theorem libraryName_spec (a : Str) (x y : Char) :
    libraryName (a ++ [x, y]) =
      some (if x = 's' ∧ y = 'o' then a ++ [x, y]
        else "lib".toList ++ (a ++ [x, y]) ++ ".so".toList) := by
  unfold libraryName
  rw [if_neg (by simp)]
  have : (a ++ [x, y]).drop ((a ++ [x, y]).length - 2) = [x, y] := by simp
  rw [this]
  by_cases h : x = 's' ∧ y = 'o'
  · simp [h]
  · have : ¬ ([x, y] = ['s', 'o']) := by simpa using h
    rw [if_pos this, if_neg h]

/-- Limit: a name of one character (or the empty name) makes `library_name` throw. -/
theorem libraryName_short (a : Str) (h : a.length < 2) : libraryName a = none := by
  simp [libraryName, h]

/-- Limit: a plugin whose name happens to end with `so` is not found under its usual
    file name: `torso` is looked for as `torso`, not as `libtorso.so`. -/
theorem libraryName_so : libraryName "torso".toList = some "torso".toList := by decide

/-- Limit: with a dynamic linker whose `dlerror` keeps errors until they are read, as
    POSIX permits, the failure of `dlopen` in a first directory makes the library of the
    second directory be skipped, though it has the symbol. -/
theorem sticky_dlerror_skips {α : Type} (fs : Str → Option (Symbols α)) (lib symbol : Str)
    (d₁ d₂ : Str) (f : α) (h₁ : fs (d₁ ++ ['/'] ++ lib) = none)
    (h₂ : Offers fs lib symbol d₂ f) :
    openLoop fs lib symbol [d₁, d₂] = some f ∧
    openLoopSticky fs lib symbol false [d₁, d₂] = none := by
  obtain ⟨syms, h2, h3⟩ := h₂
  constructor
  · simp only [openLoop, h₁, h2, h3]
  · simp only [openLoopSticky, h₁, h2, h3, if_true]

/-- a file system with one library, in the second directory -/
def fsExample : Str → Option (Symbols ℕ) := fun p =>
  if p = "b/libmerl.so".toList then
    some (fun s => if s = "provide_data".toList then some 7 else none)
  else none

example : openLibrary "/usr".toList (some "/a:b".toList) fsExample "merl".toList
    "provide_data".toList = some (some 7) := by
  rw [openLibrary_spec _ _ _ _ "libmerl.so".toList _ _ (by decide)]
  refine ⟨["/a".toList], "b".toList, [], ?_, ?_, ?_⟩
  · exact searchPath_spec _ _ ["/a".toList, "b".toList] (by simp) (by decide) (by decide)
  · exact ⟨_, if_pos (by decide), if_pos rfl⟩
  · intro d' hd g ⟨s, h, _⟩
    simp only [List.mem_singleton] at hd
    subst hd
    rw [fsExample, if_neg (by decide)] at h
    cases h

end Alta
