import Verif.Proofs.SMap
import Mathlib.Tactic.Common
import Mathlib.Algebra.BigOperators.Group.List.Basic
/-
The length of the values of a map of arguments made from a text, used for the termination of
`plugins_manager::get_function`.
-/
namespace Alta

/-- the option `func` -/
def kFunc : Str := ['f', 'u', 'n', 'c']
/-- the option `fresnel` -/
def kFresnel : Str := ['f', 'r', 'e', 's', 'n', 'e', 'l']
/-- the text `--func ` -/
def funcPrefix : Str := ['-', '-', 'f', 'u', 'n', 'c', ' ']

/-- total length of the values of `func` and `fresnel` -/
def SMap.weight (m : SMap) : ℕ := (m.get kFunc).length + (m.get kFresnel).length

/-- length of words written one after the other, each followed by a space -/
def textLen (l : List Str) : ℕ := (l.map fun w => w.length + 1).sum

theorem textLen_cons (w : Str) (l : List Str) : textLen (w :: l) = w.length + 1 + textLen l := by
  simp [textLen]

theorem weight_insert (m : SMap) (hm : m.Ordered) (k v : Str) :
    (m.insert k v).weight ≤ m.weight + v.length := by
  have h : ∀ k', ((m.insert k v).get k').length ≤ (m.get k').length + (if k' = k then v.length else 0) := by
    intro k'
    unfold SMap.get
    rw [SMap.find_insert hm]
    split
    · rename_i h
      subst h
      cases m.find k' <;> simp
    · simp
  have h1 := h kFunc
  have h2 := h kFresnel
  have hne : kFunc ≠ kFresnel := by decide
  unfold SMap.weight
  split at h1 <;> split at h2
  · exact absurd (by simp_all) hne
  · omega
  · omega
  · omega

theorem joinVec_text (data cur : Str) (l : List Str) (d : Str) (r : List Str)
    (h : joinVec data cur l = some (d, r)) : d.length + textLen r ≤ data.length + textLen l := by
  induction l generalizing data cur with
  | nil =>
    simp only [joinVec, Option.some.injEq, Prod.mk.injEq] at h
    rw [← h.1, ← h.2]
  | cons n rest ih =>
    simp only [joinVec] at h
    split at h
    · cases h
    · split at h
      · simp only [Option.some.injEq, Prod.mk.injEq] at h
        rw [← h.1, ← h.2]
      · have := ih _ _ h
        rw [textLen_cons]
        simp only [List.length_append, List.length_cons] at this
        omega

theorem weight_parse (argv : List Str) (m m' : SMap) (hm : m.Ordered) (h : parseArgs argv m = some m') :
    m'.weight ≤ m.weight + (textLen argv - 1) := by
  induction hn : argv.length using Nat.strong_induction_on generalizing argv m with
  | _ n ih =>
    subst hn
    match argv with
    | [] =>
      rw [parseArgs] at h
      cases h
      omega
    | temp :: rest =>
      rw [parseArgs] at h
      rw [textLen_cons]
      split at h
      · match rest with
        | [] =>
          simp only [Option.some.injEq] at h
          rw [← h]
          have := weight_insert m hm (temp.drop 2) []
          simp only [List.length_nil] at this
          omega
        | next :: rest' =>
          simp only at h
          rw [textLen_cons]
          split at h
          · have h1 := ih _ (by simp) _ _ (hm.insert _ _) h rfl
            have h2 := weight_insert m hm (temp.drop 2) []
            rw [textLen_cons] at h1
            simp only [List.length_nil] at h2
            omega
          · split at h
            · split at h
              · cases h
              · rename_i data r hj
                have h0 := joinVec_length _ _ _ _ _ hj
                have h1 := ih _ (by simp only [List.length_cons]; omega) _ _ (hm.insert _ _) h rfl
                have h2 := weight_insert m hm (temp.drop 2) data
                have h3 := joinVec_text _ _ _ _ _ hj
                omega
            · have h1 := ih _ (by simp only [List.length_cons]; omega) _ _ (hm.insert _ _) h rfl
              have h2 := weight_insert m hm (temp.drop 2) next
              omega
      · have h1 := ih _ (by simp) _ _ hm h rfl
        omega

theorem textLen_streamWords (s : Str) : textLen (streamWords s) ≤ s.length + 1 := by
  induction hn : s.length using Nat.strong_induction_on generalizing s with
  | _ n ih =>
    subst hn
    rw [streamWords]
    have h1 : (s.dropWhile isSpace).length ≤ s.length := (List.dropWhile_sublist _).length_le
    have h2 : ((s.dropWhile isSpace).takeWhile (fun c => !isSpace c)).length +
        ((s.dropWhile isSpace).dropWhile (fun c => !isSpace c)).length = (s.dropWhile isSpace).length := by
      rw [← List.length_append, List.takeWhile_append_dropWhile]
    split
    · rw [textLen_cons]
      simp [textLen]
      omega
    · rename_i c r'' heq
      rw [textLen_cons]
      -- the next word starts after the space `c`
      have hc : isSpace c = true := by
        have := List.head?_dropWhile_not (fun c => !isSpace c) (List.dropWhile isSpace s)
        rw [heq] at this; simpa using this
      have e : streamWords (c :: r'') = streamWords r'' := by
        have h : (c :: r'').dropWhile isSpace = r''.dropWhile isSpace := by simp [hc]
        rw [streamWords, streamWords, h]
      rw [heq] at h2
      simp only [List.length_cons] at h2
      have := ih r''.length (by omega) r'' rfl
      rw [e]
      omega

theorem streamWords_func (e : Str) : streamWords (funcPrefix ++ e) = ['-', '-', 'f', 'u', 'n', 'c'] :: streamWords e := by
  have h2 : streamWords (' ' :: e) = streamWords e := by
    have h : (' ' :: e).dropWhile isSpace = e.dropWhile isSpace := by simp [isSpace]
    rw [streamWords, streamWords, h]
  rw [streamWords]
  have h1 : (funcPrefix ++ e).dropWhile isSpace = funcPrefix ++ e := by simp [funcPrefix, isSpace]
  have h3 : (funcPrefix ++ e).takeWhile (fun c => !isSpace c) = ['-', '-', 'f', 'u', 'n', 'c'] := by
    simp [funcPrefix, isSpace]
  have h4 : (funcPrefix ++ e).dropWhile (fun c => !isSpace c) = ' ' :: e := by
    simp [funcPrefix, isSpace]
  simp only [h1, h3]
  split
  · rename_i heq; rw [h1, h4] at heq; cases heq
  · rename_i heq; rw [h1, h4] at heq; cases heq; rw [h2]

/-- the arguments made from `--func e` have values no longer than `e` -/
theorem weight_create (e : Str) (m : SMap) (h : createArguments (funcPrefix ++ e) = some m) :
    m.weight ≤ e.length := by
  unfold createArguments at h
  rw [streamWords_func] at h
  have h1 := textLen_streamWords e
  rw [parseArgs] at h
  rw [if_pos (by decide)] at h
  have hw : ∀ k v, SMap.weight (SMap.insert [] k v) ≤ v.length := by
    intro k v
    have := weight_insert [] SMap.ordered_nil k v
    have h0 : SMap.weight [] = 0 := by decide
    omega
  cases hs : streamWords e with
  | nil =>
    rw [streamWords] at hs
    split at hs <;> cases hs
  | cons next rest' =>
    rw [hs, textLen_cons] at h1
    rw [hs] at h
    simp only at h
    split at h
    · have h2 := weight_parse _ _ _ (SMap.ordered_nil.insert _ _) h
      have h3 := hw (['-', '-', 'f', 'u', 'n', 'c'].drop 2) []
      rw [textLen_cons] at h2
      simp only [List.length_nil] at h3
      omega
    · split at h
      · split at h
        · cases h
        · rename_i data r hj
          have h2 := weight_parse _ _ _ (SMap.ordered_nil.insert _ _) h
          have h3 := hw (['-', '-', 'f', 'u', 'n', 'c'].drop 2) data
          have h4 := joinVec_text _ _ _ _ _ hj
          omega
      · have h2 := weight_parse _ _ _ (SMap.ordered_nil.insert _ _) h
        have h3 := hw (['-', '-', 'f', 'u', 'n', 'c'].drop 2) next
        omega

theorem cutComma_le (s a : Str) (o : Option Str) (h : cutComma s = (a, o)) : a.length ≤ s.length := by
  induction s generalizing a o with
  | nil => simp only [cutComma, Prod.mk.injEq] at h; rw [← h.1]
  | cons c s ih =>
    simp only [cutComma] at h
    split at h
    · simp only [Prod.mk.injEq] at h; rw [← h.1]; simp
    · simp only [Prod.mk.injEq] at h
      have := ih _ _ (Prod.mk.eta (p := cutComma s)).symm
      rw [← h.1]
      simpa using this

theorem vecElements_le (s : Str) : ∀ e ∈ vecElements s, e.length ≤ s.length := by
  induction hn : s.length using Nat.strong_induction_on generalizing s with
  | _ n ih =>
    subst hn
    intro e he
    rw [vecElements] at he
    split at he
    · rename_i a r h
      have h1 := cutComma_length s a r h
      rcases List.mem_cons.1 he with rfl | he
      · exact cutComma_le _ _ _ h
      · have := ih r.length h1 r rfl e he
        omega
    · rename_i a h
      have := cutComma_le _ _ _ h
      rw [List.mem_singleton.1 he, List.length_dropLast]
      omega

/-- the elements of a list are shorter than the value -/
theorem getVecStr_lt (m : SMap) (k : Str) : ∀ e ∈ m.getVecStr k, e.length < (m.get k).length := by
  intro e he
  unfold SMap.getVecStr at he
  unfold SMap.get
  split at he
  · rename_i r hr
    rw [hr]
    have := vecElements_le r e he
    simp only [Option.getD_some, List.length_cons]
    omega
  · cases he

end Alta
