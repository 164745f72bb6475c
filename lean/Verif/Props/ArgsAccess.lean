import Verif.Proofs.SMap
import Verif.Proofs.Decimal
/-
Properties C17 (typed access) and C18 (vector valued arguments).
-/
namespace Alta

/-- C17: an option that is not defined gives the default value. -/
theorem get_default (m : SMap) (k : Str) (h : m.isDefined k = false) (ds : Str) (di : ℤ) (dq : ℚ) :
    m.getString k ds = ds ∧ m.getInt k di = di ∧ m.getFloat k dq = dq ∧
    m.getDouble k dq = some dq ∧ m.get k = [] ∧ m.isVec k = false := by
  have : m.find k = none := by simpa [SMap.isDefined] using h
  simp [SMap.getString, SMap.getInt, SMap.getFloat, SMap.getDouble, SMap.get, SMap.isVec, this]

example : SMap.isDefined [("a".toList, "1".toList)] "b".toList = false := by decide

/-- C17: a defined option gives its text; as an integer, the integer written in
    it (after white space, before anything that is not a digit). -/
theorem get_integer (m : SMap) (k v : Str) (h : m.find k = some v) (ws rest : Str) (z : ℤ)
    (hw : ∀ c ∈ ws, isSpace c = true) (hr : NoDigitAhead rest) (hv : v = ws ++ (showInt z ++ rest))
    (ds : Str) (di : ℤ) : m.getString k ds = v ∧ m.get k = v ∧ m.getInt k di = z := by
  refine ⟨by simp [SMap.getString, h], by simp [SMap.get, h], ?_⟩
  simp only [SMap.getInt, h]
  rw [hv]; exact atoi_showInt ws rest z hw hr

example : (" -12 x".toList) = [' '] ++ (showInt (-12) ++ " x".toList) ∧ NoDigitAhead " x".toList := by
  constructor
  · simp [showInt, showNat, digitChar]
  · intro c r h; simp at h; rw [← h.1]; decide

/-- C17: as a floating point number, the decimal number written in it. -/
theorem get_decimal (m : SMap) (k v : Str) (h : m.find k = some v) (ws rest : Str) (d : Decimal)
    (hw : ∀ c ∈ ws, isSpace c = true) (hd : d.ip ≠ [] ∨ d.fp ≠ []) (hr : NumberEnds rest)
    (hv : v = ws ++ (d.text ++ rest)) (dq : ℚ) :
    m.getFloat k dq = d.value ∧ m.getDouble k dq = some d.value := by
  have := strtod_text ws rest d hw hd hr
  simp [SMap.getFloat, SMap.getDouble, h, hv, atof, this]

example : Decimal.text ⟨true, [1, 2], [5], some (-3)⟩ = "-12.5e-3".toList ∧
    Decimal.value ⟨true, [1, 2], [5], some (-3)⟩ = -1/80 := by
  constructor
  · simp [Decimal.text, showDigits, showInt, showNat, digitChar]; decide
  · have : ((5 : Fin 10) : ℕ) = 5 := rfl
    simp [Decimal.value, digitsNum, this]; norm_num

/-- C17, limit of the code: an option given without a value reads as 0 with
    `get_float` and `get_int`, but `get_double` throws. -/
theorem get_flag (m : SMap) (k : Str) (h : m.find k = some []) (di : ℤ) (dq : ℚ) :
    m.getInt k di = 0 ∧ m.getFloat k dq = 0 ∧ m.getDouble k dq = none := by
  simp [SMap.getInt, SMap.getFloat, SMap.getDouble, h, atof, atoi, strtod, takeSign, digitsVal]

example : SMap.find [("dt".toList, [])] "dt".toList = some [] := by simp [SMap.find]

/-! Vectors -/

/-- elements separated by commas -/
def joinComma : List Str → Str
  | [] => []
  | [e] => e
  | e :: es => e ++ ',' :: joinComma es

/-- the text of a bracketed list -/
def bracketed (es : List Str) : Str := '[' :: (joinComma es ++ [']'])

theorem cutComma_none (e : Str) (h : ',' ∉ e) : cutComma e = (e, none) := by
  induction e with
  | nil => rfl
  | cons c e ih =>
    have hc : c ≠ ',' := fun h' => h (by simp [h'])
    simp [cutComma, hc, ih (fun h' => h (by simp [h']))]

theorem cutComma_some (e r : Str) (h : ',' ∉ e) : cutComma (e ++ ',' :: r) = (e, some r) := by
  induction e with
  | nil => simp [cutComma]
  | cons c e ih =>
    have hc : c ≠ ',' := fun h' => h (by simp [h'])
    simp [cutComma, hc, ih (fun h' => h (by simp [h']))]

theorem vecElements_joinComma (e : Str) (es : List Str) (h : ∀ a ∈ e :: es, ',' ∉ a) :
    vecElements (joinComma (e :: es) ++ [']']) = e :: es := by
  induction es generalizing e with
  | nil =>
    rw [vecElements]
    have : cutComma (joinComma [e] ++ [']']) = (e ++ [']'], none) := by
      apply cutComma_none
      simp only [joinComma, List.mem_append, List.mem_singleton, not_or]
      exact ⟨h e (by simp), by decide⟩
    split
    · rename_i hh; rw [this] at hh; simp at hh
    · rename_i hh; rw [this] at hh; simp at hh; rw [← hh]; simp
  | cons a es ih =>
    rw [vecElements]
    have : cutComma (joinComma (e :: a :: es) ++ [']']) = (e, some (joinComma (a :: es) ++ [']'])) := by
      simp only [joinComma, List.append_assoc, List.cons_append]
      exact cutComma_some _ _ (h e (by simp))
    split
    · rename_i hh
      rw [this] at hh
      simp only [Prod.mk.injEq, Option.some.injEq] at hh
      obtain ⟨h1, h2⟩ := hh
      subst h1 h2
      simp only [ih a (fun b hb => h b (by simp at hb ⊢; tauto))]
    · rename_i hh; rw [this] at hh; simp at hh

/-- C18: a bracketed list of `n` texts without comma is read as those texts in
    order. -/
theorem getVecStr_list (m : SMap) (k e : Str) (es : List Str) (h : m.find k = some (bracketed (e :: es)))
    (hc : ∀ a ∈ e :: es, ',' ∉ a) : m.getVecStr k = e :: es ∧ m.isVec k = true := by
  constructor
  · simp only [SMap.getVecStr, h, bracketed]
    exact vecElements_joinComma e es hc
  · simp [SMap.isVec, h, bracketed]

example : bracketed ["a".toList, " b".toList] = "[a, b]".toList ∧
    ∀ a ∈ ["a".toList, " b".toList], ',' ∉ a := by
  constructor
  · rfl
  · decide

theorem fillVec_joinComma (d : ℚ) (n : ℕ) (e : Str) (es : List Str) (h : ∀ a ∈ e :: es, ',' ∉ a) :
    fillVec d n (joinComma (e :: es) ++ [']'])
      = ((e :: es).map atof).take n ++ List.replicate (n - (e :: es).length) d := by
  induction n generalizing e es with
  | zero => simp [fillVec]
  | succ n ih =>
    cases es with
    | nil =>
      have : cutComma (joinComma [e] ++ [']']) = (e ++ [']'], none) := by
        apply cutComma_none
        simp only [joinComma, List.mem_append, List.mem_singleton, not_or]
        exact ⟨h e (by simp), by decide⟩
      simp [fillVec, this]
    | cons a es =>
      have : cutComma (joinComma (e :: a :: es) ++ [']']) = (e, some (joinComma (a :: es) ++ [']'])) := by
        simp only [joinComma, List.append_assoc, List.cons_append]
        exact cutComma_some _ _ (h e (by simp))
      simp only [fillVec, this]
      rw [ih a es (fun b hb => h b (by simp at hb ⊢; tauto))]
      simp

/-- C18: a bracketed list of numbers fills the vector in order; missing entries
    keep the default value, entries in excess are ignored. -/
theorem getVec_list (m : SMap) (k e : Str) (es : List Str) (size : ℕ) (d : ℚ)
    (h : m.find k = some (bracketed (e :: es))) (hc : ∀ a ∈ e :: es, ',' ∉ a) :
    m.getVec k size d = ((e :: es).map atof).take size ++ List.replicate (size - (e :: es).length) d := by
  simp only [SMap.getVec, h, bracketed]
  exact fillVec_joinComma d size e es hc

/-- C18: with the numbers themselves: a list of `size` decimal numbers, each after
    optional white space, is read as their values. -/
theorem getVec_decimals (m : SMap) (k : Str) (d : ℚ) (x : Str × Decimal) (xs : List (Str × Decimal))
    (h : m.find k = some (bracketed ((x :: xs).map fun p => p.1 ++ p.2.text)))
    (hs : ∀ p ∈ x :: xs, ∀ c ∈ p.1, isSpace c = true)
    (hd : ∀ p ∈ x :: xs, p.2.ip ≠ [] ∨ p.2.fp ≠ []) :
    m.getVec k (x :: xs).length d = (x :: xs).map fun p => p.2.value := by
  have hat : ∀ p ∈ x :: xs, atof (p.1 ++ p.2.text) = p.2.value := by
    intro p hp
    have := strtod_text p.1 [] p.2 (hs p hp) (hd p hp) (by intro c r h; cases h)
    rw [List.append_nil] at this
    simp [atof, this]
  have digc : ∀ n, ',' ∉ showNat n := by
    intro n hn
    obtain ⟨d, hd, h⟩ := showNat_digits n _ hn
    exact (digitChar_spec d hd).2.2.2.2.2.2.2.2.1 h.symm
  have digc' : ∀ l, ',' ∉ showDigits l := by
    intro l hn
    obtain ⟨d, hd, h⟩ := showDigits_all l _ hn
    exact (digitChar_spec d hd).2.2.2.2.2.2.2.2.1 h.symm
  have hcomma : ∀ a ∈ (x :: xs).map (fun p => p.1 ++ p.2.text), ',' ∉ a := by
    intro a ha
    obtain ⟨p, hp, rfl⟩ := List.mem_map.1 ha
    intro hmem
    rcases List.mem_append.1 hmem with hmem | hmem
    · have := hs p hp _ hmem; revert this; decide
    · unfold Decimal.text at hmem
      simp only [List.mem_append] at hmem
      rcases hmem with ((hmem | hmem) | hmem) | hmem
      · split at hmem <;> simp at hmem
      · exact digc' _ hmem
      · split at hmem
        · simp at hmem
        · simp only [List.mem_cons] at hmem
          rcases hmem with hmem | hmem
          · revert hmem; decide
          · exact digc' _ hmem
      · cases he : p.2.exp with
        | none => simp [he] at hmem
        | some e =>
          simp only [he, List.mem_cons] at hmem
          rcases hmem with hmem | hmem
          · revert hmem; decide
          · unfold showInt at hmem
            split at hmem
            · simp only [List.mem_cons] at hmem
              rcases hmem with hmem | hmem
              · revert hmem; decide
              · exact digc _ hmem
            · exact digc _ hmem
  rw [List.map_cons] at h hcomma
  rw [getVec_list m k _ _ _ d h hcomma, ← List.map_cons (f := fun p : Str × Decimal => p.1 ++ p.2.text)]
  have hl : ((x :: xs).map fun p : Str × Decimal => p.1 ++ p.2.text).length = (x :: xs).length := by simp
  rw [hl, Nat.sub_self, List.replicate_zero, List.append_nil, List.map_map, List.take_of_length_le (by simp)]
  apply List.map_congr_left
  intro p hp
  exact hat p hp

example : bracketed (([("".toList, ⟨false, [1], [], none⟩), (" ".toList, ⟨true, [2], [5], none⟩)] :
    List (Str × Decimal)).map fun p => p.1 ++ p.2.text) = "[1, -2.5]".toList := by
  simp [bracketed, joinComma, Decimal.text, showDigits, digitChar]; decide

/-- C18: a value that is not bracketed is broadcast, an absent option gives the
    default vector. -/
theorem getVec_scalar (m : SMap) (k : Str) (size : ℕ) (d : ℚ) (h : m.isVec k = false) :
    m.getVec k size d = List.replicate size (m.getFloat k d) := by
  unfold SMap.getVec
  unfold SMap.isVec at h
  cases hf : m.find k with
  | none => rfl
  | some v =>
    rw [hf] at h
    cases v with
    | nil => rfl
    | cons c r =>
      simp at h
      split
      · rename_i heq; simp at heq; exact absurd heq.1 h
      · rfl

/-- C18, limit of the code: without the closing bracket the last character of the
    last element is lost, here a digit. -/
theorem getVec_unclosed :
    SMap.getVec [("k".toList, "[1,25".toList)] "k".toList 2 0 = [1, 2] := by
  simp [SMap.getVec, SMap.find, fillVec, cutComma, atof, strtod, takeSign, isDigit, isSpace,
    digitsVal, digitVal]

end Alta
