import Verif.Model.Storage
import Verif.Props.Header
import Verif.Props.Segment
import Verif.Props.ParamNames
import Verif.Proofs.Decimal
/-
Property C22: binary data files.
-/
namespace Alta

/-! bytes -/

theorem ofNat_byte (n : ℕ) (h : n < 256) : (Char.ofNat n).toNat = n := by
  have : n.isValidChar := Or.inl (by omega)
  simp [Char.ofNat, this, Char.toNat, Char.ofNatAux]

theorem dblBytes_length (d : Dbl) : (dblBytes d).length = 8 := by simp [dblBytes]

theorem bytesDbl_dblBytes (d : Dbl) : bytesDbl (dblBytes d) = d := by
  have hb : ∀ i, (Char.ofNat (d.toNat / 256 ^ i % 256)).toNat = d.toNat / 256 ^ i % 256 :=
    fun i => ofNat_byte _ (Nat.mod_lt _ (by norm_num))
  have hlt := d.isLt
  apply BitVec.eq_of_toNat_eq
  unfold bytesDbl dblBytes
  simp only [List.range, List.range.loop, List.map_cons, List.map_nil, List.foldr_cons, List.foldr_nil,
    BitVec.toNat_ofNat, hb]
  omega

theorem arrayBytes_length (l : List Dbl) : (arrayBytes l).length = 8 * l.length := by
  induction l with
  | nil => rfl
  | cons d l ih =>
    have : arrayBytes (d :: l) = dblBytes d ++ arrayBytes l := rfl
    rw [this, List.length_append, dblBytes_length, ih, List.length_cons]; ring

theorem bytesArray_arrayBytes (l : List Dbl) (rest : Str) : bytesArray l.length (arrayBytes l ++ rest) = l := by
  induction l with
  | nil => rfl
  | cons d l ih =>
    have e : arrayBytes (d :: l) ++ rest = dblBytes d ++ (arrayBytes l ++ rest) := by
      simp [arrayBytes]
    have h := dblBytes_length d
    rw [List.length_cons, bytesArray, e, List.take_left' h, List.drop_left' h, bytesDbl_dblBytes, ih]

/-! header -/

theorem showNat_noSpace (n : ℕ) : ∀ c ∈ showNat n, isSpace c = false := by
  intro c hc
  obtain ⟨d, hd, rfl⟩ := showNat_digits n c hc
  exact (digitChar_spec d hd).2.2.1

theorem showNat_isWord (n : ℕ) : IsWord (showNat n) := ⟨showNat_ne_nil n, showNat_noSpace n⟩

/-- the header as a list of lines -/
def binaryLines (d : AnyData) (kind : CIKind) : List HLine :=
  [ .bind "DIM".toList " ".toList (showNat d.dimX ++ ' ' :: showNat d.dimY) false,
    .bind "PARAM_IN".toList "  ".toList (inputName d.input).toList false,
    .bind "PARAM_OUT".toList " ".toList (outputName d.output).toList false,
    .bind "FORMAT".toList " ".toList "binary".toList false,
    .bind "VERSION".toList " ".toList "0".toList false,
    .bind "PRECISION".toList " ".toList "ieee754-double".toList false,
    .bind "SAMPLE_COUNT".toList " ".toList (showNat d.size) false,
    .bind "VS".toList " ".toList (showNat (numberFromKind kind)) false,
    .bind "ENDIAN".toList " ".toList "little".toList false,
    .bind "BEGIN_STREAM".toList [] [] false ]

theorem binaryHeader_lines (d : AnyData) (kind : CIKind) :
    binaryHeader d kind = headerText (binaryLines d kind) := by
  have e1 : "#DIM ".toList = '#' :: ("DIM".toList ++ " ".toList) := by decide
  have e2 : "#PARAM_IN  ".toList = '#' :: ("PARAM_IN".toList ++ "  ".toList) := by decide
  have e3 : "#PARAM_OUT ".toList = '#' :: ("PARAM_OUT".toList ++ " ".toList) := by decide
  have e4 : "#FORMAT binary\n".toList = '#' :: ("FORMAT".toList ++ (" ".toList ++ ("binary".toList ++ ['\n']))) := by decide
  have e5 : "#VERSION 0\n".toList = '#' :: ("VERSION".toList ++ (" ".toList ++ ("0".toList ++ ['\n']))) := by decide
  have e6 : "#PRECISION ieee754-double\n".toList
      = '#' :: ("PRECISION".toList ++ (" ".toList ++ ("ieee754-double".toList ++ ['\n']))) := by decide
  have e7 : "#SAMPLE_COUNT ".toList = '#' :: ("SAMPLE_COUNT".toList ++ " ".toList) := by decide
  have e8 : "#VS ".toList = '#' :: ("VS".toList ++ " ".toList) := by decide
  have e9 : "#ENDIAN little\n".toList = '#' :: ("ENDIAN".toList ++ (" ".toList ++ ("little".toList ++ ['\n']))) := by decide
  have e10 : "#BEGIN_STREAM\n".toList = '#' :: ("BEGIN_STREAM".toList ++ ['\n']) := by decide
  have e11 : "\n".toList = ['\n'] := by decide
  have e12 : (' ' :: showNat d.dimY) = " ".toList ++ showNat d.dimY := by
    have : " ".toList = [' '] := by decide
    rw [this]; rfl
  unfold binaryHeader binaryLines
  rw [e1, e2, e3, e4, e5, e6, e7, e8, e9, e10, e11, e12]
  generalize "DIM".toList = k1
  generalize "PARAM_IN".toList = k2
  generalize "PARAM_OUT".toList = k3
  generalize "FORMAT".toList = k4
  generalize "VERSION".toList = k5
  generalize "PRECISION".toList = k6
  generalize "SAMPLE_COUNT".toList = k7
  generalize "VS".toList = k8
  generalize "ENDIAN".toList = k9
  generalize "BEGIN_STREAM".toList = k10
  generalize " ".toList = b1
  generalize "  ".toList = b2
  generalize "binary".toList = v4
  generalize "0".toList = v5
  generalize "ieee754-double".toList = v6
  generalize "little".toList = v9
  simp only [headerText, HLine.text, List.append_assoc, List.cons_append, List.nil_append, List.append_nil,
    Bool.false_eq_true, if_false]

theorem inputName_word (p : Input) : IsWord (inputName p).toList := by
  refine ⟨by cases p <;> decide +kernel, ?_⟩
  have : ((inputName p).toList.all fun c => !isSpace c) = true := by cases p <;> decide +kernel
  intro c hc
  have := List.all_eq_true.1 this c hc
  simpa using this

theorem outputName_word (p : Output) : IsWord (outputName p).toList := by
  refine ⟨by cases p <;> decide +kernel, ?_⟩
  have : ((outputName p).toList.all fun c => !isSpace c) = true := by cases p <;> decide +kernel
  intro c hc
  have := List.all_eq_true.1 this c hc
  simpa using this

theorem IsWord.cr {w : Str} (h : IsWord w) : '\r' ∉ w := by
  intro hc; have := h.2 _ hc; revert this; decide

theorem IsWord.first {w : Str} (h : IsWord w) : ∀ c r, w = c :: r → isSpace c = false := by
  rintro c r rfl; exact h.2 c (by simp)

theorem literal_isWord (w : Str) (h1 : w ≠ []) (h2 : (w.all fun c => !isSpace c) = true) : IsWord w := by
  refine ⟨h1, fun c hc => ?_⟩
  have := List.all_eq_true.1 h2 c hc
  simpa using this

theorem bind_wellFormed (k sep v : Str) (hk : IsWord k) (hA : k ≠ "ALTA".toList)
    (hsep : sep = [' '] ∨ sep = [' ', ' ']) (hv : IsWord v) : (HLine.bind k sep v false).WellFormed := by
  refine ⟨hk, hA, ?_, ?_, hv.first, hv.newline, hv.cr⟩
  · rcases hsep with rfl | rfl <;> simp [isSpace]
  · rcases hsep with rfl | rfl <;> simp

theorem binaryLines_wellFormed (d : AnyData) (kind : CIKind) : ∀ l ∈ binaryLines d kind, l.WellFormed := by
  intro l hl
  simp only [binaryLines, List.mem_cons, List.not_mem_nil, or_false] at hl
  rcases hl with rfl | rfl | rfl | rfl | rfl | rfl | rfl | rfl | rfl | rfl
  · refine ⟨literal_isWord _ (by decide) (by decide), by decide, by decide, by simp, ?_, ?_, ?_⟩
    · intro c r h
      obtain ⟨d', hd', r', hr'⟩ := showNat_head d.dimX
      rw [hr'] at h
      simp only [List.cons_append, List.cons.injEq] at h
      rw [← h.1]; exact (digitChar_spec d' hd').2.2.1
    · have h1 := (showNat_isWord d.dimX).newline
      have h2 := (showNat_isWord d.dimY).newline
      simp [h1, h2]
    · have h1 := (showNat_isWord d.dimX).cr
      have h2 := (showNat_isWord d.dimY).cr
      simp [h1, h2]
  · exact bind_wellFormed _ _ _ (literal_isWord _ (by decide) (by decide)) (by decide) (Or.inr rfl) (inputName_word _)
  · exact bind_wellFormed _ _ _ (literal_isWord _ (by decide) (by decide)) (by decide) (Or.inl rfl) (outputName_word _)
  · exact bind_wellFormed _ _ _ (literal_isWord _ (by decide) (by decide)) (by decide) (Or.inl rfl)
      (literal_isWord _ (by decide) (by decide))
  · exact bind_wellFormed _ _ _ (literal_isWord _ (by decide) (by decide)) (by decide) (Or.inl rfl)
      (literal_isWord _ (by decide) (by decide))
  · exact bind_wellFormed _ _ _ (literal_isWord _ (by decide) (by decide)) (by decide) (Or.inl rfl)
      (literal_isWord _ (by decide) (by decide))
  · exact bind_wellFormed _ _ _ (literal_isWord _ (by decide) (by decide)) (by decide) (Or.inl rfl) (showNat_isWord _)
  · exact bind_wellFormed _ _ _ (literal_isWord _ (by decide) (by decide)) (by decide) (Or.inl rfl) (showNat_isWord _)
  · exact bind_wellFormed _ _ _ (literal_isWord _ (by decide) (by decide)) (by decide) (Or.inl rfl)
      (literal_isWord _ (by decide) (by decide))
  · exact ⟨literal_isWord _ (by decide) (by decide), by decide, by simp, by simp, by simp, by simp, by simp⟩

theorem atoi_showNat (n : ℕ) : atoi (showNat n) = n := by
  have := atoi_showInt [] [] (n : ℤ) (by simp) (by intro c r h; cases h)
  have e : showInt (n : ℤ) = showNat n := by
    unfold showInt; rw [if_neg (by omega)]; simp
  rw [e] at this
  simpa using this

theorem lastBinding_append_empty (k : Str) (ls : List HLine) (es : List HLine) (h : ∀ l ∈ es, l = .empty) :
    lastBinding k (ls ++ es) = lastBinding k ls := by
  induction ls with
  | nil =>
    rw [List.nil_append]
    induction es with
    | nil => rfl
    | cons e es ih =>
      have := ih (fun l hl => h l (by simp [hl]))
      obtain rfl := h e (by simp)
      simp only [lastBinding, this]
  | cons l ls ih => simp only [List.cons_append, lastBinding, ih]

/-- the key bound by a line -/
def HLine.key? : HLine → Option Str
  | .bind k _ _ _ => some k
  | _ => Option.none

theorem lastBinding_absent (k : Str) (ls : List HLine) (h : k ∉ ls.filterMap HLine.key?) :
    lastBinding k ls = Option.none := by
  induction ls with
  | nil => rfl
  | cons l ls ih =>
    cases l with
    | bind k' _ v _ =>
      simp only [List.filterMap_cons, HLine.key?, List.mem_cons, not_or] at h
      simp only [lastBinding, ih h.2, if_neg h.1]
    | _ =>
      simp only [List.filterMap_cons, HLine.key?] at h
      simp only [lastBinding, ih h]

theorem lastBinding_at (k sep v : Str) (cr : Bool) (ls : List HLine) (n : ℕ)
    (h1 : ls[n]? = some (.bind k sep v cr)) (h2 : k ∉ (ls.drop (n + 1)).filterMap HLine.key?) :
    lastBinding k ls = some v := by
  induction ls generalizing n with
  | nil => simp at h1
  | cons l ls ih =>
    cases n with
    | zero =>
      simp only [List.getElem?_cons_zero, Option.some.injEq] at h1
      subst h1
      simp only [lastBinding, lastBinding_absent k ls h2, if_true]
    | succ n =>
      have := ih n (by simpa using h1) (by simpa using h2)
      simp only [lastBinding, this]

/-- a name that `parse_input` recognises, or the unknown parametrization -/
theorem parseInput_saved (p : Input) (h : p.Named ∨ p = .UNKNOWN_INPUT) : parseInput (inputName p) = p := by
  rcases h with h | rfl
  · exact parseInput_inputName p h
  · decide +kernel

/-- the entries of a saved header -/
structure SavedHeader (d : AnyData) (kind : CIKind) (m : SMap) : Prop where
  dim : m.find "DIM".toList = some (showNat d.dimX ++ ' ' :: showNat d.dimY)
  inp : m.find "PARAM_IN".toList = some (inputName d.input).toList
  out : m.find "PARAM_OUT".toList = some (outputName d.output).toList
  fmt : m.find "FORMAT".toList = some "binary".toList
  ver : m.find "VERSION".toList = some "0".toList
  pre : m.find "PRECISION".toList = some "ieee754-double".toList
  cnt : m.find "SAMPLE_COUNT".toList = some (showNat d.size)
  vs : m.find "VS".toList = some (showNat (numberFromKind kind))
  endian : m.find "ENDIAN".toList = some "little".toList

theorem headerText_append (a b : List HLine) : headerText (a ++ b) = headerText a ++ headerText b := by
  induction a with
  | nil => rfl
  | cons x a ih => simp [headerText, ih]

theorem parse_saved (d : AnyData) (kind : CIKind) (es : List HLine) (hes : ∀ l ∈ es, l = .empty)
    (rest : Str) (hrest : ∀ r, rest ≠ '#' :: r) :
    ∃ m, parseHeader (binaryHeader d kind ++ (headerText es ++ rest)) = (m, rest) ∧
      ∀ k, m.find k = lastBinding k (binaryLines d kind) := by
  have hwf : ∀ l ∈ binaryLines d kind ++ es, l.WellFormed := by
    intro l hl
    rcases List.mem_append.1 hl with hl | hl
    · exact binaryLines_wellFormed d kind l hl
    · rw [hes l hl]; trivial
  have htext : binaryHeader d kind ++ (headerText es ++ rest) = headerText (binaryLines d kind ++ es) ++ rest := by
    rw [binaryHeader_lines, headerText_append, List.append_assoc]
  obtain ⟨h1, h2, -⟩ := parseHeader_spec (binaryLines d kind ++ es) hwf rest hrest
  rw [← htext] at h1 h2
  refine ⟨(parseHeader (binaryHeader d kind ++ (headerText es ++ rest))).1, Prod.ext rfl h1, fun k => ?_⟩
  rw [h2, lastBinding_append_empty _ _ _ hes]

theorem saved_find (d : AnyData) (kind : CIKind) (m : SMap)
    (hf : ∀ k, m.find k = lastBinding k (binaryLines d kind)) : SavedHeader d kind m where
  dim := by rw [hf]; exact lastBinding_at _ _ _ _ _ 0 rfl (by simp only [binaryLines, List.drop, List.filterMap, HLine.key?]; decide)
  inp := by rw [hf]; exact lastBinding_at _ _ _ _ _ 1 rfl (by simp only [binaryLines, List.drop, List.filterMap, HLine.key?]; decide)
  out := by rw [hf]; exact lastBinding_at _ _ _ _ _ 2 rfl (by simp only [binaryLines, List.drop, List.filterMap, HLine.key?]; decide)
  fmt := by rw [hf]; exact lastBinding_at _ _ _ _ _ 3 rfl (by simp only [binaryLines, List.drop, List.filterMap, HLine.key?]; decide)
  ver := by rw [hf]; exact lastBinding_at _ _ _ _ _ 4 rfl (by simp only [binaryLines, List.drop, List.filterMap, HLine.key?]; decide)
  pre := by rw [hf]; exact lastBinding_at _ _ _ _ _ 5 rfl (by simp only [binaryLines, List.drop, List.filterMap, HLine.key?]; decide)
  cnt := by rw [hf]; exact lastBinding_at _ _ _ _ _ 6 rfl (by simp only [binaryLines, List.drop, List.filterMap, HLine.key?]; decide)
  vs := by rw [hf]; exact lastBinding_at _ _ _ _ _ 7 rfl (by simp only [binaryLines, List.drop, List.filterMap, HLine.key?]; decide)
  endian := by rw [hf]; exact lastBinding_at _ _ _ _ _ 8 rfl (by simp only [binaryLines, List.drop, List.filterMap, HLine.key?]; decide)

theorem words_of_dim (x y : ℕ) : streamWords (showNat x ++ ' ' :: showNat y) = [showNat x, showNat y] := by
  have := streamWords_join (showNat x) [showNat y] [] (by
    intro u hu; simp at hu; rcases hu with rfl | rfl <;> exact showNat_isWord _) (by intro c r h; cases h)
  rw [streamWords_space ' ' _ (by decide)] at this
  simpa [joinWords] using this

theorem getPairInt_dim (m : SMap) (x y : ℕ) (h : m.find "DIM".toList = some (showNat x ++ ' ' :: showNat y)) :
    m.getPairInt "DIM".toList = some ((x : ℤ), (y : ℤ)) := by
  unfold SMap.getPairInt
  rw [h]
  simp only [words_of_dim]
  rw [if_neg (by simp [showNat_ne_nil]), atoi_showNat, atoi_showNat]

theorem loadBinary_saved (d : AnyData) (kind : CIKind) (m : SMap) (rest : Str)
    (f : SavedHeader d kind m) (hX : 0 < d.dimX) (hY : 0 < d.dimY)
    (hin : d.input.Named ∨ d.input = .UNKNOWN_INPUT) :
    loadBinary rest m =
      if rest.length < 8 * (d.size * (d.dimX + d.dimY + ciColumns kind d.dimY)) then Option.none else
      some { dimX := d.dimX, dimY := d.dimY, input := d.input, output := d.output, size := d.size,
             raw := bytesArray (d.size * (d.dimX + d.dimY + ciColumns kind d.dimY)) rest, kind := kind } := by
  have gPair := getPairInt_dim m _ _ f.dim
  have gVer : m.getInt "VERSION".toList 0 = 0 := by
    unfold SMap.getInt; rw [f.ver]; decide
  have gCnt : m.getInt "SAMPLE_COUNT".toList 0 = d.size := by
    unfold SMap.getInt; rw [f.cnt]; exact atoi_showNat _
  have gVs : kindFromNumber (m.getInt "VS".toList 0) = kind := by
    unfold SMap.getInt; rw [f.vs]; simp only [atoi_showNat]
    cases kind <;> decide
  have gFmt : m.get "FORMAT".toList = "binary".toList := by unfold SMap.get; rw [f.fmt]; rfl
  have gPre : m.get "PRECISION".toList = "ieee754-double".toList := by unfold SMap.get; rw [f.pre]; rfl
  have gEnd : m.get "ENDIAN".toList = "little".toList := by unfold SMap.get; rw [f.endian]; rfl
  have gIn : parseInput (String.ofList (m.get "PARAM_IN".toList)) = d.input := by
    unfold SMap.get; rw [f.inp, Option.getD_some, String.ofList_toList]; exact parseInput_saved _ hin
  have gOut : parseOutput (String.ofList (m.get "PARAM_OUT".toList)) = d.output := by
    unfold SMap.get; rw [f.out, Option.getD_some, String.ofList_toList]; exact parseOutput_outputName _
  unfold loadBinary
  rw [gFmt, gVer, gPre, gEnd, gPair, gVs, gCnt, gIn, gOut]
  generalize "binary".toList = a1
  generalize "ieee754-double".toList = a2
  generalize "little".toList = a3
  rw [if_neg (not_not.2 rfl), if_neg (not_not.2 rfl), if_neg (not_not.2 rfl), if_neg (not_not.2 rfl)]
  simp only [Int.toNat_natCast]
  rw [if_neg (by omega), if_neg (by omega)]
  have hz : 0 * d.dimY = ciColumns .none d.dimY := by simp [ciColumns]
  have ho : 1 * d.dimY = ciColumns .symmetrical d.dimY := by simp [ciColumns]
  have ht : 2 * d.dimY = ciColumns .asymmetrical d.dimY := rfl
  cases kind
  · simp only [hz]
  · simp only [ho]
  · simp only [ht]

/-- what is loaded from a saved header followed by empty `#` lines and by bytes -/
theorem load_after_header (d : AnyData) (kind : CIKind) (es : List HLine) (hes : ∀ l ∈ es, l = .empty)
    (rest : Str) (hrest : ∀ r, rest ≠ '#' :: r) (hX : 0 < d.dimX) (hY : 0 < d.dimY)
    (hin : d.input.Named ∨ d.input = .UNKNOWN_INPUT) :
    loadDataBinary (binaryHeader d kind ++ (headerText es ++ rest)) =
      if rest.length < 8 * (d.size * (d.dimX + d.dimY + ciColumns kind d.dimY)) then Option.none else
      some { dimX := d.dimX, dimY := d.dimY, input := d.input, output := d.output, size := d.size,
             raw := bytesArray (d.size * (d.dimX + d.dimY + ciColumns kind d.dimY)) rest, kind := kind } := by
  obtain ⟨m, h1, h2⟩ := parse_saved d kind es hes rest hrest
  have f := saved_find d kind m h2
  have gFmt : m.get "FORMAT".toList = "binary".toList := by unfold SMap.get; rw [f.fmt]; rfl
  unfold loadDataBinary
  rw [h1]
  simp only
  rw [if_pos gFmt]
  exact loadBinary_saved d kind m rest f hX hY hin

/-- the first byte of a double -/
theorem dblBytes_head (d : Dbl) : ∃ r, dblBytes d = Char.ofNat (d.toNat % 256) :: r := by
  refine ⟨(dblBytes d).tail, ?_⟩
  simp [dblBytes, List.range, List.range.loop]

theorem arrayBytes_tail_head (l : List Dbl) (h : ∀ d r, l = d :: r → d.toNat % 256 ≠ '#'.toNat) (r : Str) :
    arrayBytes l ++ "\n#END_STREAM\n".toList ≠ '#' :: r := by
  cases l with
  | nil => simp [arrayBytes]
  | cons d l =>
    obtain ⟨t, ht⟩ := dblBytes_head d
    have := h d l rfl
    intro he
    have e : arrayBytes (d :: l) = dblBytes d ++ arrayBytes l := rfl
    rw [e, ht] at he
    simp only [List.cons_append, List.cons.injEq] at he
    apply this
    have := congrArg Char.toNat he.1
    rwa [ofNat_byte _ (Nat.mod_lt _ (by norm_num))] at this

/-- the samples of a store are its buffer when there is no interval data -/
theorem flatten_get (s : Store Dbl) (hs : s.WF) (hk : s.kind = .none) :
    (∀ v ∈ (List.range s.size).map (fun i => (s.get i).getD []), v.length = s.dimX + s.dimY) ∧
    ((List.range s.size).map (fun i => (s.get i).getD [])).flatten = s.raw := by
  have hc : s.columns = s.dimX + s.dimY := by simp [Store.columns, ciColumns, hk]
  constructor
  · intro v hv
    simp only [List.mem_map, List.mem_range] at hv
    obtain ⟨i, hi, rfl⟩ := hv
    obtain ⟨v, h1, h2⟩ := (get_isSome s hs i).1 hi
    rw [h1]; exact h2
  · have key : ∀ n (l : List Dbl) (c : ℕ), l.length = n * c →
        ((List.range n).map fun i => (l.drop (i * c)).take c).flatten = l := by
      intro n
      induction n with
      | zero => intro l c hl; simp at hl ⊢; exact hl
      | succ n ih =>
        intro l c hl
        rw [List.range_succ_eq_map, List.map_cons, List.flatten_cons, List.map_map]
        have h2 : (List.map ((fun i => (l.drop (i * c)).take c) ∘ Nat.succ) (List.range n))
            = (List.range n).map fun i => ((l.drop c).drop (i * c)).take c := by
          apply List.map_congr_left
          intro i _
          simp only [Function.comp, List.drop_drop]
          congr 2
          rw [Nat.succ_mul]; omega
        rw [h2, ih (l.drop c) c (by rw [List.length_drop, hl, Nat.succ_mul]; omega)]
        simp [List.take_append_drop]
    rw [← key s.size s.raw s.columns hs]
    congr 1
    apply List.map_congr_left
    intro i hi
    rw [List.mem_range] at hi
    rw [Store.get, if_pos hi, hc]; rfl

/-- C22, the part that holds: a data set saved as binary and loaded again is the same,
    bit for bit (dimensions, parametrizations, number of samples, kind of intervals and
    the whole buffer), as long as the first byte of the data is not a `#`.
    Missing: data whose first byte is `#`; see `binary_round_trip_corrupts`. -/
theorem binary_round_trip_partial (s : Store Dbl) (hs : s.WF) (hX : 0 < s.dimX) (hY : 0 < s.dimY)
    (hin : s.input.Named ∨ s.input = .UNKNOWN_INPUT)
    (hfirst : ∀ d r, s.raw = d :: r → d.toNat % 256 ≠ '#'.toNat) :
    ∃ file, saveBinary s.toAny = some file ∧ loadDataBinary file = some s := by
  have hbody : ∀ rest : Str, rest = arrayBytes s.raw ++ "\n#END_STREAM\n".toList →
      loadDataBinary (binaryHeader s.toAny s.kind ++ rest) = some s := by
    intro rest hr
    have h := load_after_header s.toAny s.kind [] (by simp) rest
      (by rw [hr]; exact arrayBytes_tail_head s.raw hfirst) hX hY hin
    rw [headerText, List.nil_append, if_neg (by
        rw [hr, List.length_append, arrayBytes_length, hs, not_lt]
        show 8 * (s.size * s.columns) ≤ _
        omega)] at h
    rw [h]
    have e : s.toAny.size * (s.toAny.dimX + s.toAny.dimY + ciColumns s.kind s.toAny.dimY) = s.raw.length := hs.symm
    rw [e, hr, bytesArray_arrayBytes]
    rfl
  cases hk : s.kind with
  | none =>
    obtain ⟨h1, h2⟩ := flatten_get s hs hk
    have hall : ((List.range s.toAny.size).map s.toAny.get).all
        (fun v => v.length = s.toAny.dimX + s.toAny.dimY) = true := by
      rw [List.all_eq_true]
      intro v hv
      exact decide_eq_true (h1 v hv)
    have hflat : ((List.range s.toAny.size).map s.toAny.get).flatten = s.raw := h2
    refine ⟨_, ?_, hbody _ rfl⟩
    unfold saveBinary
    have hseg : s.toAny.segments = some s := rfl
    simp only [hseg, hk]
    rw [if_pos hall, hflat, List.append_assoc]
  | symmetrical =>
    refine ⟨_, ?_, hbody _ rfl⟩
    unfold saveBinary
    have hseg : s.toAny.segments = some s := rfl
    simp only [hseg, hk]
    rw [List.take_of_length_le (by rw [hs]), List.append_assoc]
  | asymmetrical =>
    refine ⟨_, ?_, hbody _ rfl⟩
    unfold saveBinary
    have hseg : s.toAny.segments = some s := rfl
    simp only [hseg, hk]
    rw [List.take_of_length_le (by rw [hs]), List.append_assoc]

/-- two samples with intervals: 1.0, 2.0, … as bit patterns -/
example : ∃ s : Store Dbl, s.WF ∧ 0 < s.dimX ∧ 0 < s.dimY ∧ s.size = 2 ∧ s.input.Named ∧
    s.kind = .asymmetrical ∧ (∀ d r, s.raw = d :: r → d.toNat % 256 ≠ '#'.toNat) :=
  ⟨{ dimX := 1, dimY := 1, input := .COS_TH, output := .ENERGY, size := 2,
     raw := [0x3FF0000000000000, 0x4000000000000000, 0, 0x3FF0000000000000,
             0x3FF0000000000001, 0x4000000000000000, 0, 0x3FF0000000000000], kind := .asymmetrical },
    rfl, by decide, by decide, rfl, by decide, rfl, by intro d r h; simp at h; rw [← h.1]; decide⟩

/-- C22: data of another class saved as binary are loaded as a vertical segment data set
    without interval data, holding the samples given by `get`, in order. -/
theorem binary_other_data_partial (d : AnyData) (hseg : d.segments = Option.none) (hX : 0 < d.dimX) (hY : 0 < d.dimY)
    (hin : d.input.Named ∨ d.input = .UNKNOWN_INPUT)
    (hget : ∀ i < d.size, (d.get i).length = d.dimX + d.dimY)
    (hfirst : ∀ v r, d.get 0 = v :: r → v.toNat % 256 ≠ '#'.toNat) :
    ∃ file s, saveBinary d = some file ∧ loadDataBinary file = some s ∧
      s.dimX = d.dimX ∧ s.dimY = d.dimY ∧ s.input = d.input ∧ s.output = d.output ∧ s.size = d.size ∧
      s.kind = .none ∧ s.raw = ((List.range d.size).map d.get).flatten := by
  have hall : ((List.range d.size).map d.get).all (fun v => v.length = d.dimX + d.dimY) = true := by
    rw [List.all_eq_true]
    intro v hv
    simp only [List.mem_map, List.mem_range] at hv
    obtain ⟨i, hi, rfl⟩ := hv
    simpa using hget i hi
  have hlen : ((List.range d.size).map d.get).flatten.length = d.size * (d.dimX + d.dimY + ciColumns .none d.dimY) := by
    have key : ∀ l : List (List Dbl), (∀ v ∈ l, v.length = d.dimX + d.dimY) →
        l.flatten.length = l.length * (d.dimX + d.dimY) := by
      intro l
      induction l with
      | nil => simp
      | cons a l ih =>
        intro h
        rw [List.flatten_cons, List.length_append, ih (fun v hv => h v (by simp [hv])), h a (by simp),
          List.length_cons, Nat.add_mul, one_mul, Nat.add_comm]
    rw [key]
    · simp [ciColumns]
    · intro v hv
      have := List.all_eq_true.1 hall v hv
      simpa using this
  have hf : ∀ v r, ((List.range d.size).map d.get).flatten = v :: r → v.toNat % 256 ≠ '#'.toNat := by
    intro v r h
    cases hsz : d.size with
    | zero => rw [hsz] at h; simp at h
    | succ n =>
      rw [hsz, List.range_succ_eq_map, List.map_cons, List.flatten_cons] at h
      have hl := hget 0 (by omega)
      cases hg : d.get 0 with
      | nil => rw [hg] at hl; simp at hl; omega
      | cons a b =>
        rw [hg] at h
        simp only [List.cons_append, List.cons.injEq] at h
        rw [← h.1]; exact hfirst a b hg
  have h := load_after_header d .none [] (by simp)
    (arrayBytes ((List.range d.size).map d.get).flatten ++ "\n#END_STREAM\n".toList)
    (arrayBytes_tail_head _ hf) hX hY hin
  rw [headerText, List.nil_append, if_neg (by rw [List.length_append, arrayBytes_length, hlen]; omega), ← hlen, bytesArray_arrayBytes, ← List.append_assoc] at h
  refine ⟨_, _, ?_, h, rfl, rfl, rfl, rfl, rfl, rfl, rfl⟩
  unfold saveBinary
  simp only [hseg]
  rw [if_pos hall]

example : ∃ d : AnyData, d.segments = Option.none ∧ 0 < d.dimX ∧ 0 < d.dimY ∧ 0 < d.size ∧ d.input.Named ∧
    (∀ i < d.size, (d.get i).length = d.dimX + d.dimY) ∧
    (∀ v r, d.get 0 = v :: r → v.toNat % 256 ≠ '#'.toNat) :=
  ⟨{ dimX := 1, dimY := 1, input := .COS_TH, output := .ENERGY, size := 5,
     get := fun i => [BitVec.ofNat 64 i, 1], segments := Option.none },
    rfl, by decide, by decide, by decide, by decide, fun _ _ => rfl, by intro d r h; simp at h; rw [← h.1]; decide⟩

/-- C22: a binary file cut anywhere inside its data (an interrupted save, a full disk)
    is refused: no data set is made of a part of the samples. -/
theorem binary_truncated (s : Store Dbl) (hs : s.WF) (hX : 0 < s.dimX) (hY : 0 < s.dimY)
    (hin : s.input.Named ∨ s.input = .UNKNOWN_INPUT)
    (hfirst : ∀ d r, s.raw = d :: r → d.toNat % 256 ≠ '#'.toNat) (n : ℕ)
    (h1 : (binaryHeader s.toAny s.kind).length ≤ n)
    (h2 : n < (binaryHeader s.toAny s.kind).length + 8 * s.raw.length) :
    ∃ file, saveBinary s.toAny = some file ∧ loadDataBinary (file.take n) = Option.none := by
  obtain ⟨file, hfile, hdata⟩ : ∃ file, saveBinary s.toAny = some file ∧
      ∃ tail, file = binaryHeader s.toAny s.kind ++ (arrayBytes s.raw ++ tail) := by
    have hseg : s.toAny.segments = some s := rfl
    cases hk : s.kind with
    | none =>
      obtain ⟨h1, h2⟩ := flatten_get s hs hk
      have hall : ((List.range s.toAny.size).map s.toAny.get).all
          (fun v => v.length = s.toAny.dimX + s.toAny.dimY) = true := by
        rw [List.all_eq_true]
        intro v hv
        exact decide_eq_true (h1 v hv)
      have hflat : ((List.range s.toAny.size).map s.toAny.get).flatten = s.raw := h2
      refine ⟨_, ?_, "\n#END_STREAM\n".toList, rfl⟩
      unfold saveBinary
      simp only [hseg, hk]
      rw [if_pos hall, hflat, List.append_assoc]
    | symmetrical =>
      refine ⟨_, ?_, "\n#END_STREAM\n".toList, rfl⟩
      unfold saveBinary
      simp only [hseg, hk]
      rw [List.take_of_length_le (by rw [hs]), List.append_assoc]
    | asymmetrical =>
      refine ⟨_, ?_, "\n#END_STREAM\n".toList, rfl⟩
      unfold saveBinary
      simp only [hseg, hk]
      rw [List.take_of_length_le (by rw [hs]), List.append_assoc]
  obtain ⟨tail, hdata⟩ := hdata
  refine ⟨file, hfile, ?_⟩
  rw [hdata]
  obtain ⟨k, rfl⟩ := Nat.exists_eq_add_of_le h1
  have hk : k < 8 * s.raw.length := Nat.lt_of_add_lt_add_left h2
  have e : (binaryHeader s.toAny s.kind ++ (arrayBytes s.raw ++ tail)).take
      ((binaryHeader s.toAny s.kind).length + k)
      = binaryHeader s.toAny s.kind ++ (headerText [] ++ (arrayBytes s.raw).take k) := by
    rw [headerText, List.nil_append]
    generalize binaryHeader s.toAny s.kind = hd
    rw [List.take_length_add_append, List.take_append_of_le_length (by rw [arrayBytes_length]; omega)]
  rw [e, load_after_header s.toAny s.kind [] (by simp) _ ?_ hX hY hin, if_pos]
  · rw [List.length_take, arrayBytes_length]
    have : s.toAny.size * (s.toAny.dimX + s.toAny.dimY + ciColumns s.kind s.toAny.dimY) = s.raw.length := hs.symm
    rw [this]; omega
  · intro r hr
    apply arrayBytes_tail_head s.raw hfirst (r ++ ((arrayBytes s.raw).drop k ++ "\n#END_STREAM\n".toList))
    conv_lhs => rw [← List.take_append_drop k (arrayBytes s.raw), hr]
    simp

/-- C22 is false of the code: when the data start with the bytes `#` and end of line,
    the header parser takes them for a header line and the data are loaded shifted by
    two bytes, without any error. -/
theorem binary_round_trip_corrupts :
    ∃ s s' : Store Dbl, s.WF ∧ 0 < s.dimX ∧ 0 < s.dimY ∧ s.input.Named ∧
      ∃ file, saveBinary s.toAny = some file ∧ loadDataBinary file = some s' ∧ s'.raw ≠ s.raw := by
  let s : Store Dbl := { dimX := 1, dimY := 1, input := .COS_TH, output := .ENERGY, size := 1,
                         raw := [0x3FF0000000000A23, 0x3FF0000000000000], kind := .none }
  let rest : Str := (arrayBytes s.raw ++ "\n#END_STREAM\n".toList).drop 2
  have hsplit : arrayBytes s.raw ++ "\n#END_STREAM\n".toList = headerText [.empty] ++ rest := by
    have : headerText [HLine.empty] = ['#', '\n'] := rfl
    rw [this]
    have h2 : (arrayBytes s.raw ++ "\n#END_STREAM\n".toList).take 2 = ['#', '\n'] := by decide +kernel
    rw [← h2]; exact (List.take_append_drop 2 _).symm
  have h := load_after_header s.toAny .none [.empty] (by simp) rest
    (by
      have : rest.head? ≠ some '#' := by decide +kernel
      intro r hr; rw [hr] at this; simp at this)
    (by decide) (by decide) (Or.inl (by decide))
  rw [if_neg (by decide +kernel)] at h
  refine ⟨s, _, rfl, by decide, by decide, by decide, _, ?_, h, ?_⟩
  · rw [← hsplit]
    unfold saveBinary
    have hseg : s.toAny.segments = some s := rfl
    simp only [hseg]
    rw [if_pos (by decide +kernel), List.append_assoc]
    rfl
  · show bytesArray 2 rest ≠ s.raw
    decide +kernel

end Alta
