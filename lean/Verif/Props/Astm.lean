import Verif.Model.Astm
import Verif.Spec.Astm
import Verif.Props.TextLoad
/-
C74: the ASTM files.
-/
namespace Alta

theorem takeWhile_comma (t s : Str) (h : ',' ∉ t) : (t ++ ',' :: s).takeWhile (· ≠ ',') = t := by
  have := takeWhile_append_stop (p := fun c : Char => decide (c ≠ ',')) t (',' :: s)
    (fun c hc => by simp; rintro rfl; exact h hc)
  exact (this (by intro c r he; cases he; simp)).1

theorem column_word (v : AstmColumn) (h : v.WellFormed) : (readWord v.text).1 = v.name := by
  obtain ⟨h1, h2, h3, -⟩ := h
  have : readWord v.text = (v.name, v.after) :=
    readWord_word v.before v.name v.after (fun c hc => (h1 c hc).1) h2 h3
  rw [this]

theorem column_ne_nil (v : AstmColumn) (h : v.WellFormed) : ∃ c p, v.text = c :: p := by
  cases ht : v.text with
  | nil =>
    have := h.2.1.1
    simp only [AstmColumn.text, List.append_eq_nil_iff] at ht
    exact absurd ht.2.1 this
  | cons c p => exact ⟨c, p, rfl⟩

theorem vecWords_last (v : AstmColumn) (h : v.WellFormed) : vecWords v.text = [v.name] := by
  obtain ⟨c, p, hcp⟩ := column_ne_nil v h
  have ht : (v.text.takeWhile (· ≠ ',')).take 255 = c :: p := by
    rw [takeWhile_all _ _ (fun x hx => by simp; rintro rfl; exact h.2.2.2.1 hx),
      List.take_of_length_le h.2.2.2.2.2, hcp]
  rw [vecWords]
  split
  · rename_i h1; rw [ht] at h1; cases h1
  · rename_i c' p' h1
    rw [ht] at h1
    cases h1
    have : v.text.drop (p.length + 1) = [] := by rw [hcp]; simp
    rw [this]
    simp only
    rw [← hcp, column_word v h]

theorem vecWords_cons (v : AstmColumn) (h : v.WellFormed) (s : Str) :
    vecWords (v.text ++ ',' :: s) = v.name :: vecWords s := by
  obtain ⟨c, p, hcp⟩ := column_ne_nil v h
  have ht : ((v.text ++ ',' :: s).takeWhile (· ≠ ',')).take 255 = c :: p := by
    rw [takeWhile_comma _ _ h.2.2.2.1, List.take_of_length_le h.2.2.2.2.2, hcp]
  rw [vecWords]
  split
  · rename_i h1; rw [ht] at h1; cases h1
  · rename_i c' p' h1
    rw [ht] at h1
    cases h1
    have d1 : (v.text ++ ',' :: s).drop (p.length + 1) = ',' :: s := by rw [hcp]; simp
    have d2 : (v.text ++ ',' :: s).drop (p.length + 2) = s := by
      rw [show p.length + 2 = (p.length + 1) + 1 from rfl, ← List.drop_drop, d1]; rfl
    have hl : ¬ (v.text ++ ',' :: s).length < p.length + 2 := by rw [hcp]; simp
    rw [d1, d2]
    simp only
    rw [dif_neg hl, ← hcp, column_word v h]

theorem vecWords_columns (vs : List AstmColumn) (hne : vs ≠ []) (h : ∀ v ∈ vs, v.WellFormed) :
    vecWords (columnsText vs) = vs.map AstmColumn.name := by
  induction vs with
  | nil => exact absurd rfl hne
  | cons v vs ih =>
    cases vs with
    | nil => exact vecWords_last v (h v (by simp))
    | cons w vs =>
      rw [columnsText, vecWords_cons v (h v (by simp)), ih (by simp) (fun x hx => h x (by simp [hx]))]
      rfl

theorem columnsText_noNewline (vs : List AstmColumn) (h : ∀ v ∈ vs, v.WellFormed) :
    '\n' ∉ columnsText vs := by
  induction vs with
  | nil => simp [columnsText]
  | cons v vs ih =>
    cases vs with
    | nil => exact (h v (by simp)).2.2.2.2.1
    | cons w vs =>
      have h1 := (h v (by simp)).2.2.2.2.1
      have h2 := ih (fun x hx => h x (by simp [hx]))
      rw [columnsText, List.mem_append, List.mem_cons]
      rintro (h' | h' | h')
      · exact h1 h'
      · cases h'
      · exact h2 h'

theorem columnsText_head (vs : List AstmColumn) (h : ∀ v ∈ vs, v.WellFormed)
    (h1 : ∀ v ∈ vs.head?, v.before ≠ []) (s : Str) : SpaceAhead (columnsText vs ++ '\n' :: s) := by
  intro c r he
  cases vs with
  | nil => simp [columnsText] at he; rw [← he.1]; decide
  | cons v vs =>
    have hb := h1 v (by simp)
    obtain ⟨a, b, hab⟩ : ∃ a b, v.before = a :: b := by
      cases hv : v.before with
      | nil => exact absurd hv hb
      | cons a b => exact ⟨a, b, rfl⟩
    have : ∃ q, columnsText (v :: vs) ++ '\n' :: s = a :: q := by
      cases vs with
      | nil => exact ⟨_, by simp only [columnsText, AstmColumn.text, hab, List.cons_append]; rfl⟩
      | cons w vs => exact ⟨_, by simp only [columnsText, AstmColumn.text, hab, List.cons_append]; rfl⟩
    obtain ⟨q, hq⟩ := this
    rw [hq] at he
    have hac : a = c := by injection he
    rw [← hac]
    exact ((h v (by simp)).1 a (by rw [hab]; simp)).1

/-! the header -/

theorem header_entry (e : AstmEntry) (he : e.WellFormed) (key line rest : Str) (m : SMap) :
    astmHeaderFrom key line (e.text ++ '\n' :: rest) m =
      astmHeaderFrom e.key e.value rest (m.update e.key e.value) := by
  obtain ⟨h1, h2, h3, h4, h5⟩ := he
  have hw : readWord (e.text ++ '\n' :: rest) = (e.key, e.value ++ '\n' :: rest) := by
    have := readWord_word e.before e.key (e.value ++ '\n' :: rest) h1 h2 (by
      intro c r hc
      cases hv : e.value with
      | nil => rw [hv] at hc; cases hc; decide
      | cons a b =>
        rw [hv, List.cons_append] at hc
        have hac : a = c := by injection hc
        rw [← hac]; exact h5 a b hv)
    simpa [AstmEntry.text] using this
  have hg := getLine_append e.value rest h4
  have hne : e.value ++ '\n' :: rest ≠ [] := by simp
  rw [astmHeaderFrom]
  split
  rename_i w r h
  rw [hw] at h
  cases h
  rw [dif_neg h2.1, if_neg hne]
  simp only [hg]
  rw [if_neg h3, if_pos (by simp)]

theorem header_entries (es : List AstmEntry) (he : ∀ e ∈ es, e.WellFormed) (rest : Str) :
    ∀ (key line : Str) (m : SMap), m.Ordered → ∃ key' line' m', m'.Ordered ∧
      astmHeaderFrom key line (astmLines (es.map AstmEntry.text) ++ rest) m = astmHeaderFrom key' line' rest m' ∧
      ∀ k, m'.find k = match astmValue k es with | some v => some v | none => m.find k := by
  induction es with
  | nil => intro key line m hm; exact ⟨key, line, m, hm, rfl, fun k => rfl⟩
  | cons e es ih =>
    intro key line m hm
    obtain ⟨key', line', m', hm', h1, h2⟩ := ih (fun x hx => he x (by simp [hx])) e.key e.value
      (m.update e.key e.value) (hm.update _ _)
    refine ⟨key', line', m', hm', ?_, ?_⟩
    · rw [← h1, ← header_entry e (he e (by simp)) key line]
      simp [astmLines]
    · intro k
      rw [h2 k]
      simp only [astmValue]
      cases astmValue k es with
      | some v => rfl
      | none =>
        simp only
        rw [SMap.find_update hm]
        by_cases hk : k = e.key
        · subst hk; simp
        · rw [if_neg hk, if_neg (Ne.symm hk)]

/-- The header of a file: its keys, the names of its columns, and the text after it. -/
theorem astm_header (es : List AstmEntry) (before : Str) (vs : List AstmColumn) (body : Str)
    (hh : AstmHeaderOk es before vs) :
    ∃ m, astmHeader (astmText es before vs body) = (m, some body) ∧
      m.getVecWords "VARS".toList = vs.map AstmColumn.name ∧
      ∀ k, k ≠ "VARS".toList → m.find k = astmValue k es := by
  obtain ⟨h1, h2, h3, h4, h5⟩ := hh
  obtain ⟨key', line', m', hm', e1, e2⟩ := header_entries es h1
    (before ++ ("VARS".toList ++ (columnsText vs ++ '\n' :: body))) [] [] [] SMap.ordered_nil
  have hw : readWord (before ++ ("VARS".toList ++ (columnsText vs ++ '\n' :: body))) =
      ("VARS".toList, columnsText vs ++ '\n' :: body) :=
    readWord_word before _ _ h2 ⟨by decide, by decide⟩ (columnsText_head vs h4 h5 body)
  have hg := getLine_append (columnsText vs) body (columnsText_noNewline vs h4)
  have hne : columnsText vs ++ '\n' :: body ≠ [] := by simp
  have key : astmHeader (astmText es before vs body) =
      (m'.update "VARS".toList (['['] ++ columnsText vs ++ [']']), some body) := by
    unfold astmHeader astmText
    rw [e1, astmHeaderFrom]
    split
    rename_i w r h
    rw [hw] at h
    cases h
    rw [dif_neg (by decide), if_neg hne]
    simp only [hg]
    rw [if_pos trivial, if_pos (by simp)]
  refine ⟨_, key, ?_, ?_⟩
  · unfold SMap.getVecWords
    rw [SMap.find_update hm', if_pos rfl]
    simp only
    rw [if_pos ⟨by simp, by rw [List.getLast?_append]; rfl⟩]
    have : ((['['] ++ columnsText vs ++ [']']).drop 1).dropLast = columnsText vs := by simp
    rw [this]
    exact vecWords_columns vs h3 h4
  · intro k hk
    rw [SMap.find_update hm', if_neg hk, e2 k]
    cases astmValue k es <;> rfl

/-! the rows -/

/-- the text of a line once its commas are replaced -/
def uncomma (s : Str) : Str := s.map fun c => if c = ',' then ' ' else c

theorem separator_blank {s : Str} (h : Separator s) : Blank (uncomma s) := by
  intro c hc
  obtain ⟨a, ha, rfl⟩ := List.mem_map.1 hc
  rcases h a ha with e | ⟨e1, e2⟩
  · rw [if_pos e]; decide
  · by_cases hk : a = ','
    · rw [if_pos hk]; decide
    · rw [if_neg hk]; exact ⟨e1, e2⟩

theorem showDigits_noComma (l : List (Fin 10)) : ',' ∉ showDigits l := by
  intro h
  obtain ⟨d, hd, he⟩ := showDigits_all l _ h
  exact (digitChar_spec d hd).2.2.2.2.2.2.2.2.1 he.symm

theorem showInt_noComma (z : ℤ) : ',' ∉ showInt z := by
  have h : ',' ∉ showNat z.natAbs := by
    intro h
    obtain ⟨d, hd, he⟩ := showNat_digits _ _ h
    exact (digitChar_spec d hd).2.2.2.2.2.2.2.2.1 he.symm
  unfold showInt
  split_ifs
  · simp [h]
  · exact h

theorem decimal_noComma (d : Decimal) : ',' ∉ d.text := by
  intro hc
  unfold Decimal.text at hc
  simp only [List.mem_append] at hc
  rcases hc with ((hc | hc) | hc) | hc
  · split at hc <;> simp at hc
  · exact showDigits_noComma _ hc
  · split at hc
    · simp at hc
    · rcases List.mem_cons.1 hc with h | hc
      · cases h
      · exact showDigits_noComma _ hc
  · split at hc
    · simp at hc
    · rcases List.mem_cons.1 hc with h | hc
      · cases h
      · exact showInt_noComma _ hc

theorem uncomma_append (a b : Str) : uncomma (a ++ b) = uncomma a ++ uncomma b := by simp [uncomma]

theorem uncomma_self (a : Str) (h : ',' ∉ a) : uncomma a = a := by
  unfold uncomma
  conv_rhs => rw [← List.map_id a]
  apply List.map_congr_left
  intro c hc
  rw [if_neg (by rintro rfl; exact h hc)]
  rfl

/-- the numbers of a row, with blanks for commas -/
def uncommaFields (fs : List (Str × Decimal)) : List (Str × Decimal) := fs.map fun f => (uncomma f.1, f.2)

theorem uncomma_fields (fs : List (Str × Decimal)) : uncomma (fieldsText fs) = fieldsText (uncommaFields fs) := by
  induction fs with
  | nil => rfl
  | cons f fs ih =>
    obtain ⟨sep, d⟩ := f
    show uncomma (sep ++ (d.text ++ fieldsText fs)) = uncomma sep ++ (d.text ++ fieldsText (uncommaFields fs))
    rw [uncomma_append, uncomma_append, ih, uncomma_self _ (decimal_noComma d)]

theorem commaFields_ok (fs : List (Str × Decimal)) (h : CommaFields fs) : FieldsOk (uncommaFields fs) := by
  induction fs with
  | nil => trivial
  | cons f fs ih =>
    obtain ⟨sep, d⟩ := f
    obtain ⟨h1, h2, h3, h4⟩ := h
    refine ⟨separator_blank h1, h2, ?_, ih h4⟩
    intro g hg
    cases fs with
    | nil => cases hg
    | cons f' fs =>
      have := h3 f' (by simp)
      have hg' : g = (uncomma f'.1, f'.2) := by
        simp only [List.map_cons, List.head?_cons, Option.mem_def, Option.some.injEq] at hg
        exact hg.symm
      rw [hg']
      intro h0
      apply this
      simpa [uncomma] using h0

theorem row_numbers (r : TextRow) (h : CommaRow r) (n : ℕ) (hn : n ≤ r.fields.length) :
    ∃ rest, readNumbers n (uncomma r.text) = some ((r.fields.take n).map (·.2.value), rest) := by
  have hl : (uncommaFields r.fields).length = r.fields.length := by simp [uncommaFields]
  refine ⟨fieldsText ((uncommaFields r.fields).drop n) ++ uncomma r.trailing, ?_⟩
  unfold TextRow.text
  rw [uncomma_append, uncomma_fields, readNumbers_fields n _ _ (commaFields_ok _ h.1) (separator_blank h.2.1)
    (by rw [hl]; exact hn)]
  simp [uncommaFields, List.map_take]
  rfl

theorem commaFields_noNewline (fs : List (Str × Decimal)) (h : CommaFields fs) : '\n' ∉ fieldsText fs := by
  induction fs with
  | nil => simp [fieldsText]
  | cons f fs ih =>
    obtain ⟨sep, d⟩ := f
    obtain ⟨h1, -, -, h4⟩ := h
    simp only [fieldsText, List.mem_append, not_or]
    refine ⟨fun hc => ?_, fun hc => ?_, ih h4⟩
    · rcases h1 _ hc with e | e
      · cases e
      · exact e.2 rfl
    · have := d.text_noSpace _ hc
      rw [newline_isSpace] at this; cases this

theorem commaRow_noNewline (r : TextRow) (h : CommaRow r) : '\n' ∉ r.text := by
  unfold TextRow.text
  rw [List.mem_append, not_or]
  refine ⟨commaFields_noNewline _ h.1, fun hc => ?_⟩
  rcases h.2.1 _ hc with e | e
  · cases e
  · exact e.2 rfl

theorem nextLine_row (r : TextRow) (h : CommaRow r) (rest : Str) :
    astmNextLine (r.text ++ '\n' :: rest) = .ok (r.text, some rest) := by
  have hg := getLine_append r.text rest (commaRow_noNewline r h)
  have hc := h.2.2
  rw [astmNextLine.eq_def]
  split
  · rename_i h0; simp at h0
  · rename_i a b h0
    rw [← h0, hg]
    simp only
    rw [if_pos hc, if_pos (by simp)]

theorem nextLine_row_end (r : TextRow) (h : CommaRow r) : astmNextLine r.text = .ok (r.text, none) := by
  have hg := getLine_noNewline r.text (commaRow_noNewline r h)
  have hc := h.2.2
  rw [astmNextLine.eq_def]
  split
  · rename_i h0; rw [h0] at hc; cases hc
  · rename_i a b h0
    rw [← h0, hg]
    simp only
    rw [if_pos hc, if_neg (commaRow_noNewline r h)]

theorem nextLine_other (t : Str) (h1 : ',' ∉ t) (h2 : '\n' ∉ t) (rest : Str) :
    astmNextLine (t ++ '\n' :: rest) = astmNextLine rest := by
  have hg := getLine_append t rest h2
  rw [astmNextLine.eq_def]
  split
  · rename_i h0; simp at h0
  · rename_i a b h0
    rw [← h0, hg]
    simp only
    rw [if_neg h1, if_pos (by simp)]

theorem nextLine_end (t : Str) (h1 : ',' ∉ t) (h2 : '\n' ∉ t) : astmNextLine t = .error .hang := by
  have hg := getLine_noNewline t h2
  rw [astmNextLine.eq_def]
  split
  · rfl
  · rename_i a b
    rw [hg]
    simp only
    rw [if_neg h1, if_neg h2]

/-- the numbers of a row as they are read -/
def rowNumbers (n : ℕ) (r : TextRow) : List ℚ := (r.fields.take n).map (·.2.value)

theorem rows_row (n k : ℕ) (r : TextRow) (h : CommaRow r) (hn : n ≤ r.fields.length) (rest : Str) :
    astmRows n (k + 1) (some (r.text ++ '\n' :: rest)) =
      (astmRows n k (some rest)).map (rowNumbers n r :: ·) := by
  obtain ⟨q, hq⟩ := row_numbers r h n hn
  rw [astmRows, nextLine_row r h]
  simp only
  rw [show (r.text.map fun c => if c = ',' then ' ' else c) = uncomma r.text from rfl, hq]
  cases astmRows n k (some rest) <;> rfl

theorem rows_row_end (n k : ℕ) (r : TextRow) (h : CommaRow r) (hn : n ≤ r.fields.length) :
    astmRows n (k + 1) (some r.text) = (astmRows n k none).map (rowNumbers n r :: ·) := by
  obtain ⟨q, hq⟩ := row_numbers r h n hn
  rw [astmRows, nextLine_row_end r h]
  simp only
  rw [show (r.text.map fun c => if c = ',' then ' ' else c) = uncomma r.text from rfl, hq]
  cases astmRows n k none <;> rfl

theorem rows_other (n k : ℕ) (t : Str) (h1 : ',' ∉ t) (h2 : '\n' ∉ t) (rest : Str) :
    astmRows n (k + 1) (some (t ++ '\n' :: rest)) = astmRows n (k + 1) (some rest) := by
  rw [astmRows, astmRows, nextLine_other t h1 h2]

theorem rows_lines (n k : ℕ) (ls : List AstmLine) (hl : ∀ l ∈ ls, l.WellFormed)
    (hn : ∀ r ∈ astmBodyRows ls, n ≤ r.fields.length) (tail : Str) :
    astmRows n ((astmBodyRows ls).length + k) (some (astmLines (ls.map AstmLine.text) ++ tail)) =
      (astmRows n k (some tail)).map ((astmBodyRows ls).map (rowNumbers n) ++ ·) := by
  induction ls with
  | nil =>
    simp only [astmBodyRows, List.length_nil, Nat.zero_add, List.map_nil, astmLines, List.nil_append]
    cases astmRows n k (some tail) <;> rfl
  | cons l ls ih =>
    have ih := ih (fun x hx => hl x (by simp [hx]))
    cases l with
    | other t =>
      have ih := ih hn
      have hw := hl (.other t) (by simp)
      have e : astmLines ((AstmLine.other t :: ls).map AstmLine.text) ++ tail =
          t ++ '\n' :: (astmLines (ls.map AstmLine.text) ++ tail) := by
        simp [astmLines, AstmLine.text]
      rw [e]
      show astmRows n ((astmBodyRows ls).length + k) _ = Except.map ((astmBodyRows ls).map (rowNumbers n) ++ ·) _
      rw [← ih]
      cases hk : (astmBodyRows ls).length + k with
      | zero => rfl
      | succ j => exact rows_other n j t hw.1 hw.2 _
    | row r =>
      have ih := ih (fun x hx => hn x (by simp [astmBodyRows, hx]))
      have hw : CommaRow r := hl (.row r) (by simp)
      have e : astmLines ((AstmLine.row r :: ls).map AstmLine.text) ++ tail =
          r.text ++ '\n' :: (astmLines (ls.map AstmLine.text) ++ tail) := by
        simp [astmLines, AstmLine.text]
      rw [e]
      show astmRows n ((astmBodyRows ls).length + 1 + k) _ =
        Except.map ((rowNumbers n r :: (astmBodyRows ls).map (rowNumbers n)) ++ ·) _
      rw [show (astmBodyRows ls).length + 1 + k = ((astmBodyRows ls).length + k) + 1 by omega,
        rows_row n _ r hw (hn r (by simp [astmBodyRows])), ih]
      cases astmRows n k (some tail) <;> rfl

/-! the file -/

/-- What the columns say about the data: number of angles and of values, parametrization. -/
theorem astm_load_from (es : List AstmEntry) (before : Str) (vs : List AstmColumn) (body : Str)
    (hh : AstmHeaderOk es before vs) (k : ℕ) (hk : DeclaresPoints es k) :
    ∃ p, astmPar (vs.map AstmColumn.name) = some p ∧
      astmLoad (astmText es before vs body) =
        (astmRows (p.dimX + p.dimY) k (some body)).map fun rows => Segments.make
          { dimX := p.dimX, dimY := p.dimY, input := p.input, output := p.output, size := rows.length
            raw := (rows.flatten).map (fun q : ℚ => (q : ℝ)), kind := .none } := by
  obtain ⟨m, h1, h2, h3⟩ := astm_header es before vs body hh
  obtain ⟨ws, tail, hv, hws, htail⟩ := hk
  have hp : ∃ p, astmPar (vs.map AstmColumn.name) = some p := by
    unfold astmPar
    cases hl : (vs.map AstmColumn.name).getLast? with
    | none => rw [List.getLast?_eq_none_iff, List.map_eq_nil_iff] at hl; exact absurd hl hh.2.2.1
    | some l => exact ⟨_, rfl⟩
  obtain ⟨p, hp⟩ := hp
  refine ⟨p, hp, ?_⟩
  have hf := h3 "NUM_POINTS".toList (by decide)
  rw [hv] at hf
  have hat : atoi (ws ++ (showNat k ++ tail)) = (k : ℤ) := by
    have hs : showInt (k : ℤ) = showNat k := by
      unfold showInt
      rw [if_neg (by omega), Int.natAbs_natCast]
    have := atoi_showInt ws tail (k : ℤ) (fun c hc => (hws c hc).1) (by
      intro c r hc
      exact (space_numberEnds c ((htail c (by rw [hc]; simp)).1)).1)
    rw [hs] at this
    exact this
  unfold astmLoad
  rw [h1]
  simp only [h2, hp]
  rw [if_pos (by unfold SMap.isDefined; rw [hf]; rfl)]
  have hi : m.getInt "NUM_POINTS".toList 0 = (k : ℤ) := by
    unfold SMap.getInt
    rw [hf]
    exact hat
  rw [hi, if_neg (by omega), Int.toNat_natCast]
  cases astmRows (p.dimX + p.dimY) k (some body) <;> rfl

end Alta
