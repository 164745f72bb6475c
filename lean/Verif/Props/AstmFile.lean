import Verif.Props.Astm
import Mathlib.Tactic.Tauto
/-
C74: what is loaded from an ASTM file, with the limits of the format reader.
-/
namespace Alta

theorem astmAngle_iff (v : Str) : astmAngle v = decide (v ∈ angleNames) := by
  unfold astmAngle angleNames
  simp only [List.mem_cons, List.not_mem_nil, or_false, Bool.decide_or, Bool.or_assoc]

theorem astmPar_facts (names : List Str) (p : Par) (h : astmPar names = some p) :
    p.dimX = (names.filter (· ∈ angleNames)).length ∧ p.dimX + p.dimY = names.length ∧
    p.input = (if p.dimX = 4 then .SPHERICAL_TL_PL_TV_PV else .UNKNOWN_INPUT) ∧ 0 < names.length := by
  unfold astmPar at h
  cases hl : names.getLast? with
  | none => rw [hl] at h; cases h
  | some last =>
    rw [hl] at h
    simp only [Option.some.injEq] at h
    subst h
    have e : names.filter astmAngle = names.filter (· ∈ angleNames) :=
      List.filter_congr fun v _ => astmAngle_iff v
    refine ⟨by rw [e], ?_, rfl, ?_⟩
    · simp only
      rw [← List.length_eq_length_filter_add astmAngle]
    · cases names with
      | nil => cases hl
      | cons a b => simp

theorem holds_rows (names : List Str) (p : Par) (h : astmPar names = some p) (rows : List TextRow)
    (hn : ∀ r ∈ rows, names.length ≤ r.fields.length) :
    HoldsRows (Segments.make
      { dimX := p.dimX, dimY := p.dimY, input := p.input, output := p.output,
        size := (rows.map (rowNumbers (p.dimX + p.dimY))).length
        raw := ((rows.map (rowNumbers (p.dimX + p.dimY))).flatten).map (fun q : ℚ => (q : ℝ)),
        kind := .none }).store names rows := by
  obtain ⟨h1, h2, h3, h4⟩ := astmPar_facts names p h
  let vals : List (List ℝ) := rows.map fun r => r.values.take names.length
  have hraw : ((rows.map (rowNumbers (p.dimX + p.dimY))).flatten).map (fun q : ℚ => (q : ℝ)) = vals.flatten := by
    rw [List.map_flatten, List.map_map]
    congr 1
    apply List.map_congr_left
    intro r _
    simp [rowNumbers, TextRow.values, h2, List.map_take]
    rfl
  have hlen : ∀ v ∈ vals, v.length = names.length := by
    intro v hv
    obtain ⟨r, hr, rfl⟩ := List.mem_map.1 hv
    have := hn r hr
    simp [TextRow.values]
    omega
  refine ⟨by simp [Segments.make], ?_, h1, h2, h3, ?_⟩
  · show (List.map (fun q : ℚ => (q : ℝ)) _).length = _
    rw [hraw]
    have := flatten_length_const vals names.length hlen
    rw [this]
    simp [vals]
  · intro i r hi
    show Store.get _ i = _
    have hlt : i < rows.length := (List.getElem?_eq_some_iff.1 hi).1
    have hv : vals[i]? = some (r.values.take names.length) := by simp [vals, hi]
    rw [Store.get_eq, if_pos (by simpa [Segments.make] using hlt)]
    unfold Store.row
    have hcol : (Segments.make
      { dimX := p.dimX, dimY := p.dimY, input := p.input, output := p.output,
        size := (rows.map (rowNumbers (p.dimX + p.dimY))).length
        raw := ((rows.map (rowNumbers (p.dimX + p.dimY))).flatten).map (fun q : ℚ => (q : ℝ)),
        kind := .none }).store.columns = names.length := by
      show p.dimX + p.dimY + 0 = _
      rw [h2]; rfl
    rw [hcol]
    show some ((((List.map (fun q : ℚ => (q : ℝ)) _).drop _).take _).take (p.dimX + p.dimY)) = _
    rw [hraw, flatten_row vals names.length hlen i _ hv, h2]
    rw [List.take_take, Nat.min_self]

/-- **Loading a file.**  Every row, in the order of the file, is a sample: lines without a comma are
    passed over and what follows the last row declared is not looked at. -/
theorem astm_load (es : List AstmEntry) (before : Str) (vs : List AstmColumn)
    (hh : AstmHeaderOk es before vs) (ls : List AstmLine) (hl : ∀ l ∈ ls, l.WellFormed)
    (hn : ∀ r ∈ astmBodyRows ls, vs.length ≤ r.fields.length)
    (hk : DeclaresPoints es (astmBodyRows ls).length) (tail : Str) :
    ∃ d, astmLoad (astmText es before vs (astmLines (ls.map AstmLine.text) ++ tail)) = .ok d ∧
      HoldsRows d.store (vs.map AstmColumn.name) (astmBodyRows ls) := by
  obtain ⟨p, hp, he⟩ := astm_load_from es before vs (astmLines (ls.map AstmLine.text) ++ tail) hh _ hk
  have hd := (astmPar_facts _ p hp).2.1
  rw [List.length_map] at hd
  have hr := rows_lines (p.dimX + p.dimY) 0 ls hl (by rw [hd]; exact hn) tail
  rw [Nat.add_zero] at hr
  rw [hr] at he
  refine ⟨_, he, ?_⟩
  have := holds_rows (vs.map AstmColumn.name) p hp (astmBodyRows ls) (by rw [List.length_map]; exact hn)
  simpa using this

/-- The same when the last row is not followed by an end of line. -/
theorem astm_load_unterminated (es : List AstmEntry) (before : Str) (vs : List AstmColumn)
    (hh : AstmHeaderOk es before vs) (ls : List AstmLine) (hl : ∀ l ∈ ls, l.WellFormed)
    (r : TextRow) (hr : CommaRow r)
    (hn : ∀ q ∈ astmBodyRows ls ++ [r], vs.length ≤ q.fields.length)
    (hk : DeclaresPoints es (astmBodyRows ls ++ [r]).length) :
    ∃ d, astmLoad (astmText es before vs (astmLines (ls.map AstmLine.text) ++ r.text)) = .ok d ∧
      HoldsRows d.store (vs.map AstmColumn.name) (astmBodyRows ls ++ [r]) := by
  obtain ⟨p, hp, he⟩ := astm_load_from es before vs (astmLines (ls.map AstmLine.text) ++ r.text) hh _ hk
  have hd := (astmPar_facts _ p hp).2.1
  rw [List.length_map] at hd
  have h1 := rows_lines (p.dimX + p.dimY) 1 ls hl (by rw [hd]; intro q hq; exact hn q (by simp [hq])) r.text
  rw [rows_row_end _ 0 r hr (by rw [hd]; exact hn r (by simp))] at h1
  rw [List.length_append, List.length_singleton, h1] at he
  refine ⟨_, he, ?_⟩
  have := holds_rows (vs.map AstmColumn.name) p hp (astmBodyRows ls ++ [r]) (by rw [List.length_map]; exact hn)
  simpa [astmRows] using this

/-- The parametrization of the files of Cornell University: the angles of the light and of the
    scattered direction in this order, then red, green and blue. -/
theorem astm_load_rgb (es : List AstmEntry) (before : Str) (vs : List AstmColumn)
    (hh : AstmHeaderOk es before vs)
    (hv : vs.map AstmColumn.name = ["theta_i".toList, "phi_i".toList, "theta_s".toList, "phi_s".toList,
      "R".toList, "G".toList, "B".toList])
    (ls : List AstmLine) (hl : ∀ l ∈ ls, l.WellFormed)
    (hn : ∀ r ∈ astmBodyRows ls, 7 ≤ r.fields.length)
    (hk : DeclaresPoints es (astmBodyRows ls).length) (tail : Str) :
    ∃ d, astmLoad (astmText es before vs (astmLines (ls.map AstmLine.text) ++ tail)) = .ok d ∧
      d.store.dimX = 4 ∧ d.store.dimY = 3 ∧ d.store.input = .SPHERICAL_TL_PL_TV_PV ∧
      d.store.output = .RGB_COLOR ∧ d.store.size = (astmBodyRows ls).length ∧
      ∀ (i : ℕ) (r : TextRow), (astmBodyRows ls)[i]? = some r → d.store.get i = some (r.values.take 7) := by
  have hlen : vs.length = 7 := by rw [← List.length_map (f := AstmColumn.name), hv]; rfl
  obtain ⟨p, hp, he⟩ := astm_load_from es before vs (astmLines (ls.map AstmLine.text) ++ tail) hh _ hk
  obtain ⟨d, h1, h2⟩ := astm_load es before vs hh ls hl (by rw [hlen]; exact hn) hk tail
  have hd4 : d.store.dimX = 4 := by rw [h2.dimX, hv]; decide +kernel
  have hdims := h2.dims
  rw [List.length_map, hlen] at hdims
  refine ⟨d, h1, hd4, by omega, by rw [h2.input, if_pos hd4], ?_, h2.size, ?_⟩
  · rw [h1] at he
    cases hq : astmRows (p.dimX + p.dimY) (astmBodyRows ls).length
        (some (astmLines (ls.map AstmLine.text) ++ tail)) with
    | error e => rw [hq] at he; cases he
    | ok rows =>
      rw [hq] at he
      have : d = Segments.make
          { dimX := p.dimX, dimY := p.dimY, input := p.input, output := p.output, size := rows.length
            raw := (rows.flatten).map (fun q : ℚ => (q : ℝ)), kind := .none } := by
        injection he
      rw [this]
      show p.output = _
      rw [hv] at hp
      have : astmPar ["theta_i".toList, "phi_i".toList, "theta_s".toList, "phi_s".toList,
        "R".toList, "G".toList, "B".toList] = some ⟨4, 3, .SPHERICAL_TL_PL_TV_PV, .RGB_COLOR⟩ := rfl
      rw [this] at hp
      injection hp with hp
      rw [← hp]
  · intro i r hi
    have := h2.sample i r hi
    rw [List.length_map, hlen] at this
    exact this

/-! limits -/

/-- The order of the names of the columns does not matter (but for the last one): the columns of the
    file are always taken for the angles of the light, then of the view, then the values. -/
theorem astm_names_order (names names' : List Str) (h : names.Perm names')
    (hl : names.getLast? = names'.getLast?) : astmPar names = astmPar names' := by
  unfold astmPar
  rw [hl]
  have h1 := (h.filter astmAngle).length_eq
  have h2 := (h.filter fun v => !astmAngle v).length_eq
  cases names'.getLast? with
  | none => rfl
  | some last => simp only [h1, h2]

/-- A file whose columns are exchanged is read as if they were not: light and view are exchanged. -/
theorem astm_exchanged_columns (es : List AstmEntry) (before : Str) (vs : List AstmColumn)
    (hh : AstmHeaderOk es before vs)
    (hv : vs.map AstmColumn.name = ["theta_s".toList, "phi_s".toList, "theta_i".toList, "phi_i".toList,
      "R".toList, "G".toList, "B".toList])
    (ls : List AstmLine) (hl : ∀ l ∈ ls, l.WellFormed)
    (hn : ∀ r ∈ astmBodyRows ls, 7 ≤ r.fields.length)
    (hk : DeclaresPoints es (astmBodyRows ls).length) (tail : Str) :
    ∃ d, astmLoad (astmText es before vs (astmLines (ls.map AstmLine.text) ++ tail)) = .ok d ∧
      d.store.input = .SPHERICAL_TL_PL_TV_PV ∧
      ∀ (i : ℕ) (r : TextRow), (astmBodyRows ls)[i]? = some r → d.store.get i = some (r.values.take 7) := by
  have hlen : vs.length = 7 := by rw [← List.length_map (f := AstmColumn.name), hv]; rfl
  obtain ⟨d, h1, h2⟩ := astm_load es before vs hh ls hl (by rw [hlen]; exact hn) hk tail
  have hd4 : d.store.dimX = 4 := by rw [h2.dimX, hv]; decide +kernel
  refine ⟨d, h1, by rw [h2.input, if_pos hd4], ?_⟩
  intro i r hi
  have := h2.sample i r hi
  rw [List.length_map, hlen] at this
  exact this

/-- **Rows are missing.**  When the file ends before the number of rows it declares, the program never
    ends. -/
theorem astm_missing_rows (es : List AstmEntry) (before : Str) (vs : List AstmColumn)
    (hh : AstmHeaderOk es before vs) (ls : List AstmLine) (hl : ∀ l ∈ ls, l.WellFormed)
    (hn : ∀ r ∈ astmBodyRows ls, vs.length ≤ r.fields.length) (k : ℕ)
    (hk : DeclaresPoints es k) (hlt : (astmBodyRows ls).length < k) :
    astmLoad (astmText es before vs (astmLines (ls.map AstmLine.text))) = .error .hang := by
  obtain ⟨p, hp, he⟩ := astm_load_from es before vs (astmLines (ls.map AstmLine.text)) hh _ hk
  have hd := (astmPar_facts _ p hp).2.1
  rw [List.length_map] at hd
  obtain ⟨j, rfl⟩ : ∃ j, k = (astmBodyRows ls).length + (j + 1) := ⟨k - (astmBodyRows ls).length - 1, by omega⟩
  have hr := rows_lines (p.dimX + p.dimY) (j + 1) ls hl (by rw [hd]; exact hn) []
  rw [List.append_nil] at hr
  rw [hr] at he
  rw [he, astmRows, nextLine_end [] (by simp) (by simp)]
  rfl

/-- The same when the last row is not followed by an end of line: the program stops on an assertion. -/
theorem astm_missing_rows_unterminated (es : List AstmEntry) (before : Str) (vs : List AstmColumn)
    (hh : AstmHeaderOk es before vs) (ls : List AstmLine) (hl : ∀ l ∈ ls, l.WellFormed)
    (r : TextRow) (hr : CommaRow r)
    (hn : ∀ q ∈ astmBodyRows ls ++ [r], vs.length ≤ q.fields.length) (k : ℕ)
    (hk : DeclaresPoints es k) (hlt : (astmBodyRows ls).length + 1 < k) :
    astmLoad (astmText es before vs (astmLines (ls.map AstmLine.text) ++ r.text)) = .error .abort := by
  obtain ⟨p, hp, he⟩ := astm_load_from es before vs (astmLines (ls.map AstmLine.text) ++ r.text) hh _ hk
  have hd := (astmPar_facts _ p hp).2.1
  rw [List.length_map] at hd
  obtain ⟨j, rfl⟩ : ∃ j, k = (astmBodyRows ls).length + (j + 1 + 1) :=
    ⟨k - (astmBodyRows ls).length - 2, by omega⟩
  have h1 := rows_lines (p.dimX + p.dimY) (j + 1 + 1) ls hl
    (by rw [hd]; intro q hq; exact hn q (by simp [hq])) r.text
  rw [rows_row_end _ (j + 1) r hr (by rw [hd]; exact hn r (by simp))] at h1
  rw [he, h1]
  rfl

/-- The number of points is not found after the line `VARS`: a failed assertion. -/
theorem astm_points_undeclared (es : List AstmEntry) (before : Str) (vs : List AstmColumn)
    (hh : AstmHeaderOk es before vs) (hk : astmValue "NUM_POINTS".toList es = none) (body : Str) :
    astmLoad (astmText es before vs body) = .error .abort := by
  obtain ⟨m, h1, h2, h3⟩ := astm_header es before vs body hh
  have hp : ∃ p, astmPar (vs.map AstmColumn.name) = some p := by
    unfold astmPar
    cases hl : (vs.map AstmColumn.name).getLast? with
    | none => rw [List.getLast?_eq_none_iff, List.map_eq_nil_iff] at hl; exact absurd hl hh.2.2.1
    | some l => exact ⟨_, rfl⟩
  obtain ⟨p, hp⟩ := hp
  unfold astmLoad
  rw [h1]
  simp only [h2, hp]
  rw [if_neg]
  unfold SMap.isDefined
  rw [h3 _ (by decide), hk]
  decide

/-! an example -/

def exEntries : List AstmEntry :=
  [⟨[], "MATERIAL".toList, " red paint, dry".toList⟩, ⟨"\n ".toList, "NUM_POINTS".toList, " 2\r".toList⟩]

def exColumns : List AstmColumn :=
  [⟨" ".toList, "theta_i".toList, []⟩, ⟨[], "phi_i".toList, []⟩, ⟨" ".toList, "theta_s".toList, []⟩,
   ⟨[], "phi_s".toList, []⟩, ⟨[], "R".toList, []⟩, ⟨[], "G".toList, []⟩, ⟨[], "B".toList, "\r".toList⟩]

/-- a row of seven digits -/
def digitRow (a b c d e f g : Fin 10) : TextRow :=
  ⟨[([], ⟨false, [a], [], none⟩), (",".toList, ⟨false, [b], [], none⟩), (", ".toList, ⟨false, [c], [], none⟩),
    (",".toList, ⟨false, [d], [], none⟩), (",".toList, ⟨false, [e], [], none⟩), (",".toList, ⟨false, [f], [], none⟩),
    (",".toList, ⟨false, [g], [], none⟩)], []⟩

def exAstmLines : List AstmLine :=
  [.row (digitRow 1 2 3 4 5 6 7), .other "no number".toList, .other [], .row (digitRow 0 1 0 1 0 1 0)]

theorem digitRow_ok (a b c d e f g : Fin 10) : CommaRow (digitRow a b c d e f g) := by
  refine ⟨?_, ?_, ?_⟩
  · simp [digitRow, CommaFields, Separator, isSpace]
  · simp [digitRow, Separator]
  · simp [digitRow, TextRow.text, fieldsText]

theorem exHeader_ok : AstmHeaderOk exEntries [] exColumns := by
  refine ⟨?_, by simp, by simp [exColumns], ?_, ?_⟩
  · simp [exEntries, AstmEntry.WellFormed, IsWord, isSpace]
  · simp [exColumns, AstmColumn.WellFormed, AstmColumn.text, Blank, IsWord, isSpace]
  · simp [exColumns]

theorem exPoints : DeclaresPoints exEntries 2 :=
  ⟨" ".toList, "\r".toList, by decide +kernel, by simp [Blank, isSpace], by simp [Blank, isSpace]⟩

example : ∃ d, astmLoad (astmText exEntries [] exColumns (astmLines (exAstmLines.map AstmLine.text) ++
      "and the rest".toList)) = .ok d ∧
    d.store.dimX = 4 ∧ d.store.dimY = 3 ∧ d.store.input = .SPHERICAL_TL_PL_TV_PV ∧
    d.store.output = .RGB_COLOR ∧ d.store.size = 2 ∧
    d.store.get 0 = some [1, 2, 3, 4, 5, 6, 7] := by
  obtain ⟨d, h1, h2, h3, h4, h5, h6, h7⟩ := astm_load_rgb exEntries [] exColumns exHeader_ok rfl exAstmLines
    (by
      intro l hl
      simp only [exAstmLines, List.mem_cons, List.not_mem_nil, or_false] at hl
      rcases hl with rfl | rfl | rfl | rfl
      · exact digitRow_ok _ _ _ _ _ _ _
      · simp [AstmLine.WellFormed]
      · simp [AstmLine.WellFormed]
      · exact digitRow_ok _ _ _ _ _ _ _)
    (by
      intro r hr
      simp only [exAstmLines, astmBodyRows, List.mem_cons, List.not_mem_nil, or_false] at hr
      rcases hr with rfl | rfl <;> simp [digitRow])
    exPoints "and the rest".toList
  refine ⟨d, h1, h2, h3, h4, h5, h6, ?_⟩
  rw [h7 0 (digitRow 1 2 3 4 5 6 7) rfl]
  simp [digitRow, TextRow.values, Decimal.value, digitsNum]

end Alta
