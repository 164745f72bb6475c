import Verif.Props.Interrupted
/-
Property C92: a text file and a MERL file that are cut are loaded with other values.
-/
namespace Alta
noncomputable section

/-- the number 1 is written `1`, the number 12 is written `12` -/
def cutFmt (v : ℝ) : Decimal := if v = 12 then ⟨false, [1, 2], [], none⟩ else ⟨false, [1], [], none⟩

theorem cutFmt_one : cutFmt 1 = ⟨false, [1], [], none⟩ := by unfold cutFmt; rw [if_neg (by norm_num)]
theorem cutFmt_twelve : cutFmt 12 = ⟨false, [1, 2], [], none⟩ := by unfold cutFmt; rw [if_pos rfl]

/-- one sample: the value 12 at 1 -/
def cutData : Data := ⟨1, 1, .COS_TH, .ENERGY, [[1, 12]]⟩

/-- the text of the sample -/
theorem cutData_body : (cutData.rows.map fun r => saveRow cutFmt (r.take (cutData.dimX + cutData.dimY))).flatten =
    "1\t1".toList ++ "2\t\n".toList := by
  have e : (cutData.rows.map fun r => saveRow cutFmt (r.take (cutData.dimX + cutData.dimY))).flatten =
      (cutFmt 1).text ++ '\t' :: ((cutFmt 12).text ++ '\t' :: ['\n']) := by
    simp [cutData, saveRow]
  rw [e, cutFmt_one, cutFmt_twelve]
  decide +kernel

/-- the line that is left, as a row of two numbers -/
def cutRow : TextRow := ⟨[([], ⟨false, [1], [], none⟩), (['\t'], ⟨false, [1], [], none⟩)], []⟩

/-- C92, text files: one value is false without an error, when the writing was interrupted inside a number.  Here the
    last three characters are missing, and the value 12 is loaded as 1. -/
theorem interrupted_text_corrupts (val : Dbl → ℝ) (dir : Str) (env : Option Str)
    (fs : Str → Option (Symbols (Str → SMap → Option DataObj))) :
    ∃ (fmt : ℝ → Decimal) (d : Data) (n : ℕ) (e : Data),
      (∀ r ∈ d.rows, ∀ v ∈ r, ((fmt v).value : ℝ) = v) ∧ d.rows = [[1, 12]] ∧ n + 3 = (saveText fmt d).length ∧
      loadDataStream val dir env fs [] ((saveText fmt d).take n) [] = some (some (.ofData e)) ∧ e.rows = [[1, 1]] := by
  have hlen : (headerText (textLines cutData) ++ "1\t1".toList).length + 3 = (saveText cutFmt cutData).length := by
    rw [saveText_rows, cutData_body]
    simp only [List.length_append]
    rfl
  have hcut : (saveText cutFmt cutData).take (headerText (textLines cutData) ++ "1\t1".toList).length =
      headerText (textLines cutData) ++ "1\t1".toList := by
    rw [saveText_rows, cutData_body, ← List.append_assoc, List.take_left]
  have hplain : PlainArgs [] := by constructor <;> rfl
  obtain ⟨p1, p2, -⟩ := parseHeader_spec (textLines cutData) (textLines_wellFormed _) "1\t1".toList
    (by intro r h; revert h; simp)
  have hset := saved_setup cutData _ [] hplain p2 (.inl (by unfold cutData Input.Named; decide))
  have hw : cutRow.WellFormed := by
    refine ⟨by simp [cutRow], ⟨by simp [Blank], .inl (by simp), by simp, ?_, .inl (by simp), by simp, trivial⟩, by simp [cutRow, Blank]⟩
    unfold Blank; decide
  have hbody : bodyText [.row cutRow] = "1\t1".toList ++ ['\n'] := by decide +kernel
  obtain ⟨l, kept, e1, e2, e3, e4, e5, e6, -, -, -, e10⟩ := loadText_spec _ [] _ hset (by simp [cutData]) (1 / 10) rfl
    [.row cutRow] (by intro l hl; simp at hl; rw [hl]; exact hw) (by
      intro r hr; simp [bodyRows] at hr; rw [hr]; simp [cutRow, cutData, ciNumbers]) (by intro h; cases h)
  have hv : cutRow.values = [1, 1] := by
    simp [TextRow.values, cutRow, Decimal.value, digitsNum]
  have hk : kept = [cutRow] := by
    rw [e2]
    simp only [bodyRows]
    rw [List.filter_eq_self]
    intro r hr
    simp only [List.mem_singleton] at hr
    rw [hr, @decide_eq_true_iff _ (Classical.propDecidable _)]
    have hb : ∀ v : ℝ, v = 1 → |v| ≤ ((fltMax : ℚ) : ℝ) := by
      intro v hv
      rw [hv, abs_one]
      unfold fltMax
      norm_num
    refine ⟨⟨?_, ?_⟩, by intro h; cases h⟩
    · apply inside_fltMax
      · simp [rowX, hv, cutData]
      · intro v hm
        simp only [rowX, hv] at hm
        exact hb v (by simpa using List.mem_of_mem_take hm)
    · apply inside_fltMax
      · simp [rowY, rawY, hv, cutData]
      · intro v hm
        simp only [rowY, rawY, hv, Bool.false_eq_true, if_false] at hm
        exact hb v (by simpa using List.mem_of_mem_drop (List.mem_of_mem_take hm))
  have hload : loadDataText (headerText (textLines cutData) ++ "1\t1".toList) [] = some l := by
    unfold loadDataText
    simp only
    rw [p1, if_neg]
    · unfold loadText at e1 ⊢
      rw [hset] at e1 ⊢
      simp only at e1 ⊢
      rw [hbody, loadRows_unterminated _ "1\t1".toList (by simp) (by simp)] at e1
      exact e1
    · have : (parseHeader (headerText (textLines cutData) ++ "1\t1".toList)).1.find "FORMAT".toList = Option.none := by
        rw [p2]; exact lastBinding_absent _ _ (by simp only [textLines, List.filterMap, HLine.key?]; decide)
      unfold SMap.get; rw [this]; decide
  refine ⟨cutFmt, cutData, _, l.store.toData, ?_, rfl, hlen, ?_, ?_⟩
  · intro r hr v hv
    simp only [cutData, List.mem_singleton] at hr
    rw [hr] at hv
    rcases List.mem_cons.1 hv with rfl | hv
    · rw [cutFmt_one]; simp [Decimal.value, digitsNum]
    · rw [List.mem_singleton] at hv
      rw [hv, cutFmt_twelve]; norm_num [Decimal.value, digitsNum]
  · rw [hcut]
    exact loadDataStream_text val dir env fs [] (.inl rfl) _ [] l hload
  · have g := (e10 0 cutRow (by rw [hk]; rfl)).1
    simp only [Store.toData, e4, hk, List.length_singleton, List.range_one, List.map_singleton, g, Option.getD_some]
    simp [rowX, rowValue, rowY, rawY, hv, cutData]

end
end Alta
