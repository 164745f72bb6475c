import Verif.Model.TextSave
import Verif.Props.TextLoad
import Verif.Props.Binary
import Verif.Props.ArgsAccess
/-
Property C51: saving a data set as text and loading it again.
-/
namespace Alta

/-- the lines of the header of a text file -/
def textLines (d : Data) : List HLine :=
  [.bind "DIM".toList [' '] (showNat d.dimX ++ ' ' :: showNat d.dimY) false,
   .bind "PARAM_IN".toList [' ', ' '] (inputName d.input).toList false,
   .bind "PARAM_OUT".toList [' '] (outputName d.output).toList false]

theorem textLines_wellFormed (d : Data) : ∀ l ∈ textLines d, l.WellFormed := by
  intro l hl
  simp only [textLines, List.mem_cons, List.not_mem_nil, or_false] at hl
  rcases hl with rfl | rfl | rfl
  · refine ⟨literal_isWord _ (by decide) (by decide), by decide, by decide, by simp, ?_, ?_, ?_⟩
    · intro c r h
      obtain ⟨d', hd', r', hr'⟩ := showNat_head d.dimX
      rw [hr'] at h
      simp only [List.cons_append, List.cons.injEq] at h
      rw [← h.1]; exact (digitChar_spec d' hd').2.2.1
    · have h1 := (showNat_isWord d.dimX).newline
      have h2 := (showNat_isWord d.dimY).newline
      simp [h1, h2]
    · have h1 := (showNat_isWord d.dimX).cr
      have h2 := (showNat_isWord d.dimY).cr
      simp [h1, h2]
  · exact bind_wellFormed _ _ _ (literal_isWord _ (by decide) (by decide)) (by decide) (Or.inr rfl) (inputName_word _)
  · exact bind_wellFormed _ _ _ (literal_isWord _ (by decide) (by decide)) (by decide) (Or.inl rfl) (outputName_word _)

theorem textHeader_lines (d : Data) :
    "#DIM ".toList ++ showNat d.dimX ++ " ".toList ++ showNat d.dimY ++ "\n".toList ++
    "#PARAM_IN  ".toList ++ (inputName d.input).toList ++ "\n".toList ++
    "#PARAM_OUT ".toList ++ (outputName d.output).toList ++ "\n".toList = headerText (textLines d) := by
  have e1 : "#DIM ".toList = '#' :: ("DIM".toList ++ [' ']) := by decide
  have e2 : "#PARAM_IN  ".toList = '#' :: ("PARAM_IN".toList ++ [' ', ' ']) := by decide
  have e3 : "#PARAM_OUT ".toList = '#' :: ("PARAM_OUT".toList ++ [' ']) := by decide
  have e4 : "\n".toList = ['\n'] := by decide
  have e5 : " ".toList = [' '] := by decide
  rw [e1, e2, e3, e4, e5]
  simp only [textLines, headerText, HLine.text]
  generalize "DIM".toList = a
  generalize "PARAM_IN".toList = b
  generalize "PARAM_OUT".toList = c
  simp only [List.append_assoc, List.cons_append, List.nil_append, List.append_nil, Bool.false_eq_true, if_false]

/-- the numbers of a saved row, as read -/
def savedRow (fmt : ℝ → Decimal) : List ℝ → TextRow
  | [] => ⟨[], []⟩
  | x :: r => ⟨([], fmt x) :: r.map fun v => (['\t'], fmt v), ['\t']⟩

theorem saveRow_tail (fmt : ℝ → Decimal) (r : List ℝ) :
    '\t' :: saveRow fmt r = fieldsText (r.map fun v => (['\t'], fmt v)) ++ ['\t', '\n'] := by
  induction r with
  | nil => rfl
  | cons v r ih =>
    rw [saveRow, ih, List.map_cons, fieldsText]
    simp [List.append_assoc]

theorem saveRow_text (fmt : ℝ → Decimal) (x : ℝ) (r : List ℝ) :
    saveRow fmt (x :: r) = (savedRow fmt (x :: r)).text ++ ['\n'] := by
  rw [saveRow, saveRow_tail]
  simp [savedRow, TextRow.text, fieldsText, List.append_assoc]

theorem savedRow_tail_ok (fmt : ℝ → Decimal) (hf : ∀ v, (fmt v).ip ≠ [] ∨ (fmt v).fp ≠ []) (r : List ℝ) :
    FieldsOk (r.map fun v => (['\t'], fmt v)) ∧ ∀ f ∈ (r.map fun v => ((['\t'] : Str), fmt v)).head?, f.1 ≠ [] := by
  induction r with
  | nil => exact ⟨trivial, by simp⟩
  | cons v r ih =>
    refine ⟨⟨?_, hf v, ih.2, ih.1⟩, by simp⟩
    simp only [Blank]; decide

theorem savedRow_wellFormed (fmt : ℝ → Decimal) (hf : ∀ v, (fmt v).ip ≠ [] ∨ (fmt v).fp ≠ []) (x : ℝ) (r : List ℝ) :
    (savedRow fmt (x :: r)).WellFormed := by
  have h := savedRow_tail_ok fmt hf r
  refine ⟨by simp [savedRow], ⟨by simp [Blank], hf x, h.2, h.1⟩, ?_⟩
  simp only [savedRow, Blank]; decide

theorem savedRow_values (fmt : ℝ → Decimal) (l : List ℝ) :
    (savedRow fmt l).values = l.map fun v => ((fmt v).value : ℝ) := by
  cases l with
  | nil => rfl
  | cons x r => simp [savedRow, TextRow.values]

theorem savedRow_length (fmt : ℝ → Decimal) (l : List ℝ) : (savedRow fmt l).fields.length = l.length := by
  cases l <;> simp [savedRow]

/-- the body of a text file -/
theorem saved_body (fmt : ℝ → Decimal) (rows : List (List ℝ)) (h : ∀ r ∈ rows, r ≠ []) :
    (rows.map (saveRow fmt)).flatten = bodyText (rows.map fun r => .row (savedRow fmt r)) := by
  induction rows with
  | nil => rfl
  | cons a rows ih =>
    rw [List.map_cons, List.flatten_cons, ih (fun r hr => h r (by simp [hr])), List.map_cons, bodyText]
    cases a with
    | nil => exact absurd rfl (h [] (by simp))
    | cons x r => rw [saveRow_text]; simp [BodyLine.text]

theorem bodyRows_rows (l : List TextRow) : bodyRows (l.map .row) = l := by
  induction l with
  | nil => rfl
  | cons a l ih => simp [bodyRows, ih]

theorem getVec_default (m : SMap) (k : Str) (n : ℕ) (d : ℚ) (h : m.isDefined k = false) :
    m.getVec k n d = List.replicate n d := by
  have : m.find k = Option.none := by simpa [SMap.isDefined] using h
  simp [SMap.getVec, SMap.getFloat, this]

theorem forall₂_replicate_left (a : ℝ) (n : ℕ) (l : List ℝ) (hl : l.length = n) (h : ∀ v ∈ l, a ≤ v) :
    List.Forall₂ (· ≤ ·) (List.replicate n a) l := by
  subst hl
  induction l with
  | nil => exact .nil
  | cons v l ih => exact .cons (h v (by simp)) (ih fun w hw => h w (by simp [hw]))

theorem forall₂_replicate_right (a : ℝ) (n : ℕ) (l : List ℝ) (hl : l.length = n) (h : ∀ v ∈ l, v ≤ a) :
    List.Forall₂ (· ≤ ·) l (List.replicate n a) := by
  subst hl
  induction l with
  | nil => exact .nil
  | cons v l ih => exact .cons (h v (by simp)) (ih fun w hw => h w (by simp [hw]))

theorem inside_fltMax (n : ℕ) (l : List ℝ) (hl : l.length = n) (h : ∀ v ∈ l, |v| ≤ ((fltMax : ℚ) : ℝ)) :
    Inside (List.replicate n (((-fltMax : ℚ)) : ℝ)) l (List.replicate n ((fltMax : ℚ) : ℝ)) := by
  constructor
  · apply forall₂_replicate_left _ _ _ hl
    intro v hv
    have := neg_le_of_abs_le (h v hv)
    push_cast; linarith
  · apply forall₂_replicate_right _ _ _ hl
    intro v hv
    exact le_of_abs_le (h v hv)

/-- The options that filter or modify the rows are not given. -/
structure PlainArgs (args : SMap) : Prop where
  min : args.isDefined "min".toList = false
  max : args.isDefined "max".toList = false
  ymin : args.isDefined "ymin".toList = false
  ymax : args.isDefined "ymax".toList = false
  dt : args.isDefined "dt".toList = false
  relative : args.isDefined "dt-relative".toList = false
  dtMax : args.isDefined "dt-max".toList = false
  positive : args.isDefined "dt-positive".toList = false
  cosine : args.isDefined "data-correct-cosine".toList = false

/-- the setup read from the header of a saved file -/
theorem saved_setup (d : Data) (m args : SMap) (hargs : PlainArgs args)
    (hf : ∀ k, m.find k = lastBinding k (textLines d))
    (hin : d.input.Named ∨ d.input = .UNKNOWN_INPUT) :
    loadSetup m args = some
      { dimX := d.dimX, dimY := d.dimY, input := d.input, output := d.output
        min := List.replicate d.dimX (((-fltMax : ℚ)) : ℝ), max := List.replicate d.dimX ((fltMax : ℚ) : ℝ)
        ymin := List.replicate d.dimY (((-fltMax : ℚ)) : ℝ), ymax := List.replicate d.dimY ((fltMax : ℚ) : ℝ)
        kind := .none, dt := some (1 / 10), opt := ⟨false, false, false⟩, cosine := false } := by
  have f1 : m.find "DIM".toList = some (showNat d.dimX ++ ' ' :: showNat d.dimY) := by
    rw [hf]; exact lastBinding_at _ _ _ _ _ 0 rfl (by simp only [textLines, List.drop, List.filterMap, HLine.key?]; decide)
  have f2 : m.find "PARAM_IN".toList = some (inputName d.input).toList := by
    rw [hf]; exact lastBinding_at _ _ _ _ _ 1 rfl (by simp only [textLines, List.drop, List.filterMap, HLine.key?]; decide)
  have f3 : m.find "PARAM_OUT".toList = some (outputName d.output).toList := by
    rw [hf]; exact lastBinding_at _ _ _ _ _ 2 rfl (by simp only [textLines, List.drop, List.filterMap, HLine.key?]; decide)
  have f4 : m.find "VS".toList = Option.none := by
    rw [hf]; exact lastBinding_absent _ _ (by simp only [textLines, List.filterMap, HLine.key?]; decide)
  have gPair := getPairInt_dim m _ _ f1
  have gVs : m.getInt "VS".toList 0 = 0 := by unfold SMap.getInt; rw [f4]
  have gIn : parseInput (String.ofList (m.getString "PARAM_IN".toList "UNKNOWN_INPUT".toList)) = d.input := by
    unfold SMap.getString; rw [f2]; simp only [String.ofList_toList]; exact parseInput_saved _ hin
  have gOut : parseOutput (String.ofList (m.getString "PARAM_OUT".toList "UNKNOWN_OUTPUT".toList)) = d.output := by
    unfold SMap.getString; rw [f3]; simp only [String.ofList_toList]; exact parseOutput_outputName _
  have gdt : args.getDouble "dt".toList (1 / 10) = some (1 / 10) := (get_default args _ hargs.dt [] 0 _).2.2.2.1
  unfold loadSetup
  rw [gPair]
  simp only
  rw [if_neg (by omega), gIn, gOut, gVs, gdt, hargs.relative, hargs.dtMax, hargs.positive, hargs.cosine,
    getVec_default _ _ _ _ hargs.min, getVec_default _ _ _ _ hargs.max, getVec_default _ _ _ _ hargs.ymin,
    getVec_default _ _ _ _ hargs.ymax]
  simp only [Int.toNat_natCast, List.map_replicate]
  rfl

theorem rowInterval_plain (c : LoadSetup) (dt : ℝ) (r : TextRow) (i : ℕ) (v : ℝ) (hk : c.kind = .none)
    (ho : c.opt = ⟨false, false, false⟩) : rowInterval c dt r i v = (v - dt, v + dt) := by
  have hw : rowWidths c dt r i = (dt, dt) := by unfold rowWidths; cases i <;> simp [hk]
  unfold rowInterval
  rw [hw, ho]
  simp [CIOptions.mode, intervalBounds]

theorem rowLower_plain (c : LoadSetup) (dt : ℝ) (r : TextRow) (hk : c.kind = .none)
    (ho : c.opt = ⟨false, false, false⟩) : rowLower c dt r = (rawY c r).map (· - dt) := by
  unfold rowLower
  simp only [rowInterval_plain c dt r _ _ hk ho]
  apply List.ext_getElem <;> simp

theorem rowUpper_plain (c : LoadSetup) (dt : ℝ) (r : TextRow) (hk : c.kind = .none)
    (ho : c.opt = ⟨false, false, false⟩) : rowUpper c dt r = (rawY c r).map (· + dt) := by
  unfold rowUpper
  simp only [rowInterval_plain c dt r _ _ hk ho]
  apply List.ext_getElem <;> simp

/-- C51: a data set saved as text and loaded again, without filtering options, has the
    same dimensions, parametrizations and number of samples, and each sample holds the
    numbers as they were written, in the same order; its interval is ± 0.1. -/
theorem text_round_trip (fmt : ℝ → Decimal) (hfmt : ∀ v, (fmt v).ip ≠ [] ∨ (fmt v).fp ≠ [])
    (d : Data) (hdim : 0 < d.dimX + d.dimY) (hrows : ∀ r ∈ d.rows, r.length = d.dimX + d.dimY)
    (hfin : ∀ r ∈ d.rows, ∀ v ∈ r, |((fmt v).value : ℝ)| ≤ ((fltMax : ℚ) : ℝ))
    (hin : d.input.Named ∨ d.input = .UNKNOWN_INPUT) (args : SMap) (hargs : PlainArgs args) :
    ∃ l, loadDataText (saveText fmt d) args = some l ∧ l.store.WF ∧
      l.store.dimX = d.dimX ∧ l.store.dimY = d.dimY ∧ l.store.input = d.input ∧ l.store.output = d.output ∧
      l.store.size = d.rows.length ∧
      ∀ i r, d.rows[i]? = some r → l.store.get i = some (r.map fun v => ((fmt v).value : ℝ)) ∧
        l.store.getSegment i = some ((r.take d.dimX).map (fun v => ((fmt v).value : ℝ)),
          (r.drop d.dimX).map (fun v => ((fmt v).value : ℝ) - 1 / 10),
          (r.drop d.dimX).map (fun v => ((fmt v).value : ℝ) + 1 / 10)) := by
  have hne : ∀ r ∈ d.rows, r ≠ [] := by
    intro r hr h; have := hrows r hr; rw [h] at this; simp at this; omega
  have htake : (d.rows.map fun r => saveRow fmt (r.take (d.dimX + d.dimY))) = d.rows.map (saveRow fmt) :=
    List.map_congr_left fun r hr => by rw [List.take_of_length_le (by rw [hrows r hr])]
  set ls : List BodyLine := (d.rows.map (savedRow fmt)).map .row with hls
  have hbody : (d.rows.map (saveRow fmt)).flatten = bodyText ls := by
    rw [saved_body fmt _ hne, hls, List.map_map]; rfl
  have hfile : saveText fmt d = headerText (textLines d) ++ bodyText ls := by
    unfold saveText; rw [htake, hbody, textHeader_lines]
  have hlw : ∀ l ∈ ls, l.WellFormed := by
    intro l hl
    rw [hls] at hl
    obtain ⟨r', hr', rfl⟩ := List.mem_map.1 hl
    obtain ⟨r, hr, rfl⟩ := List.mem_map.1 hr'
    cases r with
    | nil => exact absurd rfl (hne [] hr)
    | cons x r => exact savedRow_wellFormed fmt hfmt x r
  have hrest : ∀ r, bodyText ls ≠ '#' :: r := by
    intro r h
    rw [hls] at h
    cases hd : d.rows with
    | nil => rw [hd] at h; simp [bodyText] at h
    | cons a rows =>
      rw [hd] at h hne
      cases a with
      | nil => exact absurd rfl (hne [] (by simp))
      | cons x t =>
        have ht := (savedRow fmt (x :: t)).text_head (savedRow_wellFormed fmt hfmt x t)
        simp only [List.map_cons, bodyText, BodyLine.text] at h
        cases hc : (savedRow fmt (x :: t)).text with
        | nil => exact ht.1 hc
        | cons a u =>
          rw [hc] at h ht
          simp only [List.cons_append, List.cons.injEq] at h
          exact ht.2 (by rw [h.1]; rfl)
  obtain ⟨h1, h2, -⟩ := parseHeader_spec (textLines d) (textLines_wellFormed d) (bodyText ls) hrest
  rw [← hfile] at h1 h2
  have hsetup := saved_setup d _ args hargs h2 hin
  have hfmtkey : (parseHeader (saveText fmt d)).1.get "FORMAT".toList ≠ "binary".toList := by
    have : (parseHeader (saveText fmt d)).1.find "FORMAT".toList = Option.none := by
      rw [h2]; exact lastBinding_absent _ _ (by simp only [textLines, List.filterMap, HLine.key?]; decide)
    unfold SMap.get; rw [this]; decide
  have hbr : bodyRows ls = d.rows.map (savedRow fmt) := by rw [hls, bodyRows_rows]
  obtain ⟨l, kept, e1, e2, e3, e4, e5, e6, e7, e8, -, e10⟩ := loadText_spec _ args _ hsetup hdim (1 / 10) rfl ls hlw
    (by
      intro r hr
      rw [hbr] at hr
      obtain ⟨r', hr', rfl⟩ := List.mem_map.1 hr
      rw [savedRow_length, hrows r' hr']; simp [ciNumbers])
    (by intro h; cases h)
  have hkept : kept = d.rows.map (savedRow fmt) := by
    rw [e2, hbr, List.filter_eq_self]
    intro r hr
    obtain ⟨r', hr', rfl⟩ := List.mem_map.1 hr
    rw [@decide_eq_true_iff _ (Classical.propDecidable _)]
    have hl' := hrows r' hr'
    refine ⟨⟨?_, ?_⟩, by intro h; cases h⟩
    · apply inside_fltMax
      · simp [rowX, savedRow_values, hl']
      · intro v hv
        simp only [rowX, savedRow_values] at hv
        obtain ⟨u, hu, rfl⟩ := List.mem_map.1 (List.mem_of_mem_take hv)
        exact hfin r' hr' u hu
    · apply inside_fltMax
      · simp [rowY, rawY, savedRow_values, hl']
      · intro v hv
        simp only [rowY, rawY, savedRow_values, Bool.false_eq_true, if_false] at hv
        obtain ⟨u, hu, rfl⟩ := List.mem_map.1 (List.mem_of_mem_drop (List.mem_of_mem_take hv))
        exact hfin r' hr' u hu
  refine ⟨l, ?_, e3, e5, e6, e7, e8, by rw [e4, hkept]; simp, ?_⟩
  · unfold loadDataText
    simp only
    rw [if_neg hfmtkey, h1]; exact e1
  · intro i r hi
    have hr : r ∈ d.rows := List.mem_of_getElem? hi
    have hl' := hrows r hr
    obtain ⟨g1, g2⟩ := e10 i (savedRow fmt r) (by rw [hkept, List.getElem?_map, hi]; rfl)
    rw [g1, g2]
    have hdrop : ((r.map fun v => ((fmt v).value : ℝ)).drop d.dimX).take d.dimY
        = (r.drop d.dimX).map fun v => ((fmt v).value : ℝ) := by
      rw [← List.map_drop, List.take_of_length_le (by simp [hl'])]
    constructor
    · simp only [rowX, rowValue, rowY, rawY, savedRow_values, Bool.false_eq_true, if_false, hdrop]
      rw [← List.map_take, ← List.map_append, List.take_append_drop]
    · rw [rowLower_plain _ _ _ rfl rfl, rowUpper_plain _ _ _ rfl rfl]
      simp only [rowX, rawY, savedRow_values, hdrop, List.map_take, List.map_map]
      push_cast
      rfl

/-- C51: hence, when numbers are written with an error of at most `eps`, the loaded
    data set is equal to the saved one up to `eps`. -/
theorem text_round_trip_equals (fmt : ℝ → Decimal) (hfmt : ∀ v, (fmt v).ip ≠ [] ∨ (fmt v).fp ≠ [])
    (d : Data) (hdim : 0 < d.dimX + d.dimY) (hrows : ∀ r ∈ d.rows, r.length = d.dimX + d.dimY)
    (hfin : ∀ r ∈ d.rows, ∀ v ∈ r, |((fmt v).value : ℝ)| ≤ ((fltMax : ℚ) : ℝ))
    (hin : d.input.Named ∨ d.input = .UNKNOWN_INPUT) (args : SMap) (hargs : PlainArgs args)
    (eps : ℝ) (heps : ∀ r ∈ d.rows, ∀ v ∈ r, |v - ((fmt v).value : ℝ)| ≤ eps) :
    ∃ l, loadDataText (saveText fmt d) args = some l ∧ d.equals l.store.toData eps = true := by
  obtain ⟨l, h1, -, h3, h4, h5, h6, h7, h8⟩ := text_round_trip fmt hfmt d hdim hrows hfin hin args hargs
  refine ⟨l, h1, ?_⟩
  rw [equals_iff]
  refine ⟨h3.symm, h4.symm, h5.symm, h6.symm, ?_⟩
  rw [List.forall₂_iff_get]
  refine ⟨by simp [Store.toData, h7], ?_⟩
  intro i a1 a2
  have hi : d.rows[i]? = some d.rows[i] := List.getElem?_eq_getElem a1
  have := (h8 i _ hi).1
  simp only [List.get_eq_getElem, Store.toData, List.getElem_map, List.getElem_range, this, Option.getD_some]
  rw [List.forall₂_map_right_iff]
  exact List.forall₂_same.2 fun v hv => heps _ (List.getElem_mem _) v hv

/-- one sample, written exactly -/
example : ∃ (fmt : ℝ → Decimal) (d : Data), (∀ v, (fmt v).ip ≠ [] ∨ (fmt v).fp ≠ []) ∧ 0 < d.dimX + d.dimY ∧
    d.rows.length = 1 ∧ (∀ r ∈ d.rows, r.length = d.dimX + d.dimY) ∧
    (∀ r ∈ d.rows, ∀ v ∈ r, |((fmt v).value : ℝ)| ≤ ((fltMax : ℚ) : ℝ)) ∧ d.input.Named ∧ PlainArgs [] ∧
    (∀ r ∈ d.rows, ∀ v ∈ r, |v - ((fmt v).value : ℝ)| ≤ 0) := by
  classical
  have hf : (3 : ℝ) ≤ ((fltMax : ℚ) : ℝ) := by
    have : (3 : ℚ) ≤ fltMax := by unfold fltMax; norm_num
    exact_mod_cast this
  let half : Decimal := ⟨false, [0], [5], .none⟩
  let two : Decimal := ⟨false, [2], [], .none⟩
  have e1 : ((half.value : ℚ) : ℝ) = 1 / 2 := by simp [half, Decimal.value, digitsNum]; norm_num
  have e2 : ((two.value : ℚ) : ℝ) = 2 := by simp [two, Decimal.value, digitsNum]
  refine ⟨fun v => if v = 1 / 2 then half else two,
    { dimX := 1, dimY := 1, input := .COS_TH, output := .ENERGY, rows := [[1 / 2, 2]] }, ?_, by decide, rfl, by simp,
    ?_, by decide, ⟨rfl, rfl, rfl, rfl, rfl, rfl, rfl, rfl, rfl⟩, ?_⟩
  · intro v; left; dsimp only; split <;> simp [half, two]
  · intro r hr v hv
    simp only [List.mem_cons, List.not_mem_nil, or_false] at hr
    subst hr
    simp only [List.mem_cons, List.not_mem_nil, or_false] at hv
    rcases hv with rfl | rfl <;> dsimp only
    · rw [if_pos rfl, e1, abs_of_pos (by norm_num)]; linarith
    · rw [if_neg (by norm_num), e2, abs_of_pos (by norm_num)]; linarith
  · intro r hr v hv
    simp only [List.mem_cons, List.not_mem_nil, or_false] at hr
    subst hr
    simp only [List.mem_cons, List.not_mem_nil, or_false] at hv
    rcases hv with rfl | rfl <;> dsimp only
    · rw [if_pos rfl, e1]; norm_num
    · rw [if_neg (by norm_num), e2]; norm_num

end Alta
