import Verif.Proofs.Interrupted
import Verif.Model.Data2Stats
/-
Property C92: a data file whose writing was interrupted, after any number of bytes.  The commands load it with
`loadDataStream` (`plugins_manager::load_data`).
-/
namespace Alta
noncomputable section

/-- Nothing follows the header: the data set has no sample, if there is one. -/
theorem loadDataStream_no_body (val : Dbl → ℝ) (dir : Str) (env : Option Str)
    (fs : Str → Option (Symbols (Str → SMap → Option DataObj))) (type : Str)
    (ht : type = [] ∨ type = "vertical_segment".toList) (file : Str) (args : SMap) (h : (parseHeader file).2 = []) :
    loadDataStream val dir env fs type file args = none ∨
      ∃ e : Data, loadDataStream val dir env fs type file args = some (some (.ofData e)) ∧ e.rows = [] := by
  unfold loadDataStream
  rw [if_pos ht]
  simp only [h]
  split
  · unfold loadBinary
    split
    · exact .inl rfl
    split
    · exact .inl rfl
    split
    · exact .inl rfl
    split
    · exact .inl rfl
    split
    · exact .inl rfl
    rename_i dx dy _
    split
    · exact .inl rfl
    rename_i h0
    rw [not_or] at h0
    simp only
    split
    · exact .inl rfl
    generalize kindFromNumber ((parseHeader file).1.getInt "VS".toList 0) = kd
    have key : ∀ (rows : ℕ) (g : Store Dbl), 0 < rows →
        g.size = ((parseHeader file).1.getInt "SAMPLE_COUNT".toList 0).toNat →
        Option.map (fun s => some (DataObj.ofData (Store.reals val s).toData))
          (if ([] : Str).length < 8 * (((parseHeader file).1.getInt "SAMPLE_COUNT".toList 0).toNat * rows) then
            (none : Option (Store Dbl)) else some g) = none ∨
        ∃ e : Data, Option.map (fun s => some (DataObj.ofData (Store.reals val s).toData))
          (if ([] : Str).length < 8 * (((parseHeader file).1.getInt "SAMPLE_COUNT".toList 0).toNat * rows) then
            (none : Option (Store Dbl)) else some g) = some (some (.ofData e)) ∧ e.rows = [] := by
      intro rows g hr hg
      split
      · exact .inl rfl
      · rename_i hn
        refine .inr ⟨_, rfl, ?_⟩
        simp only [List.length_nil, not_lt, Nat.le_zero, Nat.mul_eq_zero, OfNat.ofNat_ne_zero, false_or] at hn
        have hz : g.size = 0 := by rw [hg]; omega
        simp only [Store.toData, Store.reals, hz, List.range_zero, List.map_nil]
    cases kd <;> exact key _ _ (by omega) rfl
  · unfold loadText
    split
    · exact .inl rfl
    rw [loadRows_nil]
    simp only
    split
    · exact .inl rfl
    · exact .inr ⟨_, rfl, rfl⟩

/-- What the loader of the text files gives is what the commands see. -/
theorem loadDataStream_text (val : Dbl → ℝ) (dir : Str) (env : Option Str)
    (fs : Str → Option (Symbols (Str → SMap → Option DataObj))) (type : Str)
    (ht : type = [] ∨ type = "vertical_segment".toList) (file : Str) (args : SMap) (l : Segments)
    (h : loadDataText file args = some l) :
    loadDataStream val dir env fs type file args = some (some (.ofData l.store.toData)) := by
  unfold loadDataText at h
  unfold loadDataStream
  rw [if_pos ht]
  simp only at h ⊢
  split at h
  · cases h
  · rename_i hf
    rw [if_neg hf, h]; rfl

/-- and of the binary files -/
theorem loadDataStream_binary (val : Dbl → ℝ) (dir : Str) (env : Option Str)
    (fs : Str → Option (Symbols (Str → SMap → Option DataObj))) (type : Str)
    (ht : type = [] ∨ type = "vertical_segment".toList) (file : Str) (args : SMap)
    (hf : (parseHeader file).1.get "FORMAT".toList = "binary".toList) :
    loadDataStream val dir env fs type file args =
      (loadDataBinary file).map fun s => some (.ofData (s.reals val).toData) := by
  unfold loadDataStream loadDataBinary
  rw [if_pos ht]
  simp only
  rw [if_pos hf, if_pos hf]

/-! ### Binary files -/

/-- C92, binary files: when the writing of a binary file was interrupted, whatever the number of bytes that were
    written, loading it ends the program, or gives all the samples, or gives a data set without any sample. -/
theorem interrupted_binary_partial (val : Dbl → ℝ) (dir : Str) (env : Option Str)
    (fs : Str → Option (Symbols (Str → SMap → Option DataObj))) (type : Str)
    (ht : type = [] ∨ type = "vertical_segment".toList) (args : SMap)
    (s : Store Dbl) (hs : s.WF) (hX : 0 < s.dimX) (hY : 0 < s.dimY)
    (hin : s.input.Named ∨ s.input = .UNKNOWN_INPUT)
    (hfirst : ∀ d r, s.raw = d :: r → d.toNat % 256 ≠ '#'.toNat) :
    ∃ file, saveBinary s.toAny = some file ∧ ∀ n,
      loadDataStream val dir env fs type (file.take n) args = none ∨
      loadDataStream val dir env fs type (file.take n) args = some (some (.ofData (s.reals val).toData)) ∨
      ∃ e : Data, loadDataStream val dir env fs type (file.take n) args = some (some (.ofData e)) ∧ e.rows = [] := by
  obtain ⟨tail, htail, hfile⟩ : ∃ tail, tail = "\n#END_STREAM\n".toList ∧
      saveBinary s.toAny = some (binaryHeader s.toAny s.kind ++ (arrayBytes s.raw ++ tail)) := by
    have hseg : s.toAny.segments = some s := rfl
    refine ⟨_, rfl, ?_⟩
    cases hk : s.kind with
    | none =>
      obtain ⟨h1, h2⟩ := flatten_get s hs hk
      have hall : ((List.range s.toAny.size).map s.toAny.get).all
          (fun v => v.length = s.toAny.dimX + s.toAny.dimY) = true := by
        rw [List.all_eq_true]
        intro v hv
        exact decide_eq_true (h1 v hv)
      have hflat : ((List.range s.toAny.size).map s.toAny.get).flatten = s.raw := h2
      unfold saveBinary
      simp only [hseg, hk]
      rw [if_pos hall, hflat, List.append_assoc]
    | symmetrical =>
      unfold saveBinary
      simp only [hseg, hk]
      rw [List.take_of_length_le (by rw [hs]), List.append_assoc]
    | asymmetrical =>
      unfold saveBinary
      simp only [hseg, hk]
      rw [List.take_of_length_le (by rw [hs]), List.append_assoc]
  refine ⟨_, hfile, fun n => ?_⟩
  rcases Nat.lt_or_ge n (binaryHeader s.toAny s.kind).length with hn | hn
  · rw [List.take_append_of_le_length hn.le]
    have h0 : (parseHeader ((binaryHeader s.toAny s.kind).take n)).2 = [] := by
      rw [binaryHeader_lines]
      exact parseHeader_cut _ (binaryLines_wellFormed _ _) n
    rcases loadDataStream_no_body val dir env fs type ht _ args h0 with h | h
    · exact .inl h
    · exact .inr (.inr h)
  · obtain ⟨k, rfl⟩ := Nat.exists_eq_add_of_le hn
    rw [List.take_length_add_append]
    have hrest : ∀ r, (arrayBytes s.raw ++ tail).take k ≠ '#' :: r := by
      intro r hr
      apply arrayBytes_tail_head s.raw hfirst (r ++ (arrayBytes s.raw ++ tail).drop k)
      rw [← htail]
      conv_lhs => rw [← List.take_append_drop k (arrayBytes s.raw ++ tail), hr]
      rfl
    have e : binaryHeader s.toAny s.kind ++ (arrayBytes s.raw ++ tail).take k =
        binaryHeader s.toAny s.kind ++ (headerText [] ++ (arrayBytes s.raw ++ tail).take k) := by
      rw [headerText, List.nil_append]
    obtain ⟨m, p1, p2⟩ := parse_saved s.toAny s.kind [] (by simp) _ hrest
    have gFmt : m.get "FORMAT".toList = "binary".toList := by
      unfold SMap.get; rw [(saved_find _ _ m p2).fmt]; rfl
    rw [e, loadDataStream_binary val dir env fs type ht _ args (by rw [p1]; exact gFmt),
      load_after_header s.toAny s.kind [] (by simp) _ hrest hX hY hin]
    have hcount : s.toAny.size * (s.toAny.dimX + s.toAny.dimY + ciColumns s.kind s.toAny.dimY) = s.raw.length := hs.symm
    rw [hcount]
    split
    · exact .inl rfl
    · rename_i hlen
      right; left
      have hk : 8 * s.raw.length ≤ k := by
        rw [List.length_take] at hlen; omega
      have hb : bytesArray s.raw.length ((arrayBytes s.raw ++ tail).take k) = s.raw := by
        obtain ⟨j, rfl⟩ := Nat.exists_eq_add_of_le hk
        rw [← arrayBytes_length, List.take_length_add_append, bytesArray_arrayBytes]
      rw [hb]
      rfl

/-- C92, binary files: samples are missing without an error, when the writing was interrupted just after the lines that
    give the dimensions: the file is read as a text file. -/
theorem interrupted_binary_corrupts (val : Dbl → ℝ) (dir : Str) (env : Option Str)
    (fs : Str → Option (Symbols (Str → SMap → Option DataObj))) :
    ∃ (s : Store Dbl) (file : Str) (n : ℕ) (e : Data), s.WF ∧ 0 < s.dimX ∧ 0 < s.dimY ∧ s.input.Named ∧ s.size = 1 ∧
      saveBinary s.toAny = some file ∧ n < file.length ∧
      loadDataStream val dir env fs [] (file.take n) [] = some (some (.ofData e)) ∧ e.rows = [] := by
  let s : Store Dbl := { dimX := 1, dimY := 1, input := .COS_TH, output := .ENERGY, size := 1,
                         raw := [0x3FF0000000000000, 0x3FF0000000000000], kind := .none }
  let file : Str := binaryHeader s.toAny .none ++ arrayBytes s.raw ++ "\n#END_STREAM\n".toList
  have hsave : saveBinary s.toAny = some file := by
    unfold saveBinary
    have hseg : s.toAny.segments = some s := rfl
    simp only [hseg]
    rw [if_pos (by decide +kernel)]
    rfl
  have htake : file.take 9 = "#DIM 1 1\n".toList := by decide +kernel
  have hp : parseHeader (file.take 9) = ([("DIM".toList, "1 1".toList)], []) := by rw [htake]; decide +kernel
  have hset : ∃ c, loadSetup [("DIM".toList, "1 1".toList)] [] = some c ∧ c.dimX = 1 := by
    unfold loadSetup
    rw [show SMap.getPairInt [("DIM".toList, "1 1".toList)] "DIM".toList = some (1, 1) by decide +kernel]
    simp only
    rw [if_neg (by decide)]
    exact ⟨_, rfl, rfl⟩
  obtain ⟨c, hc, hx⟩ := hset
  have hl : ∃ d : Segments, loadText [] [("DIM".toList, "1 1".toList)] [] = some d ∧ d.store.toData.rows = [] := by
    unfold loadText
    rw [hc]
    simp only
    rw [loadRows_nil]
    simp only
    rw [if_neg (by omega)]
    exact ⟨_, rfl, rfl⟩
  obtain ⟨d, hd, hr⟩ := hl
  refine ⟨s, file, 9, d.store.toData, rfl, by decide, by decide, by decide, rfl, hsave, by decide +kernel, ?_, hr⟩
  unfold loadDataStream
  rw [if_pos (.inl rfl), hp]
  simp only
  rw [if_neg (by decide +kernel), hd]
  rfl

/-! ### Text files -/

/-- C92, text files: when the writing was interrupted before the end of the header, loading the file ends the program or
    gives a data set without any sample. -/
theorem interrupted_text_header (val : Dbl → ℝ) (dir : Str) (env : Option Str)
    (fs : Str → Option (Symbols (Str → SMap → Option DataObj))) (type : Str)
    (ht : type = [] ∨ type = "vertical_segment".toList) (args : SMap) (fmt : ℝ → Decimal) (d : Data) (n : ℕ)
    (hn : n ≤ (saveText fmt { d with rows := [] }).length) :
    loadDataStream val dir env fs type ((saveText fmt d).take n) args = none ∨
      ∃ e : Data, loadDataStream val dir env fs type ((saveText fmt d).take n) args = some (some (.ofData e)) ∧
        e.rows = [] := by
  apply loadDataStream_no_body val dir env fs type ht
  have e0 : saveText fmt { d with rows := [] } = headerText (textLines d) := by
    unfold saveText
    rw [List.map_nil, List.flatten_nil, List.append_nil, ← textHeader_lines]
  have e1 : saveText fmt d = headerText (textLines d) ++
      (d.rows.map fun r => saveRow fmt (r.take (d.dimX + d.dimY))).flatten := by
    unfold saveText
    rw [← textHeader_lines]
  rw [e0] at hn
  rw [e1, List.take_append_of_le_length hn]
  exact parseHeader_cut _ (textLines_wellFormed d) n

/-- The loaded samples are the printed ones. -/
theorem text_rows (fmt : ℝ → Decimal) (rows : List (List ℝ)) (l : Segments) (hsize : l.store.size = rows.length)
    (hget : ∀ i r, rows[i]? = some r → l.store.get i = some (r.map fun v => ((fmt v).value : ℝ))) :
    l.store.toData.rows = rows.map fun r => r.map fun v => ((fmt v).value : ℝ) := by
  apply List.ext_getElem
  · simp [Store.toData, hsize]
  · intro i h1 h2
    have hi : i < rows.length := by simpa using h2
    have := hget i rows[i] (List.getElem?_eq_getElem hi)
    simp [Store.toData, this]

/-- A text file is its header and its rows. -/
theorem saveText_rows (fmt : ℝ → Decimal) (d : Data) : saveText fmt d = headerText (textLines d) ++
    (d.rows.map fun r => saveRow fmt (r.take (d.dimX + d.dimY))).flatten := by
  unfold saveText
  rw [← textHeader_lines]

/-- C92, text files: when exactly `k` samples were written, the file is loaded without an error, and the data set has
    these `k` samples. -/
theorem interrupted_text_between (val : Dbl → ℝ) (dir : Str) (env : Option Str)
    (fs : Str → Option (Symbols (Str → SMap → Option DataObj))) (type : Str)
    (ht : type = [] ∨ type = "vertical_segment".toList)
    (fmt : ℝ → Decimal) (hfmt : ∀ v, (fmt v).ip ≠ [] ∨ (fmt v).fp ≠ [])
    (d : Data) (hdim : 0 < d.dimX + d.dimY) (hrows : ∀ r ∈ d.rows, r.length = d.dimX + d.dimY)
    (hfin : ∀ r ∈ d.rows, ∀ v ∈ r, |((fmt v).value : ℝ)| ≤ ((fltMax : ℚ) : ℝ))
    (hin : d.input.Named ∨ d.input = .UNKNOWN_INPUT) (args : SMap) (hargs : PlainArgs args) (k : ℕ) :
    ∃ e : Data, loadDataStream val dir env fs type
        ((saveText fmt d).take (saveText fmt { d with rows := d.rows.take k }).length) args = some (some (.ofData e)) ∧
      e.dimX = d.dimX ∧ e.dimY = d.dimY ∧ e.input = d.input ∧ e.output = d.output ∧
      e.rows = (d.rows.take k).map fun r => r.map fun v => ((fmt v).value : ℝ) := by
  have hcut : (saveText fmt d).take (saveText fmt { d with rows := d.rows.take k }).length =
      saveText fmt { d with rows := d.rows.take k } := by
    have : ∃ u, saveText fmt d = saveText fmt { d with rows := d.rows.take k } ++ u := by
      refine ⟨((d.rows.drop k).map fun r => saveRow fmt (r.take (d.dimX + d.dimY))).flatten, ?_⟩
      rw [saveText_rows fmt d, saveText_rows fmt { d with rows := d.rows.take k }, List.append_assoc]
      simp only
      rw [← List.flatten_append, ← List.map_append, List.take_append_drop]
      rfl
    obtain ⟨u, hu⟩ := this
    rw [hu, List.take_left]
  rw [hcut]
  obtain ⟨l, h1, -, h3, h4, h5, h6, h7, h8⟩ := text_round_trip fmt hfmt { d with rows := d.rows.take k } hdim
    (fun r hr => hrows r (List.mem_of_mem_take hr)) (fun r hr => hfin r (List.mem_of_mem_take hr)) hin args hargs
  exact ⟨_, loadDataStream_text val dir env fs type ht _ args l h1, h3, h4, h5, h6,
    text_rows fmt _ l h7 fun i r hi => (h8 i r hi).1⟩

/-- More rows after the same ones. -/
theorem toData_rows_prefix (s : Store ℝ) (hs : s.WF) (raw u : List ℝ) (hraw : raw = s.raw ++ u) (n : ℕ)
    (hn : s.size ≤ n) : ({ s with raw := raw, size := n } : Store ℝ).toData.rows.take s.size = s.toData.rows := by
  apply List.ext_getElem
  · simp [Store.toData, hn]
  · intro i h1 h2
    have hi : i < s.size := by simpa [Store.toData] using h2
    have hin : i < n := by omega
    simp only [Store.toData, List.getElem_take, List.getElem_map, List.getElem_range, Store.get, if_pos hi, if_pos hin,
      Option.getD_some, hraw]
    have hcol : Store.columns { s with raw := s.raw ++ u, size := n } = s.columns := rfl
    have hlen : (i + 1) * s.columns ≤ s.raw.length := by
      rw [hs]; exact Nat.mul_le_mul_right _ hi
    have hle : s.dimX + s.dimY ≤ s.columns := by unfold Store.columns; omega
    rw [hcol, List.drop_append_of_le_length (by nlinarith), List.take_append_of_le_length]
    rw [List.length_drop]
    have : (i + 1) * s.columns = i * s.columns + s.columns := by ring
    omega

theorem saveRow_newline (fmt : ℝ → Decimal) (hfmt : ∀ v, (fmt v).ip ≠ [] ∨ (fmt v).fp ≠ []) (x : ℝ) (r : List ℝ) :
    ∃ t, saveRow fmt (x :: r) = t ++ ['\n'] ∧ '\n' ∉ t ∧ t.head? ≠ some '#' := by
  have hw := savedRow_wellFormed fmt hfmt x r
  refine ⟨_, saveRow_text fmt x r, ?_, ?_⟩
  · exact (BodyLine.row (savedRow fmt (x :: r))).noNewline hw
  · intro h
    exact ((savedRow fmt (x :: r)).text_head hw).2 h

/-- C92, text files: when the writing was interrupted inside the sample `k`, loading the file ends the program, or gives
    the `k` samples that were written before, in the same order, and at most one more. -/
theorem interrupted_text_partial (val : Dbl → ℝ) (dir : Str) (env : Option Str)
    (fs : Str → Option (Symbols (Str → SMap → Option DataObj))) (type : Str)
    (ht : type = [] ∨ type = "vertical_segment".toList)
    (fmt : ℝ → Decimal) (hfmt : ∀ v, (fmt v).ip ≠ [] ∨ (fmt v).fp ≠ [])
    (d : Data) (hdim : 0 < d.dimX + d.dimY) (hrows : ∀ r ∈ d.rows, r.length = d.dimX + d.dimY)
    (hfin : ∀ r ∈ d.rows, ∀ v ∈ r, |((fmt v).value : ℝ)| ≤ ((fltMax : ℚ) : ℝ))
    (hin : d.input.Named ∨ d.input = .UNKNOWN_INPUT) (args : SMap) (hargs : PlainArgs args) (k n : ℕ)
    (h1 : (saveText fmt { d with rows := d.rows.take k }).length ≤ n)
    (h2 : n < (saveText fmt { d with rows := d.rows.take (k + 1) }).length) :
    loadDataStream val dir env fs type ((saveText fmt d).take n) args = none ∨
      ∃ e : Data, loadDataStream val dir env fs type ((saveText fmt d).take n) args = some (some (.ofData e)) ∧
        e.dimX = d.dimX ∧ e.dimY = d.dimY ∧ e.input = d.input ∧ e.output = d.output ∧
        (e.rows.length = k ∨ e.rows.length = k + 1) ∧
        e.rows.take k = (d.rows.take k).map fun r => r.map fun v => ((fmt v).value : ℝ) := by
  -- the sample that was being written
  have hk : k < d.rows.length := by
    by_contra hk
    rw [List.take_of_length_le (by omega)] at h1 h2
    omega
  have hsucc : d.rows.take (k + 1) = d.rows.take k ++ [d.rows[k]] := by simp
  obtain ⟨x, r, hr⟩ : ∃ x r, d.rows[k] = x :: r := by
    have := hrows d.rows[k] (List.getElem_mem hk)
    cases hr : d.rows[k] with
    | nil => rw [hr] at this; simp at this; omega
    | cons x r => exact ⟨x, r, rfl⟩
  obtain ⟨t, t1, t2, t3⟩ := saveRow_newline fmt hfmt x r
  have hfull : saveText fmt { d with rows := d.rows.take (k + 1) } =
      saveText fmt { d with rows := d.rows.take k } ++ (t ++ ['\n']) := by
    rw [saveText_rows, saveText_rows]
    simp only
    rw [hsucc, List.map_append, List.flatten_append, List.append_assoc]
    congr 2
    rw [List.map_singleton, List.flatten_singleton, hr, List.take_of_length_le, t1]
    rw [← hr, hrows _ (List.getElem_mem hk)]
  obtain ⟨j, rfl⟩ := Nat.exists_eq_add_of_le h1
  have hj : j ≤ t.length := by
    rw [hfull, List.length_append, List.length_append, List.length_singleton] at h2
    omega
  have hcut : (saveText fmt d).take ((saveText fmt { d with rows := d.rows.take k }).length + j) =
      saveText fmt { d with rows := d.rows.take k } ++ t.take j := by
    obtain ⟨u, hu⟩ : ∃ u, saveText fmt d = saveText fmt { d with rows := d.rows.take (k + 1) } ++ u := by
      refine ⟨((d.rows.drop (k + 1)).map fun r => saveRow fmt (r.take (d.dimX + d.dimY))).flatten, ?_⟩
      rw [saveText_rows fmt d, saveText_rows fmt { d with rows := d.rows.take (k + 1) }, List.append_assoc]
      simp only
      rw [← List.flatten_append, ← List.map_append, List.take_append_drop]
      rfl
    rw [hu, hfull, List.append_assoc, List.take_length_add_append, List.append_assoc, List.take_append_of_le_length hj]
  rw [hcut]
  -- the samples written before
  obtain ⟨l, h1, h2', h3, h4, h5, h6, h7, h8⟩ := text_round_trip fmt hfmt { d with rows := d.rows.take k } hdim
    (fun r hr => hrows r (List.mem_of_mem_take hr)) (fun r hr => hfin r (List.mem_of_mem_take hr)) hin args hargs
  have hrowsOf := text_rows fmt _ l h7 fun i r hi => (h8 i r hi).1
  rw [saveText_rows] at h1 ⊢
  simp only at h1 ⊢
  generalize hbody : ((d.rows.take k).map fun r => saveRow fmt (r.take (d.dimX + d.dimY))).flatten = body at h1 ⊢
  have hstart : ∀ u : Str, u.head? ≠ some '#' → ∀ r, body ++ u ≠ '#' :: r := by
    intro u hu r' h
    rw [← hbody] at h
    cases hd : d.rows.take k with
    | nil =>
      rw [hd] at h
      simp only [List.map_nil, List.flatten_nil, List.nil_append] at h
      exact hu (by rw [h]; rfl)
    | cons a rows =>
      have ha := hrows a (List.mem_of_mem_take (by rw [hd]; simp))
      rw [hd, List.map_cons, List.flatten_cons, List.take_of_length_le ha.le] at h
      cases a with
      | nil => simp at ha; omega
      | cons y q =>
        obtain ⟨w, w1, -, w3⟩ := saveRow_newline fmt hfmt y q
        rw [w1] at h
        cases w with
        | nil => simp at h
        | cons z w =>
          simp only [List.cons_append, List.cons.injEq] at h
          exact w3 (by rw [h.1]; rfl)
  have hend : body = [] ∨ body.getLast? = some '\n' := by
    rcases List.eq_nil_or_concat (d.rows.take k) with hd | ⟨rows, a, hd⟩
    · left; rw [← hbody, hd]; rfl
    · right
      have ha := hrows a (List.mem_of_mem_take (by rw [hd]; simp))
      cases a with
      | nil => simp at ha; omega
      | cons y q =>
        obtain ⟨w, w1, -, -⟩ := saveRow_newline fmt hfmt y q
        rw [← hbody, hd, List.concat_eq_append, List.map_append, List.flatten_append, List.map_singleton,
          List.flatten_singleton, List.take_of_length_le ha.le, w1]
        simp [List.getLast?_append]
  have hu : (t.take j).head? ≠ some '#' := by
    cases j with
    | zero => simp
    | succ j => rw [List.head?_take, if_neg (by omega)]; exact t3
  have p1 := parseHeaderFrom_lines _ (textLines_wellFormed { d with rows := d.rows.take k }) body
    (by simpa using hstart [] (by simp)) []
  have p2 := parseHeaderFrom_lines _ (textLines_wellFormed { d with rows := d.rows.take k }) (body ++ t.take j)
    (hstart _ hu) []
  generalize (textLines { d with rows := d.rows.take k }).foldl (fun m l => l.apply m) [] = m at p1 p2
  unfold loadDataText at h1
  simp only at h1
  rw [show parseHeader _ = _ from p1] at h1
  simp only at h1
  split at h1
  · cases h1
  rename_i hfm
  unfold loadDataStream
  rw [if_pos ht, List.append_assoc]
  simp only
  rw [show parseHeader _ = _ from p2]
  simp only
  rw [if_neg hfm]
  unfold loadText at h1 ⊢
  cases hc : loadSetup m args with
  | none => rw [hc] at h1; cases h1
  | some c =>
    rw [hc] at h1
    simp only at h1 ⊢
    rw [loadRows_append c body _ hend]
    cases hR : loadRows c body with
    | none => rw [hR] at h1; cases h1
    | some R =>
      rw [hR] at h1
      simp only at h1 ⊢
      rw [Option.bind_some]
      cases hb : loadRows c (t.take j) with
      | none => exact .inl rfl
      | some b =>
        right
        rw [Option.map_some]
        split at h1
        · cases h1
        rename_i h0
        simp only
        rw [if_neg h0]
        cases h1
        have hlen := loadRows_last c _ (fun h => t2 (List.mem_of_mem_take h)) b hb
        have hk' : R.length = k := by
          have : R.length = (d.rows.take k).length := h7
          rw [this, List.length_take]; omega
        refine ⟨_, rfl, h3, h4, h5, h6, ?_, ?_⟩
        · simp only [Store.toData, Segments.make, List.length_map, List.length_range, List.length_append]
          omega
        · rw [← hrowsOf]
          have := toData_rows_prefix _ h2' (R ++ b).flatten b.flatten (by simp [Segments.make]) (R ++ b).length (by simp [Segments.make])
          rw [← hk']
          exact this

end
end Alta
