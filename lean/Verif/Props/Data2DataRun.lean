import Verif.Props.Data2DataMain
/-
C87: when `data2data` succeeds, conversions that go and come back, outputs made by plugins.
-/
namespace Alta
noncomputable section

/-- What is written when the conversion succeeds. -/
theorem data2dataWrite_of (bits : ℝ → Dbl) (fmt : ℝ → Decimal) (dir : Str) (env : Option Str)
    (gs : Str → Option (Symbols (ℕ → Par → SMap → OutPlugin))) (writable : Str → Bool) (junk : ℕ → ℝ)
    (evs : List RowEvent) (args : SMap) (din : DataObj) (ho : TextOutput args)
    (hw : writable (args.get "output".toList) = true) (d : Segments)
    (hd : data2data junk din.toData (parseInput (String.ofList (args.get "param".toList)))
      (args.isDefined "all-values".toList) = some d) :
    data2dataWrite bits fmt dir env gs writable junk evs args din = some (0, some (saveText fmt d.store.toData)) := by
  unfold data2dataWrite
  simp only
  cases hp : computeParameters din.toData (parseInput (String.ofList (args.get "param".toList))) with
  | none =>
    unfold data2data at hd
    rw [hp] at hd
    cases hd
  | some p =>
    rw [data2data_eq junk din.toData _ _ p hp] at hd
    simp only
    have hb : ¬ args.get "out-data".toList = "alta-binary".toList := by
      rcases ho with ho | ho <;> rw [ho] <;> decide
    rw [if_pos (by rw [if_neg hb]; exact ho)]
    rw [show din.rows = din.toData.rows from rfl, hd, Option.bind_some, if_neg hb, if_pos hw]

/-- What is written in a binary file when the conversion succeeds. -/
theorem data2dataWrite_binary (bits : ℝ → Dbl) (fmt : ℝ → Decimal) (dir : Str) (env : Option Str)
    (gs : Str → Option (Symbols (ℕ → Par → SMap → OutPlugin))) (writable : Str → Bool) (junk : ℕ → ℝ)
    (evs : List RowEvent) (args : SMap) (din : DataObj) (ho : BinaryOutput args)
    (hw : writable (args.get "output".toList) = true) (d : Segments) (hk : d.store.kind = .asymmetrical)
    (hd : data2data junk din.toData (parseInput (String.ofList (args.get "param".toList)))
      (args.isDefined "all-values".toList) = some d) :
    ∃ f, data2dataWrite bits fmt dir env gs writable junk evs args din = some (0, some f) := by
  unfold data2dataWrite
  simp only
  cases hp : computeParameters din.toData (parseInput (String.ofList (args.get "param".toList))) with
  | none =>
    unfold data2data at hd
    rw [hp] at hd
    cases hd
  | some p =>
    rw [data2data_eq junk din.toData _ _ p hp] at hd
    simp only
    have hb : args.get "out-data".toList = "alta-binary".toList := ho
    rw [if_pos (.inr (if_pos hb))]
    rw [show din.rows = din.toData.rows from rfl, hd, Option.bind_some, if_pos hb, if_pos hw]
    obtain ⟨t, ht⟩ : ∃ t, saveBinary (d.store.bitsOf bits).toAny = some t := by
      unfold saveBinary
      simp only [Store.toAny]
      have hk' : (d.store.bitsOf bits).kind = .asymmetrical := hk
      rw [hk']
      exact ⟨_, rfl⟩
    exact ⟨t, by rw [ht]; rfl⟩

/-- **C87.**  The program writes one of ALTA's files exactly when the file can be opened and every sample of the input can be
    converted. -/
theorem data2data_run (val : Dbl → ℝ) (bits : ℝ → Dbl) (fmt : ℝ → Decimal) (dir : Str) (env : Option Str)
    (fs : Str → Option (Symbols (Str → SMap → Option DataObj)))
    (gs : Str → Option (Symbols (ℕ → Par → SMap → OutPlugin))) (files : Str → Option Str) (writable : Str → Bool)
    (junk : ℕ → ℝ) (evs : List RowEvent) (args : SMap) (ha : AsksData args) (ho : TextOutput args ∨ BinaryOutput args)
    (content : Str) (hf : files (args.get "input".toList) = some content) (din : DataObj)
    (hl : loadDataStream val dir env fs (args.get "in-data".toList) content
      (args.update "filename".toList (args.get "input".toList)) = some (some din))
    (hs : din.toData.Sampled) (hn : (wantedParam args din.toData).Named) :
    (∃ f, data2dataMain val bits fmt dir env fs gs files writable junk evs args = some (0, some f)) ↔
      writable (args.get "output".toList) = true ∧
      ∀ x ∈ din.rows, ∃ t above, convertInput (arr x) din.par.input (wantedParam args din.toData) = some t ∧
        isAboveHemisphere (arr t) (wantedParam args din.toData) = some above := by
  rw [data2dataMain_loaded val bits fmt dir env fs gs files writable junk evs args ha content hf din hl]
  have key := data2data_succeeds junk din.toData (parseInput (String.ofList (args.get "param".toList)))
    (args.isDefined "all-values".toList) hs hn
  rw [outputParam_wanted] at key
  constructor
  · rintro ⟨f, h⟩
    rcases data2dataWrite_default bits fmt dir env gs writable junk evs args din ho 0 _ h with ⟨h0, -⟩ | ⟨-, hw, d, hd, -⟩
    · cases h0
    · exact ⟨hw, (key.1 (by rw [hd]; rfl)).2⟩
  · rintro ⟨hw, hc⟩
    obtain ⟨d, hd⟩ := Option.isSome_iff_exists.1 (key.2 ⟨by
      intro h
      rw [h] at hn
      exact absurd hn (by decide), hc⟩)
    rcases ho with ho | ho
    · exact ⟨_, data2dataWrite_of bits fmt dir env gs writable junk evs args din ho hw d hd⟩
    · exact data2dataWrite_binary bits fmt dir env gs writable junk evs args din ho hw d
        (data2data_wf junk din.toData _ _ hs hn d hd).2 hd

/-- With `--all-values` and the parametrization of the input, the samples are those of the input. -/
theorem converted_same (args : SMap) (din d : Data) (hp : wantedParam args din = din.input) (hn : din.input.Named)
    (hx : din.dimX = (inputDim din.input).toNat) (hall : args.isDefined "all-values".toList = true) (hs : din.Sampled)
    (h : ConvertedData args din d) : d = din := by
  obtain ⟨dX, dY, i, o, rows⟩ := d
  obtain ⟨h1, h2, h3, h4, h5⟩ := h
  simp only at h1 h2 h3 h4 h5
  rw [hp] at h1 h3
  have hrows : rows = din.rows := by
    have key : ∀ l l' : List (List ℝ), (∀ x ∈ l, x.length = din.dimX + din.dimY) →
        List.Forall₂ (ConvertedSample args din) l l' → l' = l := by
      intro l l' hl hf
      induction hf with
      | nil => rfl
      | cons hab _ ih =>
        rename_i a b l l' hrest
        rw [ih fun x hx => hl x (by simp [hx])]
        congr 1
        obtain ⟨t, above, g1, -, g3, -⟩ := hab
        rw [hp] at g1
        rw [g3 (.inr hall)]
        have ht : t = a.take din.dimX := by
          obtain ⟨o, o1, o2, o3⟩ := convertInput_self (arr a) din.input hn
          rw [g1] at o1
          cases o1
          have hla := hl a (by simp)
          apply List.ext_getElem
          · rw [List.length_take]; omega
          · intro k hk1 hk2
            rw [o3 k hk1, List.getElem_take]
            have : k < a.length := by
              rw [List.length_take] at hk2; omega
            simp [arr, List.getD, List.getElem?_eq_getElem this]
        rw [ht, List.take_append_drop]
    exact key _ _ hs h5
  rw [h1, h2, h3, h4, hrows, ← hx]

/-- Without the options of the loading of text files. -/
theorem PlainArgs.filename {args : SMap} (ho : args.Ordered) (h : PlainArgs args) (name : Str) :
    PlainArgs (args.update "filename".toList name) := by
  have key : ∀ f k : Str, f ≠ k → args.isDefined k = false → SMap.isDefined (args.update f name) k = false := by
    intro f k hk hd
    unfold SMap.isDefined at hd ⊢
    rw [SMap.find_update ho, if_neg (fun h => hk h.symm)]
    exact hd
  obtain ⟨h1, h2, h3, h4, h5, h6, h7, h8, h9⟩ := h
  constructor
  · exact key _ _ (by decide) h1
  · exact key _ _ (by decide) h2
  · exact key _ _ (by decide) h3
  · exact key _ _ (by decide) h4
  · exact key _ _ (by decide) h5
  · exact key _ _ (by decide) h6
  · exact key _ _ (by decide) h7
  · exact key _ _ (by decide) h8
  · exact key _ _ (by decide) h9

/-- A file written by the text save is loaded with its numbers as they were printed. -/
theorem loadDataStream_saved (val : Dbl → ℝ) (fmt : ℝ → Decimal) (hfmt : ∀ v, (fmt v).ip ≠ [] ∨ (fmt v).fp ≠ []) (dir : Str)
    (env : Option Str) (fs : Str → Option (Symbols (Str → SMap → Option DataObj))) (type : Str) (args : SMap)
    (hargs : PlainArgs args) (ht : type = [] ∨ type = "vertical_segment".toList) (d : Data)
    (hdim : 0 < d.dimX + d.dimY) (hrows : d.Sampled)
    (hfin : ∀ r ∈ d.rows, ∀ v ∈ r, |((fmt v).value : ℝ)| ≤ ((fltMax : ℚ) : ℝ))
    (hin : d.input.Named ∨ d.input = .UNKNOWN_INPUT) :
    loadDataStream val dir env fs type (saveText fmt d) args = some (some (.ofData (d.printedBy fmt))) := by
  obtain ⟨l, h1, -, h3, h4, h5, h6, h7, h8⟩ := text_round_trip fmt hfmt d hdim hrows hfin hin args hargs
  have hd : l.store.toData = d.printedBy fmt := by
    unfold Store.toData Data.printedBy
    rw [h3, h4, h5, h6, h7]
    congr 1
    apply List.ext_getElem (by simp)
    intro i a1 a2
    have hi : i < d.rows.length := by simpa using a1
    have := (h8 i _ (List.getElem?_eq_getElem hi)).1
    simp only [List.getElem_map, List.getElem_range, this, Option.getD_some]
  unfold loadDataStream
  rw [if_pos ht]
  unfold loadDataText at h1
  revert h1
  generalize parseHeader (saveText fmt d) = q
  intro h1
  obtain ⟨hh, rest⟩ := q
  simp only at h1 ⊢
  split at h1
  · cases h1
  · rename_i hb
    rw [if_neg hb, h1, Option.map_some, hd]

theorem Data.Sampled.printedBy {d : Data} (h : d.Sampled) (fmt : ℝ → Decimal) : (d.printedBy fmt).Sampled := by
  intro x hx
  obtain ⟨r, hr, rfl⟩ := List.mem_map.1 hx
  rw [List.length_map]
  exact h r hr

/-- Numbers that were printed are printed again in the same way. -/
theorem saveText_printedBy (fmt : ℝ → Decimal) (d : Data) (h : ∀ r ∈ d.rows, ∀ v ∈ r, fmt ((fmt v).value : ℝ) = fmt v) :
    saveText fmt (d.printedBy fmt) = saveText fmt d := by
  have hrow : ∀ r : List ℝ, (∀ v ∈ r, fmt ((fmt v).value : ℝ) = fmt v) →
      saveRow fmt (r.map fun v => ((fmt v).value : ℝ)) = saveRow fmt r := by
    intro r hr
    induction r with
    | nil => rfl
    | cons v r ih => rw [List.map_cons, saveRow, saveRow, hr v (by simp), ih fun w hw => hr w (by simp [hw])]
  unfold saveText Data.printedBy
  simp only [List.map_map]
  congr 2
  apply List.map_congr_left
  intro r hr
  rw [Function.comp_apply, ← List.map_take]
  exact hrow _ fun v hv => h r hr v (List.mem_of_mem_take hv)

/-- The options of a run that changes neither the parametrization nor the samples. -/
structure PlainRun (args : SMap) (d : Data) : Prop where
  asks : AsksData args
  all : args.isDefined "all-values".toList = true
  class_ : args.get "in-data".toList = [] ∨ args.get "in-data".toList = "vertical_segment".toList
  param : wantedParam args d = d.input

/-- **C87.**  A text file converted to a binary file, then back to a text file, is the same file: when the printed numbers are
    doubles that are printed again in the same way, and the first byte of the binary data is not the character `#`. -/
theorem data2data_there_and_back (val : Dbl → ℝ) (bits : ℝ → Dbl) (fmt : ℝ → Decimal)
    (hfmt : ∀ v, (fmt v).ip ≠ [] ∨ (fmt v).fp ≠ []) (dir : Str) (env : Option Str)
    (fs : Str → Option (Symbols (Str → SMap → Option DataObj)))
    (gs : Str → Option (Symbols (ℕ → Par → SMap → OutPlugin)))
    -- the data of the file
    (d0 : Data) (hs : d0.Sampled) (hn : d0.input.Named) (hx : d0.dimX = (inputDim d0.input).toNat) (hy : 0 < d0.dimY)
    (hfin : ∀ r ∈ d0.rows, ∀ v ∈ r, |((fmt v).value : ℝ)| ≤ ((fltMax : ℚ) : ℝ))
    (hdbl : ∀ r ∈ d0.rows, ∀ v ∈ r, val (bits ((fmt v).value : ℝ)) = ((fmt v).value : ℝ))
    (hidem : ∀ r ∈ d0.rows, ∀ v ∈ r, fmt ((fmt v).value : ℝ) = fmt v)
    (hfirst : ∀ r ∈ d0.rows.head?, ∀ v ∈ r.head?, (bits ((fmt v).value : ℝ)).toNat % 256 ≠ '#'.toNat)
    -- the first run
    (files1 : Str → Option Str) (writable1 : Str → Bool) (junk1 : ℕ → ℝ) (evs1 : List RowEvent) (args1 : SMap)
    (hord : args1.Ordered) (hplain : PlainArgs args1) (h1 : PlainRun args1 d0) (ho1 : BinaryOutput args1)
    (hf1 : files1 (args1.get "input".toList) = some (saveText fmt d0)) (file1 : Str)
    (run1 : data2dataMain val bits fmt dir env fs gs files1 writable1 junk1 evs1 args1 = some (0, some file1))
    -- the second run
    (files2 : Str → Option Str) (writable2 : Str → Bool) (junk2 : ℕ → ℝ) (evs2 : List RowEvent) (args2 : SMap)
    (h2 : PlainRun args2 d0) (ho2 : TextOutput args2)
    (hf2 : files2 (args2.get "input".toList) = some file1) (file2 : Str)
    (run2 : data2dataMain val bits fmt dir env fs gs files2 writable2 junk2 evs2 args2 = some (0, some file2)) :
    file2 = saveText fmt d0 := by
  have hs1 : (d0.printedBy fmt).Sampled := hs.printedBy fmt
  have e0 : (DataObj.ofData (d0.printedBy fmt)).toData = d0.printedBy fmt := rfl
  have p1 : wantedParam args1 (d0.printedBy fmt) = (d0.printedBy fmt).input := h1.param
  have p2 : wantedParam args2 (d0.printedBy fmt) = (d0.printedBy fmt).input := h2.param
  have hl1 := loadDataStream_saved val fmt hfmt dir env fs (args1.get "in-data".toList) _
    (hplain.filename hord (args1.get "input".toList)) h1.class_ d0 (by omega) hs hfin (.inl hn)
  obtain ⟨d1, c1, -, l1⟩ := data2data_binary_file val bits fmt dir env fs gs files1 writable1 junk1 evs1 args1 h1.asks ho1 _
    hf1 _ hl1 hs1 (by rw [e0, p1]; exact hn) hy _ run1
  have q1 : d1 = d0.printedBy fmt := converted_same args1 _ d1 p1 hn hx h1.all hs1 c1
  subst q1
  have hst : (d0.printedBy fmt).stored val bits = d0.printedBy fmt := by
    unfold Data.stored Data.printedBy
    simp only [List.map_map]
    congr 1
    apply List.map_congr_left
    intro r hr
    simp only [Function.comp_apply, List.map_map]
    apply List.map_congr_left
    intro v hv
    exact hdbl r hr v hv
  have hl2 := l1 (by
    intro r hr v hv
    cases hrows : d0.rows with
    | nil => simp [Data.printedBy, hrows] at hr
    | cons r0 rest =>
      have hr' : r0.map (fun v => ((fmt v).value : ℝ)) = r := by simpa [Data.printedBy, hrows] using hr
      subst hr'
      cases r0 with
      | nil => simp at hv
      | cons v0 w =>
        have hv' : ((fmt v0).value : ℝ) = v := by simpa using hv
        rw [← hv']
        exact hfirst (v0 :: w) (by rw [hrows]; simp) v0 (by simp)) file1 rfl (args2.get "in-data".toList)
    (args2.update "filename".toList (args2.get "input".toList)) h2.class_
  rw [hst] at hl2
  obtain ⟨d2, c2, q, -⟩ := data2data_text_file val bits fmt hfmt dir env fs gs files2 writable2 junk2 evs2 args2 h2.asks ho2 _
    hf2 _ hl2 hs1 (by rw [e0, p2]; exact hn) _ run2
  have q2 : d2 = d0.printedBy fmt := converted_same args2 _ d2 p2 hn hx h2.all hs1 c2
  rw [q2, saveText_printedBy fmt d0 hidem] at q
  exact Option.some.inj q

/-! ### Outputs made by plugins -/

/-- The sample that `convert_with_interpolation` writes in the place of the sample `x` of the output: the coordinates of `x`,
    and the value of the input there, or zeros below the surface. -/
theorem interpolatePoint_spec (din : DataObj) (out : Par) (x y : List ℝ) (hx : x.length = out.dimX + out.dimY)
    (hd : out.dimY = din.par.dimY) (hv : ∀ z w, din.value z = some w → w.length = din.par.dimY)
    (h : interpolatePoint din out x = some y) :
    ∃ cart, convertInput (arr x) out.input .CARTESIAN = some cart ∧
      ((0 ≤ arr cart 2 ∧ 0 ≤ arr cart 5) → ∃ z w, convertInput (arr cart) .CARTESIAN din.par.input = some z ∧
        din.value z = some w ∧ y = x.take out.dimX ++ w) ∧
      (¬ (0 ≤ arr cart 2 ∧ 0 ≤ arr cart 5) → y = x.take out.dimX ++ List.replicate out.dimY 0) := by
  unfold interpolatePoint at h
  obtain ⟨cart, hc, h⟩ := Option.bind_eq_some_iff.1 h
  obtain ⟨v, hv', h⟩ := Option.bind_eq_some_iff.1 h
  obtain ⟨o, ho, h⟩ := Option.map_eq_some_iff.1 h
  obtain ⟨o', ho', hcv⟩ := convertOutput_copy (arr v) (fun k => arr x (out.dimX + k)) din.par.dimY out.dimY (Or.inl hd)
  rw [ho] at ho'
  cases ho'
  have hvl : v.length = out.dimY := by
    split at hv'
    · obtain ⟨z, _, hz⟩ := Option.bind_eq_some_iff.1 hv'
      rw [hd]; exact hv z v hz
    · cases hv'; simp [hd]
  have hy : y = x.take out.dimX ++ v := by
    rw [← h]
    apply List.ext_getElem?
    intro k
    by_cases hk : k < x.length
    · rw [List.getElem?_map, List.getElem?_range hk]
      simp only [Option.map_some]
      by_cases hkx : k < out.dimX
      · rw [if_pos hkx, List.getElem?_append_left (by rw [List.length_take]; omega), List.getElem?_take,
          if_pos hkx, List.getElem?_eq_getElem hk]
        simp [arr, List.getD, List.getElem?_eq_getElem hk]
      · rw [if_neg hkx, List.getElem?_append_right (by rw [List.length_take]; omega), List.length_take,
          hcv.2.1 hd (k - out.dimX) (by omega), Nat.min_eq_left (by omega)]
        have : k - out.dimX < v.length := by omega
        rw [List.getElem?_eq_getElem this]
        simp [arr, List.getD, List.getElem?_eq_getElem this]
    · rw [List.getElem?_eq_none (by simp; omega), List.getElem?_eq_none (by simp; omega)]
  refine ⟨cart, hc, fun hab => ?_, fun hab => ?_⟩
  · rw [if_pos hab] at hv'
    obtain ⟨z, hz, hz2⟩ := Option.bind_eq_some_iff.1 hv'
    exact ⟨z, v, hz, hz2, hy⟩
  · rw [if_neg hab] at hv'
    cases hv'
    rw [hy, hd]

/-- **C87.**  An output made by a plugin is filled, for every schedule of the threads, with the value of the input at the
    coordinates of each of its samples; it is then saved by the plugin. -/
theorem data2data_plugin_file (val : Dbl → ℝ) (bits : ℝ → Dbl) (fmt : ℝ → Decimal) (dir : Str) (env : Option Str)
    (fs : Str → Option (Symbols (Str → SMap → Option DataObj)))
    (gs : Str → Option (Symbols (ℕ → Par → SMap → OutPlugin))) (files : Str → Option Str) (writable : Str → Bool)
    (junk : ℕ → ℝ) (args : SMap) (ha : AsksData args)
    (ho : ¬ TextOutput args ∧ ¬ BinaryOutput args) (hsplat : args.isDefined "splat".toList = false) (content : Str)
    (hf : files (args.get "input".toList) = some content) (din : DataObj)
    (hl : loadDataStream val dir env fs (args.get "in-data".toList) content
      (args.update "filename".toList (args.get "input".toList)) = some (some din))
    (hn : wantedParam args din.toData ≠ .UNKNOWN_INPUT)
    (provide : ℕ → Par → SMap → OutPlugin)
    (hp : openLibrary dir env gs (args.get "out-data".toList) "provide_data".toList = some (some provide))
    (o : OutPlugin) (hprov : o = provide din.rows.length ⟨(inputDim (wantedParam args din.toData)).toNat, din.par.dimY,
      wantedParam args din.toData, din.par.output⟩ args)
    (rows : List (List ℝ)) (hrows : o.rows.mapM (interpolatePoint din o.par) = some rows)
    (hw : writable (args.get "output".toList) = true) (evs : List RowEvent) (he : Interleaving o.rows.length evs) :
    data2dataMain val bits fmt dir env fs gs files writable junk evs args = some (0, some (o.text rows)) := by
  rw [data2dataMain_loaded val bits fmt dir env fs gs files writable junk evs args ha content hf din hl]
  unfold data2dataWrite
  simp only
  have hc : computeParameters din.toData (parseInput (String.ofList (args.get "param".toList))) =
      some ((inputDim (wantedParam args din.toData)).toNat, din.par.dimY, wantedParam args din.toData, din.par.output) := by
    unfold computeParameters
    unfold wantedParam at hn ⊢
    by_cases h : parseInput (String.ofList (args.get "param".toList)) = .UNKNOWN_INPUT
    · rw [if_pos h] at hn
      rw [if_pos ⟨h, hn⟩, if_pos h]
      rfl
    · rw [if_neg (fun h' => h h'.1), if_neg h, if_neg h]
      rfl
  rw [hc]
  simp only
  have hb : ¬ args.get "out-data".toList = "alta-binary".toList := ho.2
  have ht : ¬ (args.get "out-data".toList = [] ∨ args.get "out-data".toList = "vertical_segment".toList) := ho.1
  rw [if_neg hb, if_neg ht, hp]
  simp only
  rw [← hprov]
  unfold convertPlugin
  rw [if_neg (by rw [hsplat]; simp), interleaving_spec _ _ _ hrows evs he, Option.bind_some, if_pos hw]

/-! ### Limits of the code -/

/-- Limit: with a plugin of input that is not found, or that does not load data, the program uses a null pointer; the message
    and the exit code 1 that are written for this case are never reached. -/
theorem data2data_null_input (val : Dbl → ℝ) (bits : ℝ → Dbl) (fmt : ℝ → Decimal) (dir : Str) (env : Option Str)
    (fs : Str → Option (Symbols (Str → SMap → Option DataObj)))
    (gs : Str → Option (Symbols (ℕ → Par → SMap → OutPlugin))) (files : Str → Option Str) (writable : Str → Bool)
    (junk : ℕ → ℝ) (evs : List RowEvent) (args : SMap) (ha : AsksData args) (content : Str)
    (hf : files (args.get "input".toList) = some content)
    (hd : args.get "in-data".toList ≠ [] ∧ args.get "in-data".toList ≠ "vertical_segment".toList)
    (hp : openLibrary dir env fs (args.get "in-data".toList) "load_data".toList = some none) :
    data2dataMain val bits fmt dir env fs gs files writable junk evs args = none := by
  unfold data2dataMain
  rw [if_neg (by rw [ha.noHelp.1]; simp), if_neg (by rw [ha.noHelp.2]; simp), if_neg (by rw [ha.input]; simp),
    if_neg (by rw [ha.output]; simp)]
  simp only [hf]
  have : loadDataStream val dir env fs (args.get "in-data".toList) content
      (args.update "filename".toList (args.get "input".toList)) = some none := by
    unfold loadDataStream
    rw [if_neg (by simpa using hd)]
    simp only [hp]
  rw [this]

/-- Limit: a name that is not one of a parametrization is ignored: the output has the parametrization of the input. -/
theorem data2data_unknown_name (args : SMap) (din d : Data)
    (hname : ∀ p : Input, p.Named → String.ofList (args.get "param".toList) ≠ inputName p)
    (h : ConvertedData args din d) : d.input = din.input := by
  rw [h.input]
  unfold wantedParam
  rw [if_pos (parseInput_unknown _ hname)]

theorem reals_getSegment (val : Dbl → ℝ) (bits : ℝ → Dbl) (s : Store ℝ) (hk : s.kind = .asymmetrical) (i : ℕ)
    (x lo up : List ℝ) (h : s.getSegment i = some (x, lo, up)) :
    ((s.bitsOf bits).reals val).getSegment i =
      some (x.map fun v => val (bits v), lo.map fun v => val (bits v), up.map fun v => val (bits v)) := by
  have hr : ((s.bitsOf bits).reals val).row i = (s.row i).map fun v => val (bits v) := by
    unfold Store.row Store.reals Store.bitsOf Store.columns
    simp only [List.map_map, List.map_take, List.map_drop]
    rfl
  unfold Store.getSegment at h ⊢
  have e1 : ((s.bitsOf bits).reals val).size = s.size := rfl
  have e2 : ((s.bitsOf bits).reals val).kind = s.kind := rfl
  have e3 : ((s.bitsOf bits).reals val).dimX = s.dimX := rfl
  have e4 : ((s.bitsOf bits).reals val).dimY = s.dimY := rfl
  rw [e1, e2, e3, e4, hr]
  by_cases hi : i < s.size
  · rw [if_pos hi] at h ⊢
    rw [hk] at h ⊢
    simp only [Option.some.injEq, Prod.mk.injEq] at h ⊢
    obtain ⟨rfl, rfl, rfl⟩ := h
    simp only [segment, List.map_take, List.map_drop]
    trivial
  · rw [if_neg hi] at h
    cases h

/-- Limit: the binary file gives to every sample the interval from 0 to 0, whatever its values and the intervals of the
    input. -/
theorem data2data_binary_intervals (val : Dbl → ℝ) (bits : ℝ → Dbl) (hz : val (bits 0) = 0) (fmt : ℝ → Decimal) (dir : Str)
    (env : Option Str) (fs : Str → Option (Symbols (Str → SMap → Option DataObj)))
    (gs : Str → Option (Symbols (ℕ → Par → SMap → OutPlugin))) (files : Str → Option Str) (writable : Str → Bool)
    (junk : ℕ → ℝ) (evs : List RowEvent) (args : SMap) (ha : AsksData args) (ho : BinaryOutput args) (content : Str)
    (hf : files (args.get "input".toList) = some content) (din : DataObj)
    (hl : loadDataStream val dir env fs (args.get "in-data".toList) content
      (args.update "filename".toList (args.get "input".toList)) = some (some din))
    (hs : din.toData.Sampled) (hn : (wantedParam args din.toData).Named) (f : Option Str)
    (h : data2dataMain val bits fmt dir env fs gs files writable junk evs args = some (0, f)) :
    ∃ s : Store Dbl, f = saveBinary s.toAny ∧ s.size = din.rows.length ∧ ∀ i < din.rows.length, ∃ x,
      (s.reals val).getSegment i = some (x, List.replicate din.par.dimY 0, List.replicate din.par.dimY 0) := by
  rw [data2dataMain_loaded val bits fmt dir env fs gs files writable junk evs args ha content hf din hl] at h
  rcases data2dataWrite_default bits fmt dir env gs writable junk evs args din (.inr ho) 0 f h with ⟨h0, -⟩ | ⟨-, -, d, hd, -, ht⟩
  · cases h0
  obtain ⟨-, hk⟩ := data2data_wf junk din.toData _ _ hs hn d hd
  obtain ⟨-, -, -, -, h5, h6⟩ := data2data_rows junk din.toData _ _ hs hn d hd
  refine ⟨d.store.bitsOf bits, (ht ho).2, h5, fun i hi => ?_⟩
  obtain ⟨t, above, -, -, -, -, ax, hax⟩ := h6 i _ (List.getElem?_eq_getElem (show i < din.toData.rows.length from hi))
  refine ⟨ax.map fun v => val (bits v), (reals_getSegment val bits d.store hk i _ _ _ hax).trans ?_⟩
  simp only [List.map_replicate, hz]
  rfl

end
end Alta
