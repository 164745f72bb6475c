import Verif.Spec.Generations
import Verif.Props.Data2DataRun
/-
C93: data files converted again and again.
-/
namespace Alta
noncomputable section

/-- The numbers of the file are printed stably, are doubles, are not too large, and the first of them does not start with the
    byte `#` (C22). -/
structure Data.Kept (val : Dbl → ℝ) (bits : ℝ → Dbl) (fmt : ℝ → Decimal) (d : Data) : Prop where
  stable : ∀ r ∈ d.rows, ∀ v ∈ r, fmt ((fmt v).value : ℝ) = fmt v
  double : ∀ r ∈ d.rows, ∀ v ∈ r, val (bits ((fmt v).value : ℝ)) = ((fmt v).value : ℝ)
  finite : ∀ r ∈ d.rows, ∀ v ∈ r, |((fmt v).value : ℝ)| ≤ ((fltMax : ℚ) : ℝ)
  first : ∀ r ∈ d.rows.head?, ∀ v ∈ r.head?, (bits ((fmt v).value : ℝ)).toNat % 256 ≠ '#'.toNat

/-- One run: the new file is loaded as the same data; and if it is a text file it is the file that the text save writes. -/
theorem conversion_step (val : Dbl → ℝ) (bits : ℝ → Dbl) (fmt : ℝ → Decimal)
    (hfmt : ∀ v, (fmt v).ip ≠ [] ∨ (fmt v).fp ≠ []) (dir : Str) (env : Option Str)
    (fs : Str → Option (Symbols (Str → SMap → Option DataObj)))
    (gs : Str → Option (Symbols (ℕ → Par → SMap → OutPlugin)))
    (d0 : Data) (hs : d0.Sampled) (hn : d0.input.Named) (hx : d0.dimX = (inputDim d0.input).toNat) (hy : 0 < d0.dimY)
    (hk : d0.Kept val bits fmt) (args : SMap) (hr : PlainRun args d0) (ho : TextOutput args ∨ BinaryOutput args)
    (t t' : Str) (hload : loadDataStream val dir env fs (args.get "in-data".toList) t
      (args.update "filename".toList (args.get "input".toList)) = some (some (.ofData (d0.printedBy fmt))))
    (run : ConvertsTo val bits fmt dir env fs gs args t t') :
    (TextOutput args → t' = saveText fmt d0) ∧
      ∀ (type : Str) (args' : SMap), PlainArgs args' → type = [] ∨ type = "vertical_segment".toList →
        loadDataStream val dir env fs type t' args' = some (some (.ofData (d0.printedBy fmt))) := by
  obtain ⟨files, writable, junk, evs, hf, run⟩ := run
  have hs1 : (d0.printedBy fmt).Sampled := hs.printedBy fmt
  have e0 : (DataObj.ofData (d0.printedBy fmt)).toData = d0.printedBy fmt := rfl
  have p1 : wantedParam args (d0.printedBy fmt) = (d0.printedBy fmt).input := hr.param
  have text : TextOutput args → t' = saveText fmt d0 := by
    intro ht
    obtain ⟨d, c, q, -⟩ := data2data_text_file val bits fmt hfmt dir env fs gs files writable junk evs args hr.asks ht _
      hf _ hload hs1 (by rw [e0, p1]; exact hn) _ run
    have q1 : d = d0.printedBy fmt := converted_same args _ d p1 hn hx hr.all hs1 c
    rw [q1, saveText_printedBy fmt d0 hk.stable] at q
    exact Option.some.inj q
  refine ⟨text, ?_⟩
  intro type args' hp htype
  rcases ho with ht | hb
  · rw [text ht]
    exact loadDataStream_saved val fmt hfmt dir env fs type args' hp htype d0 (by omega) hs hk.finite (.inl hn)
  · obtain ⟨d, c, -, l⟩ := data2data_binary_file val bits fmt dir env fs gs files writable junk evs args hr.asks hb _
      hf _ hload hs1 (by rw [e0, p1]; exact hn) hy _ run
    have q1 : d = d0.printedBy fmt := converted_same args _ d p1 hn hx hr.all hs1 c
    subst q1
    have hst : (d0.printedBy fmt).stored val bits = d0.printedBy fmt := by
      unfold Data.stored Data.printedBy
      simp only [List.map_map]
      congr 1
      apply List.map_congr_left
      intro r hr
      simp only [Function.comp_apply, List.map_map]
      apply List.map_congr_left
      intro v hv
      exact hk.double r hr v hv
    have := l (by
      intro r hr v hv
      cases hrows : d0.rows with
      | nil => simp [Data.printedBy, hrows] at hr
      | cons r0 rest =>
        have hr' : r0.map (fun v => ((fmt v).value : ℝ)) = r := by simpa [Data.printedBy, hrows] using hr
        subst hr'
        cases r0 with
        | nil => simp at hv
        | cons v0 w =>
          have hv' : ((fmt v0).value : ℝ) = v := by simpa using hv
          rw [← hv']
          exact hk.first (v0 :: w) (by rw [hrows]; simp) v0 (by simp)) t' rfl type args' htype
    rwa [hst] at this

/-- **C93.**  A data file that is converted again and again, with options that change from one run to the next but keep the
    parametrization and all the samples, into text files and binary files in any order: after any number of runs the file is
    loaded as the data of the first file, and every text file among them is the first file itself. -/
theorem data_generations (val : Dbl → ℝ) (bits : ℝ → Dbl) (fmt : ℝ → Decimal)
    (hfmt : ∀ v, (fmt v).ip ≠ [] ∨ (fmt v).fp ≠ []) (dir : Str) (env : Option Str)
    (fs : Str → Option (Symbols (Str → SMap → Option DataObj)))
    (gs : Str → Option (Symbols (ℕ → Par → SMap → OutPlugin)))
    (d0 : Data) (hs : d0.Sampled) (hn : d0.input.Named) (hx : d0.dimX = (inputDim d0.input).toNat) (hy : 0 < d0.dimY)
    (hk : d0.Kept val bits fmt)
    -- the history
    (file : ℕ → Str) (args : ℕ → SMap) (h0 : file 0 = saveText fmt d0)
    (hord : ∀ n, (args n).Ordered) (hplain : ∀ n, PlainArgs (args n)) (hrun : ∀ n, PlainRun (args n) d0)
    (ho : ∀ n, TextOutput (args n) ∨ BinaryOutput (args n))
    (runs : ∀ n, ConvertsTo val bits fmt dir env fs gs (args n) (file n) (file (n + 1))) (n : ℕ) :
    (TextOutput (args n) → file (n + 1) = file 0) ∧
      ∀ (type : Str) (args' : SMap), PlainArgs args' → type = [] ∨ type = "vertical_segment".toList →
        loadDataStream val dir env fs type (file n) args' = some (some (.ofData (d0.printedBy fmt))) := by
  have loads : ∀ n, ∀ (type : Str) (args' : SMap), PlainArgs args' → type = [] ∨ type = "vertical_segment".toList →
      loadDataStream val dir env fs type (file n) args' = some (some (.ofData (d0.printedBy fmt))) := by
    intro n
    induction n with
    | zero =>
      intro type args' hp htype
      rw [h0]
      exact loadDataStream_saved val fmt hfmt dir env fs type args' hp htype d0 (by omega) hs hk.finite (.inl hn)
    | succ n ih =>
      exact (conversion_step val bits fmt hfmt dir env fs gs d0 hs hn hx hy hk (args n) (hrun n) (ho n) _ _
        (ih _ _ ((hplain n).filename (hord n) _) (hrun n).class_) (runs n)).2
  refine ⟨fun ht => ?_, loads n⟩
  rw [h0]
  exact (conversion_step val bits fmt hfmt dir env fs gs d0 hs hn hx hy hk (args n) (hrun n) (ho n) _ _
    (loads n _ _ ((hplain n).filename (hord n) _) (hrun n).class_) (runs n)).1 ht

/-- The conversion of complete samples gives complete samples. -/
theorem ConvertedData.sampled {args : SMap} {din d : Data} (h : ConvertedData args din d) (hs : din.Sampled)
    (hn : (wantedParam args din).Named) : d.Sampled := by
  intro y hy
  obtain ⟨i, hi, rfl⟩ := List.getElem_of_mem hy
  have hl := h.rows.length_eq
  obtain ⟨t, above, h1, -, h3, h4⟩ := (List.forall₂_iff_get.1 h.rows).2 i (by omega) hi
  simp only [List.get_eq_getElem] at h1 h3 h4
  have ht := convertInput_length _ _ _ hn _ h1
  have hx := hs _ (List.getElem_mem (by omega : i < din.rows.length))
  rw [h.dimX, h.dimY]
  by_cases hc : above ∨ args.isDefined "all-values".toList = true
  · rw [h3 hc, List.length_append, List.length_drop, hx]
    omega
  · rw [not_or] at hc
    rw [h4 hc.1 (by simpa using hc.2), List.length_replicate]

/-- **C93.**  The same for a first file that is not one of these text files, converted once into a text file (with any
    parametrization): from the first text file on, the text files of the history are all the same. -/
theorem data_generations_from (val : Dbl → ℝ) (bits : ℝ → Dbl) (fmt : ℝ → Decimal)
    (hfmt : ∀ v, (fmt v).ip ≠ [] ∨ (fmt v).fp ≠ []) (dir : Str) (env : Option Str)
    (fs : Str → Option (Symbols (Str → SMap → Option DataObj)))
    (gs : Str → Option (Symbols (ℕ → Par → SMap → OutPlugin)))
    (file : ℕ → Str) (args : ℕ → SMap) (din : DataObj) (hin : loadDataStream val dir env fs ((args 0).get "in-data".toList)
      (file 0) ((args 0).update "filename".toList ((args 0).get "input".toList)) = some (some din))
    (hs : din.toData.Sampled) (hn : (wantedParam (args 0) din.toData).Named) (hy : 0 < din.toData.dimY)
    (ha : AsksData (args 0)) (ht0 : TextOutput (args 0))
    (hord : ∀ n, (args (n + 1)).Ordered) (hplain : ∀ n, PlainArgs (args (n + 1)))
    (ho : ∀ n, TextOutput (args (n + 1)) ∨ BinaryOutput (args (n + 1)))
    (runs : ∀ n, ConvertsTo val bits fmt dir env fs gs (args n) (file n) (file (n + 1))) :
    ∃ d1 : Data, ConvertedData (args 0) din.toData d1 ∧ file 1 = saveText fmt d1 ∧
      (d1.Kept val bits fmt → (∀ n, PlainRun (args (n + 1)) d1) → ∀ n, TextOutput (args n) → file (n + 1) = file 1) := by
  obtain ⟨files, writable, junk, evs, hf, run⟩ := runs 0
  obtain ⟨d, c, q, -⟩ := data2data_text_file val bits fmt hfmt dir env fs gs files writable junk evs (args 0) ha ht0 _
    hf _ hin hs hn _ run
  have q := Option.some.inj q
  refine ⟨d, c, q, ?_⟩
  intro hk hrun n hn'
  cases n with
  | zero => rfl
  | succ n =>
    have hn1 : d.input.Named := by rw [c.input]; exact hn
    have hx1 : d.dimX = (inputDim d.input).toNat := by rw [c.dimX, c.input, inputDim_eq _ hn]
    have hs1 : d.Sampled := c.sampled hs hn
    exact (data_generations val bits fmt hfmt dir env fs gs d hs1 hn1 hx1 (by rw [c.dimY]; exact hy) hk
      (fun n => file (n + 1)) (fun n => args (n + 1)) q hord hplain hrun ho (fun n => runs (n + 1)) n).1 hn'

end
end Alta
