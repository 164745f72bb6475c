import Verif.Spec.Data2DataMain
import Verif.Props.Data2Data
import Verif.Props.Data2StatsRun
import Verif.Props.Binary
import Verif.Props.Data2BrdfRational
import Verif.Props.Brdf2Data
/-
C87: the program `data2data`, from a file to a file.
-/
namespace Alta
noncomputable section

/-- What a run does once the input is loaded. -/
theorem data2dataMain_loaded (val : Dbl → ℝ) (bits : ℝ → Dbl) (fmt : ℝ → Decimal) (dir : Str) (env : Option Str)
    (fs : Str → Option (Symbols (Str → SMap → Option DataObj)))
    (gs : Str → Option (Symbols (ℕ → Par → SMap → OutPlugin))) (files : Str → Option Str) (writable : Str → Bool)
    (junk : ℕ → ℝ) (evs : List RowEvent) (args : SMap) (ha : AsksData args) (content : Str)
    (hf : files (args.get "input".toList) = some content) (din : DataObj)
    (hl : loadDataStream val dir env fs (args.get "in-data".toList) content
      (args.update "filename".toList (args.get "input".toList)) = some (some din)) :
    data2dataMain val bits fmt dir env fs gs files writable junk evs args =
      data2dataWrite bits fmt dir env gs writable junk evs args din := by
  unfold data2dataMain
  rw [if_neg (by rw [ha.noHelp.1]; simp), if_neg (by rw [ha.noHelp.2]; simp), if_neg (by rw [ha.input]; simp),
    if_neg (by rw [ha.output]; simp)]
  simp only [hf, hl]

theorem data2data_eq (junk : ℕ → ℝ) (din : Data) (param : Input) (all : Bool) (p : ℕ × ℕ × Input × Output)
    (hp : computeParameters din param = some p) :
    data2data junk din param all = convertVerticalSegment junk din all
      (Segments.zeroed p.1 p.2.1 p.2.2.1 p.2.2.2 din.rows.length) := by
  unfold data2data
  rw [hp]
  rfl

theorem outputParam_wanted (args : SMap) (din : Data) :
    outputParam din (parseInput (String.ofList (args.get "param".toList))) = wantedParam args din := rfl

/-- The array of the output is well formed. -/
theorem data2data_wf (junk : ℕ → ℝ) (din : Data) (param : Input) (allValues : Bool)
    (hrows : ∀ x ∈ din.rows, x.length = din.dimX + din.dimY) (hnamed : (outputParam din param).Named)
    (d : Segments) (h : data2data junk din param allValues = some d) : d.store.WF ∧ d.store.kind = .asymmetrical := by
  unfold data2data at h
  obtain ⟨p, hp, h⟩ := Option.bind_eq_some_iff.1 h
  have hpar : p = ((inputDim (outputParam din param)).toNat, din.dimY, outputParam din param, din.output) := by
    unfold computeParameters at hp
    unfold outputParam
    split at hp
    · rename_i hc
      cases hp
      rw [if_pos hc.1]
    · split at hp
      · cases hp
      · rename_i hc
        cases hp
        rw [if_neg hc]
  subst hpar
  simp only at h
  unfold convertVerticalSegment at h
  obtain ⟨s', h1, h2⟩ := Option.map_eq_some_iff.1 h
  subst h2
  have hwf : (Segments.zeroed (inputDim (outputParam din param)).toNat din.dimY (outputParam din param) din.output
      din.rows.length).store.WF := by
    unfold Store.WF Segments.zeroed Segments.make Store.columns ciColumns
    simp only [List.length_replicate]
    ring
  obtain ⟨inv, _, _⟩ := convertVs_inv din allValues _ hrows rfl hnamed rfl rfl _ rfl hwf junk din.rows.length le_rfl s' h1
  exact ⟨inv.wf, inv.kind⟩

/-- The samples of the output are the converted samples of the input. -/
theorem data2data_converted (junk : ℕ → ℝ) (din : Data) (args : SMap) (hs : din.Sampled)
    (hnamed : (wantedParam args din).Named) (d : Segments)
    (h : data2data junk din (parseInput (String.ofList (args.get "param".toList)))
      (args.isDefined "all-values".toList) = some d) :
    ConvertedData args din d.store.toData ∧ d.store.toData.Sampled := by
  obtain ⟨h1, h2, h3, h4, h5, h6⟩ := data2data_rows junk din _ _ hs hnamed d h
  obtain ⟨hwf, -⟩ := data2data_wf junk din _ _ hs hnamed d h
  rw [outputParam_wanted] at h1 h4 h6
  have hx : d.store.dimX = (inputDim (wantedParam args din)).toNat := by omega
  refine ⟨⟨h1, h2, hx, h3, ?_⟩, fun x hx => store_row_length _ hwf x hx⟩
  rw [List.forall₂_iff_get]
  refine ⟨by simp [Store.toData, h5], ?_⟩
  intro i a1 a2
  obtain ⟨t, above, g1, g2, g3, g4, -⟩ := h6 i _ (List.getElem?_eq_getElem a1)
  have hi : i < d.store.size := by rw [h5]; exact a1
  obtain ⟨r, hr, -⟩ := toData_row d.store i hi
  have hrow : d.store.toData.rows.get ⟨i, a2⟩ = r := by
    simp [Store.toData, hr]
  rw [hrow]
  refine ⟨t, above, g1, g2, fun ha => ?_, fun ha hb => ?_⟩
  · have := g3 ha
    rw [hr] at this
    exact Option.some.inj this
  · have := g4 ha hb
    rw [hr] at this
    rw [← hx]
    exact Option.some.inj this

/-- What is written with ALTA's formats. -/
theorem data2dataWrite_default (bits : ℝ → Dbl) (fmt : ℝ → Decimal) (dir : Str) (env : Option Str)
    (gs : Str → Option (Symbols (ℕ → Par → SMap → OutPlugin))) (writable : Str → Bool) (junk : ℕ → ℝ)
    (evs : List RowEvent) (args : SMap) (din : DataObj) (ho : TextOutput args ∨ BinaryOutput args) (c : ℕ) (f : Option Str)
    (h : data2dataWrite bits fmt dir env gs writable junk evs args din = some (c, f)) :
    (c = 1 ∧ f = none ∧ (wantedParam args din.toData = .UNKNOWN_INPUT ∨
      BinaryOutput args ∧ writable (args.get "output".toList) = false)) ∨
    (c = 0 ∧ writable (args.get "output".toList) = true ∧ ∃ d,
      data2data junk din.toData (parseInput (String.ofList (args.get "param".toList)))
        (args.isDefined "all-values".toList) = some d ∧
      (TextOutput args → f = some (saveText fmt d.store.toData)) ∧
      (BinaryOutput args → f.isSome ∧ f = saveBinary (d.store.bitsOf bits).toAny)) := by
  unfold data2dataWrite at h
  simp only at h
  cases hp : computeParameters din.toData (parseInput (String.ofList (args.get "param".toList))) with
  | none =>
    rw [hp] at h
    simp only [Option.some.injEq, Prod.mk.injEq] at h
    refine .inl ⟨h.1.symm, h.2.symm, .inl ?_⟩
    unfold computeParameters at hp
    unfold wantedParam
    split at hp
    · cases hp
    · rename_i h1
      split at hp
      · rename_i h2
        rw [if_pos h2]
        by_contra h3
        exact h1 ⟨h2, h3⟩
      · cases hp
  | some p =>
    rw [hp] at h
    simp only at h
    rw [if_pos (by
      rcases ho with (ho | ho) | ho
      · rw [ho]; left; rw [if_neg (by decide)]
      · rw [ho]; right; rw [if_neg (by decide)]
      · right; rw [if_pos (show args.get "out-data".toList = "alta-binary".toList from ho)])] at h
    obtain ⟨d, hd, h⟩ := Option.bind_eq_some_iff.1 h
    have hd' := (data2data_eq junk din.toData _ (args.isDefined "all-values".toList) p hp).trans hd
    by_cases hb : BinaryOutput args
    · have hb' : args.get "out-data".toList = "alta-binary".toList := hb
      rw [if_pos hb'] at h
      by_cases hw : writable (args.get "output".toList) = true
      · rw [if_pos hw] at h
        obtain ⟨t, ht, h⟩ := Option.map_eq_some_iff.1 h
        simp only [Prod.mk.injEq] at h
        refine .inr ⟨h.1.symm, hw, d, hd', ?_, fun _ => ⟨by rw [← h.2]; rfl, by rw [← h.2, ht]⟩⟩
        rintro (hq | hq)
        · rw [hb'] at hq; exact absurd hq (by decide)
        · rw [hb'] at hq; exact absurd hq (by decide)
      · rw [if_neg hw] at h
        simp only [Option.some.injEq, Prod.mk.injEq] at h
        exact .inl ⟨h.1.symm, h.2.symm, .inr ⟨hb, by simpa using hw⟩⟩
    · rw [if_neg (show ¬ args.get "out-data".toList = "alta-binary".toList from hb)] at h
      by_cases hw : writable (args.get "output".toList) = true
      · rw [if_pos hw] at h
        simp only [Option.some.injEq, Prod.mk.injEq] at h
        exact .inr ⟨h.1.symm, hw, d, hd', fun _ => h.2.symm, fun hq => absurd hq hb⟩
      · rw [if_neg hw] at h
        cases h

/-- **C87.**  A run that converts and ends with a code writes its file exactly when the code is 0; the other code is 1. -/
theorem data2data_exit (val : Dbl → ℝ) (bits : ℝ → Dbl) (fmt : ℝ → Decimal) (dir : Str) (env : Option Str)
    (fs : Str → Option (Symbols (Str → SMap → Option DataObj)))
    (gs : Str → Option (Symbols (ℕ → Par → SMap → OutPlugin))) (files : Str → Option Str) (writable : Str → Bool)
    (junk : ℕ → ℝ) (evs : List RowEvent) (args : SMap) (ha : AsksData args) (c : ℕ) (f : Option Str)
    (h : data2dataMain val bits fmt dir env fs gs files writable junk evs args = some (c, f)) :
    (c = 0 ∧ f.isSome) ∨ (c = 1 ∧ f = none) := by
  have one : ∀ {c : ℕ} {f : Option Str}, some ((1 : ℕ), (none : Option Str)) = some (c, f) →
      (c = 0 ∧ f.isSome) ∨ (c = 1 ∧ f = none) := by
    intro c f h
    simp only [Option.some.injEq, Prod.mk.injEq] at h
    exact .inr ⟨h.1.symm, h.2.symm⟩
  have zero : ∀ {c : ℕ} {t : Str} {f : Option Str}, ((0 : ℕ), some t) = (c, f) →
      (c = 0 ∧ f.isSome) ∨ (c = 1 ∧ f = none) := by
    intro c t f h
    simp only [Prod.mk.injEq] at h
    exact .inl ⟨h.1.symm, by rw [← h.2]; rfl⟩
  unfold data2dataMain at h
  rw [if_neg (by rw [ha.noHelp.1]; simp), if_neg (by rw [ha.noHelp.2]; simp), if_neg (by rw [ha.input]; simp),
    if_neg (by rw [ha.output]; simp)] at h
  split at h
  · exact one h
  split at h
  · cases h
  · cases h
  unfold data2dataWrite at h
  simp only at h
  generalize (if args.get "out-data".toList = "alta-binary".toList then "vertical_segment".toList
    else args.get "out-data".toList) = cls at h
  split at h
  · exact one h
  split at h
  · obtain ⟨d, -, h⟩ := Option.bind_eq_some_iff.1 h
    split at h
    · split at h
      · obtain ⟨t, -, h⟩ := Option.map_eq_some_iff.1 h
        exact zero h
      · exact one h
    · split at h
      · exact zero (Option.some.inj h)
      · cases h
  · split at h
    · cases h
    · exact one h
    · obtain ⟨d, -, h⟩ := Option.bind_eq_some_iff.1 h
      split at h
      · exact zero (Option.some.inj h)
      · cases h

/-- **C87.**  A run that writes one of ALTA's text files: the file holds the converted samples of the input, as they are
    printed, and is loaded as such. -/
theorem data2data_text_file (val : Dbl → ℝ) (bits : ℝ → Dbl) (fmt : ℝ → Decimal)
    (hfmt : ∀ v, (fmt v).ip ≠ [] ∨ (fmt v).fp ≠ []) (dir : Str) (env : Option Str)
    (fs : Str → Option (Symbols (Str → SMap → Option DataObj)))
    (gs : Str → Option (Symbols (ℕ → Par → SMap → OutPlugin))) (files : Str → Option Str) (writable : Str → Bool)
    (junk : ℕ → ℝ) (evs : List RowEvent) (args : SMap) (ha : AsksData args) (ho : TextOutput args) (content : Str)
    (hf : files (args.get "input".toList) = some content) (din : DataObj)
    (hl : loadDataStream val dir env fs (args.get "in-data".toList) content
      (args.update "filename".toList (args.get "input".toList)) = some (some din))
    (hs : din.toData.Sampled) (hn : (wantedParam args din.toData).Named) (f : Option Str)
    (h : data2dataMain val bits fmt dir env fs gs files writable junk evs args = some (0, f)) :
    ∃ d : Data, ConvertedData args din.toData d ∧ f = some (saveText fmt d) ∧
      -- and, when the numbers are not too large,
      ((∀ r ∈ d.rows, ∀ v ∈ r, |((fmt v).value : ℝ)| ≤ ((fltMax : ℚ) : ℝ)) →
        ∀ (files' : Str → Option Str) (name type : Str), type = [] ∨ type = "vertical_segment".toList →
          files' name = f → loadDataFile val dir env fs files' name type = some (some (.ofData (d.printedBy fmt)))) := by
  rw [data2dataMain_loaded val bits fmt dir env fs gs files writable junk evs args ha content hf din hl] at h
  rcases data2dataWrite_default bits fmt dir env gs writable junk evs args din (.inl ho) 0 f h with ⟨h0, -⟩ | ⟨-, -, d, hd, ht, -⟩
  · cases h0
  obtain ⟨hc, hsd⟩ := data2data_converted junk din.toData args hs hn d hd
  refine ⟨d.store.toData, hc, ht ho, ?_⟩
  intro hfin files' name type htype hf'
  rw [ht ho] at hf'
  have hpos : 0 < d.store.toData.dimX := by
    rw [hc.dimX, inputDim_eq _ hn]
    revert hn
    generalize wantedParam args din.toData = p
    intro hn
    cases p <;> first | decide | exact absurd hn (by decide)
  exact loadDataFile_saved val fmt hfmt dir env fs files' name type htype _ hf' (by omega) hsd hfin
    (.inl (by rw [hc.input]; exact hn))

/-- The numbers of a data set, as bits and back. -/
def Data.stored (val : Dbl → ℝ) (bits : ℝ → Dbl) (d : Data) : Data :=
  { d with rows := d.rows.map fun r => r.map fun v => val (bits v) }

theorem reals_bitsOf (val : Dbl → ℝ) (bits : ℝ → Dbl) (s : Store ℝ) :
    ((s.bitsOf bits).reals val).toData = s.toData.stored val bits := by
  unfold Store.toData Data.stored Store.reals Store.bitsOf
  simp only [List.map_map]
  congr 1
  apply List.map_congr_left
  intro i hi
  have hi : i < s.size := List.mem_range.1 hi
  simp only [Store.get, if_pos hi, Option.getD_some, Function.comp_apply, Store.columns, List.map_take, List.map_drop]
  rfl

/-- **C87.**  A run that writes one of ALTA's binary files: the file holds the converted samples of the input, and is loaded as
    such, unless its first byte is the character `#` (C22). -/
theorem data2data_binary_file (val : Dbl → ℝ) (bits : ℝ → Dbl) (fmt : ℝ → Decimal) (dir : Str) (env : Option Str)
    (fs : Str → Option (Symbols (Str → SMap → Option DataObj)))
    (gs : Str → Option (Symbols (ℕ → Par → SMap → OutPlugin))) (files : Str → Option Str) (writable : Str → Bool)
    (junk : ℕ → ℝ) (evs : List RowEvent) (args : SMap) (ha : AsksData args) (ho : BinaryOutput args) (content : Str)
    (hf : files (args.get "input".toList) = some content) (din : DataObj)
    (hl : loadDataStream val dir env fs (args.get "in-data".toList) content
      (args.update "filename".toList (args.get "input".toList)) = some (some din))
    (hs : din.toData.Sampled) (hn : (wantedParam args din.toData).Named) (hy : 0 < din.par.dimY) (f : Option Str)
    (h : data2dataMain val bits fmt dir env fs gs files writable junk evs args = some (0, f)) :
    ∃ d : Data, ConvertedData args din.toData d ∧ f.isSome ∧
      ((∀ r ∈ d.rows.head?, ∀ v ∈ r.head?, (bits v).toNat % 256 ≠ '#'.toNat) →
        ∀ (file : Str), f = some file → ∀ (type : Str) (args' : SMap), type = [] ∨ type = "vertical_segment".toList →
          loadDataStream val dir env fs type file args' = some (some (.ofData (d.stored val bits)))) := by
  rw [data2dataMain_loaded val bits fmt dir env fs gs files writable junk evs args ha content hf din hl] at h
  rcases data2dataWrite_default bits fmt dir env gs writable junk evs args din (.inr ho) 0 f h with ⟨h0, -⟩ | ⟨-, -, d, hd, -, ht⟩
  · cases h0
  obtain ⟨hc, hsd⟩ := data2data_converted junk din.toData args hs hn d hd
  obtain ⟨hwf, -⟩ := data2data_wf junk din.toData _ _ hs hn d hd
  refine ⟨d.store.toData, hc, (ht ho).1, ?_⟩
  intro hfirst file hfile type args' htype
  have hpos : 0 < d.store.dimX := by
    have hdx : d.store.dimX = _ := hc.dimX
    rw [hdx, inputDim_eq _ hn]
    revert hn
    generalize wantedParam args din.toData = p
    intro hn
    cases p <;> first | decide | exact absurd hn (by decide)
  have hdy : d.store.dimY = din.par.dimY := hc.dimY
  obtain ⟨file', e1, e2⟩ := binary_round_trip_partial (d.store.bitsOf bits)
    (by show (d.store.raw.map bits).length = _; rw [List.length_map]; exact hwf) hpos (by show 0 < d.store.dimY; omega)
    (.inl (by show d.store.input.Named; have : d.store.input = _ := hc.input; rw [this]; exact hn))
    (by
      intro b r hb
      have hb' : d.store.raw.map bits = b :: r := hb
      cases hraw : d.store.raw with
      | nil => rw [hraw] at hb'; cases hb'
      | cons v w =>
        rw [hraw, List.map_cons] at hb'
        have hv : bits v = b := (List.cons.inj hb').1
        rw [← hv]
        have hsz : 0 < d.store.size := by
          by_contra h0
          have h1 : d.store.raw.length = d.store.size * d.store.columns := hwf
          rw [hraw, Nat.le_zero.1 (not_lt.1 h0)] at h1
          simp at h1
        have h0 : d.store.toData.rows.head? = some ((v :: w).take (d.store.dimX + d.store.dimY)) := by
          rw [List.head?_eq_getElem?, toData_get d.store 0 hsz _ (by rw [Store.get, if_pos hsz, Nat.zero_mul, List.drop_zero, hraw])]
        refine hfirst _ h0 v ?_
        obtain ⟨k, hk⟩ : ∃ k, d.store.dimX + d.store.dimY = k + 1 := ⟨d.store.dimX + d.store.dimY - 1, by omega⟩
        rw [hk]
        simp)
  have hfile' : file' = file := by
    have := (ht ho).2
    rw [hfile, e1] at this
    exact (Option.some.inj this).symm
  subst hfile'
  unfold loadDataStream
  rw [if_pos htype]
  unfold loadDataBinary at e2
  revert e2
  generalize parseHeader file' = q
  obtain ⟨hh, rest⟩ := q
  intro e2
  simp only at e2 ⊢
  split at e2
  · rename_i hb
    rw [if_pos hb, e2, Option.map_some, reals_bitsOf]
  · cases e2

end
end Alta
