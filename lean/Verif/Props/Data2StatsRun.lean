import Verif.Props.Data2Stats
/-
C80: runs of the command data2stats.
-/
namespace Alta
noncomputable section

/-- The metrics of `errors::compute` are the statistics of the errors. -/
theorem data2stats_metrics (input ref : DataObj) (h : Comparable input.inp ref.ref) :
    ∃ m, data2statsMetrics input ref = some m ∧
      m.named = statsOf ref.par.dimY ref.rows.length (errorsOf input.inp ref.ref) := by
  obtain ⟨m, h0, h1, h2, h3, h4, h5, h6⟩ := metrics_value input.inp ref.ref h
  refine ⟨m, h0, ?_⟩
  unfold Metrics.named statsOf
  rw [h1, h2, h3, h4, h6, h5, List.map_map]
  rfl

/-- The options of a run that asks for a file. -/
structure AsksStats (args : SMap) (writable : Str → Bool) : Prop where
  noHelp : args.isDefined "help".toList = false ∧ args.isDefined "h".toList = false
  ref : args.isDefined "ref".toList = true
  input : args.isDefined "input".toList = true
  output : args.isDefined "output".toList = true ∧ args.get "output".toList ≠ [] ∧
    writable (args.get "output".toList) = true
  /-- the arguments have no end of line -/
  oneLine : '\n' ∉ args.getCmd

/-- **C80.**  When both files are loaded and can be compared, the program ends with the code 0 and its file, read again, has the
    statistics of the differences between the values of the input at the abscissae of the reference and the values of the
    reference. -/
theorem data2stats_run (val : Dbl → ℝ) (fmt : ℝ → Decimal) (hfmt : ∀ v, (fmt v).ip ≠ [] ∨ (fmt v).fp ≠ []) (dir : Str)
    (env : Option Str) (fs : Str → Option (Symbols (Str → SMap → Option DataObj))) (files : Str → Option Str)
    (writable : Str → Bool) (args : SMap) (ha : AsksStats args writable) (input ref : DataObj)
    (hi : loadDataFile val dir env fs files (args.get "input".toList) (args.get "in-data".toList) = some (some input))
    (hr : loadDataFile val dir env fs files (args.get "ref".toList) (args.get "ref-data".toList) = some (some ref))
    (hn : 0 < ref.par.dimY) (h : Comparable input.inp ref.ref) :
    ∃ file, data2stats val fmt dir env fs files writable args = some (0, some file) ∧
      readStats file = printedStats fmt (statsOf ref.par.dimY ref.rows.length (errorsOf input.inp ref.ref)) := by
  obtain ⟨m, hm, he⟩ := data2stats_metrics input ref h
  refine ⟨statsFile fmt args ref.par m, ?_, ?_⟩
  · unfold data2stats
    rw [if_neg (by rw [ha.noHelp.1, ha.noHelp.2]; simp), if_neg (by rw [ha.ref]; simp), if_neg (by rw [ha.input]; simp)]
    simp only [hi, hr, hm, Option.map_some]
    rw [if_neg (by rw [ha.output.1]; simpa using ha.output.2.1), if_pos ha.output.2.2]
  · rw [statsFile_read fmt hfmt args ha.oneLine ref.par m, he]
    rw [he]
    intro s hs
    have hne : ∀ f : ℕ → ℝ, (List.range ref.par.dimY).map f ≠ [] := by
      intro f e
      have := congrArg List.length e
      simp at this
      omega
    simp only [statsOf, List.mem_cons, List.not_mem_nil, or_false] at hs
    rcases hs with rfl | rfl | rfl | rfl | rfl | rfl <;> exact hne _

/-! ### Loading a reference that was saved as text -/

/-- The numbers of a data set as they are printed. -/
def Data.printedBy (fmt : ℝ → Decimal) (d : Data) : Data :=
  { d with rows := d.rows.map fun r => r.map fun v => ((fmt v).value : ℝ) }

theorem filename_plain (name : Str) : PlainArgs (SMap.update [] "filename".toList name) := by
  have key : ∀ f k : Str, f ≠ k → SMap.isDefined (SMap.update [] f name) k = false := by
    intro f k hk
    unfold SMap.isDefined
    rw [SMap.find_update SMap.ordered_nil, if_neg (fun h => hk h.symm)]
    rfl
  constructor <;> exact key _ _ (by decide)

/-- A file written by the text save is loaded with its numbers as they were printed. -/
theorem loadDataFile_saved (val : Dbl → ℝ) (fmt : ℝ → Decimal) (hfmt : ∀ v, (fmt v).ip ≠ [] ∨ (fmt v).fp ≠ []) (dir : Str)
    (env : Option Str) (fs : Str → Option (Symbols (Str → SMap → Option DataObj))) (files : Str → Option Str) (name type : Str)
    (ht : type = [] ∨ type = "vertical_segment".toList) (d : Data) (hf : files name = some (saveText fmt d))
    (hdim : 0 < d.dimX + d.dimY) (hrows : ∀ r ∈ d.rows, r.length = d.dimX + d.dimY)
    (hfin : ∀ r ∈ d.rows, ∀ v ∈ r, |((fmt v).value : ℝ)| ≤ ((fltMax : ℚ) : ℝ))
    (hin : d.input.Named ∨ d.input = .UNKNOWN_INPUT) :
    loadDataFile val dir env fs files name type = some (some (.ofData (d.printedBy fmt))) := by
  obtain ⟨l, h1, -, h3, h4, h5, h6, h7, h8⟩ := text_round_trip fmt hfmt d hdim hrows hfin hin _ (filename_plain name)
  have hd : l.store.toData = d.printedBy fmt := by
    unfold Store.toData Data.printedBy
    rw [h3, h4, h5, h6, h7]
    congr 1
    apply List.ext_getElem (by simp)
    intro i a1 a2
    have hi : i < d.rows.length := by simpa using a1
    have := (h8 i _ (List.getElem?_eq_getElem hi)).1
    simp only [List.getElem_map, List.getElem_range, this, Option.getD_some]
  unfold loadDataFile
  simp only [hf]
  unfold loadDataStream
  rw [if_pos ht]
  unfold loadDataText at h1
  revert h1
  generalize parseHeader (saveText fmt d) = q
  intro h1
  obtain ⟨hh, rest⟩ := q
  simp only at h1 ⊢
  split at h1
  · cases h1
  · rename_i hb
    rw [if_neg hb, h1, Option.map_some, hd]

/-! ### What ends the program -/

/-- A file that is not there. -/
theorem data2stats_missing_file (val : Dbl → ℝ) (fmt : ℝ → Decimal) (dir : Str)
    (env : Option Str) (fs : Str → Option (Symbols (Str → SMap → Option DataObj))) (files : Str → Option Str)
    (writable : Str → Bool) (args : SMap) (h1 : args.isDefined "help".toList = false ∧ args.isDefined "h".toList = false)
    (hf : files (args.get "input".toList) = none) :
    data2stats val fmt dir env fs files writable args = some (1, none) := by
  unfold data2stats
  rw [if_neg (by rw [h1.1, h1.2]; simp)]
  split
  · rfl
  · split
    · rfl
    · have : loadDataFile val dir env fs files (args.get "input".toList) (args.get "in-data".toList) = some none := by
        unfold loadDataFile; rw [hf]
      simp only [this]

/-- A run that ends with another code than 0 writes nothing, and the code is then 1. -/
theorem data2stats_failure (val : Dbl → ℝ) (fmt : ℝ → Decimal) (dir : Str)
    (env : Option Str) (fs : Str → Option (Symbols (Str → SMap → Option DataObj))) (files : Str → Option Str)
    (writable : Str → Bool) (args : SMap) (c : ℕ) (f : Option Str)
    (h : data2stats val fmt dir env fs files writable args = some (c, f)) (hc : c ≠ 0) : c = 1 ∧ f = none := by
  have one : ∀ {c : ℕ} {f : Option Str}, some ((1 : ℕ), (none : Option Str)) = some (c, f) → c = 1 ∧ f = none := by
    intro c f h
    simp only [Option.some.injEq, Prod.mk.injEq] at h
    exact ⟨h.1.symm, h.2.symm⟩
  unfold data2stats at h
  split at h
  · simp only [Option.some.injEq, Prod.mk.injEq] at h
    exact absurd h.1.symm hc
  split at h
  · exact one h
  split at h
  · exact one h
  split at h
  · cases h
  · exact one h
  split at h
  · cases h
  · exact one h
  obtain ⟨m, -, h⟩ := Option.map_eq_some_iff.1 h
  split at h
  · simp only [Prod.mk.injEq] at h
    exact absurd h.1.symm hc
  split at h
  · simp only [Prod.mk.injEq] at h
    exact absurd h.1.symm hc
  · simp only [Prod.mk.injEq] at h
    exact ⟨h.1.symm, h.2.symm⟩

/-- A reference that is not there. -/
theorem data2stats_missing_reference (val : Dbl → ℝ) (fmt : ℝ → Decimal) (dir : Str)
    (env : Option Str) (fs : Str → Option (Symbols (Str → SMap → Option DataObj))) (files : Str → Option Str)
    (writable : Str → Bool) (args : SMap) (h1 : args.isDefined "help".toList = false ∧ args.isDefined "h".toList = false)
    (input : DataObj)
    (hi : loadDataFile val dir env fs files (args.get "input".toList) (args.get "in-data".toList) = some (some input))
    (hf : files (args.get "ref".toList) = none) :
    data2stats val fmt dir env fs files writable args = some (1, none) := by
  unfold data2stats
  rw [if_neg (by rw [h1.1, h1.2]; simp)]
  split
  · rfl
  · split
    · rfl
    · have : loadDataFile val dir env fs files (args.get "ref".toList) (args.get "ref-data".toList) = some none := by
        unfold loadDataFile; rw [hf]
      simp only [hi, this]

/-- Limit of C80: an input of the default class cannot be compared with anything: as soon as a sample of the reference counts,
    the program is ended by an exception. -/
theorem data2stats_default_input (d : Data) (ref : DataObj) (hn : 0 < ref.par.dimY) (row : List ℝ) (rows : List (List ℝ))
    (hr : ref.rows = row :: rows) (cart : List ℝ)
    (hc : convertInput (arr (row.take ref.par.dimX)) ref.par.input .CARTESIAN = some cart)
    (hb : ¬ (arr cart 2 < 0 ∧ arr cart 5 < 0)) : data2statsMetrics (.ofData d) ref = none := by
  have hr' : ref.ref.rows = row :: rows := hr
  have hc' : convertInput (arr (row.take ref.ref.nX)) ref.ref.input .CARTESIAN = some cart := hc
  unfold data2statsMetrics computeMetrics
  simp only
  rw [hr', evaluateLoop]
  have : ∀ M, evaluateRow (DataObj.ofData d).inp ref.ref none 0 row M = none := by
    intro M
    unfold evaluateRow
    rw [if_neg (by simp [skipped]), hc']
    simp only
    rw [if_pos (by simpa only [not_and_or, not_lt, ge_iff_le] using hb)]
    cases convertInput (arr cart) .CARTESIAN (DataObj.ofData d).inp.input with
    | none => rfl
    | some x =>
      have hz : setRow M.1 ref.ref.nY 0 ((DataObj.ofData d).inp.value x) = none := by
        unfold setRow
        apply if_neg
        rintro ⟨-, h⟩
        have : (0 : ℕ) = ref.par.dimY := h
        omega
      simp only [hz]
      split
      · rename_i h1 h2
        cases h2
      · rfl
  rw [this]
  rfl

end
end Alta
