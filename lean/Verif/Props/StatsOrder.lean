import Verif.Props.Samplewise
import Verif.Props.Fit2StatMain
import Verif.Props.Data2StatsRun
/-
C96: the statistics of a file of data whose samples are in another order, or all there twice.
-/
namespace Alta
noncomputable section

/-! ### The statistics of lists of errors -/

theorem normInf_perm {a b : List ℝ} (h : a.Perm b) : normInf a = normInf b := by
  unfold normInf
  refine h.foldl_eq' (fun x _ y _ m => ?_) 0
  rw [max_assoc, max_assoc, max_comm |x|]

theorem normInf_twice (a : List ℝ) : normInf (a ++ a) = normInf a := by
  unfold normInf
  rw [List.foldl_append]
  have := maxError_pull a (a.foldl (fun m x => max m |x|) 0) 0
  have h0 : (0 : ℝ) ≤ a.foldl (fun m x => max m |x|) 0 := by
    have := maxError_max a 0
    unfold maxError at this
    rw [this]
    exact le_max_left _ _
  unfold maxError at this
  rw [max_eq_left h0, max_self] at this
  exact this

theorem statsOf_perm (n s : ℕ) (e e' : ℕ → List ℝ) (h : ∀ c, (e c).Perm (e' c)) : statsOf n s e = statsOf n s e' := by
  unfold statsOf
  have h1 : ∀ (q : ℝ → ℝ) c, ((e c).map q).sum = ((e' c).map q).sum := fun q c => ((h c).map q).sum_eq
  simp only [h1, fun c => normInf_perm (h c)]

theorem meanOver_perm {d e : Data} (h : d.rows.Perm e.rows) (q : List ℝ → ℝ) : meanOver e q = meanOver d q := by
  unfold meanOver
  rw [(h.map q).sum_eq, h.length_eq]

theorem twice_mean (s : ℝ) (n : ℕ) : (s + s) / ((n + n : ℕ) : ℝ) = s / (n : ℝ) := by
  rcases Nat.eq_zero_or_pos n with rfl | hn
  · simp
  · have : (n : ℝ) ≠ 0 := by positivity
    push_cast
    field_simp

theorem meanOver_twice {d e : Data} (h : e.rows = d.rows ++ d.rows) (q : List ℝ → ℝ) : meanOver e q = meanOver d q := by
  unfold meanOver
  rw [h, List.map_append, List.sum_append, List.length_append, twice_mean]

/-- The statistics that are means or maxima. -/
def IsMeanOrMax (name : Str) : Prop := name ≠ "L1".toList ∧ name ≠ "L2".toList ∧ name ≠ "L3".toList

theorem statsOf_twice (n s : ℕ) (e e' : ℕ → List ℝ) (h : ∀ c, e' c = e c ++ e c) (x : Str × List ℝ) (hx : IsMeanOrMax x.1) :
    x ∈ statsOf n (s + s) e' ↔ x ∈ statsOf n s e := by
  have h1 : ∀ c, ((e' c).map fun v : ℝ => v ^ 2).sum / ((s + s : ℕ) : ℝ) = ((e c).map fun v : ℝ => v ^ 2).sum / (s : ℝ) := by
    intro c
    rw [h, List.map_append, List.sum_append, twice_mean]
  have h2 : ∀ c, normInf (e' c) = normInf (e c) := fun c => by rw [h, normInf_twice]
  obtain ⟨name, v⟩ := x
  obtain ⟨a1, a2, a3⟩ := hx
  simp only at a1 a2 a3
  unfold statsOf
  simp only [List.mem_cons, List.not_mem_nil, or_false, Prod.mk.injEq, a1, a2, a3, false_and, false_or, h1, h2]

theorem printedStats_mem (fmt : ℝ → Decimal) (l l' : List (Str × List ℝ))
    (h : ∀ y : Str × List ℝ, IsMeanOrMax y.1 → (y ∈ l ↔ y ∈ l')) (x : Str × List ℝ) (hx : IsMeanOrMax x.1) :
    x ∈ printedStats fmt l ↔ x ∈ printedStats fmt l' := by
  unfold printedStats
  simp only [List.mem_map]
  constructor
  · rintro ⟨y, hy, rfl⟩
    exact ⟨y, (h y hx).1 hy, rfl⟩
  · rintro ⟨y, hy, rfl⟩
    exact ⟨y, (h y hx).2 hy, rfl⟩

/-! ### fit2stat -/

theorem SameShape.error {d e : Data} (h : SameShape d e) (g : Evaluable) : g.error e = g.error d := by
  funext row i
  unfold Evaluable.error Evaluable.abscissa
  rw [h.dimX, h.input]

theorem SameShape.directions {d e : Data} (h : SameShape d e) (g : Evaluable) : g.directions e = g.directions d := by
  funext row
  unfold Evaluable.directions Evaluable.abscissa
  rw [h.input]

/-- Data with the same samples can be compared with the same functions. -/
theorem StatComparable.of_shape {g : Evaluable} {d e : Data} (h : StatComparable g d) (hs : SameShape d e)
    (hr : ∀ row ∈ e.rows, row ∈ d.rows) : StatComparable g e := by
  have ha : ∀ row, g.abscissa e row = g.abscissa d row := fun row => by unfold Evaluable.abscissa; rw [hs.input]
  obtain ⟨⟨h1, h2, h3⟩, h4⟩ := h
  refine ⟨⟨by rw [hs.dimY]; exact h1, ?_, ?_⟩, by rw [hs.input, hs.output, hs.dimX]; exact h4⟩
  · intro row hrow
    rw [hs.dimX, hs.dimY]
    exact h2 row (hr row hrow)
  · intro row hrow
    rw [ha]
    exact h3 row (hr row hrow)

theorem fitStatsOf_perm {d e : Data} (hs : SameShape d e) (hp : d.rows.Perm e.rows) (f : List ℝ → ℕ → ℝ) (w w' : List ℝ → ℝ) :
    fitStatsOf e f w w' = fitStatsOf d f w w' := by
  unfold fitStatsOf weightedStats
  simp only [meanOver_perm hp, hs.dimY, ← hp.length_eq]
  rw [statsOf_perm _ _ _ _ fun c => hp.symm.map fun row => f row c]

theorem fitStatsOf_twice {d e : Data} (hs : SameShape d e) (hp : e.rows = d.rows ++ d.rows) (f : List ℝ → ℕ → ℝ)
    (w w' : List ℝ → ℝ) (x : Str × List ℝ) (hx : IsMeanOrMax x.1) : x ∈ fitStatsOf e f w w' ↔ x ∈ fitStatsOf d f w w' := by
  unfold fitStatsOf weightedStats
  simp only [meanOver_twice hp, hs.dimY, List.mem_append]
  have hl : e.rows.length = d.rows.length + d.rows.length := by rw [hp, List.length_append]
  rw [hl, statsOf_twice _ _ _ _ (fun c => by rw [hp, List.map_append]) x hx]

/-- **C96.**  `fit2stat` on a file with its samples in another order writes the same statistics. -/
theorem fit2stat_reordered (val : Dbl → ℝ) (junk : ℝ) (fmt : ℝ → Decimal) (hfmt : ∀ v, (fmt v).ip ≠ [] ∨ (fmt v).fp ≠ [])
    (dir : Str) (env : Option Str) (ff : Str → Option (Symbols (Provider LobeObj))) (files files' : Str → Option Str)
    (writable : Str → Bool) (args : SMap) (ha : AsksFitStats args writable) (a b text : Str)
    (hf : files (args.get "input".toList) = some a) (hf' : files' (args.get "input".toList) = some b)
    (hg : files (args.get "brdf".toList) = some text) (hg' : files' (args.get "brdf".toList) = some text) (d e : Segments)
    (hd : loadDataText a (args.update "filename".toList (args.get "input".toList)) = some d)
    (he : loadDataText b (args.update "filename".toList (args.get "input".toList)) = some e) (hre : Reordered d e)
    (f : AnyFn) (hload : loadAny junk dir env ff text = some (some f))
    (h : StatComparable f.evaluable d.store.toData) (hne : d.store.toData.rows ≠ []) (hn : 0 < d.store.dimY)
    (hc : f.evaluable.par.input = .CARTESIAN) (hx : f.evaluable.par.dimX = 6) :
    ∃ file file', fit2statMain val junk fmt dir env ff files writable args = (some 0, some file) ∧
      fit2statMain val junk fmt dir env ff files' writable args = (some 0, some file') ∧
      readFitStats file' = readFitStats file := by
  have s : SameShape d.store.toData e.store.toData := sameLayout_shape hre.layout
  have hp := hre.rows
  obtain ⟨t, t1, t2⟩ := fit2stat_file val junk fmt hfmt dir env ff files writable args ha a text hf hg d.store.toData
    (loadDataStream_text val dir env _ _ (.inr rfl) a _ d hd) f hload h hne hn hc hx
  obtain ⟨u, u1, u2⟩ := fit2stat_file val junk fmt hfmt dir env ff files' writable args ha b text hf' hg' e.store.toData
    (loadDataStream_text val dir env _ _ (.inr rfl) b _ e he) f hload (h.of_shape s fun row hr => hp.mem_iff.2 hr)
    (fun h0 => hne (List.Perm.eq_nil (h0 ▸ hp))) (by rw [s.dimY]; exact hn) hc hx
  refine ⟨t, u, t1, u1, ?_⟩
  rw [t2, u2, s.error, s.directions, fitStatsOf_perm s hp]

/-- **C96.**  `fit2stat` on a file where all the samples are there twice writes the same means and maxima. -/
theorem fit2stat_twice (val : Dbl → ℝ) (junk : ℝ) (fmt : ℝ → Decimal) (hfmt : ∀ v, (fmt v).ip ≠ [] ∨ (fmt v).fp ≠ [])
    (dir : Str) (env : Option Str) (ff : Str → Option (Symbols (Provider LobeObj))) (files files' : Str → Option Str)
    (writable : Str → Bool) (args : SMap) (ha : AsksFitStats args writable) (a b text : Str)
    (hf : files (args.get "input".toList) = some a) (hf' : files' (args.get "input".toList) = some b)
    (hg : files (args.get "brdf".toList) = some text) (hg' : files' (args.get "brdf".toList) = some text) (d e : Segments)
    (hd : loadDataText a (args.update "filename".toList (args.get "input".toList)) = some d)
    (he : loadDataText b (args.update "filename".toList (args.get "input".toList)) = some e)
    (hl : SameLayout e d) (hs : e.samples = d.samples ++ d.samples)
    (f : AnyFn) (hload : loadAny junk dir env ff text = some (some f))
    (h : StatComparable f.evaluable d.store.toData) (hne : d.store.toData.rows ≠ []) (hn : 0 < d.store.dimY)
    (hc : f.evaluable.par.input = .CARTESIAN) (hx : f.evaluable.par.dimX = 6) :
    ∃ file file', fit2statMain val junk fmt dir env ff files writable args = (some 0, some file) ∧
      fit2statMain val junk fmt dir env ff files' writable args = (some 0, some file') ∧
      ∀ x, IsMeanOrMax x.1 → (x ∈ readFitStats file' ↔ x ∈ readFitStats file) := by
  have s : SameShape d.store.toData e.store.toData := sameLayout_shape hl
  have hp : e.store.toData.rows = d.store.toData.rows ++ d.store.toData.rows := by
    rw [samples_rows, hs, List.map_append, ← samples_rows]
  obtain ⟨t, t1, t2⟩ := fit2stat_file val junk fmt hfmt dir env ff files writable args ha a text hf hg d.store.toData
    (loadDataStream_text val dir env _ _ (.inr rfl) a _ d hd) f hload h hne hn hc hx
  obtain ⟨u, u1, u2⟩ := fit2stat_file val junk fmt hfmt dir env ff files' writable args ha b text hf' hg' e.store.toData
    (loadDataStream_text val dir env _ _ (.inr rfl) b _ e he) f hload
    (h.of_shape s fun row hr => by rw [hp] at hr; simpa using hr)
    (fun h0 => hne (by rw [hp] at h0; exact (List.append_eq_nil_iff.1 h0).1)) (by rw [s.dimY]; exact hn) hc hx
  refine ⟨t, u, t1, u1, fun x hm => ?_⟩
  rw [t2, u2, s.error, s.directions]
  exact printedStats_mem fmt _ _ (fun y hy => fitStatsOf_twice s hp _ _ _ y hy) x hm

/-! ### data2stats -/

theorem Comparable.of_rows {inp : InpData} {ref ref' : RefData} (h : Comparable inp ref) (hx : ref'.nX = ref.nX)
    (hy : ref'.nY = ref.nY) (hi : ref'.input = ref.input) (hr : ∀ row ∈ ref'.rows, row ∈ ref.rows) : Comparable inp ref' := by
  obtain ⟨h1, h2, h3⟩ := h
  refine ⟨?_, ?_, ?_⟩
  · intro row hrow
    rw [hx, hy]
    exact h1 row (hr row hrow)
  · intro row hrow
    rw [hx, hi]
    exact h2 row (hr row hrow)
  · intro row hrow cart
    rw [hx, hi, hy]
    exact h3 row (hr row hrow) cart

theorem errorAt_ref {inp : InpData} {ref ref' : RefData} (hx : ref'.nX = ref.nX) (hi : ref'.input = ref.input) :
    errorAt inp ref' = errorAt inp ref := by
  funext row c
  unfold errorAt
  rw [hx, hi]

/-- **C96.**  `data2stats` with the samples of the reference in another order writes the same statistics. -/
theorem data2stats_reordered (val : Dbl → ℝ) (fmt : ℝ → Decimal) (hfmt : ∀ v, (fmt v).ip ≠ [] ∨ (fmt v).fp ≠ []) (dir : Str)
    (env : Option Str) (fs : Str → Option (Symbols (Str → SMap → Option DataObj))) (files files' : Str → Option Str)
    (writable : Str → Bool) (args : SMap) (ha : AsksStats args writable) (input : DataObj)
    (hi : loadDataFile val dir env fs files (args.get "input".toList) (args.get "in-data".toList) = some (some input))
    (hi' : loadDataFile val dir env fs files' (args.get "input".toList) (args.get "in-data".toList) = some (some input))
    (ht : args.get "ref-data".toList = [] ∨ args.get "ref-data".toList = "vertical_segment".toList) (a b : Str)
    (hf : files (args.get "ref".toList) = some a) (hf' : files' (args.get "ref".toList) = some b) (d e : Segments)
    (hd : loadDataText a (SMap.update [] "filename".toList (args.get "ref".toList)) = some d)
    (he : loadDataText b (SMap.update [] "filename".toList (args.get "ref".toList)) = some e) (hre : Reordered d e)
    (hn : 0 < d.store.dimY) (h : Comparable input.inp (DataObj.ofData d.store.toData).ref) :
    ∃ file file', data2stats val fmt dir env fs files writable args = some (0, some file) ∧
      data2stats val fmt dir env fs files' writable args = some (0, some file') ∧ readStats file' = readStats file := by
  have s : SameShape d.store.toData e.store.toData := sameLayout_shape hre.layout
  have hp := hre.rows
  obtain ⟨t, t1, t2⟩ := data2stats_run val fmt hfmt dir env fs files writable args ha input _ hi
    (by unfold loadDataFile; rw [hf]; exact loadDataStream_text val dir env fs _ ht a _ d hd) hn h
  obtain ⟨u, u1, u2⟩ := data2stats_run val fmt hfmt dir env fs files' writable args ha input (.ofData e.store.toData) hi'
    (by unfold loadDataFile; rw [hf']; exact loadDataStream_text val dir env fs _ ht b _ e he)
    (by show 0 < e.store.toData.dimY; rw [s.dimY]; exact hn)
    (h.of_rows s.dimX s.dimY s.input fun row hr => hp.mem_iff.2 hr)
  refine ⟨t, u, t1, u1, ?_⟩
  rw [t2, u2]
  show printedStats fmt (statsOf e.store.toData.dimY e.store.toData.rows.length _) =
    printedStats fmt (statsOf d.store.toData.dimY d.store.toData.rows.length _)
  rw [s.dimY, ← hp.length_eq]
  congr 1
  refine statsOf_perm _ _ _ _ fun c => ?_
  unfold errorsOf
  rw [errorAt_ref (inp := input.inp) (ref := (DataObj.ofData d.store.toData).ref)
    (ref' := (DataObj.ofData e.store.toData).ref) s.dimX s.input]
  exact hp.symm.map _

/-- **C96.**  `data2stats` with the samples of the reference there twice writes the same means and maxima. -/
theorem data2stats_twice (val : Dbl → ℝ) (fmt : ℝ → Decimal) (hfmt : ∀ v, (fmt v).ip ≠ [] ∨ (fmt v).fp ≠ []) (dir : Str)
    (env : Option Str) (fs : Str → Option (Symbols (Str → SMap → Option DataObj))) (files files' : Str → Option Str)
    (writable : Str → Bool) (args : SMap) (ha : AsksStats args writable) (input : DataObj)
    (hi : loadDataFile val dir env fs files (args.get "input".toList) (args.get "in-data".toList) = some (some input))
    (hi' : loadDataFile val dir env fs files' (args.get "input".toList) (args.get "in-data".toList) = some (some input))
    (ht : args.get "ref-data".toList = [] ∨ args.get "ref-data".toList = "vertical_segment".toList) (a b : Str)
    (hf : files (args.get "ref".toList) = some a) (hf' : files' (args.get "ref".toList) = some b) (d e : Segments)
    (hd : loadDataText a (SMap.update [] "filename".toList (args.get "ref".toList)) = some d)
    (he : loadDataText b (SMap.update [] "filename".toList (args.get "ref".toList)) = some e)
    (hl : SameLayout e d) (hs : e.samples = d.samples ++ d.samples)
    (hn : 0 < d.store.dimY) (h : Comparable input.inp (DataObj.ofData d.store.toData).ref) :
    ∃ file file', data2stats val fmt dir env fs files writable args = some (0, some file) ∧
      data2stats val fmt dir env fs files' writable args = some (0, some file') ∧
      ∀ x, IsMeanOrMax x.1 → (x ∈ readStats file' ↔ x ∈ readStats file) := by
  have s : SameShape d.store.toData e.store.toData := sameLayout_shape hl
  have hp : e.store.toData.rows = d.store.toData.rows ++ d.store.toData.rows := by
    rw [samples_rows, hs, List.map_append, ← samples_rows]
  obtain ⟨t, t1, t2⟩ := data2stats_run val fmt hfmt dir env fs files writable args ha input _ hi
    (by unfold loadDataFile; rw [hf]; exact loadDataStream_text val dir env fs _ ht a _ d hd) hn h
  obtain ⟨u, u1, u2⟩ := data2stats_run val fmt hfmt dir env fs files' writable args ha input (.ofData e.store.toData) hi'
    (by unfold loadDataFile; rw [hf']; exact loadDataStream_text val dir env fs _ ht b _ e he)
    (by show 0 < e.store.toData.dimY; rw [s.dimY]; exact hn)
    (h.of_rows s.dimX s.dimY s.input fun row (hr : row ∈ e.store.toData.rows) => by
      rw [hp] at hr
      rcases List.mem_append.1 hr with h | h <;> exact h)
  refine ⟨t, u, t1, u1, fun x hx => ?_⟩
  rw [t2, u2]
  refine printedStats_mem fmt _ _ (fun y hy => ?_) x hx
  show y ∈ statsOf e.store.toData.dimY e.store.toData.rows.length _ ↔
    y ∈ statsOf d.store.toData.dimY d.store.toData.rows.length _
  rw [s.dimY, hp, List.length_append]
  refine statsOf_twice _ _ _ _ (fun c => ?_) y hy
  unfold errorsOf
  rw [errorAt_ref (inp := input.inp) (ref := (DataObj.ofData d.store.toData).ref)
    (ref' := (DataObj.ofData e.store.toData).ref) s.dimX s.input]
  show (e.store.toData.rows.map _) = d.store.toData.rows.map _ ++ d.store.toData.rows.map _
  rw [hp, List.map_append]

end
end Alta
