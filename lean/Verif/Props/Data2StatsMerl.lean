import Verif.Props.Plugins
import Verif.Props.MerlStats
import Verif.Props.RationalFile
/-
C80: the command data2stats on MERL files, from the bytes of the files to those of the statistics.
-/
namespace Alta
noncomputable section

theorem loadDataFile_plugin (val : Dbl → ℝ) (dir : Str) (env : Option Str)
    (fs : Str → Option (Symbols (Str → SMap → Option DataObj))) (files : Str → Option Str) (name type : Str)
    (ht : type ≠ [] ∧ type ≠ "vertical_segment".toList) (content : Str) (hf : files name = some content)
    (load : Str → SMap → Option DataObj) (hl : openLibrary dir env fs type "load_data".toList = some (some load)) (d : DataObj)
    (hd : ∀ args, load content args = some d) :
    loadDataFile val dir env fs files name type = some (some d) := by
  unfold loadDataFile loadDataStream
  simp only [hf]
  rw [if_neg (by rintro (h | h); exacts [ht.1 h, ht.2 h])]
  simp only [hl, hd, Option.map_some]

/-- The statistics of errors that are all zero. -/
theorem statsOf_zero (n size : ℕ) (err : ℕ → List ℝ) (h : ∀ c < n, ∀ e ∈ err c, e = 0) :
    ∀ s ∈ statsOf n size err, s.2 = List.replicate n 0 := by
  have key : ∀ f : ℕ → ℝ, (∀ c < n, f c = 0) → (List.range n).map f = List.replicate n 0 := by
    intro f hf
    rw [List.eq_replicate_iff]
    refine ⟨by simp, ?_⟩
    intro b hb
    obtain ⟨c, hc, rfl⟩ := List.mem_map.1 hb
    exact hf c (List.mem_range.1 hc)
  have sum0 : ∀ (g : ℝ → ℝ), g 0 = 0 → ∀ c < n, ((err c).map g).sum = 0 := by
    intro g hg c hc
    apply List.sum_eq_zero
    intro x hx
    obtain ⟨e, he, rfl⟩ := List.mem_map.1 hx
    rw [h c hc e he, hg]
  have s2 := sum0 (fun e => e ^ 2) (by norm_num)
  intro s hs
  simp only [statsOf, List.mem_cons, List.not_mem_nil, or_false] at hs
  rcases hs with rfl | rfl | rfl | rfl | rfl | rfl <;> apply key <;> intro c hc
  · exact sum0 _ abs_zero c hc
  · rw [s2 c hc]; exact Real.sqrt_zero
  · rw [sum0 (fun e => |e| ^ 3) (by norm_num) c hc]; exact Real.zero_rpow (by norm_num)
  · exact (norms_zero (err c)).2.2.2.2 (h c hc)
  · rw [s2 c hc]; simp
  · rw [s2 c hc]; simp

/-- **C80.**  The command on two MERL files: its file, read again, has the statistics of the differences of the colours of the
    cells, where a colour of the input with a negative channel counts as black. -/
theorem data2stats_merl (val : Dbl → ℝ) (fmt : ℝ → Decimal) (hfmt : ∀ v, (fmt v).ip ≠ [] ∨ (fmt v).fp ≠ []) (dir : Str)
    (env : Option Str) (fs : Str → Option (Symbols (Str → SMap → Option DataObj))) (files : Str → Option Str)
    (writable : Str → Bool) (args : SMap) (ha : AsksStats args writable)
    (hti : args.get "in-data".toList ≠ [] ∧ args.get "in-data".toList ≠ "vertical_segment".toList)
    (htr : args.get "ref-data".toList ≠ [] ∧ args.get "ref-data".toList ≠ "vertical_segment".toList)
    (hli : openLibrary dir env fs (args.get "in-data".toList) "load_data".toList = some (some (merlLoader val)))
    (hlr : openLibrary dir env fs (args.get "ref-data".toList) "load_data".toList = some (some (merlLoader val)))
    (ta tb : List Dbl) (hta : ta.length = 3 * merlSize) (htb : tb.length = 3 * merlSize)
    (hfi : files (args.get "input".toList) = some (merlSave ta)) (hfr : files (args.get "ref".toList) = some (merlSave tb)) :
    ∃ file, data2stats val fmt dir env fs files writable args = some (0, some file) ∧
      readStats file = printedStats fmt (statsOf 3 merlSize fun c =>
        (List.range merlSize).map fun i => arr (merlShown (ta.map val) i) c - arr (merlColour (tb.map val) i) c) := by
  have la : (ta.map val).length = 3 * merlSize := by rw [List.length_map, hta]
  have lb : (tb.map val).length = 3 * merlSize := by rw [List.length_map, htb]
  have load : ∀ t : List Dbl, t.length = 3 * merlSize → ∀ a, merlLoader val (merlSave t) a = some (merlObj (t.map val)) := by
    intro t ht a
    unfold merlLoader
    rw [merl_file_round_trip t ht, Option.map_some]
  have h1 := loadDataFile_plugin val dir env fs files _ _ hti _ hfi _ hli _ (load ta hta)
  have h2 := loadDataFile_plugin val dir env fs files _ _ htr _ hfr _ hlr _ (load tb htb)
  have hdim : (merlObj (tb.map val)).par.dimY = 3 := by simp only [merlObj]
  obtain ⟨file, e1, e2⟩ := data2stats_run val fmt hfmt dir env fs files writable args ha _ _ h1 h2 (by rw [hdim]; norm_num)
    (merl_comparable _ _ la lb)
  refine ⟨file, e1, ?_⟩
  have hrows : (merlObj (tb.map val)).rows.length = merlSize := by rw [merlObj_rows, List.length_map, List.length_range]
  have herr : errorsOf (merlObj (ta.map val)).inp (merlObj (tb.map val)).ref = fun c =>
      (List.range merlSize).map fun i => arr (merlShown (ta.map val) i) c - arr (merlColour (tb.map val) i) c :=
    funext fun c => merl_errors _ _ la lb c
  rw [e2, hdim, hrows, herr]

/-- **C80.**  A MERL file without negative channel, compared with itself: every statistic of its three channels is 0. -/
theorem data2stats_merl_self (val : Dbl → ℝ) (fmt : ℝ → Decimal) (hfmt : ∀ v, (fmt v).ip ≠ [] ∨ (fmt v).fp ≠ []) (dir : Str)
    (env : Option Str) (fs : Str → Option (Symbols (Str → SMap → Option DataObj))) (files : Str → Option Str)
    (writable : Str → Bool) (args : SMap) (ha : AsksStats args writable)
    (hti : args.get "in-data".toList ≠ [] ∧ args.get "in-data".toList ≠ "vertical_segment".toList)
    (hsame : args.get "ref-data".toList = args.get "in-data".toList)
    (hli : openLibrary dir env fs (args.get "in-data".toList) "load_data".toList = some (some (merlLoader val)))
    (t : List Dbl) (ht : t.length = 3 * merlSize) (hpos : ∀ i < merlSize, ∀ x ∈ merlColour (t.map val) i, 0 ≤ x)
    (hfi : files (args.get "input".toList) = some (merlSave t)) (hfr : files (args.get "ref".toList) = some (merlSave t))
    (h0 : (fmt 0).value = 0) :
    ∃ file, data2stats val fmt dir env fs files writable args = some (0, some file) ∧
      (readStats file).map Prod.fst = ["L1".toList, "L2".toList, "L3".toList, "LINF".toList, "MSE".toList, "RMSE".toList] ∧
      ∀ s ∈ readStats file, s.2 = [0, 0, 0] := by
  obtain ⟨file, e1, e2⟩ := data2stats_merl val fmt hfmt dir env fs files writable args ha hti (by rw [hsame]; exact hti) hli
    (by rw [hsame]; exact hli) t t ht ht hfi hfr
  refine ⟨file, e1, by rw [e2]; rfl, ?_⟩
  rw [e2]
  intro s hs
  obtain ⟨s', hs', rfl⟩ := List.mem_map.1 hs
  have lt : (t.map val).length = 3 * merlSize := by rw [List.length_map, ht]
  have := statsOf_zero 3 merlSize _ (fun c _ => by
    have := merl_self (t.map val) lt hpos c
    rw [merl_errors _ _ lt lt c] at this
    exact this) s' hs'
  rw [this]
  simp [h0]

/-! ### Examples -/

/-- The arguments of an example. -/
def statsArgs : SMap :=
  [("in-data".toList, "merl".toList), ("input".toList, "a".toList), ("output".toList, "o".toList), ("ref".toList, "a".toList),
   ("ref-data".toList, "merl".toList)]

theorem statsArgs_asks : AsksStats statsArgs (fun _ => true) := by
  refine ⟨by decide, by decide, by decide, by decide, by decide⟩

/-- a library with the loader of the MERL files -/
def statsLibs (val : Dbl → ℝ) (path : Str) : Option (Symbols (Str → SMap → Option DataObj)) :=
  if path = "/usr/libmerl.so".toList then some fun s => if s = "load_data".toList then some (merlLoader val) else none else none

theorem statsLibs_open (val : Dbl → ℝ) :
    openLibrary "/usr".toList none (statsLibs val) (statsArgs.get "in-data".toList) "load_data".toList = some (some (merlLoader val)) := by
  rw [openLibrary_spec _ _ _ _ "libmerl.so".toList _ _ (by decide)]
  refine ⟨[], "/usr".toList, [], ?_, ?_, by simp⟩
  · rfl
  · exact ⟨_, if_pos (by decide), if_pos rfl⟩

/-- the file of a black material is at distance 0 of itself -/
example : ∃ file, data2stats (fun _ => 0) exampleFmt "/usr".toList none (statsLibs fun _ => 0)
      (fun _ => some (merlSave (List.replicate (3 * merlSize) 0))) (fun _ => true) statsArgs = some (0, some file) ∧
    ∀ s ∈ readStats file, s.2 = [0, 0, 0] := by
  obtain ⟨file, h1, -, h2⟩ := data2stats_merl_self (fun _ => 0) exampleFmt exampleFmt_digits "/usr".toList none
    (statsLibs fun _ => 0) (fun _ => some (merlSave (List.replicate (3 * merlSize) 0))) (fun _ => true) statsArgs statsArgs_asks
    (by decide) (by decide) (statsLibs_open _) (List.replicate (3 * merlSize) 0) (by rw [List.length_replicate])
    (by
      intro i _ x hx
      have ha : ∀ k, arr ((List.replicate (3 * merlSize) (0 : Dbl)).map fun _ => (0 : ℝ)) k = 0 := by
        intro k
        rw [List.map_replicate]
        simp only [arr, List.getD_eq_getElem?_getD, List.getElem?_replicate]
        split <;> rfl
      rw [merlColour_eq] at hx
      simp only [ha, zero_mul, List.mem_cons, List.not_mem_nil, or_false] at hx
      rcases hx with rfl | rfl | rfl <;> exact le_refl _)
    rfl rfl (by simp [exampleFmt, Decimal.value, digitsNum])
  exact ⟨file, h1, h2⟩

/-- a constant compared with two samples: the errors are 1 and -2 -/
example : ∃ m, data2statsMetrics ⟨⟨6, 1, .CARTESIAN, .INV_STERADIAN⟩, [], fun _ => some [3]⟩
      (.ofData ⟨6, 1, .CARTESIAN, .INV_STERADIAN, [[0, 0, 1, 0, 0, 1, 2], [0, 1, 0, 0, 0, 1, 5]]⟩) = some m ∧
    m.L1 = [3] ∧ m.LInf = [2] := by
  have hd : (inputDim .CARTESIAN).toNat = 6 := by decide
  obtain ⟨m, h1, h2⟩ := data2stats_metrics ⟨⟨6, 1, .CARTESIAN, .INV_STERADIAN⟩, [], fun _ => some [3]⟩
    (.ofData ⟨6, 1, .CARTESIAN, .INV_STERADIAN, [[0, 0, 1, 0, 0, 1, 2], [0, 1, 0, 0, 0, 1, 5]]⟩) (by
      refine ⟨?_, ?_, ?_⟩
      · intro row hr
        simp [DataObj.ref, DataObj.ofData] at hr
        rcases hr with rfl | rfl <;> rfl
      · intro row _; simp [convertInput, DataObj.ref, DataObj.ofData]
      · intro row _ cart _ _; exact ⟨_, rfl, rfl⟩)
  refine ⟨m, h1, ?_⟩
  have he : errorsOf (DataObj.inp ⟨⟨6, 1, .CARTESIAN, .INV_STERADIAN⟩, [], fun _ => some [3]⟩)
      (DataObj.ref (.ofData ⟨6, 1, .CARTESIAN, .INV_STERADIAN, [[0, 0, 1, 0, 0, 1, 2], [0, 1, 0, 0, 0, 1, 5]]⟩)) 0 = [1, -2] := by
    simp [errorsOf, errorAt, convertInput, hd, arr, DataObj.inp, DataObj.ref, DataObj.ofData]
    norm_num
  unfold Metrics.named statsOf at h2
  simp only [List.cons.injEq, Prod.mk.injEq] at h2
  rw [h2.1.2, h2.2.2.2.1.2]
  have r1 : List.range (DataObj.ofData ⟨6, 1, .CARTESIAN, .INV_STERADIAN, [[0, 0, 1, 0, 0, 1, 2], [0, 1, 0, 0, 0, 1, 5]]⟩).par.dimY = [0] := rfl
  rw [r1]
  simp only [List.map_cons, List.map_nil, he]
  constructor
  · norm_num
  · simp [normInf]

end
end Alta
