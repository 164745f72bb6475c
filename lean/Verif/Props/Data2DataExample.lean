import Verif.Props.Data2DataRun
import Verif.Props.Data2DataSplat
import Verif.Props.RationalFile
/-
C87: examples: a file of two samples, converted to a binary file and back; an output made by a plugin.
-/
namespace Alta
noncomputable section

/-- Two samples. -/
def convertedSamples : Data := ⟨2, 1, .RUSIN_TH_TD, .INV_STERADIAN, [[1, 0, 2], [1, 1, 3]]⟩

def toBinaryArgs : SMap := [("all-values".toList, []), ("input".toList, ['a']), ("out-data".toList, "alta-binary".toList),
  ("output".toList, ['b'])]

def toTextArgs : SMap := [("all-values".toList, []), ("input".toList, ['b']), ("output".toList, ['c'])]

/-- The doubles of the example: small integers. -/
def bitsEx (x : ℝ) : Dbl := if x = 1 then 1#64 else if x = 2 then 2#64 else if x = 3 then 3#64 else 0#64
def valEx (b : Dbl) : ℝ := (b.toNat : ℝ)

theorem toBinary_run : PlainRun toBinaryArgs convertedSamples := by
  refine ⟨⟨⟨?_, ?_⟩, ?_, ?_⟩, ?_, .inl ?_, ?_⟩
  all_goals decide

theorem toText_run : PlainRun toTextArgs convertedSamples := by
  refine ⟨⟨⟨?_, ?_⟩, ?_, ?_⟩, ?_, .inl ?_, ?_⟩
  all_goals decide

theorem toBinary_plain : PlainArgs toBinaryArgs := by
  constructor <;> decide

/-- Every sample of the example can be converted. -/
theorem samples_convert (n : List ℝ) :
    ∃ t above, convertInput (arr n) .RUSIN_TH_TD .RUSIN_TH_TD = some t ∧ isAboveHemisphere (arr t) .RUSIN_TH_TD = some above := by
  obtain ⟨t, h1, -⟩ := convertInput_self (arr n) .RUSIN_TH_TD (by unfold Input.Named; decide)
  refine ⟨t, ?_⟩
  simp only [isAboveHemisphere, convertInput, toCartesian] at h1 ⊢
  exact ⟨_, h1, rfl⟩

example (dir : Str) (env : Option Str) (fs : Str → Option (Symbols (Str → SMap → Option DataObj)))
    (gs : Str → Option (Symbols (ℕ → Par → SMap → OutPlugin))) (junk : ℕ → ℝ) (evs : List RowEvent) :
    ∃ file1, data2dataMain valEx bitsEx exampleFmt dir env fs gs
        (fun n => if n = ['a'] then some (saveText exampleFmt convertedSamples) else none) (fun _ => true) junk evs toBinaryArgs =
        some (0, some file1) ∧
      data2dataMain valEx bitsEx exampleFmt dir env fs gs
        (fun n => if n = ['b'] then some file1 else none) (fun _ => true) junk evs toTextArgs =
        some (0, some (saveText exampleFmt convertedSamples)) := by
  have hfmt : ∀ v, (exampleFmt v).ip ≠ [] ∨ (exampleFmt v).fp ≠ [] := by
    intro v
    left
    unfold exampleFmt
    split
    · simp
    · split
      · simp
      · split <;> simp
  have hv : ∀ r ∈ convertedSamples.rows, ∀ v ∈ r, v = 1 ∨ v = 0 ∨ v = 2 ∨ v = 3 := by
    intro r hr v hv
    simp only [convertedSamples, List.mem_cons, List.not_mem_nil, or_false] at hr
    rcases hr with rfl | rfl <;> simp only [List.mem_cons, List.not_mem_nil, or_false] at hv <;>
      rcases hv with h | h | h <;> simp [h]
  obtain ⟨e0, e1, e2, e3⟩ := exampleFmt_values
  have hval : ∀ r ∈ convertedSamples.rows, ∀ v ∈ r, ((exampleFmt v).value : ℝ) = v := by
    intro r hr v h
    rcases hv r hr v h with rfl | rfl | rfl | rfl
    · exact e1
    · exact e0
    · exact e2
    · exact e3
  have hbits : ∀ r ∈ convertedSamples.rows, ∀ v ∈ r, valEx (bitsEx v) = v := by
    intro r hr v h
    rcases hv r hr v h with rfl | rfl | rfl | rfl <;> norm_num [valEx, bitsEx]
  have hs : convertedSamples.Sampled := by
    intro r hr
    simp only [convertedSamples, List.mem_cons, List.not_mem_nil, or_false] at hr
    rcases hr with rfl | rfl <;> rfl
  have hpr : convertedSamples.printedBy exampleFmt = convertedSamples := by
    have key : ∀ r ∈ convertedSamples.rows, (r.map fun v => ((exampleFmt v).value : ℝ)) = r := by
      intro r hr
      conv_rhs => rw [← List.map_id r]
      exact List.map_congr_left fun v h => hval r hr v h
    unfold Data.printedBy
    have : (convertedSamples.rows.map fun r => r.map fun v => ((exampleFmt v).value : ℝ)) = convertedSamples.rows := by
      conv_rhs => rw [← List.map_id convertedSamples.rows]
      exact List.map_congr_left key
    rw [this]
  have hst : convertedSamples.stored valEx bitsEx = convertedSamples := by
    have key : ∀ r ∈ convertedSamples.rows, (r.map fun v => valEx (bitsEx v)) = r := by
      intro r hr
      conv_rhs => rw [← List.map_id r]
      exact List.map_congr_left fun v h => hbits r hr v h
    unfold Data.stored
    have : (convertedSamples.rows.map fun r => r.map fun v => valEx (bitsEx v)) = convertedSamples.rows := by
      conv_rhs => rw [← List.map_id convertedSamples.rows]
      exact List.map_congr_left key
    rw [this]
  have hfin : ∀ r ∈ convertedSamples.rows, ∀ v ∈ r, |((exampleFmt v).value : ℝ)| ≤ ((fltMax : ℚ) : ℝ) := by
    intro r hr v h
    rw [hval r hr v h]
    have hm : (3 : ℝ) ≤ ((fltMax : ℚ) : ℝ) := by
      have : (3 : ℚ) ≤ fltMax := by norm_num [fltMax]
      exact_mod_cast this
    rcases hv r hr v h with rfl | rfl | rfl | rfl <;> rw [abs_of_nonneg (by norm_num)] <;> linarith
  have hn : convertedSamples.input.Named := by unfold Input.Named; decide
  have hord : toBinaryArgs.Ordered := by
    simp [SMap.Ordered, toBinaryArgs] <;> decide
  -- the first run
  have hl1 := loadDataStream_saved valEx exampleFmt hfmt dir env fs (toBinaryArgs.get "in-data".toList) _
    (toBinary_plain.filename hord (toBinaryArgs.get "input".toList)) toBinary_run.class_ convertedSamples (by decide) hs hfin (.inl hn)
  rw [hpr] at hl1
  have hob : BinaryOutput toBinaryArgs := by unfold BinaryOutput; decide
  have hot : TextOutput toTextArgs := by unfold TextOutput; decide
  obtain ⟨file1, r1⟩ := (data2data_run valEx bitsEx exampleFmt dir env fs gs
    (fun n => if n = ['a'] then some (saveText exampleFmt convertedSamples) else none) (fun _ => true) junk evs toBinaryArgs
    toBinary_run.asks (.inr hob) _ (by rfl) _ hl1 hs (by show (wantedParam toBinaryArgs convertedSamples).Named
                                                         rw [toBinary_run.param]; exact hn)).2
    ⟨rfl, fun x _ => samples_convert x⟩
  refine ⟨file1, r1, ?_⟩
  obtain ⟨d1, c1, -, l1⟩ := data2data_binary_file valEx bitsEx exampleFmt dir env fs gs _ _ junk evs toBinaryArgs
    toBinary_run.asks hob _ (by rfl) _ hl1 hs (by show (wantedParam toBinaryArgs convertedSamples).Named
                                                  rw [toBinary_run.param]; exact hn) (by decide) _ r1
  have q1 : d1 = convertedSamples := converted_same toBinaryArgs convertedSamples d1 toBinary_run.param hn (by decide) toBinary_run.all hs c1
  subst q1
  have hl2 := l1 (by
    intro r hr v hv
    have : r = [1, 0, 2] := by simpa [convertedSamples] using hr.symm
    subst this
    have : v = 1 := by simpa using hv.symm
    subst this
    simp [bitsEx]) file1 rfl (toTextArgs.get "in-data".toList)
    (toTextArgs.update "filename".toList (toTextArgs.get "input".toList)) toText_run.class_
  rw [hst] at hl2
  -- the second run
  obtain ⟨file2, r2⟩ := (data2data_run valEx bitsEx exampleFmt dir env fs gs
    (fun n => if n = ['b'] then some file1 else none) (fun _ => true) junk evs toTextArgs
    toText_run.asks (.inl hot) _ (by rfl) _ hl2 hs (by show (wantedParam toTextArgs convertedSamples).Named
                                                       rw [toText_run.param]; exact hn)).2
    ⟨rfl, fun x _ => samples_convert x⟩
  have := data2data_there_and_back valEx bitsEx exampleFmt hfmt dir env fs gs convertedSamples hs hn (by decide) (by decide) hfin
    (fun r hr v h => by rw [hval r hr v h, hbits r hr v h]) (fun r hr v h => by rw [hval r hr v h])
    (by
      intro r hr v hv
      have : r = [1, 0, 2] := by simpa [convertedSamples] using hr.symm
      subst this
      have : v = 1 := by simpa using hv.symm
      subst this
      rw [show ((exampleFmt 1).value : ℝ) = 1 from e1]
      simp [bitsEx])
    _ _ junk evs toBinaryArgs hord toBinary_plain toBinary_run hob (by rfl) file1 r1 _ _ junk evs toTextArgs toText_run hot
    (by rfl) file2 r2
  rw [← this]
  exact r2

/-! ### Outputs made by a plugin -/

def toGridArgs : SMap := [("in-data".toList, "c.so".toList), ("input".toList, ['a']), ("out-data".toList, "g.so".toList), ("output".toList, ['b'])]

/-- The input of the example: the constant 7. -/
def constantObj : DataObj := ⟨⟨6, 1, .CARTESIAN, .INV_STERADIAN⟩, [], fun _ => some [7]⟩

/-- The output of the example: two samples, one from above, and one from below. -/
def gridObj : OutPlugin := ⟨⟨6, 1, .CARTESIAN, .INV_STERADIAN⟩, [[0, 0, 1, 0, 0, 1, 2], [0, 0, -1, 0, 0, 1, 3]],
  fun rows => if rows.length = 2 then ['2'] else []⟩

theorem grid_rows : gridObj.rows.mapM (interpolatePoint constantObj gridObj.par) =
    some [[0, 0, 1, 0, 0, 1, 7], [0, 0, -1, 0, 0, 1, 0]] := by
  have hself : ∀ x : ℕ → ℝ, convertInput x .CARTESIAN .CARTESIAN = some [x 0, x 1, x 2, x 3, x 4, x 5] := by
    intro x
    have hd : (inputDim .CARTESIAN).toNat = 6 := by decide
    simp [convertInput, hd, List.range, List.range.loop]
  have hcv : ∀ (a : ℝ) (o : ℕ → ℝ), ∃ y, convertOutput (arr [a]) 1 1 o = some y ∧ y 0 = a := by
    intro a o
    obtain ⟨y, h1, h2⟩ := convertOutput_copy (arr [a]) o 1 1 (.inl rfl)
    exact ⟨y, h1, h2.2.1 rfl 0 (by omega)⟩
  have key : ∀ x : List ℝ, x.length = 7 → ∀ v : ℝ, (0 ≤ arr x 2 ∧ 0 ≤ arr x 5 → v = 7) →
      (¬ (0 ≤ arr x 2 ∧ 0 ≤ arr x 5) → v = 0) → ∃ y, interpolatePoint constantObj gridObj.par x = some y ∧
      y = x.take 6 ++ [v] := by
    intro x hx v h7 h0
    obtain ⟨y, hy1, hy2⟩ := hcv v (fun k => arr x (6 + k))
    refine ⟨_, ?_, rfl⟩
    unfold interpolatePoint constantObj gridObj
    simp only
    rw [hself, Option.bind_some]
    have hv : (if 0 ≤ arr x 2 ∧ 0 ≤ arr x 5 then some [(7 : ℝ)] else some [0]) = some [v] := by
      by_cases hc : 0 ≤ arr x 2 ∧ 0 ≤ arr x 5
      · rw [if_pos hc, h7 hc]
      · rw [if_neg hc, h0 hc]
    have ha : ∀ k, k < 6 → arr [arr x 0, arr x 1, arr x 2, arr x 3, arr x 4, arr x 5] k = arr x k := by
      intro k hk
      interval_cases k <;> rfl
    rw [ha 2 (by omega), ha 5 (by omega), hself, Option.bind_some, List.replicate_one, hv, Option.bind_some, hy1,
      Option.map_some]
    congr 1
    obtain ⟨a, b, c, d, e, f, g, rfl⟩ : ∃ a b c d e f g, x = [a, b, c, d, e, f, g] := by
      match x, hx with
      | [a, b, c, d, e, f, g], _ => exact ⟨a, b, c, d, e, f, g, rfl⟩
    simp [List.range, List.range.loop, arr, hy2]
  obtain ⟨y1, h1, rfl⟩ := key [0, 0, 1, 0, 0, 1, 2] rfl 7 (fun _ => rfl) (fun h => absurd (by norm_num [arr]) h)
  obtain ⟨y2, h2, rfl⟩ := key [0, 0, -1, 0, 0, 1, 3] rfl 0 (fun h => by norm_num [arr] at h) (fun _ => rfl)
  unfold gridObj at h1 h2 ⊢
  simp only [List.mapM_cons, List.mapM_nil] at h1 h2 ⊢
  rw [h1, h2]
  rfl

/-- The library of the directory of the example is found. -/
theorem grid_open {α : Type} (f : α) (symbol lib name : Str) (h : name = lib) (hl : libraryName lib = some lib) :
    openLibrary "/l".toList none (fun p => if p = "/l/".toList ++ lib then
      some (fun s => if s = symbol then some f else none) else none) name symbol = some (some f) := by
  subst h
  rw [openLibrary_spec _ _ _ _ name _ _ hl]
  exact ⟨[], "/l".toList, [], rfl, ⟨_, if_pos rfl, if_pos rfl⟩, by simp⟩

/-- For every schedule of the threads. -/
example (val : Dbl → ℝ) (bits : ℝ → Dbl) (fmt : ℝ → Decimal) (junk : ℕ → ℝ) (evs : List RowEvent)
    (he : Interleaving 2 evs) :
    data2dataMain val bits fmt "/l".toList none
      (fun f => if f = "/l/".toList ++ "c.so".toList then some (fun s => if s = "load_data".toList then some (fun _ _ => some constantObj) else none)
        else none)
      (fun f => if f = "/l/".toList ++ "g.so".toList then some (fun s => if s = "provide_data".toList then some (fun _ _ _ => gridObj) else none)
        else none) (fun _ => some []) (fun _ => true) junk evs toGridArgs = some (0, some ['2']) := by
  refine data2data_plugin_file val bits fmt _ none _ _ _ _ junk toGridArgs ⟨⟨?_, ?_⟩, ?_, ?_⟩ ⟨?_, ?_⟩ ?_ [] rfl constantObj ?_ ?_
    (fun _ _ _ => gridObj) ?_ gridObj rfl _ grid_rows rfl evs he
  · decide
  · decide
  · decide
  · decide
  · unfold TextOutput; decide
  · unfold BinaryOutput; decide
  · decide
  · unfold loadDataStream
    rw [if_neg (by decide)]
    rw [grid_open _ "load_data".toList "c.so".toList (toGridArgs.get "in-data".toList) (by decide) (by decide)]
    rfl
  · decide
  · exact grid_open _ "provide_data".toList "g.so".toList (toGridArgs.get "out-data".toList) (by decide) (by decide)

end
end Alta
