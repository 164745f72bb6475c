import Verif.Props.Data2MomentsFile
/-
C91: the program `data2moments`, from its options to its file.
-/
namespace Alta
noncomputable section

/-- The options of a run, and its input, lead to the end of the program. -/
theorem data2moments_started (fmt : ℝ → Decimal) (dir : Str) (env : Option Str)
    (fs : Str → Option (Symbols (Str → SMap → Option MomentsInput))) (files : Str → Option Str) (writable : Str → Bool)
    (args : SMap) (hh : args.isDefined "help".toList = false) (hi : args.isDefined "input".toList = true)
    (ho : args.isDefined "output".toList = true) (hd : args.isDefined "data".toList = true) (content : Str)
    (hf : files (args.get "input".toList) = some content) (d : Option MomentsInput)
    (hl : loadMomentsInput dir env fs (args.get "data".toList) content
      (args.update "filename".toList (args.get "input".toList)) = some d) :
    data2momentsMain fmt dir env fs files writable args = data2momentsWrite fmt writable args d := by
  unfold data2momentsMain
  rw [if_neg (by rw [hh]; decide), if_neg (by rw [hi]; decide), if_neg (by rw [ho]; decide), if_neg (by rw [hd]; decide), hf]
  simp only
  rw [hl, Option.bind_some]

theorem asked_numbers (d : Interpolant) (args : SMap) (samples : List ℕ) (a b : ℕ)
    (hs : AsksNumbers args "samples".toList (List.replicate d.dimX 100) samples)
    (hdim : AsksNumbers args "dim".toList [0, 1] [a, b]) :
    ∃ s t, momentsOption args "samples".toList = some s ∧ momentsOption args "dim".toList = some t ∧
      data2momentsSums d s t = data2momentsSums d (some samples) (some [a, b]) := by
  have absent : ∀ k : Str, args.find k = none → momentsOption args k = some none := by
    intro k hk
    unfold momentsOption
    rw [if_neg (by rw [SMap.isDefined, hk]; decide)]
  rcases hs with ⟨t, h1, h2⟩ | ⟨h1, h2⟩ <;> rcases hdim with ⟨u, g1, g2⟩ | ⟨g1, g2⟩
  · exact ⟨_, _, momentsOption_numbers args _ t _ h1 h2, momentsOption_numbers args _ u _ g1 g2, rfl⟩
  · exact ⟨_, _, momentsOption_numbers args _ t _ h1 h2, absent _ g1, by rw [g2]; rfl⟩
  · exact ⟨_, _, absent _ h1, momentsOption_numbers args _ u _ g1 g2, by rw [h2]; rfl⟩
  · exact ⟨_, _, absent _ h1, absent _ g1, by rw [h2, g2]; rfl⟩

/-- **C91.**  The file of a run, read again, has the moments of the values above the smallest one, on the regular grid that the
    options ask for, as they are printed. -/
theorem data2moments_run (fmt : ℝ → Decimal) (hfmt : ∀ v, (fmt v).ip ≠ [] ∨ (fmt v).fp ≠ []) (dir : Str) (env : Option Str)
    (fs : Str → Option (Symbols (Str → SMap → Option MomentsInput))) (files : Str → Option Str) (writable : Str → Bool)
    (args : SMap) (ha : AsksMoments args writable) (content : Str) (hf : files (args.get "input".toList) = some content)
    (d : Interpolant) (hl : loadMomentsInput dir env fs (args.get "data".toList) content
      (args.update "filename".toList (args.get "input".toList)) = some (some (.other d)))
    (samples : List ℕ) (a b : ℕ) (hs : AsksNumbers args "samples".toList (List.replicate d.dimX 100) samples)
    (hdim : AsksNumbers args "dim".toList [0, 1] [a, b]) (hr : MomentsReady d samples a b) (hy : 0 < d.dimY)
    (hpos : ∀ k < d.dimY, ∀ low, d.Lowest k low → d.cells samples (d.weight k low) ≠ 0) :
    ∃ (file : Str) (m : ℕ → Moments), data2momentsMain fmt dir env fs files writable args = some (0, some file) ∧
      readMoments file = some (printedStats fmt (momentsNamed d.dimY m)) ∧
      ∀ k < d.dimY, ∃ low, d.Lowest k low ∧ MomentsOf (m k) (d.cells samples) (d.weight k low) a b := by
  obtain ⟨s, t, e1, e2, e3⟩ := asked_numbers d args samples a b hs hdim
  obtain ⟨ms, h1, h2, h3⟩ := data2moments_spec d samples a b hr
  obtain ⟨sums, g1, g2⟩ := Option.map_eq_some_iff.1 h1
  have hlen : sums.length = d.dimY := by rw [← h2, ← g2, List.length_map]
  have hne : sums ≠ [] := by
    intro h
    rw [h] at hlen
    simp at hlen
    omega
  have h0 : ∀ m ∈ sums, m.m0 ≠ 0 := by
    intro m hm
    obtain ⟨k, hk, rfl⟩ := List.getElem_of_mem hm
    obtain ⟨low, l1, l2⟩ := h3 k (by omega)
    have := hpos k (by omega) low l1
    rw [← l2.m0, ← g2] at this
    simpa [List.getD, hk, Moments.normalize] using this
  refine ⟨momentsFile fmt sums, fun k => ms.getD k Moments.zero, ?_, ?_, h3⟩
  · rw [data2moments_started fmt dir env fs files writable args ha.noHelp ha.input ha.output.1 ha.data content hf _ hl]
    unfold data2momentsWrite
    simp only
    rw [e1, Option.bind_some, e2, Option.bind_some, e3, g1, Option.map_some, if_pos ha.output.2]
  · rw [momentsFile_read fmt hfmt sums hne h0, hlen, g2]

/-! ### Exit codes -/

/-- **C91.**  The exit code of a run that ends is 0 or 1, and a file with something in it comes with 0. -/
theorem data2moments_exit (fmt : ℝ → Decimal) (dir : Str) (env : Option Str)
    (fs : Str → Option (Symbols (Str → SMap → Option MomentsInput))) (files : Str → Option Str) (writable : Str → Bool)
    (args : SMap) (code : ℕ) (out : Option Str)
    (h : data2momentsMain fmt dir env fs files writable args = some (code, out)) :
    (code = 0 ∨ code = 1) ∧ (∀ file, out = some file → file ≠ [] → code = 0) ∧
      (out ≠ none → writable (args.get "output".toList) = true) := by
  have key : ∀ d, data2momentsWrite fmt writable args d = some (code, out) →
      (code = 0 ∨ code = 1) ∧ (∀ file, out = some file → file ≠ [] → code = 0) ∧
      (out ≠ none → writable (args.get "output".toList) = true) := by
    intro d hd
    unfold data2momentsWrite at hd
    match d, hd with
    | none, hd =>
      simp only [Option.some.injEq, Prod.mk.injEq] at hd
      obtain ⟨rfl, rfl⟩ := hd
      refine ⟨Or.inr rfl, ?_, ?_⟩
      · intro file hfile hne
        split at hfile
        · cases hfile; exact absurd rfl hne
        · cases hfile
      · intro hne
        split at hne
        · assumption
        · exact absurd rfl hne
    | some .segment, hd =>
      simp only [Option.some.injEq, Prod.mk.injEq] at hd
      obtain ⟨rfl, rfl⟩ := hd
      exact ⟨Or.inr rfl, by intro file h; (cases h), by intro h; exact absurd rfl h⟩
    | some (.other d), hd =>
      simp only [Option.bind_eq_some_iff, Option.map_eq_some_iff, Prod.mk.injEq] at hd
      obtain ⟨_, -, _, -, _, -, rfl, rfl⟩ := hd
      refine ⟨Or.inl rfl, fun _ _ _ => rfl, ?_⟩
      intro hne
      split at hne
      · assumption
      · exact absurd rfl hne
  have early : ∀ c : ℕ, (c = 0 ∨ c = 1) → some (c, (none : Option Str)) = some (code, out) →
      (code = 0 ∨ code = 1) ∧ (∀ file, out = some file → file ≠ [] → code = 0) ∧
      (out ≠ none → writable (args.get "output".toList) = true) := by
    intro c hc he
    cases he
    exact ⟨hc, by intro file h; (cases h), by intro h; exact absurd rfl h⟩
  unfold data2momentsMain at h
  by_cases q1 : args.isDefined "help".toList = true
  · rw [if_pos q1] at h; exact early 0 (Or.inl rfl) h
  · rw [if_neg q1] at h
    by_cases q2 : args.isDefined "input".toList = false
    · rw [if_pos q2] at h; exact early 1 (Or.inr rfl) h
    · rw [if_neg q2] at h
      by_cases q3 : args.isDefined "output".toList = false
      · rw [if_pos q3] at h; exact early 1 (Or.inr rfl) h
      · rw [if_neg q3] at h
        by_cases q4 : args.isDefined "data".toList = false
        · rw [if_pos q4] at h; exact early 1 (Or.inr rfl) h
        · rw [if_neg q4] at h
          match hfc : files (args.get "input".toList), h with
          | none, h => exact early 1 (Or.inr rfl) h
          | some content, h =>
            simp only [Option.bind_eq_some_iff] at h
            obtain ⟨d, -, hd⟩ := h
            exact key d hd

/-- **C91.**  Without an input, an output, a data plugin, or when the input cannot be opened: code 1 and no file.  With
    `--help`: code 0. -/
theorem data2moments_missing (fmt : ℝ → Decimal) (dir : Str) (env : Option Str)
    (fs : Str → Option (Symbols (Str → SMap → Option MomentsInput))) (files : Str → Option Str) (writable : Str → Bool)
    (args : SMap) :
    (args.isDefined "help".toList = true → data2momentsMain fmt dir env fs files writable args = some (0, none)) ∧
    (args.isDefined "help".toList = false → (args.isDefined "input".toList = false ∨ args.isDefined "output".toList = false ∨
      args.isDefined "data".toList = false ∨ files (args.get "input".toList) = none) →
      data2momentsMain fmt dir env fs files writable args = some (1, none)) := by
  constructor
  · intro h
    unfold data2momentsMain
    rw [if_pos h]
  · intro h0 h
    unfold data2momentsMain
    rw [if_neg (by rw [h0]; decide)]
    by_cases q2 : args.isDefined "input".toList = false
    · rw [if_pos q2]
    · rw [if_neg q2]
      by_cases q3 : args.isDefined "output".toList = false
      · rw [if_pos q3]
      · rw [if_neg q3]
        by_cases q4 : args.isDefined "data".toList = false
        · rw [if_pos q4]
        · rw [if_neg q4]
          rcases h with h | h | h | h
          · exact absurd h q2
          · exact absurd h q3
          · exact absurd h q4
          · rw [h]

/-- **C91.**  Data of the default plugin, or of a plugin whose objects are of a derived class, have no moments: a run that ends
    has the code 1, and no file is made. -/
theorem data2moments_segments (fmt : ℝ → Decimal) (dir : Str) (env : Option Str)
    (fs : Str → Option (Symbols (Str → SMap → Option MomentsInput))) (files : Str → Option Str) (writable : Str → Bool)
    (args : SMap) (ha : AsksMoments args writable) (content : Str) (hf : files (args.get "input".toList) = some content) :
    (loadMomentsInput dir env fs (args.get "data".toList) content
        (args.update "filename".toList (args.get "input".toList)) = some (some .segment) →
      data2momentsMain fmt dir env fs files writable args = some (1, none)) ∧
    (args.get "data".toList = [] ∨ args.get "data".toList = "vertical_segment".toList →
      data2momentsMain fmt dir env fs files writable args = some (1, none) ∨
      data2momentsMain fmt dir env fs files writable args = none) := by
  have key : loadMomentsInput dir env fs (args.get "data".toList) content
        (args.update "filename".toList (args.get "input".toList)) = some (some .segment) →
      data2momentsMain fmt dir env fs files writable args = some (1, none) := fun h => by
    rw [data2moments_started fmt dir env fs files writable args ha.noHelp ha.input ha.output.1 ha.data content hf _ h]
    rfl
  refine ⟨key, ?_⟩
  intro ht
  have hcases : loadMomentsInput dir env fs (args.get "data".toList) content
        (args.update "filename".toList (args.get "input".toList)) = some (some .segment) ∨
      loadMomentsInput dir env fs (args.get "data".toList) content
        (args.update "filename".toList (args.get "input".toList)) = none := by
    unfold loadMomentsInput
    rw [if_pos ht]
    simp only
    split_ifs
    · cases loadBinary (parseHeader content).2 (parseHeader content).1
      · exact Or.inr rfl
      · exact Or.inl rfl
    · cases loadText (parseHeader content).2 (parseHeader content).1 (args.update "filename".toList (args.get "input".toList))
      · exact Or.inr rfl
      · exact Or.inl rfl
  rcases hcases with h | h
  · exact Or.inl (key h)
  · right
    unfold data2momentsMain
    rw [if_neg (by rw [ha.noHelp]; decide), if_neg (by rw [ha.input]; decide), if_neg (by rw [ha.output.1]; decide),
      if_neg (by rw [ha.data]; decide), hf]
    simp only
    rw [h, Option.bind_none]

/-- **C91.**  A plugin that is not found: the code is 1, but the output file is emptied. -/
theorem data2moments_no_plugin (fmt : ℝ → Decimal) (dir : Str) (env : Option Str)
    (fs : Str → Option (Symbols (Str → SMap → Option MomentsInput))) (files : Str → Option Str) (writable : Str → Bool)
    (args : SMap) (ha : AsksMoments args writable) (content : Str) (hf : files (args.get "input".toList) = some content)
    (ht : args.get "data".toList ≠ [] ∧ args.get "data".toList ≠ "vertical_segment".toList)
    (hl : openLibrary dir env fs (args.get "data".toList) "load_data".toList = some none) :
    data2momentsMain fmt dir env fs files writable args = some (1, some []) := by
  have h : loadMomentsInput dir env fs (args.get "data".toList) content
        (args.update "filename".toList (args.get "input".toList)) = some none := by
    unfold loadMomentsInput
    rw [if_neg (by rintro (h | h); exacts [ht.1 h, ht.2 h])]
    simp only [hl]
  rw [data2moments_started fmt dir env fs files writable args ha.noHelp ha.input ha.output.1 ha.data content hf _ h]
  unfold data2momentsWrite
  simp only
  rw [if_pos ha.output.2]

/-- **C91.**  An output that cannot be opened is not reported: the code is 0 and there is no file. -/
theorem data2moments_unwritable (fmt : ℝ → Decimal) (dir : Str) (env : Option Str)
    (fs : Str → Option (Symbols (Str → SMap → Option MomentsInput))) (files : Str → Option Str) (writable : Str → Bool)
    (args : SMap) (ha : AsksMoments args fun _ => true) (hw : writable (args.get "output".toList) = false) (content : Str)
    (hf : files (args.get "input".toList) = some content)
    (d : Interpolant) (hl : loadMomentsInput dir env fs (args.get "data".toList) content
      (args.update "filename".toList (args.get "input".toList)) = some (some (.other d)))
    (samples : List ℕ) (a b : ℕ) (hs : AsksNumbers args "samples".toList (List.replicate d.dimX 100) samples)
    (hdim : AsksNumbers args "dim".toList [0, 1] [a, b]) (hr : MomentsReady d samples a b) :
    data2momentsMain fmt dir env fs files writable args = some (0, none) := by
  obtain ⟨s, t, e1, e2, e3⟩ := asked_numbers d args samples a b hs hdim
  obtain ⟨ms, h1, -, -⟩ := data2moments_spec d samples a b hr
  obtain ⟨sums, g1, -⟩ := Option.map_eq_some_iff.1 h1
  rw [data2moments_started fmt dir env fs files writable args ha.noHelp ha.input ha.output.1 ha.data content hf _ hl]
  unfold data2momentsWrite
  simp only
  rw [e1, Option.bind_some, e2, Option.bind_some, e3, g1, Option.map_some, if_neg (by rw [hw]; decide)]

/-- **C91.**  A number of samples that is not a list between brackets ends the program. -/
theorem data2moments_unbracketed (fmt : ℝ → Decimal) (dir : Str) (env : Option Str)
    (fs : Str → Option (Symbols (Str → SMap → Option MomentsInput))) (files : Str → Option Str) (writable : Str → Bool)
    (args : SMap) (ha : AsksMoments args writable) (content : Str) (hf : files (args.get "input".toList) = some content)
    (d : Interpolant) (hl : loadMomentsInput dir env fs (args.get "data".toList) content
      (args.update "filename".toList (args.get "input".toList)) = some (some (.other d))) (hx : 0 < d.dimX)
    (text : Str) (hs : args.find "samples".toList = some text) (hb : text.head? ≠ some '[') :
    data2momentsMain fmt dir env fs files writable args = none := by
  rw [data2moments_started fmt dir env fs files writable args ha.noHelp ha.input ha.output.1 ha.data content hf _ hl]
  have e1 : ∀ k : Str, args.find k = some text → momentsOption args k = some (some []) := by
    intro k hk
    unfold momentsOption
    rw [if_pos (by rw [SMap.isDefined, hk]; rfl)]
    have : args.getVecInts k = [] := by
      unfold SMap.getVecInts SMap.getVecWords
      rw [hk]
      simp only
      rw [if_neg (fun h => hb h.1)]
      rfl
    rw [this]
    rfl
  unfold data2momentsWrite
  simp only
  rw [e1 _ hs, Option.bind_some]
  cases momentsOption args "dim".toList with
  | none => rfl
  | some dim =>
    rw [Option.bind_some]
    have : data2momentsSums d (some []) dim = none := by
      unfold data2momentsSums
      simp only [Option.getD_some]
      rw [if_pos (Or.inl (by simp; omega))]
    rw [this]
    rfl

end
end Alta
