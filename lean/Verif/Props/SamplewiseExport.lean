import Verif.Props.Samplewise
/-
C95, exports of functions (brdf2data), and files joined with text tools.
-/
namespace Alta
noncomputable section

/-- A run of `brdf2data` on a template that is loaded. -/
theorem exportsTo_text (val : Dbl → ℝ) (fmt : ℝ → Decimal) (hfmt : ∀ v, (fmt v).ip ≠ [] ∨ (fmt v).fp ≠ [])
    (dir : Str) (env : Option Str) (ff : Str → Option (Symbols (Provider LobeObj)))
    (fs : Str → Option (Symbols (Str → SMap → Option OutPlugin)))
    (gs : Str → Option (Symbols (ℕ → Par → SMap → OutPlugin))) (junk : ℝ) (args : SMap) (ha : AsksExport args)
    (ht : AltaTemplate args) (g : Str) (f : AnyFn) (hload : loadAny junk dir env ff g = some (some f)) (a : Str)
    (d : Segments) (hd : loadDataText a (args.update "filename".toList (args.get "data-file".toList)) = some d)
    (t : Str) (r : ExportsTo val fmt dir env ff fs gs junk args g a t) :
    ∃ c : Data, ExportedData f.evaluable args d.store.toData c ∧ t = saveText fmt c := by
  obtain ⟨files, writable, hf, hg, run⟩ := r
  obtain ⟨-, c, h1, -, h2, -⟩ := brdf2data_text_file val junk fmt hfmt dir env ff fs gs files writable args ha ht a g hf hg _
    (loadDataStream_text val dir env _ _ ht a _ d hd) (loaded_sampled _ _ d hd) f hload _ _ run
  exact ⟨c, h1, Option.some.inj h2⟩

/-- There is such a run exactly when the function has a value at every sample; the two files must have different names. -/
theorem exportsTo_iff (val : Dbl → ℝ) (fmt : ℝ → Decimal)
    (dir : Str) (env : Option Str) (ff : Str → Option (Symbols (Provider LobeObj)))
    (fs : Str → Option (Symbols (Str → SMap → Option OutPlugin)))
    (gs : Str → Option (Symbols (ℕ → Par → SMap → OutPlugin))) (junk : ℝ) (args : SMap) (ha : AsksExport args)
    (ht : AltaTemplate args) (hname : args.get "data-file".toList ≠ args.get "input".toList) (g : Str) (f : AnyFn)
    (hload : loadAny junk dir env ff g = some (some f)) (a : Str)
    (d : Segments) (hd : loadDataText a (args.update "filename".toList (args.get "data-file".toList)) = some d) :
    (∃ t, ExportsTo val fmt dir env ff fs gs junk args g a t) ↔
      ∀ x ∈ d.store.toData.rows, ∃ z v, distancePoint f.evaluable d.store.toData x = some z ∧
        f.evaluable.value z = some v ∧ v.length = d.store.toData.dimY := by
  have run := fun files writable hf hg => brdf2data_run val junk fmt dir env ff fs gs files writable args ha ht a g hf hg _
    (loadDataStream_text val dir env _ _ ht a _ d hd) f hload
  constructor
  · rintro ⟨t, files, writable, hf, hg, r⟩
    exact ((run files writable hf hg).1 ⟨t, r⟩).2
  · intro h
    obtain ⟨files, h1, h2⟩ : ∃ files : Str → Option Str, files (args.get "data-file".toList) = some a ∧
        files (args.get "input".toList) = some g :=
      ⟨fun n => if n = args.get "data-file".toList then some a else some g, if_pos rfl, if_neg fun e => hname e.symm⟩
    obtain ⟨t, r⟩ := (run files (fun _ => true) h1 h2).2 ⟨rfl, h⟩
    exact ⟨t, _, _, h1, h2, r⟩

/-- **C95.**  `brdf2data` on two templates joined writes the first of the two files followed by the lines of the second. -/
theorem brdf2data_joined (val : Dbl → ℝ) (fmt : ℝ → Decimal) (hfmt : ∀ v, (fmt v).ip ≠ [] ∨ (fmt v).fp ≠ [])
    (dir : Str) (env : Option Str) (ff : Str → Option (Symbols (Provider LobeObj)))
    (fs : Str → Option (Symbols (Str → SMap → Option OutPlugin)))
    (gs : Str → Option (Symbols (ℕ → Par → SMap → OutPlugin))) (junk : ℝ) (args : SMap) (ha : AsksExport args)
    (ht : AltaTemplate args) (g : Str) (f : AnyFn) (hload : loadAny junk dir env ff g = some (some f)) (a b j : Str)
    (d e k : Segments) (hd : loadDataText a (args.update "filename".toList (args.get "data-file".toList)) = some d)
    (he : loadDataText b (args.update "filename".toList (args.get "data-file".toList)) = some e)
    (hk : loadDataText j (args.update "filename".toList (args.get "data-file".toList)) = some k)
    (h1 : SameLayout e d) (h2 : SameLayout k d) (hs : k.samples = d.samples ++ e.samples) (t u v : Str)
    (r1 : ExportsTo val fmt dir env ff fs gs junk args g a t) (r2 : ExportsTo val fmt dir env ff fs gs junk args g b u)
    (r3 : ExportsTo val fmt dir env ff fs gs junk args g j v) : FilesJoined t u v := by
  have s1 : SameShape d.store.toData e.store.toData := sameLayout_shape h1
  have s2 : SameShape d.store.toData k.store.toData := sameLayout_shape h2
  obtain ⟨c1, q1, rfl⟩ := exportsTo_text val fmt hfmt dir env ff fs gs junk args ha ht g f hload a d hd t r1
  obtain ⟨c2, q2, rfl⟩ := exportsTo_text val fmt hfmt dir env ff fs gs junk args ha ht g f hload b e he u r2
  obtain ⟨c3, q3, rfl⟩ := exportsTo_text val fmt hfmt dir env ff fs gs junk args ha ht g f hload j k hk v r3
  refine saved_joined fmt hfmt (exported_shape s1 q1 q2) (exported_shape s2 q1 q3) ?_
  have f2 := q2.rows
  have f3 := q3.rows
  rw [s1.exported] at f2
  rw [s2.exported, samples_rows, hs, List.map_append, ← samples_rows, ← samples_rows] at f3
  exact forall₂_joined (exportedSample_unique _ args _) q1.rows f2 f3

/-- **C95.**  `brdf2data` on a template with its samples in another order writes the same lines in another order. -/
theorem brdf2data_reordered (val : Dbl → ℝ) (fmt : ℝ → Decimal) (hfmt : ∀ v, (fmt v).ip ≠ [] ∨ (fmt v).fp ≠ [])
    (dir : Str) (env : Option Str) (ff : Str → Option (Symbols (Provider LobeObj)))
    (fs : Str → Option (Symbols (Str → SMap → Option OutPlugin)))
    (gs : Str → Option (Symbols (ℕ → Par → SMap → OutPlugin))) (junk : ℝ) (args : SMap) (ha : AsksExport args)
    (ht : AltaTemplate args) (g : Str) (f : AnyFn) (hload : loadAny junk dir env ff g = some (some f)) (a b : Str)
    (d e : Segments) (hd : loadDataText a (args.update "filename".toList (args.get "data-file".toList)) = some d)
    (he : loadDataText b (args.update "filename".toList (args.get "data-file".toList)) = some e)
    (h : Reordered d e) (t u : Str) (r1 : ExportsTo val fmt dir env ff fs gs junk args g a t)
    (r2 : ExportsTo val fmt dir env ff fs gs junk args g b u) : FilesReordered t u := by
  have s1 : SameShape d.store.toData e.store.toData := sameLayout_shape h.layout
  obtain ⟨c1, q1, rfl⟩ := exportsTo_text val fmt hfmt dir env ff fs gs junk args ha ht g f hload a d hd t r1
  obtain ⟨c2, q2, rfl⟩ := exportsTo_text val fmt hfmt dir env ff fs gs junk args ha ht g f hload b e he u r2
  refine saved_shuffled fmt hfmt (exported_shape s1 q1 q2) ?_
  have f2 := q2.rows
  rw [s1.exported] at f2
  exact forall₂_reordered (exportedSample_unique _ args _) h.rows q1.rows f2

/-- **C95.**  `brdf2data` on a template with samples removed writes the lines of the samples that stay. -/
theorem brdf2data_cut (val : Dbl → ℝ) (fmt : ℝ → Decimal) (hfmt : ∀ v, (fmt v).ip ≠ [] ∨ (fmt v).fp ≠ [])
    (dir : Str) (env : Option Str) (ff : Str → Option (Symbols (Provider LobeObj)))
    (fs : Str → Option (Symbols (Str → SMap → Option OutPlugin)))
    (gs : Str → Option (Symbols (ℕ → Par → SMap → OutPlugin))) (junk : ℝ) (args : SMap) (ha : AsksExport args)
    (ht : AltaTemplate args) (g : Str) (f : AnyFn) (hload : loadAny junk dir env ff g = some (some f)) (a b : Str)
    (d e : Segments) (hd : loadDataText a (args.update "filename".toList (args.get "data-file".toList)) = some d)
    (he : loadDataText b (args.update "filename".toList (args.get "data-file".toList)) = some e)
    (hl : SameLayout e d) (hs : e.samples.Sublist d.samples) (t u : Str)
    (r1 : ExportsTo val fmt dir env ff fs gs junk args g a t)
    (r2 : ExportsTo val fmt dir env ff fs gs junk args g b u) : FileCut t u := by
  have s1 : SameShape d.store.toData e.store.toData := sameLayout_shape hl
  obtain ⟨c1, q1, rfl⟩ := exportsTo_text val fmt hfmt dir env ff fs gs junk args ha ht g f hload a d hd t r1
  obtain ⟨c2, q2, rfl⟩ := exportsTo_text val fmt hfmt dir env ff fs gs junk args ha ht g f hload b e he u r2
  refine saved_cut fmt hfmt (exported_shape s1 q1 q2) ?_
  have f2 := q2.rows
  rw [s1.exported] at f2
  have hr : e.store.toData.rows.Sublist d.store.toData.rows := by
    rw [samples_rows, samples_rows]; exact hs.map _
  exact forall₂_cut (exportedSample_unique _ args _) hr q1.rows f2

/-- **C95.**  The function can be exported on two templates joined exactly when it can be on both. -/
theorem brdf2data_joined_runs (val : Dbl → ℝ) (fmt : ℝ → Decimal)
    (dir : Str) (env : Option Str) (ff : Str → Option (Symbols (Provider LobeObj)))
    (fs : Str → Option (Symbols (Str → SMap → Option OutPlugin)))
    (gs : Str → Option (Symbols (ℕ → Par → SMap → OutPlugin))) (junk : ℝ) (args : SMap) (ha : AsksExport args)
    (ht : AltaTemplate args) (hname : args.get "data-file".toList ≠ args.get "input".toList) (g : Str) (f : AnyFn)
    (hload : loadAny junk dir env ff g = some (some f)) (a b j : Str)
    (d e k : Segments) (hd : loadDataText a (args.update "filename".toList (args.get "data-file".toList)) = some d)
    (he : loadDataText b (args.update "filename".toList (args.get "data-file".toList)) = some e)
    (hk : loadDataText j (args.update "filename".toList (args.get "data-file".toList)) = some k)
    (h1 : SameLayout e d) (h2 : SameLayout k d) (hs : k.samples = d.samples ++ e.samples) :
    (∃ v, ExportsTo val fmt dir env ff fs gs junk args g j v) ↔
      (∃ t, ExportsTo val fmt dir env ff fs gs junk args g a t) ∧ ∃ u, ExportsTo val fmt dir env ff fs gs junk args g b u := by
  have s1 : SameShape d.store.toData e.store.toData := sameLayout_shape h1
  have s2 : SameShape d.store.toData k.store.toData := sameLayout_shape h2
  have key := fun a d hd => exportsTo_iff val fmt dir env ff fs gs junk args ha ht hname g f hload a d hd
  have p1 : distancePoint f.evaluable e.store.toData = distancePoint f.evaluable d.store.toData := by
    funext x; unfold distancePoint; rw [s1.input]
  have p2 : distancePoint f.evaluable k.store.toData = distancePoint f.evaluable d.store.toData := by
    funext x; unfold distancePoint; rw [s2.input]
  rw [key j k hk, key a d hd, key b e he]
  rw [p1, p2, s1.dimY, s2.dimY, samples_rows k, hs, List.map_append, ← samples_rows, ← samples_rows]
  constructor
  · intro h
    exact ⟨fun x hx => h x (List.mem_append_left _ hx), fun x hx => h x (List.mem_append_right _ hx)⟩
  · rintro ⟨p, q⟩ x hx
    rcases List.mem_append.1 hx with hx | hx
    · exact p x hx
    · exact q x hx

/-- **C95.**  Two text files with headers that say the same, joined with a text tool and converted: the file that `data2data`
    writes is the first converted file followed by the lines of the second; and it is written if the two are. -/
theorem data2data_of_joined_files (val : Dbl → ℝ) (bits : ℝ → Dbl) (fmt : ℝ → Decimal)
    (hfmt : ∀ v, (fmt v).ip ≠ [] ∨ (fmt v).fp ≠ [])
    (dir : Str) (env : Option Str) (fs : Str → Option (Symbols (Str → SMap → Option DataObj)))
    (gs : Str → Option (Symbols (ℕ → Par → SMap → OutPlugin))) (args : SMap) (ha : AsksData args) (ho : TextOutput args)
    (hin : args.get "in-data".toList = [] ∨ args.get "in-data".toList = "vertical_segment".toList) (a b : Str)
    (d e : Segments) (hd : loadDataText a (args.update "filename".toList (args.get "input".toList)) = some d)
    (he : loadDataText b (args.update "filename".toList (args.get "input".toList)) = some e)
    (hsame : loadSetup (parseHeader a).1 (args.update "filename".toList (args.get "input".toList)) =
      loadSetup (parseHeader b).1 (args.update "filename".toList (args.get "input".toList)))
    (hbody : (parseHeader a).2 ≠ []) (hend : a.getLast? = some '\n')
    (hn : (wantedParam args d.store.toData).Named) (t u : Str)
    (r1 : ConvertsTo val bits fmt dir env fs gs args a t) (r2 : ConvertsTo val bits fmt dir env fs gs args b u) :
    (∃ v, ConvertsTo val bits fmt dir env fs gs args (a ++ b) v) ∧
      ∀ v, ConvertsTo val bits fmt dir env fs gs args (a ++ b) v → FilesJoined t u v := by
  obtain ⟨k, k1, k2, k3, -⟩ := joined_files a b _ d e hd he hsame hbody hend
  have hl : SameLayout e d := loaded_layout a b _ d e hd he hsame
  exact ⟨(data2data_joined_runs val bits fmt dir env fs gs args ha ho hin a b _ d e k hd he k1 hl k2 k3 hn).2
      ⟨⟨t, r1⟩, u, r2⟩,
    fun v r3 => data2data_joined val bits fmt hfmt dir env fs gs args ha ho hin a b _ d e k hd he k1 hl k2 k3 hn t u v
      r1 r2 r3⟩

/-- **C95.**  The same for a function exported on two templates joined. -/
theorem brdf2data_of_joined_files (val : Dbl → ℝ) (fmt : ℝ → Decimal) (hfmt : ∀ v, (fmt v).ip ≠ [] ∨ (fmt v).fp ≠ [])
    (dir : Str) (env : Option Str) (ff : Str → Option (Symbols (Provider LobeObj)))
    (fs : Str → Option (Symbols (Str → SMap → Option OutPlugin)))
    (gs : Str → Option (Symbols (ℕ → Par → SMap → OutPlugin))) (junk : ℝ) (args : SMap) (ha : AsksExport args)
    (ht : AltaTemplate args) (hname : args.get "data-file".toList ≠ args.get "input".toList) (g : Str) (f : AnyFn)
    (hload : loadAny junk dir env ff g = some (some f)) (a b : Str)
    (d e : Segments) (hd : loadDataText a (args.update "filename".toList (args.get "data-file".toList)) = some d)
    (he : loadDataText b (args.update "filename".toList (args.get "data-file".toList)) = some e)
    (hsame : loadSetup (parseHeader a).1 (args.update "filename".toList (args.get "data-file".toList)) =
      loadSetup (parseHeader b).1 (args.update "filename".toList (args.get "data-file".toList)))
    (hbody : (parseHeader a).2 ≠ []) (hend : a.getLast? = some '\n') (t u : Str)
    (r1 : ExportsTo val fmt dir env ff fs gs junk args g a t) (r2 : ExportsTo val fmt dir env ff fs gs junk args g b u) :
    (∃ v, ExportsTo val fmt dir env ff fs gs junk args g (a ++ b) v) ∧
      ∀ v, ExportsTo val fmt dir env ff fs gs junk args g (a ++ b) v → FilesJoined t u v := by
  obtain ⟨k, k1, k2, k3, -⟩ := joined_files a b _ d e hd he hsame hbody hend
  have hl : SameLayout e d := loaded_layout a b _ d e hd he hsame
  exact ⟨(brdf2data_joined_runs val fmt dir env ff fs gs junk args ha ht hname g f hload a b _ d e k hd he k1 hl k2 k3).2
      ⟨⟨t, r1⟩, u, r2⟩,
    fun v r3 => brdf2data_joined val fmt hfmt dir env ff fs gs junk args ha ht g f hload a b _ d e k hd he k1 hl k2 k3 t u v
      r1 r2 r3⟩

end
end Alta
