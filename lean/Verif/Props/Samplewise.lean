import Verif.Spec.Samplewise
import Verif.Props.JoinedFiles
import Verif.Props.Data2DataRun
import Verif.Props.Brdf2DataMain
/-
C95: what the tools write for files of data that are joined, sorted or cut.
-/
namespace Alta
noncomputable section

/-! ### Relations between lists, sample by sample -/

theorem forall₂_unique {α β : Type} {R : α → β → Prop} (hR : ∀ x y z, R x y → R x z → y = z) :
    ∀ {l : List α} {r r' : List β}, List.Forall₂ R l r → List.Forall₂ R l r' → r = r'
  | [], _, _, .nil, .nil => rfl
  | _ :: _, _, _, .cons h t, .cons h' t' => by rw [hR _ _ _ h h', forall₂_unique hR t t']

theorem forall₂_joined {α β : Type} {R : α → β → Prop} (hR : ∀ x y z, R x y → R x z → y = z) {l m : List α}
    {r s t : List β} (h1 : List.Forall₂ R l r) (h2 : List.Forall₂ R m s) (h3 : List.Forall₂ R (l ++ m) t) : t = r ++ s :=
  forall₂_unique hR h3 (List.rel_append h1 h2)

theorem forall₂_reordered {α β : Type} {R : α → β → Prop} (hR : ∀ x y z, R x y → R x z → y = z) {l m : List α}
    {r s : List β} (hp : l.Perm m) (h1 : List.Forall₂ R l r) (h2 : List.Forall₂ R m s) : r.Perm s := by
  have h : (Relation.Comp List.Perm (List.Forall₂ R)) m r := ⟨l, hp.symm, h1⟩
  rw [← List.forall₂_comp_perm_eq_perm_comp_forall₂] at h
  obtain ⟨k, hk, hp'⟩ := h
  rw [forall₂_unique hR h2 hk]
  exact hp'.symm

theorem forall₂_cut {α β : Type} {R : α → β → Prop} (hR : ∀ x y z, R x y → R x z → y = z) {l m : List α} (hp : m.Sublist l) :
    ∀ {r s : List β}, List.Forall₂ R l r → List.Forall₂ R m s → s.Sublist r := by
  induction hp with
  | slnil => intro r s h1 h2; cases h1; cases h2; exact .slnil
  | cons a _ ih => intro r s h1 h2; cases h1 with | cons _ t => exact (ih t h2).cons _
  | cons_cons a _ ih =>
    intro r s h1 h2
    cases h1 with
    | cons h t => cases h2 with | cons h' t' => rw [hR _ _ _ h' h]; exact (ih t t').cons_cons _

/-! ### Files -/

/-- The lines of the samples of a saved file. -/
def sampleLines (fmt : ℝ → Decimal) (d : Data) : List Str :=
  d.rows.map fun r => (saveRow fmt (r.take (d.dimX + d.dimY))).dropLast

theorem sampleLines_text (fmt : ℝ → Decimal) (d : Data) : textOfLines (sampleLines fmt d) =
    (d.rows.map fun r => saveRow fmt (r.take (d.dimX + d.dimY))).flatten := by
  unfold textOfLines sampleLines
  rw [List.flatMap_map, ← List.flatMap_def]
  refine List.flatMap_congr fun r _ => ?_
  exact List.dropLast_append_getLast? '\n' (saveRow_last fmt _)

theorem saved_isFile (fmt : ℝ → Decimal) (hfmt : ∀ v, (fmt v).ip ≠ [] ∨ (fmt v).fp ≠ []) (d : Data) :
    IsFile (saveText fmt d) (headerText (textLines d)) (sampleLines fmt d) := by
  have hbody : ∀ r, (d.rows.map fun r => saveRow fmt (r.take (d.dimX + d.dimY))).flatten ≠ '#' :: r := by
    intro r h
    cases hd : d.rows with
    | nil => rw [hd] at h; cases h
    | cons a rows =>
      rw [hd, List.map_cons, List.flatten_cons] at h
      cases ha : a.take (d.dimX + d.dimY) with
      | nil => rw [ha, saveRow] at h; simp at h
      | cons x xs =>
        rw [ha, saveRow] at h
        obtain ⟨c, u, hx, hc⟩ := Decimal.text_head (fmt x) (hfmt x)
        rw [hx] at h
        simp only [List.cons_append, List.cons.injEq] at h
        exact hc h.1
  obtain ⟨p1, -⟩ := parseHeader_spec (textLines d) (textLines_wellFormed d) _ hbody
  exact ⟨by rw [sampleLines_text, saveText_rows], by rw [sampleLines_text, saveText_rows, p1]⟩

/-- The same dimensions and parametrization. -/
structure SameShape (d e : Data) : Prop where
  dimX : e.dimX = d.dimX
  dimY : e.dimY = d.dimY
  input : e.input = d.input
  output : e.output = d.output

theorem SameShape.header {d e : Data} (h : SameShape d e) : textLines e = textLines d := by
  unfold textLines
  rw [h.dimX, h.dimY, h.input, h.output]

theorem SameShape.lines {d e : Data} (h : SameShape d e) (fmt : ℝ → Decimal) :
    sampleLines fmt e = e.rows.map fun r => (saveRow fmt (r.take (d.dimX + d.dimY))).dropLast := by
  unfold sampleLines
  rw [h.dimX, h.dimY]

theorem saved_joined (fmt : ℝ → Decimal) (hfmt : ∀ v, (fmt v).ip ≠ [] ∨ (fmt v).fp ≠ []) {d e j : Data} (h1 : SameShape d e)
    (h2 : SameShape d j) (hr : j.rows = d.rows ++ e.rows) :
    FilesJoined (saveText fmt d) (saveText fmt e) (saveText fmt j) := by
  refine ⟨_, _, _, saved_isFile fmt hfmt d, h1.header ▸ saved_isFile fmt hfmt e, ?_⟩
  have := saved_isFile fmt hfmt j
  rw [h2.header, h2.lines, hr, List.map_append] at this
  rw [h1.lines]
  exact this

theorem saved_shuffled (fmt : ℝ → Decimal) (hfmt : ∀ v, (fmt v).ip ≠ [] ∨ (fmt v).fp ≠ []) {d e : Data} (h1 : SameShape d e)
    (hr : d.rows.Perm e.rows) : FilesReordered (saveText fmt d) (saveText fmt e) :=
  ⟨_, _, _, saved_isFile fmt hfmt d, h1.header ▸ saved_isFile fmt hfmt e, by rw [h1.lines]; exact hr.map _⟩

theorem saved_cut (fmt : ℝ → Decimal) (hfmt : ∀ v, (fmt v).ip ≠ [] ∨ (fmt v).fp ≠ []) {d e : Data} (h1 : SameShape d e)
    (hr : e.rows.Sublist d.rows) : FileCut (saveText fmt d) (saveText fmt e) :=
  ⟨_, _, _, saved_isFile fmt hfmt d, h1.header ▸ saved_isFile fmt hfmt e, by rw [h1.lines]; exact hr.map _⟩

/-! ### The two programs, sample by sample -/

theorem convertedSample_unique (args : SMap) (din : Data) (x y z : List ℝ) (h1 : ConvertedSample args din x y)
    (h2 : ConvertedSample args din x z) : y = z := by
  obtain ⟨t, a, p1, p2, p3, p4⟩ := h1
  obtain ⟨t', a', q1, q2, q3, q4⟩ := h2
  obtain rfl := Option.some.inj (p1.symm.trans q1)
  obtain rfl := Option.some.inj (p2.symm.trans q2)
  by_cases h : a ∨ args.isDefined "all-values".toList = true
  · rw [p3 h, q3 h]
  · have hb : args.isDefined "all-values".toList = false := by simpa using fun e => h (.inr e)
    rw [p4 (fun e => h (.inl e)) hb, q4 (fun e => h (.inl e)) hb]

theorem exportedSample_unique (g : Evaluable) (args : SMap) (d : Data) (x y z : List ℝ) (h1 : ExportedSample g args d x y)
    (h2 : ExportedSample g args d x z) : y = z := by
  obtain ⟨t, v, p1, p2, -, p3, p4⟩ := h1
  obtain ⟨t', v', q1, q2, -, q3, q4⟩ := h2
  obtain rfl := Option.some.inj (p1.symm.trans q1)
  obtain rfl := Option.some.inj (p2.symm.trans q2)
  cases h : args.isDefined "export-diff".toList
  · rw [p3 h, q3 h]
  · rw [p4 h, q4 h]

theorem SameShape.wanted {d e : Data} (h : SameShape d e) (args : SMap) : wantedParam args e = wantedParam args d := by
  unfold wantedParam
  rw [h.input]

theorem SameShape.converted {d e : Data} (h : SameShape d e) (args : SMap) :
    ConvertedSample args e = ConvertedSample args d := by
  funext x y
  unfold ConvertedSample
  rw [h.wanted, h.input, h.dimX, h.dimY]

theorem SameShape.exported {d e : Data} (h : SameShape d e) (g : Evaluable) (args : SMap) :
    ExportedSample g args e = ExportedSample g args d := by
  funext x y
  unfold ExportedSample Evaluable.abscissa
  rw [h.input, h.dimX, h.dimY]

theorem converted_shape {args : SMap} {din ein d e : Data} (h : SameShape din ein) (hd : ConvertedData args din d)
    (he : ConvertedData args ein e) : SameShape d e := by
  obtain ⟨a1, a2, a3, a4, -⟩ := hd
  obtain ⟨b1, b2, b3, b4, -⟩ := he
  exact ⟨by rw [a3, b3, h.wanted], by rw [a4, b4, h.dimY], by rw [a1, b1, h.wanted], by rw [a2, b2, h.output]⟩

theorem exported_shape {g : Evaluable} {args : SMap} {din ein d e : Data} (h : SameShape din ein)
    (hd : ExportedData g args din d) (he : ExportedData g args ein e) : SameShape d e := by
  obtain ⟨a1, a2, a3, a4, -⟩ := hd
  obtain ⟨b1, b2, b3, b4, -⟩ := he
  exact ⟨by rw [a3, b3, h.dimX], by rw [a4, b4, h.dimY], by rw [a1, b1, h.input], by rw [a2, b2, h.output]⟩

/-! ### Loaded files -/

theorem loaded_sampled (a : Str) (args : SMap) (d : Segments) (h : loadDataText a args = some d) :
    d.store.toData.Sampled := by
  unfold loadDataText at h
  simp only at h
  split at h
  · cases h
  obtain ⟨c, rows, -, hr, -, rfl⟩ := (loadText_iff _ _ _ _).1 h
  intro x hx
  refine store_row_length _ ?_ x hx
  have hl := loadRows_lengths c _ rows hr
  unfold Store.WF madeOf Segments.make Store.columns
  simp only
  rw [List.length_flatten]
  rw [List.map_congr_left hl]
  simp only [List.map_const', List.sum_replicate, smul_eq_mul, ciColumns]
  congr 1
  omega

theorem sameLayout_shape {d e : Segments} (h : SameLayout e d) : SameShape d.store.toData e.store.toData :=
  ⟨h.1, h.2.1, h.2.2.1, h.2.2.2.1⟩

/-- Two files with headers that say the same have the same dimensions and parametrization. -/
theorem loaded_layout (a b : Str) (args : SMap) (d e : Segments) (hd : loadDataText a args = some d)
    (he : loadDataText b args = some e) (hs : loadSetup (parseHeader a).1 args = loadSetup (parseHeader b).1 args) :
    SameLayout e d := by
  unfold loadDataText at hd he
  simp only at hd he
  split at hd
  · cases hd
  split at he
  · cases he
  obtain ⟨c, rows, h1, -, -, rfl⟩ := (loadText_iff _ _ _ _).1 hd
  obtain ⟨c', rows', h1', -, -, rfl⟩ := (loadText_iff _ _ _ _).1 he
  rw [hs, h1'] at h1
  obtain rfl := Option.some.inj h1
  exact ⟨rfl, rfl, rfl, rfl, rfl⟩

/-! ### data2data -/

/-- A run of `data2data` on a text file that is loaded, to a text file. -/
theorem convertsTo_text (val : Dbl → ℝ) (bits : ℝ → Dbl) (fmt : ℝ → Decimal) (hfmt : ∀ v, (fmt v).ip ≠ [] ∨ (fmt v).fp ≠ [])
    (dir : Str) (env : Option Str) (fs : Str → Option (Symbols (Str → SMap → Option DataObj)))
    (gs : Str → Option (Symbols (ℕ → Par → SMap → OutPlugin))) (args : SMap) (ha : AsksData args) (ho : TextOutput args)
    (hin : args.get "in-data".toList = [] ∨ args.get "in-data".toList = "vertical_segment".toList) (a : Str)
    (d : Segments) (hd : loadDataText a (args.update "filename".toList (args.get "input".toList)) = some d)
    (hn : (wantedParam args d.store.toData).Named) (t : Str) (r : ConvertsTo val bits fmt dir env fs gs args a t) :
    ∃ c : Data, ConvertedData args d.store.toData c ∧ t = saveText fmt c := by
  obtain ⟨files, writable, junk, evs, hf, run⟩ := r
  obtain ⟨c, h1, h2, -⟩ := data2data_text_file val bits fmt hfmt dir env fs gs files writable junk evs args ha ho a hf _
    (loadDataStream_text val dir env fs _ hin a _ d hd) (loaded_sampled _ _ d hd) hn _ run
  exact ⟨c, h1, Option.some.inj h2⟩

/-- There is such a run exactly when every sample can be converted. -/
theorem convertsTo_iff (val : Dbl → ℝ) (bits : ℝ → Dbl) (fmt : ℝ → Decimal)
    (dir : Str) (env : Option Str) (fs : Str → Option (Symbols (Str → SMap → Option DataObj)))
    (gs : Str → Option (Symbols (ℕ → Par → SMap → OutPlugin))) (args : SMap) (ha : AsksData args) (ho : TextOutput args)
    (hin : args.get "in-data".toList = [] ∨ args.get "in-data".toList = "vertical_segment".toList) (a : Str)
    (d : Segments) (hd : loadDataText a (args.update "filename".toList (args.get "input".toList)) = some d)
    (hn : (wantedParam args d.store.toData).Named) :
    (∃ t, ConvertsTo val bits fmt dir env fs gs args a t) ↔
      ∀ x ∈ d.store.toData.rows, ∃ t above,
        convertInput (arr x) d.store.toData.input (wantedParam args d.store.toData) = some t ∧
        isAboveHemisphere (arr t) (wantedParam args d.store.toData) = some above := by
  have run := fun files writable junk evs hf => data2data_run val bits fmt dir env fs gs files writable junk evs args ha
    (.inl ho) a hf _ (loadDataStream_text val dir env fs _ hin a _ d hd) (loaded_sampled _ _ d hd) hn
  constructor
  · rintro ⟨t, files, writable, junk, evs, hf, r⟩
    obtain ⟨-, h⟩ := (run files writable junk evs hf).1 ⟨t, r⟩
    exact h
  · intro h
    obtain ⟨t, r⟩ := (run (fun _ => some a) (fun _ => true) (fun _ => 0) [] rfl).2 ⟨rfl, h⟩
    exact ⟨t, _, _, _, _, rfl, r⟩

/-- **C95.**  `data2data` on two files joined writes the first of the two converted files followed by the lines of the second. -/
theorem data2data_joined (val : Dbl → ℝ) (bits : ℝ → Dbl) (fmt : ℝ → Decimal) (hfmt : ∀ v, (fmt v).ip ≠ [] ∨ (fmt v).fp ≠ [])
    (dir : Str) (env : Option Str) (fs : Str → Option (Symbols (Str → SMap → Option DataObj)))
    (gs : Str → Option (Symbols (ℕ → Par → SMap → OutPlugin))) (args : SMap) (ha : AsksData args) (ho : TextOutput args)
    (hin : args.get "in-data".toList = [] ∨ args.get "in-data".toList = "vertical_segment".toList) (a b j : Str)
    (d e k : Segments) (hd : loadDataText a (args.update "filename".toList (args.get "input".toList)) = some d)
    (he : loadDataText b (args.update "filename".toList (args.get "input".toList)) = some e)
    (hk : loadDataText j (args.update "filename".toList (args.get "input".toList)) = some k)
    (h1 : SameLayout e d) (h2 : SameLayout k d) (hs : k.samples = d.samples ++ e.samples)
    (hn : (wantedParam args d.store.toData).Named) (t u v : Str)
    (r1 : ConvertsTo val bits fmt dir env fs gs args a t) (r2 : ConvertsTo val bits fmt dir env fs gs args b u)
    (r3 : ConvertsTo val bits fmt dir env fs gs args j v) : FilesJoined t u v := by
  have s1 : SameShape d.store.toData e.store.toData := sameLayout_shape h1
  have s2 : SameShape d.store.toData k.store.toData := sameLayout_shape h2
  obtain ⟨c1, q1, rfl⟩ := convertsTo_text val bits fmt hfmt dir env fs gs args ha ho hin a d hd hn t r1
  obtain ⟨c2, q2, rfl⟩ := convertsTo_text val bits fmt hfmt dir env fs gs args ha ho hin b e he (s1.wanted args ▸ hn) u r2
  obtain ⟨c3, q3, rfl⟩ := convertsTo_text val bits fmt hfmt dir env fs gs args ha ho hin j k hk (s2.wanted args ▸ hn) v r3
  refine saved_joined fmt hfmt (converted_shape s1 q1 q2) (converted_shape s2 q1 q3) ?_
  have f2 := q2.rows
  have f3 := q3.rows
  rw [s1.converted] at f2
  rw [s2.converted, samples_rows, hs, List.map_append, ← samples_rows, ← samples_rows] at f3
  exact forall₂_joined (convertedSample_unique args _) q1.rows f2 f3

/-- **C95.**  `data2data` on a file with its samples in another order writes the same lines in another order. -/
theorem data2data_reordered (val : Dbl → ℝ) (bits : ℝ → Dbl) (fmt : ℝ → Decimal)
    (hfmt : ∀ v, (fmt v).ip ≠ [] ∨ (fmt v).fp ≠ [])
    (dir : Str) (env : Option Str) (fs : Str → Option (Symbols (Str → SMap → Option DataObj)))
    (gs : Str → Option (Symbols (ℕ → Par → SMap → OutPlugin))) (args : SMap) (ha : AsksData args) (ho : TextOutput args)
    (hin : args.get "in-data".toList = [] ∨ args.get "in-data".toList = "vertical_segment".toList) (a b : Str)
    (d e : Segments) (hd : loadDataText a (args.update "filename".toList (args.get "input".toList)) = some d)
    (he : loadDataText b (args.update "filename".toList (args.get "input".toList)) = some e)
    (h : Reordered d e) (hn : (wantedParam args d.store.toData).Named) (t u : Str)
    (r1 : ConvertsTo val bits fmt dir env fs gs args a t) (r2 : ConvertsTo val bits fmt dir env fs gs args b u) :
    FilesReordered t u := by
  have s1 : SameShape d.store.toData e.store.toData := sameLayout_shape h.layout
  obtain ⟨c1, q1, rfl⟩ := convertsTo_text val bits fmt hfmt dir env fs gs args ha ho hin a d hd hn t r1
  obtain ⟨c2, q2, rfl⟩ := convertsTo_text val bits fmt hfmt dir env fs gs args ha ho hin b e he (s1.wanted args ▸ hn) u r2
  refine saved_shuffled fmt hfmt (converted_shape s1 q1 q2) ?_
  have f2 := q2.rows
  rw [s1.converted] at f2
  exact forall₂_reordered (convertedSample_unique args _) h.rows q1.rows f2

/-- **C95.**  `data2data` on a file with samples removed writes the lines of the samples that stay. -/
theorem data2data_cut (val : Dbl → ℝ) (bits : ℝ → Dbl) (fmt : ℝ → Decimal)
    (hfmt : ∀ v, (fmt v).ip ≠ [] ∨ (fmt v).fp ≠ [])
    (dir : Str) (env : Option Str) (fs : Str → Option (Symbols (Str → SMap → Option DataObj)))
    (gs : Str → Option (Symbols (ℕ → Par → SMap → OutPlugin))) (args : SMap) (ha : AsksData args) (ho : TextOutput args)
    (hin : args.get "in-data".toList = [] ∨ args.get "in-data".toList = "vertical_segment".toList) (a b : Str)
    (d e : Segments) (hd : loadDataText a (args.update "filename".toList (args.get "input".toList)) = some d)
    (he : loadDataText b (args.update "filename".toList (args.get "input".toList)) = some e)
    (hl : SameLayout e d) (hs : e.samples.Sublist d.samples) (hn : (wantedParam args d.store.toData).Named) (t u : Str)
    (r1 : ConvertsTo val bits fmt dir env fs gs args a t) (r2 : ConvertsTo val bits fmt dir env fs gs args b u) :
    FileCut t u := by
  have s1 : SameShape d.store.toData e.store.toData := sameLayout_shape hl
  obtain ⟨c1, q1, rfl⟩ := convertsTo_text val bits fmt hfmt dir env fs gs args ha ho hin a d hd hn t r1
  obtain ⟨c2, q2, rfl⟩ := convertsTo_text val bits fmt hfmt dir env fs gs args ha ho hin b e he (s1.wanted args ▸ hn) u r2
  refine saved_cut fmt hfmt (converted_shape s1 q1 q2) ?_
  have f2 := q2.rows
  rw [s1.converted] at f2
  have hr : e.store.toData.rows.Sublist d.store.toData.rows := by
    rw [samples_rows, samples_rows]; exact hs.map _
  exact forall₂_cut (convertedSample_unique args _) hr q1.rows f2

/-- **C95.**  `data2data` converts a file exactly when it can convert each of its samples: two files joined are converted
    exactly when both are. -/
theorem data2data_joined_runs (val : Dbl → ℝ) (bits : ℝ → Dbl) (fmt : ℝ → Decimal)
    (dir : Str) (env : Option Str) (fs : Str → Option (Symbols (Str → SMap → Option DataObj)))
    (gs : Str → Option (Symbols (ℕ → Par → SMap → OutPlugin))) (args : SMap) (ha : AsksData args) (ho : TextOutput args)
    (hin : args.get "in-data".toList = [] ∨ args.get "in-data".toList = "vertical_segment".toList) (a b j : Str)
    (d e k : Segments) (hd : loadDataText a (args.update "filename".toList (args.get "input".toList)) = some d)
    (he : loadDataText b (args.update "filename".toList (args.get "input".toList)) = some e)
    (hk : loadDataText j (args.update "filename".toList (args.get "input".toList)) = some k)
    (h1 : SameLayout e d) (h2 : SameLayout k d) (hs : k.samples = d.samples ++ e.samples)
    (hn : (wantedParam args d.store.toData).Named) :
    (∃ v, ConvertsTo val bits fmt dir env fs gs args j v) ↔
      (∃ t, ConvertsTo val bits fmt dir env fs gs args a t) ∧ ∃ u, ConvertsTo val bits fmt dir env fs gs args b u := by
  have s1 : SameShape d.store.toData e.store.toData := sameLayout_shape h1
  have s2 : SameShape d.store.toData k.store.toData := sameLayout_shape h2
  have key := fun a d hd hn => convertsTo_iff val bits fmt dir env fs gs args ha ho hin a d hd hn
  rw [key j k hk (s2.wanted args ▸ hn), key a d hd hn, key b e he (s1.wanted args ▸ hn)]
  rw [s1.wanted, s2.wanted, s1.input, s2.input, samples_rows k, hs, List.map_append, ← samples_rows, ← samples_rows]
  constructor
  · intro h
    exact ⟨fun x hx => h x (List.mem_append_left _ hx), fun x hx => h x (List.mem_append_right _ hx)⟩
  · rintro ⟨p, q⟩ x hx
    rcases List.mem_append.1 hx with hx | hx
    · exact p x hx
    · exact q x hx

end
end Alta
