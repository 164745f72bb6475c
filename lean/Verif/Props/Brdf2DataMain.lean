import Verif.Spec.Brdf2DataMain
import Verif.Props.Data2DataRun
import Verif.Props.Brdf2Data
/-
C88: the program `brdf2data`, from its files to a file.
-/
namespace Alta
noncomputable section

/-- What a turn of the loop does. -/
theorem exportSample_spec (g : Evaluable) (args : SMap) (d : Data) (x y : List ℝ) (hx : x.length = d.dimX + d.dimY)
    (h : exportSample g (args.isDefined "export-diff".toList) d x = some y) : ExportedSample g args d x y := by
  unfold exportSample at h
  obtain ⟨z, hz, h⟩ := Option.bind_eq_some_iff.1 h
  obtain ⟨v, hv, h⟩ := Option.bind_eq_some_iff.1 h
  have hab : g.abscissa d x = some z := by
    unfold distancePoint at hz
    unfold Evaluable.abscissa
    split at hz
    · rename_i hu
      rw [if_pos hu]
      split at hz
      · exact hz
      · cases hz
    · rename_i hu
      rw [if_neg hu]
      split at hz
      · rename_i w hw
        split at hz
        · rw [hw]; exact hz
        · cases hz
      · cases hz
  split at h
  · rename_i hl
    simp only [Option.some.injEq] at h
    have hk : x.length - d.dimY = d.dimX := by omega
    rw [hk] at h
    refine ⟨z, v, hab, hv, hl, fun hd => ?_, fun hd => ?_⟩
    · rw [hd] at h
      simp only [Bool.false_eq_true, if_false] at h
      exact h.symm
    · rw [hd] at h
      simp only [if_true] at h
      rw [← h]
      congr 1
      apply List.ext_getElem
      · simp; omega
      · intro i q1 q2
        simp only [List.length_map, List.length_range] at q2
        simp only [List.getElem_zipWith, List.getElem_drop, List.getElem_map, List.getElem_range]
        simp [arr, show d.dimX + i < x.length by omega, show i < v.length by omega]
  · cases h

/-- A turn of the loop ends when the function can be evaluated at the sample. -/
theorem exportSample_isSome (g : Evaluable) (diff : Bool) (d : Data) (x : List ℝ) :
    (exportSample g diff d x).isSome ↔ ∃ z v, distancePoint g d x = some z ∧ g.value z = some v ∧ v.length = d.dimY := by
  unfold exportSample
  constructor
  · intro h
    obtain ⟨y, h⟩ := Option.isSome_iff_exists.1 h
    obtain ⟨z, hz, h⟩ := Option.bind_eq_some_iff.1 h
    obtain ⟨v, hv, h⟩ := Option.bind_eq_some_iff.1 h
    split at h
    · rename_i hl
      exact ⟨z, v, hz, hv, hl⟩
    · cases h
  · rintro ⟨z, v, hz, hv, hl⟩
    rw [hz, Option.bind_some, hv, Option.bind_some, if_pos hl]
    rfl

/-- All the turns. -/
theorem exportSamples_spec (g : Evaluable) (args : SMap) (d : Data) (hs : d.Sampled) (rows : List (List ℝ))
    (h : d.rows.mapM (exportSample g (args.isDefined "export-diff".toList) d) = some rows) :
    ExportedData g args d { d with rows := rows } ∧ ({ d with rows := rows } : Data).Sampled := by
  have key : ∀ l l' : List (List ℝ), (∀ x ∈ l, x.length = d.dimX + d.dimY) →
      l.mapM (exportSample g (args.isDefined "export-diff".toList) d) = some l' →
      List.Forall₂ (ExportedSample g args d) l l' ∧ ∀ y ∈ l', y.length = d.dimX + d.dimY := by
    intro l
    induction l with
    | nil =>
      intro l' _ h
      simp only [List.mapM_nil] at h
      cases h
      exact ⟨.nil, by simp⟩
    | cons x l ih =>
      intro l' hl h
      rw [List.mapM_cons] at h
      obtain ⟨y, hy, h⟩ := Option.bind_eq_some_iff.1 h
      obtain ⟨l2, hl2, h⟩ := Option.bind_eq_some_iff.1 h
      cases h
      obtain ⟨i1, i2⟩ := ih l2 (fun x hx => hl x (by simp [hx])) hl2
      have hxl := hl x (by simp)
      have e := exportSample_spec g args d x y hxl hy
      refine ⟨.cons e i1, ?_⟩
      intro w hw
      rcases List.mem_cons.1 hw with rfl | hw
      · obtain ⟨z, v, -, -, h3, h4, h5⟩ := e
        cases hd : args.isDefined "export-diff".toList with
        | false => rw [h4 hd, List.length_append, List.length_take, hxl, h3]; omega
        | true => rw [h5 hd, List.length_append, List.length_take, hxl, List.length_map, List.length_range]; omega
      · exact i2 w hw
  obtain ⟨k1, k2⟩ := key _ _ hs h
  exact ⟨⟨rfl, rfl, rfl, rfl, k1⟩, k2⟩

theorem mapM_ends_iff {α β : Type} (F : α → Option β) (l : List α) : (l.mapM F).isSome ↔ ∀ x ∈ l, (F x).isSome := by
  induction l with
  | nil => simp
  | cons x l ih =>
    rw [List.mapM_cons, List.forall_mem_cons, ← ih]
    cases F x with
    | none => simp
    | some y => cases l.mapM F <;> simp

/-- What a run does once the template is loaded. -/
theorem brdf2dataMain_loaded (val : Dbl → ℝ) (junk : ℝ) (fmt : ℝ → Decimal) (dir : Str) (env : Option Str)
    (ff : Str → Option (Symbols (Provider LobeObj))) (fs : Str → Option (Symbols (Str → SMap → Option OutPlugin)))
    (gs : Str → Option (Symbols (ℕ → Par → SMap → OutPlugin))) (files : Str → Option Str) (writable : Str → Bool)
    (args : SMap) (ha : AsksExport args) (content : Str) (hf : files (args.get "data-file".toList) = some content) :
    brdf2dataMain val junk fmt dir env ff fs gs files writable args =
      (loadTemplate val fmt dir env fs (args.get "data".toList) content
        (args.update "filename".toList (args.get "data-file".toList))).bind
          (brdf2dataWrite junk dir env ff files writable args) := by
  unfold brdf2dataMain
  rw [if_neg (by rw [ha.noHelp]; simp), if_neg (by rw [ha.input]; simp), if_neg (by rw [ha.output]; simp),
    if_neg (by rw [ha.file]; simp), if_pos ha.file]
  simp only [hf]

/-- A template of the default class is read as `plugins_manager::load_data` reads it. -/
theorem loadTemplate_default (val : Dbl → ℝ) (fmt : ℝ → Decimal) (dir : Str) (env : Option Str)
    (fs : Str → Option (Symbols (Str → SMap → Option OutPlugin))) (type : Str)
    (ht : type = [] ∨ type = "vertical_segment".toList) (content : Str) (args : SMap) (d : DataObj)
    (h : loadDataStream val dir env (fun _ => none) type content args = some (some d)) :
    loadTemplate val fmt dir env fs type content args = some (some (OutPlugin.default fmt d.toData)) := by
  unfold loadTemplate
  rw [if_pos ht, h]
  rfl

/-- **C88.**  A run on a template of ALTA's format writes a file exactly when the file can be opened and the function can be
    evaluated at every sample of the template; the exit code is then 0. -/
theorem brdf2data_run (val : Dbl → ℝ) (junk : ℝ) (fmt : ℝ → Decimal) (dir : Str) (env : Option Str)
    (ff : Str → Option (Symbols (Provider LobeObj))) (fs : Str → Option (Symbols (Str → SMap → Option OutPlugin)))
    (gs : Str → Option (Symbols (ℕ → Par → SMap → OutPlugin))) (files : Str → Option Str) (writable : Str → Bool)
    (args : SMap) (ha : AsksExport args) (ht : AltaTemplate args) (content text : Str)
    (hf : files (args.get "data-file".toList) = some content) (hg : files (args.get "input".toList) = some text)
    (din : DataObj)
    (hl : loadDataStream val dir env (fun _ => none) (args.get "data".toList) content
      (args.update "filename".toList (args.get "data-file".toList)) = some (some din))
    (f : AnyFn) (hload : loadAny junk dir env ff text = some (some f)) :
    (∃ t, brdf2dataMain val junk fmt dir env ff fs gs files writable args = some (0, some t)) ↔
      writable (args.get "output".toList) = true ∧
      ∀ x ∈ din.rows, ∃ z v, distancePoint f.evaluable din.toData x = some z ∧ f.evaluable.value z = some v ∧
        v.length = din.par.dimY := by
  rw [brdf2dataMain_loaded val junk fmt dir env ff fs gs files writable args ha content hf,
    loadTemplate_default val fmt dir env fs _ ht content _ din hl, Option.bind_some]
  unfold brdf2dataWrite
  rw [hg, Option.map_some, hload]
  simp only
  have hrows : (OutPlugin.default fmt din.toData).rows = din.rows := rfl
  have hdata : (OutPlugin.default fmt din.toData).toData = din.toData := rfl
  rw [hrows, hdata]
  constructor
  · rintro ⟨t, h⟩
    obtain ⟨rows, h1, h2⟩ := Option.bind_eq_some_iff.1 h
    split at h2
    · rename_i hw
      refine ⟨hw, fun x hx => ?_⟩
      exact (exportSample_isSome _ _ _ _).1 ((mapM_ends_iff _ _).1 (by rw [h1]; rfl) x hx)
    · cases h2
  · rintro ⟨hw, hc⟩
    obtain ⟨rows, h1⟩ := Option.isSome_iff_exists.1 ((mapM_ends_iff (exportSample f.evaluable
      (args.isDefined "export-diff".toList) din.toData) din.rows).2 fun x hx => (exportSample_isSome _ _ _ _).2 (hc x hx))
    exact ⟨_, by rw [h1, Option.bind_some, if_pos hw]⟩

/-- **C88.**  The file that is written holds the samples of the template, in order, with the values of the function of the
    input file (or, with `--export-diff`, the differences), and is loaded as such. -/
theorem brdf2data_text_file (val : Dbl → ℝ) (junk : ℝ) (fmt : ℝ → Decimal)
    (hfmt : ∀ v, (fmt v).ip ≠ [] ∨ (fmt v).fp ≠ []) (dir : Str) (env : Option Str)
    (ff : Str → Option (Symbols (Provider LobeObj))) (fs : Str → Option (Symbols (Str → SMap → Option OutPlugin)))
    (gs : Str → Option (Symbols (ℕ → Par → SMap → OutPlugin))) (files : Str → Option Str) (writable : Str → Bool)
    (args : SMap) (ha : AsksExport args) (ht : AltaTemplate args) (content text : Str)
    (hf : files (args.get "data-file".toList) = some content) (hg : files (args.get "input".toList) = some text)
    (din : DataObj)
    (hl : loadDataStream val dir env (fun _ => none) (args.get "data".toList) content
      (args.update "filename".toList (args.get "data-file".toList)) = some (some din))
    (hs : din.toData.Sampled) (f : AnyFn) (hload : loadAny junk dir env ff text = some (some f)) (c : ℕ) (out : Option Str)
    (h : brdf2dataMain val junk fmt dir env ff fs gs files writable args = some (c, out)) :
    c = 0 ∧ ∃ d : Data, ExportedData f.evaluable args din.toData d ∧ d.Sampled ∧ out = some (saveText fmt d) ∧
      ((0 < din.par.dimX + din.par.dimY) → (din.par.input.Named ∨ din.par.input = .UNKNOWN_INPUT) →
        (∀ r ∈ d.rows, ∀ v ∈ r, |((fmt v).value : ℝ)| ≤ ((fltMax : ℚ) : ℝ)) →
        ∀ (fs' : Str → Option (Symbols (Str → SMap → Option DataObj))) (files' : Str → Option Str) (name type : Str),
          type = [] ∨ type = "vertical_segment".toList → files' name = out →
          loadDataFile val dir env fs' files' name type = some (some (.ofData (d.printedBy fmt)))) := by
  rw [brdf2dataMain_loaded val junk fmt dir env ff fs gs files writable args ha content hf,
    loadTemplate_default val fmt dir env fs _ ht content _ din hl, Option.bind_some] at h
  unfold brdf2dataWrite at h
  rw [hg, Option.map_some, hload] at h
  simp only at h
  obtain ⟨rows, h1, h2⟩ := Option.bind_eq_some_iff.1 h
  split at h2
  · simp only [Option.some.injEq, Prod.mk.injEq] at h2
    obtain ⟨rfl, rfl⟩ := h2
    obtain ⟨e1, e2⟩ := exportSamples_spec f.evaluable args din.toData hs rows h1
    refine ⟨rfl, _, e1, e2, rfl, ?_⟩
    intro hpos hin hfin fs' files' name type htype hf'
    exact loadDataFile_saved val fmt hfmt dir env fs' files' name type htype _ hf' hpos e2 hfin hin
  · cases h2

/-- **C88.**  The program without its function or template: a file that cannot be opened, or is not one of a function, gives
    the exit code 1, and nothing is written. -/
theorem brdf2data_failure (val : Dbl → ℝ) (junk : ℝ) (fmt : ℝ → Decimal) (dir : Str) (env : Option Str)
    (ff : Str → Option (Symbols (Provider LobeObj))) (fs : Str → Option (Symbols (Str → SMap → Option OutPlugin)))
    (gs : Str → Option (Symbols (ℕ → Par → SMap → OutPlugin))) (files : Str → Option Str) (writable : Str → Bool)
    (args : SMap) (ha : AsksExport args) :
    (files (args.get "data-file".toList) = none →
      brdf2dataMain val junk fmt dir env ff fs gs files writable args = some (1, none)) ∧
    (∀ content o, files (args.get "data-file".toList) = some content →
      loadTemplate val fmt dir env fs (args.get "data".toList) content
        (args.update "filename".toList (args.get "data-file".toList)) = some o →
      (files (args.get "input".toList) = none ∨ ∃ text, files (args.get "input".toList) = some text ∧
        loadAny junk dir env ff text = some none) →
      brdf2dataMain val junk fmt dir env ff fs gs files writable args = some (1, none)) := by
  constructor
  · intro hf
    unfold brdf2dataMain
    rw [if_neg (by rw [ha.noHelp]; simp), if_neg (by rw [ha.input]; simp), if_neg (by rw [ha.output]; simp),
      if_neg (by rw [ha.file]; simp), if_pos ha.file]
    simp only [hf]
  · intro content o hf ho hi
    rw [brdf2dataMain_loaded val junk fmt dir env ff fs gs files writable args ha content hf, ho, Option.bind_some]
    unfold brdf2dataWrite
    rcases hi with hi | ⟨text, hi, hn⟩
    · rw [hi]; rfl
    · rw [hi, Option.map_some, hn]

/-- **C88.**  Whatever the options of a run: a file is written only with the exit code 0, and another exit code is 1. -/
theorem brdf2data_exit (val : Dbl → ℝ) (junk : ℝ) (fmt : ℝ → Decimal) (dir : Str) (env : Option Str)
    (ff : Str → Option (Symbols (Provider LobeObj))) (fs : Str → Option (Symbols (Str → SMap → Option OutPlugin)))
    (gs : Str → Option (Symbols (ℕ → Par → SMap → OutPlugin))) (files : Str → Option Str) (writable : Str → Bool)
    (args : SMap) (c : ℕ) (out : Option Str)
    (h : brdf2dataMain val junk fmt dir env ff fs gs files writable args = some (c, out)) :
    (c = 0 ∨ c = 1) ∧ (out.isSome → c = 0) := by
  have one : ∀ {c : ℕ} {f : Option Str}, some ((1 : ℕ), (none : Option Str)) = some (c, f) →
      (c = 0 ∨ c = 1) ∧ (f.isSome → c = 0) := by
    intro c f h
    simp only [Option.some.injEq, Prod.mk.injEq] at h
    obtain ⟨rfl, rfl⟩ := h
    exact ⟨.inr rfl, by simp⟩
  have zero : ∀ {c : ℕ} {t f : Option Str}, some ((0 : ℕ), t) = some (c, f) → (c = 0 ∨ c = 1) ∧ (f.isSome → c = 0) := by
    intro c t f h
    simp only [Option.some.injEq, Prod.mk.injEq] at h
    exact ⟨.inl h.1.symm, fun _ => h.1.symm⟩
  have wr : ∀ o, brdf2dataWrite junk dir env ff files writable args o = some (c, out) →
      (c = 0 ∨ c = 1) ∧ (out.isSome → c = 0) := by
    intro o h
    unfold brdf2dataWrite at h
    split at h
    · exact one h
    · cases h
    · exact one h
    · split at h
      · exact zero h
      · obtain ⟨rows, -, h⟩ := Option.bind_eq_some_iff.1 h
        split at h
        · exact zero h
        · cases h
  unfold brdf2dataMain at h
  split at h
  · exact zero h
  split at h
  · exact one h
  split at h
  · exact one h
  split at h
  · exact one h
  split at h
  · split at h
    · exact one h
    · obtain ⟨o, -, h⟩ := Option.bind_eq_some_iff.1 h
      exact wr o h
  · obtain ⟨o, -, h⟩ := Option.bind_eq_some_iff.1 h
    exact wr o h

/-! ### Limits of the code -/

/-- Limit: when the plugin of the template is not found the program ends with the exit code 0, and nothing is written. -/
theorem brdf2data_null_template (val : Dbl → ℝ) (junk : ℝ) (fmt : ℝ → Decimal) (dir : Str) (env : Option Str)
    (ff : Str → Option (Symbols (Provider LobeObj))) (fs : Str → Option (Symbols (Str → SMap → Option OutPlugin)))
    (gs : Str → Option (Symbols (ℕ → Par → SMap → OutPlugin))) (files : Str → Option Str) (writable : Str → Bool)
    (args : SMap) (ha : AsksExport args) (content text : Str) (hf : files (args.get "data-file".toList) = some content)
    (hg : files (args.get "input".toList) = some text) (f : AnyFn) (hload : loadAny junk dir env ff text = some (some f))
    (hd : ¬ AltaTemplate args) (hp : openLibrary dir env fs (args.get "data".toList) "load_data".toList = some none) :
    brdf2dataMain val junk fmt dir env ff fs gs files writable args = some (0, none) := by
  rw [brdf2dataMain_loaded val junk fmt dir env ff fs gs files writable args ha content hf]
  unfold loadTemplate
  rw [if_neg (show ¬ (args.get "data".toList = [] ∨ args.get "data".toList = "vertical_segment".toList) from hd), hp]
  simp only [Option.bind_some]
  unfold brdf2dataWrite
  rw [hg, Option.map_some, hload]

/-- Limit: without template file, and with the default class of data, the file that is written has no sample, whatever the
    function. -/
theorem brdf2data_no_template (val : Dbl → ℝ) (junk : ℝ) (fmt : ℝ → Decimal) (dir : Str) (env : Option Str)
    (ff : Str → Option (Symbols (Provider LobeObj))) (fs : Str → Option (Symbols (Str → SMap → Option OutPlugin)))
    (gs : Str → Option (Symbols (ℕ → Par → SMap → OutPlugin))) (files : Str → Option Str) (writable : Str → Bool)
    (args : SMap) (h1 : args.isDefined "help".toList = false) (h2 : args.isDefined "input".toList = true)
    (h3 : args.isDefined "output".toList = true) (h4 : args.isDefined "data-file".toList = false)
    (h5 : args.isDefined "data".toList = true) (ht : AltaTemplate args) (text : Str)
    (hg : files (args.get "input".toList) = some text) (f : AnyFn) (hload : loadAny junk dir env ff text = some (some f))
    (hw : writable (args.get "output".toList) = true) :
    brdf2dataMain val junk fmt dir env ff fs gs files writable args =
      some (0, some (saveText fmt ⟨0, 0, .UNKNOWN_INPUT, .UNKNOWN_OUTPUT, []⟩)) := by
  unfold brdf2dataMain
  rw [if_neg (by rw [h1]; simp), if_neg (by rw [h2]; simp), if_neg (by rw [h3]; simp), if_neg (by rw [h5]; simp),
    if_neg (by rw [h4]; simp)]
  unfold newTemplate
  rw [if_pos (show args.get "data".toList = [] ∨ args.get "data".toList = "vertical_segment".toList from ht), Option.bind_some]
  unfold brdf2dataWrite
  rw [hg, Option.map_some, hload]
  simp only [OutPlugin.default, List.mapM_nil]
  rw [show (pure [] : Option (List (List ℝ))) = some [] from rfl, Option.bind_some, if_pos hw]

/-- **C88.**  With an object of a plugin (loaded from the template file, or made without a file, like the whole grid of MERL), the
    file is the one of the plugin for the object with the values of the function (or the differences) at all of its samples. -/
theorem brdf2data_plugin_file (val : Dbl → ℝ) (junk : ℝ) (fmt : ℝ → Decimal) (dir : Str) (env : Option Str)
    (ff : Str → Option (Symbols (Provider LobeObj))) (fs : Str → Option (Symbols (Str → SMap → Option OutPlugin)))
    (gs : Str → Option (Symbols (ℕ → Par → SMap → OutPlugin))) (files : Str → Option Str) (writable : Str → Bool)
    (args : SMap) (h1 : args.isDefined "help".toList = false) (h2 : args.isDefined "input".toList = true)
    (h3 : args.isDefined "output".toList = true) (hd : args.isDefined "data".toList = true) (ht : ¬ AltaTemplate args)
    (text : Str) (hg : files (args.get "input".toList) = some text) (o : OutPlugin)
    (hl : (∃ content load, args.isDefined "data-file".toList = true ∧ files (args.get "data-file".toList) = some content ∧
        openLibrary dir env fs (args.get "data".toList) "load_data".toList = some (some load) ∧
        load content (args.update "filename".toList (args.get "data-file".toList)) = some o) ∨
      (∃ provide, args.isDefined "data-file".toList = false ∧
        openLibrary dir env gs (args.get "data".toList) "provide_data".toList = some (some provide) ∧
        provide 0 ⟨0, 0, .UNKNOWN_INPUT, .UNKNOWN_OUTPUT⟩ args = o))
    (hs : o.toData.Sampled) (f : AnyFn) (hload : loadAny junk dir env ff text = some (some f))
    (hw : writable (args.get "output".toList) = true)
    (hends : ∀ x ∈ o.rows, ∃ z v, distancePoint f.evaluable o.toData x = some z ∧ f.evaluable.value z = some v ∧
      v.length = o.par.dimY) :
    ∃ d : Data, ExportedData f.evaluable args o.toData d ∧ d.Sampled ∧
      brdf2dataMain val junk fmt dir env ff fs gs files writable args = some (0, some (o.text d.rows)) := by
  have ht' : ¬ (args.get "data".toList = [] ∨ args.get "data".toList = "vertical_segment".toList) := ht
  have hstart : brdf2dataMain val junk fmt dir env ff fs gs files writable args =
      brdf2dataWrite junk dir env ff files writable args (some o) := by
    unfold brdf2dataMain
    rw [if_neg (by rw [h1]; simp), if_neg (by rw [h2]; simp), if_neg (by rw [h3]; simp), if_neg (by rw [hd]; simp)]
    rcases hl with ⟨content, load, q1, q2, q3, q4⟩ | ⟨provide, q1, q3, q4⟩
    · rw [if_pos q1, q2]
      simp only
      unfold loadTemplate
      rw [if_neg ht', q3]
      simp only
      rw [q4]
      rfl
    · rw [if_neg (by rw [q1]; simp)]
      unfold newTemplate
      rw [if_neg ht', q3]
      simp only
      rw [q4]
      rfl
  obtain ⟨rows, hrows⟩ := Option.isSome_iff_exists.1 ((mapM_ends_iff
    (exportSample f.evaluable (args.isDefined "export-diff".toList) o.toData) o.toData.rows).2
      fun x hx => (exportSample_isSome f.evaluable _ o.toData x).2 (hends x hx))
  obtain ⟨e1, e2⟩ := exportSamples_spec f.evaluable args o.toData hs rows hrows
  refine ⟨_, e1, e2, ?_⟩
  rw [hstart]
  unfold brdf2dataWrite
  rw [hg, Option.map_some, hload]
  simp only
  rw [show o.rows.mapM (exportSample f.evaluable (args.isDefined "export-diff".toList) o.toData) = some rows from hrows,
    Option.bind_some, if_pos hw]

end
end Alta
