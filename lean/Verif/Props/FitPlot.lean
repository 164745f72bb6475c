import Verif.Props.Brdf2GnuplotMain
import Verif.Props.FitExport
/-
C90: the plots of `brdf2gnuplot` and the other programs: the file of `brdf2data`, and the distances of a fit.
-/
namespace Alta
noncomputable section

/-- The only sample that can be exported. -/
theorem exportedSample_iff (g : Evaluable) (args : SMap) (d : Data) (h : DistanceReady g d) (i : ℕ) (row y : List ℝ) (hr : row ∈ d.rows) :
    ExportedSample g args d row y ↔
      y = plotted g d (if args.isDefined "export-diff".toList then .error else .value) 1 i row := by
  obtain ⟨x, v, h1, h2, h3, h4⟩ := h.points row hr
  have hval : g.valueFor d row = v := by
    unfold Evaluable.valueFor
    rw [h1]
    simp [h3]
  have hl : v.length = d.dimY := h4.trans h.channels
  have hlist : (List.range d.dimY).map (fun u => 1 * arr v u) = v := by
    apply List.ext_getElem
    · simp [hl]
    intro k k1 k2
    simp [arr, k2]
  constructor
  · rintro ⟨z, w, e1, e2, -, e4, e5⟩
    have hz : z = x := by rw [h1] at e1; exact (Option.some.inj e1).symm
    rw [hz, h3] at e2
    obtain rfl := Option.some.inj e2
    cases hd : args.isDefined "export-diff".toList with
    | false =>
      rw [e4 hd]
      simp only [plotted, hval, Bool.false_eq_true, if_false, hlist]
    | true =>
      rw [e5 hd]
      simp only [plotted, hval, one_mul, if_true]
  · intro e
    refine ⟨x, v, h1, h3, hl, fun hd => ?_, fun hd => ?_⟩
    · rw [e, hd]
      simp only [plotted, hval, Bool.false_eq_true, if_false, hlist]
    · rw [e, hd]
      simp only [plotted, hval, one_mul, if_true]

theorem forall₂_zipIdx {α β : Type} (R : α → β → Prop) (F : α → ℕ → β) (l : List α) (l' : List β)
    (h : ∀ x ∈ l, ∀ i y, R x y ↔ y = F x i) (n : ℕ) : List.Forall₂ R l l' ↔ l' = (l.zipIdx n).map fun p => F p.1 p.2 := by
  induction l generalizing l' n with
  | nil => simp
  | cons a l ih =>
    rw [List.zipIdx_cons, List.map_cons]
    cases l' with
    | nil => simp
    | cons b l' =>
      rw [List.forall₂_cons, h a (by simp) n b, ih l' (fun x hx => h x (by simp [hx])) (n + 1), List.cons.injEq]

/-- The samples that are exported are the lines that are plotted. -/
theorem exportedData_rows (g : Evaluable) (args : SMap) (d d' : Data) (h : DistanceReady g d) :
    List.Forall₂ (ExportedSample g args d) d.rows d'.rows ↔ d'.rows = d.rows.zipIdx.map fun p =>
      plotted g d (if args.isDefined "export-diff".toList then .error else .value) 1 p.2 p.1 :=
  forall₂_zipIdx _ (fun row i => plotted g d (if args.isDefined "export-diff".toList then .error else .value) 1 i row) _ _
    (fun x hx i y => exportedSample_iff g args d h i x y hx) 0

/-- **C90.**  The plot of the values, and of the differences, has the samples of the file of `brdf2data` for the same function and the
    same data (with `--export-diff` for `--error`), each program with its precision. -/
theorem plot_as_export (val : Dbl → ℝ) (junk : ℝ) (dir : Str) (env : Option Str)
    (ff : Str → Option (Symbols (Provider LobeObj))) (files : Str → Option Str) (writable : Str → Bool)
    (content text : Str) (d : Data) (hs : d.Sampled) (hne : d.rows ≠ [])
    (f : AnyFn) (hload : loadAny junk dir env ff text = some (some f)) (hready : DistanceReady f.evaluable d)
    -- the export
    (fmt : ℝ → Decimal) (hfmt : ∀ v, (fmt v).ip ≠ [] ∨ (fmt v).fp ≠ [])
    (fs : Str → Option (Symbols (Str → SMap → Option OutPlugin)))
    (gs : Str → Option (Symbols (ℕ → Par → SMap → OutPlugin))) (args : SMap) (ha : AsksExport args) (ht : AltaTemplate args)
    (hf : files (args.get "data-file".toList) = some content) (hg : files (args.get "input".toList) = some text)
    (hl : loadDataStream val dir env (fun _ => none) (args.get "data".toList) content
      (args.update "filename".toList (args.get "data-file".toList)) = some (some (.ofData d)))
    (c : ℕ) (out : Option Str) (h : brdf2dataMain val junk fmt dir env ff fs gs files writable args = some (c, out))
    -- the plot
    (fmt' : ℝ → Decimal) (hfmt' : ∀ v, (fmt' v).ip ≠ [] ∨ (fmt' v).fp ≠ [])
    (fs' : Str → Option (Symbols (Str → SMap → Option DataObj))) (args' : SMap) (ha' : AsksPlot args' writable)
    (hf' : files (args'.get "data-file".toList) = some content) (hg' : files (args'.get "input".toList) = some text)
    (hl' : loadDataStream val dir env fs' (args'.get "data".toList) content
      (args'.update "filename".toList (args'.get "data-file".toList)) = some (some (.ofData d)))
    (hcos : args'.isDefined "cos-plot".toList = false) (hlin : args'.isDefined "linear_error".toList = false)
    (hkind : args'.isDefined "error".toList = args.isDefined "export-diff".toList) :
    ∃ (d' : Data) (file : Str), out = some (saveText fmt d') ∧ ExportedData f.evaluable args d d' ∧
      brdf2gnuplotMain val junk fmt' dir env ff fs' files writable args' = some (0, some file) ∧
      readTable file = some (printedTable fmt' d'.rows) := by
  obtain ⟨-, d', e1, -, e2, -⟩ := brdf2data_text_file val junk fmt hfmt dir env ff fs gs files writable args ha ht content text hf
    hg _ hl hs f hload c out h
  have hk : plotKind (args'.isDefined "error".toList) (args'.isDefined "linear_error".toList) =
      if args.isDefined "export-diff".toList then .error else .value := by
    rw [hlin, hkind]
    rfl
  obtain ⟨file, k1, k2⟩ := brdf2gnuplot_file val junk fmt' hfmt' dir env ff fs' files writable args' ha' content text hf' hg' _ hl' f
    hload hready hne (.inl hcos) (by rw [hk]; split <;> simp)
  refine ⟨d', file, e2, e1, k1, ?_⟩
  rw [k2, hk, (exportedData_rows f.evaluable args d d' hready).1 e1.rows]
  rfl

/-- **C90.**  The plot of the differences has the distances that are printed: before the values are printed, their root mean square
    is the L2 distance and their largest absolute value the L∞ distance. -/
theorem plot_distances (g : Evaluable) (d : Data) (hs : d.Sampled) (hne : d.rows ≠ []) (l2 linf : ℝ) (mean var : List ℝ)
    (h2 : l2Distance g d = some l2) (hi : linfDistance g d = some (linf, mean, var)) (t : List (List ℝ))
    (ht : t = d.rows.zipIdx.map fun p => plotted g d .error 1 p.2 p.1) :
    t.length = d.rows.length ∧ ({ d with rows := t } : Data).rootMeanSquare = l2 ∧
      (∀ row ∈ t, ∀ c < d.dimY, |arr row (d.dimX + c)| ≤ linf) ∧
      (linf = 0 ∨ ∃ row ∈ t, ∃ c < d.dimY, linf = |arr row (d.dimX + c)|) := by
  have hr := distanceReady_of g d hs hne _ hi
  have hd : SMap.isDefined [("export-diff".toList, [])] "export-diff".toList = true := by decide
  have hex : ExportedData g [("export-diff".toList, [])] d { d with rows := t } := by
    refine ⟨rfl, rfl, rfl, rfl, (exportedData_rows g _ d _ hr).2 ?_⟩
    rw [if_pos hd]
    exact ht
  obtain ⟨q1, q2, q3⟩ := exported_distances g _ d _ hs hne hd hex l2 linf mean var h2 hi
  exact ⟨by rw [ht]; simp, q1, q2, q3⟩

/-- **C90.**  A rational function fitted by `data2brdf`, whose coefficients are printed exactly, then plotted by
    `brdf2gnuplot --error` on the data of the fit: the root mean square of the differences `t`, which the file has as they are printed,
    is the L2 distance of the fit, and their largest absolute value its L∞ distance. -/
theorem fit_then_plot_rational (val : Dbl → ℝ) (junk : ℝ) (dir : Str) (env : Option Str)
    (ff : Str → Option (Symbols (Provider LobeObj)))
    -- the fit
    (fit : Segments → SMap → RatFn → Option (Bool × RatFn)) (hfit : FitsOnData fit) (fmt6 fmt10 fmt : ℝ → Decimal)
    (h6 : PrintsNonneg fmt6) (h10 : PrintsDigits fmt10) (other : AnyFn → SMap → Option Str) (args1 : SMap) (ho : args1.Ordered)
    (ha1 : CmdMap args1) (hx : args1.find kExport = none) (d : Segments) (hwf : d.store.WF) (hdx : 1 ≤ d.store.dimX)
    (hin : d.store.input.Named) (hlo : d.min.length = d.store.dimX) (hhi : d.max.length = d.store.dimX) (r : FittedRational)
    (h1 : data2brdfRational dir env ff fit fmt6 fmt10 fmt other args1 d = some (0, some r))
    (hbounds : ∀ x ∈ d.min ++ d.max, printed fmt10 x = x)
    (hexact : ∀ (m : ℕ) (c : Rat1), r.function.rs[m]? = some (some c) → ∀ a ∈ c.getP ++ c.getQ, printed fmt10 a = a)
    -- the plot
    (hfmt : ∀ v, (fmt v).ip ≠ [] ∨ (fmt v).fp ≠ []) (fs : Str → Option (Symbols (Str → SMap → Option DataObj)))
    (files : Str → Option Str) (writable : Str → Bool) (args : SMap) (ha : AsksPlot args writable) (content : Str)
    (hf : files (args.get "data-file".toList) = some content) (hg : files (args.get "input".toList) = some r.file)
    (hl : loadDataStream val dir env fs (args.get "data".toList) content
      (args.update "filename".toList (args.get "data-file".toList)) = some (some (.ofData d.store.toData)))
    (hcos : args.isDefined "cos-plot".toList = false) (he : args.isDefined "error".toList = true) :
    ∃ file t, brdf2gnuplotMain val junk fmt dir env ff fs files writable args = some (0, some file) ∧
      readTable file = some (printedTable fmt t) ∧ t.length = d.store.size ∧
      ({ d.store.toData with rows := t } : Data).rootMeanSquare = r.l2 ∧
      (∀ row ∈ t, ∀ c < d.store.dimY, |arr row (d.store.dimX + c)| ≤ r.linf) ∧
      (r.linf = 0 ∨ ∃ row ∈ t, ∃ c < d.store.dimY, r.linf = |arr row (d.store.dimX + c)|) := by
  obtain ⟨g, e1, -, -, -, -, -, e2⟩ := data2brdf_rational_file junk dir env ff fit hfit fmt6 fmt10 fmt h6 h10 other args1 ho ha1
    hx d hdx hin hlo hhi r h1
  obtain ⟨-, e3, mean, var, e4⟩ := e2 hbounds hexact
  obtain ⟨-, h2⟩ := data2brdf_rational_outcome dir env ff fit fmt6 fmt10 fmt other args1 d 0 (some r) h1
  obtain ⟨hne, -⟩ := h2 r rfl
  have hs : d.store.toData.Sampled := fun x hx => store_row_length _ hwf x hx
  have hk : plotKind (args.isDefined "error".toList) (args.isDefined "linear_error".toList) = .error := by rw [he]; rfl
  obtain ⟨file, k1, k2⟩ := brdf2gnuplot_file val junk fmt hfmt dir env ff fs files writable args ha content _ hf hg _ hl _ e1
    (distanceReady_of _ _ hs hne _ e4) hne (.inl hcos) (by rw [hk]; simp)
  rw [hk] at k2
  obtain ⟨q1, q2, q3, q4⟩ := plot_distances _ d.store.toData hs hne r.l2 r.linf mean var e3 e4 _ rfl
  refine ⟨file, _, k1, k2, ?_, q2, q3, q4⟩
  refine q1.trans ?_
  simp [Store.toData]

/-- **C90.**  The same for a fit by one of the nonlinear fitters whose file gives back the function (C69). -/
theorem fit_then_plot_nonlinear (val : Dbl → ℝ) (junk : ℝ) (dir : Str) (env : Option Str)
    (ff : Str → Option (Symbols (Provider LobeObj)))
    -- the fit
    (fit : Data → SMap → FT LobeObj → Option (Bool × FT LobeObj)) (fmt6 fmt : ℝ → Decimal) (args1 : SMap)
    (d : Data) (hs : d.Sampled) (r : FittedFile) (h1 : data2brdf dir env ff fit fmt6 fmt args1 d = some (0, some r))
    (hback : r.GivesBack fmt dir env ff d)
    (hexact : (r.function.withOutput .UNKNOWN_OUTPUT).rounded fmt = r.function.withOutput .UNKNOWN_OUTPUT)
    -- the plot
    (hfmt : ∀ v, (fmt v).ip ≠ [] ∨ (fmt v).fp ≠ []) (fs : Str → Option (Symbols (Str → SMap → Option DataObj)))
    (files : Str → Option Str) (writable : Str → Bool) (args : SMap) (ha : AsksPlot args writable) (content : Str)
    (hf : files (args.get "data-file".toList) = some content) (hg : files (args.get "input".toList) = some r.file)
    (hl : loadDataStream val dir env fs (args.get "data".toList) content
      (args.update "filename".toList (args.get "data-file".toList)) = some (some (.ofData d)))
    (hcos : args.isDefined "cos-plot".toList = false) (he : args.isDefined "error".toList = true) :
    ∃ file t, brdf2gnuplotMain val junk fmt dir env ff fs files writable args = some (0, some file) ∧
      readTable file = some (printedTable fmt t) ∧ t.length = d.rows.length ∧
      ({ d with rows := t } : Data).rootMeanSquare = r.l2 ∧
      (∀ row ∈ t, ∀ c < d.dimY, |arr row (d.dimX + c)| ≤ r.linf) ∧
      (r.linf = 0 ∨ ∃ row ∈ t, ∃ c < d.dimY, r.linf = |arr row (d.dimX + c)|) := by
  obtain ⟨f1, e1, -, e2⟩ := hback
  obtain ⟨-, -, e3, mean, var, e4⟩ := e2 hexact
  obtain ⟨-, h2⟩ := data2brdf_outcome dir env ff fit fmt6 fmt args1 d 0 (some r) h1
  obtain ⟨hne, -⟩ := h2 r rfl
  have hk : plotKind (args.isDefined "error".toList) (args.isDefined "linear_error".toList) = .error := by rw [he]; rfl
  obtain ⟨file, k1, k2⟩ := brdf2gnuplot_file val junk fmt hfmt dir env ff fs files writable args ha content _ hf hg _ hl _
    (loadAny_nonlinear junk dir env ff _ f1 e1) (distanceReady_of _ _ hs hne _ e4) hne (.inl hcos) (by rw [hk]; simp)
  rw [hk] at k2
  obtain ⟨q1, q2, q3, q4⟩ := plot_distances _ d hs hne r.l2 r.linf mean var e3 e4 _ rfl
  exact ⟨file, _, k1, k2, q1, q2, q3, q4⟩

end
end Alta
