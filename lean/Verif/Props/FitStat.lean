import Verif.Props.Fit2StatMain
/-
C89: a function fitted by `data2brdf`, compared with its data by `fit2stat`.
-/
namespace Alta
noncomputable section

/-- The sum over the channels of the mean squared errors is the square of the L2 distance, and the largest of the `LINF` is the
    L∞ distance. -/
theorem fitStats_distances (g : Evaluable) (d : Data) (w w' : List ℝ → ℝ) (hs : d.Sampled) (hne : d.rows ≠ [])
    (l2 linf : ℝ) (mean var : List ℝ) (h2 : l2Distance g d = some l2) (hi : linfDistance g d = some (linf, mean, var)) :
    ∃ mse linfs, ("MSE".toList, mse) ∈ fitStatsOf d (g.error d) w w' ∧ ("LINF".toList, linfs) ∈ fitStatsOf d (g.error d) w w' ∧
      mse.sum = l2 ^ 2 ∧ (∀ x ∈ linfs, x ≤ linf) ∧ (linf = 0 ∨ linf ∈ linfs) := by
  have hr := distanceReady_of g d hs hne _ hi
  refine ⟨(List.range d.dimY).map fun c => ((d.rows.map fun row => g.error d row c).map fun e : ℝ => e ^ 2).sum / (d.rows.length : ℝ),
    (List.range d.dimY).map fun c => normInf (d.rows.map fun row => g.error d row c), ?_, ?_, ?_, ?_, ?_⟩
  · unfold fitStatsOf statsOf; simp
  · unfold fitStatsOf statsOf; simp
  · have e := l2_distance g d hr hne
    rw [h2] at e
    rw [Option.some.inj e]
    have hn : 0 ≤ meanOver d fun row => ∑ i ∈ Finset.range d.dimY, g.error d row i ^ 2 := by
      unfold meanOver
      apply div_nonneg _ (Nat.cast_nonneg _)
      exact List.sum_nonneg (by
        intro x hx
        obtain ⟨row, -, rfl⟩ := List.mem_map.1 hx
        exact errors_nonneg g d row)
    rw [Real.sq_sqrt hn, range_sum]
    unfold meanOver
    rw [← Finset.sum_div]
    congr 1
    induction d.rows with
    | nil => simp
    | cons a l ih =>
      simp only [List.map_cons, List.sum_cons]
      rw [Finset.sum_add_distrib, ih]
  · obtain ⟨m, mean', var', e1, e0, e3, -⟩ := linf_distance g d hr
    rw [hi] at e1
    cases e1
    intro x hx
    obtain ⟨c, hc, rfl⟩ := List.mem_map.1 hx
    obtain ⟨y, hy, hye⟩ := normInf_attained (d.rows.map fun row => g.error d row c) (by simpa using hne)
    rw [hye]
    obtain ⟨row, hrow, rfl⟩ := List.mem_map.1 hy
    exact e3 row hrow c (List.mem_range.1 hc)
  · obtain ⟨m, mean', var', e1, -, e3, e4⟩ := linf_distance g d hr
    rw [hi] at e1
    cases e1
    refine e4.imp id ?_
    rintro ⟨row, hrow, c, hc, e⟩
    refine List.mem_map.2 ⟨c, List.mem_range.2 hc, ?_⟩
    apply le_antisymm
    · obtain ⟨y, hy, hye⟩ := normInf_attained (d.rows.map fun row => g.error d row c) (by simpa using hne)
      rw [hye]
      obtain ⟨row, hrow, rfl⟩ := List.mem_map.1 hy
      exact e3 row hrow c hc
    · rw [e]
      exact abs_le_normInf _ _ (List.mem_map.2 ⟨row, hrow, rfl⟩)

/-- Data on the abscissae of a function that has distances to them can be compared. -/
theorem statComparable_of (g : Evaluable) (d : Data) (hs : d.Sampled) (hne : d.rows ≠ []) (m : ℝ × List ℝ × List ℝ)
    (h : linfDistance g d = some m) (hin : d.input = g.par.input) (hx : d.dimX = g.par.dimX) : StatComparable g d :=
  ⟨distanceReady_of g d hs hne m h, .inl ⟨hin, hx⟩⟩

/-- **C89.**  A rational function fitted by `data2brdf` on data of the two directions, then compared with the data of the fit by
    `fit2stat` (the coefficients being printed exactly): the file has statistics `s`, as they are printed, where the sum of the mean
    squared errors is the square of the L2 distance of the fit, and the largest of `LINF` its L∞ distance. -/
theorem fit_then_stat_rational (val : Dbl → ℝ) (junk : ℝ) (dir : Str) (env : Option Str)
    (ff : Str → Option (Symbols (Provider LobeObj)))
    -- the fit
    (fit : Segments → SMap → RatFn → Option (Bool × RatFn)) (hfit : FitsOnData fit) (fmt6 fmt10 fmt : ℝ → Decimal)
    (h6 : PrintsNonneg fmt6) (h10 : PrintsDigits fmt10) (other : AnyFn → SMap → Option Str) (args1 : SMap) (ho : args1.Ordered)
    (ha1 : CmdMap args1) (hx : args1.find kExport = none) (d : Segments) (hwf : d.store.WF) (hdx : d.store.dimX = 6)
    (hin : d.store.input = .CARTESIAN) (hlo : d.min.length = d.store.dimX) (hhi : d.max.length = d.store.dimX) (r : FittedRational)
    (h1 : data2brdfRational dir env ff fit fmt6 fmt10 fmt other args1 d = some (0, some r))
    (hbounds : ∀ x ∈ d.min ++ d.max, printed fmt10 x = x)
    (hexact : ∀ (m : ℕ) (c : Rat1), r.function.rs[m]? = some (some c) → ∀ a ∈ c.getP ++ c.getQ, printed fmt10 a = a)
    -- the statistics
    (hfmt : ∀ v, (fmt v).ip ≠ [] ∨ (fmt v).fp ≠ [])
    (files : Str → Option Str) (writable : Str → Bool) (args : SMap) (ha : AsksFitStats args writable) (content : Str)
    (hf : files (args.get "input".toList) = some content) (hg : files (args.get "brdf".toList) = some r.file)
    (hl : loadDataStream val dir env (fun _ => none) "vertical_segment".toList content
      (args.update "filename".toList (args.get "input".toList)) = some (some (.ofData d.store.toData)))
    (hn : 0 < d.store.dimY) :
    ∃ file s mse linfs, fit2statMain val junk fmt dir env ff files writable args = (some 0, some file) ∧
      readFitStats file = printedStats fmt s ∧ ("MSE".toList, mse) ∈ s ∧ ("LINF".toList, linfs) ∈ s ∧
      mse.sum = r.l2 ^ 2 ∧ (∀ x ∈ linfs, x ≤ r.linf) ∧ (r.linf = 0 ∨ r.linf ∈ linfs) := by
  obtain ⟨g, e1, q1, q2, q3, q4, q5, e2⟩ := data2brdf_rational_file junk dir env ff fit hfit fmt6 fmt10 fmt h6 h10 other args1 ho ha1
    hx d (by omega) (by rw [hin]; unfold Input.Named; decide) hlo hhi r h1
  obtain ⟨-, e3, mean, var, e4⟩ := e2 hbounds hexact
  obtain ⟨-, h2⟩ := data2brdf_rational_outcome dir env ff fit fmt6 fmt10 fmt other args1 d 0 (some r) h1
  obtain ⟨hne, -⟩ := h2 r rfl
  have hs : d.store.toData.Sampled := fun x hx => store_row_length _ hwf x hx
  have hcmp := statComparable_of _ d.store.toData hs hne _ e4 rfl rfl
  obtain ⟨file, k1, k2⟩ := fit2stat_file val junk fmt hfmt dir env ff files writable args ha content _ hf hg _ hl _ e1 hcmp hne hn
    hin hdx
  obtain ⟨mse, linfs, p1, p2, p3, p4, p5⟩ := fitStats_distances _ d.store.toData
    (fun row => ((AnyFn.rational (d.store.toData.par.withOutput .UNKNOWN_OUTPUT) g).evaluable.directions d.store.toData row).v.z)
    (fun row => ((AnyFn.rational (d.store.toData.par.withOutput .UNKNOWN_OUTPUT) g).evaluable.directions d.store.toData row).v.z)
    hs hne _ _ mean var e3 e4
  exact ⟨file, _, mse, linfs, k1, k2, p1, p2, p3, p4, p5⟩

/-- **C89.**  The same for a fit by one of the nonlinear fitters whose file gives back the function (C69), a function of the two
    directions. -/
theorem fit_then_stat_nonlinear (val : Dbl → ℝ) (junk : ℝ) (dir : Str) (env : Option Str)
    (ff : Str → Option (Symbols (Provider LobeObj)))
    -- the fit
    (fit : Data → SMap → FT LobeObj → Option (Bool × FT LobeObj)) (fmt6 fmt : ℝ → Decimal) (args1 : SMap)
    (d : Data) (hs : d.Sampled) (r : FittedFile) (h1 : data2brdf dir env ff fit fmt6 fmt args1 d = some (0, some r))
    (hback : r.GivesBack fmt dir env ff d)
    (hexact : (r.function.withOutput .UNKNOWN_OUTPUT).rounded fmt = r.function.withOutput .UNKNOWN_OUTPUT)
    (hin : r.function.toFn.par.input = .CARTESIAN) (hdx : r.function.toFn.par.dimX = 6)
    (hkind : (d.input = .CARTESIAN ∧ d.dimX = 6) ∨ (d.output = .UNKNOWN_OUTPUT ∧ d.input ≠ .CARTESIAN ∧
      (inputDim d.input).toNat ≤ d.dimX ∧ d.input.Named))
    -- the statistics
    (hfmt : ∀ v, (fmt v).ip ≠ [] ∨ (fmt v).fp ≠ [])
    (files : Str → Option Str) (writable : Str → Bool) (args : SMap) (ha : AsksFitStats args writable) (content : Str)
    (hf : files (args.get "input".toList) = some content) (hg : files (args.get "brdf".toList) = some r.file)
    (hl : loadDataStream val dir env (fun _ => none) "vertical_segment".toList content
      (args.update "filename".toList (args.get "input".toList)) = some (some (.ofData d)))
    (hn : 0 < d.dimY) :
    ∃ file s mse linfs, fit2statMain val junk fmt dir env ff files writable args = (some 0, some file) ∧
      readFitStats file = printedStats fmt s ∧ ("MSE".toList, mse) ∈ s ∧ ("LINF".toList, linfs) ∈ s ∧
      mse.sum = r.l2 ^ 2 ∧ (∀ x ∈ linfs, x ≤ r.linf) ∧ (r.linf = 0 ∨ r.linf ∈ linfs) := by
  obtain ⟨f1, e1, esame, e2⟩ := hback
  obtain ⟨-, -, e3, mean, var, e4⟩ := e2 hexact
  obtain ⟨-, h2⟩ := data2brdf_outcome dir env ff fit fmt6 fmt args1 d 0 (some r) h1
  obtain ⟨hne, -⟩ := h2 r rfl
  rw [hexact] at esame
  have hpar : f1.toFn.par = { r.function.toFn.par with output := .UNKNOWN_OUTPUT } := by
    rw [esame.1, (FT.withOutput_same .UNKNOWN_OUTPUT r.function).1]
    rfl
  have hin' : (AnyFn.nonlinear f1).evaluable.par.input = .CARTESIAN := by
    show f1.toFn.par.input = _
    rw [hpar]; exact hin
  have hdx' : (AnyFn.nonlinear f1).evaluable.par.dimX = 6 := by
    show f1.toFn.par.dimX = _
    rw [hpar]; exact hdx
  have hout' : (AnyFn.nonlinear f1).evaluable.par.output = .UNKNOWN_OUTPUT := by
    show f1.toFn.par.output = _
    rw [hpar]
  have hcmp : StatComparable (AnyFn.nonlinear f1).evaluable d := by
    refine ⟨distanceReady_of _ d hs hne _ e4, ?_⟩
    rw [hin', hdx', hout']
    rcases hkind with hk | ⟨k1, k2, k3, k4⟩
    · exact .inl hk
    · exact .inr ⟨k1, k2, by decide, k3, k4⟩
  obtain ⟨file, k1, k2⟩ := fit2stat_file val junk fmt hfmt dir env ff files writable args ha content _ hf hg _ hl _
    (loadAny_nonlinear junk dir env ff _ f1 e1) hcmp hne hn hin' hdx'
  obtain ⟨mse, linfs, p1, p2, p3, p4, p5⟩ := fitStats_distances _ d
    (fun row => ((AnyFn.nonlinear f1).evaluable.directions d row).v.z)
    (fun row => ((AnyFn.nonlinear f1).evaluable.directions d row).v.z)
    hs hne _ _ mean var e3 e4
  exact ⟨file, _, mse, linfs, k1, k2, p1, p2, p3, p4, p5⟩

/-- **C89.**  Limit: a nonlinear function fitted on data of another parametrization, whose values have a kind, is refused by
    `fit2stat` on the data of the fit: the file of `data2brdf` does not say the kind of the values. -/
theorem fit_then_stat_refused (val : Dbl → ℝ) (junk : ℝ) (dir : Str) (env : Option Str)
    (ff : Str → Option (Symbols (Provider LobeObj))) (fmt : ℝ → Decimal) (d : Data) (r : FittedFile)
    (hback : r.GivesBack fmt dir env ff d)
    (hexact : (r.function.withOutput .UNKNOWN_OUTPUT).rounded fmt = r.function.withOutput .UNKNOWN_OUTPUT)
    (hin : d.input ≠ r.function.toFn.par.input) (hout : d.output ≠ .UNKNOWN_OUTPUT)
    (files : Str → Option Str) (writable : Str → Bool) (args : SMap) (ha : AsksFitStats args writable) (content : Str)
    (hf : files (args.get "input".toList) = some content) (hg : files (args.get "brdf".toList) = some r.file)
    (hl : loadDataStream val dir env (fun _ => none) "vertical_segment".toList content
      (args.update "filename".toList (args.get "input".toList)) = some (some (.ofData d))) :
    fit2statMain val junk fmt dir env ff files writable args = (none, none) := by
  obtain ⟨f1, e1, esame, -⟩ := hback
  rw [hexact] at esame
  have hpar : f1.toFn.par = { r.function.toFn.par with output := .UNKNOWN_OUTPUT } := by
    rw [esame.1, (FT.withOutput_same .UNKNOWN_OUTPUT r.function).1]
    rfl
  refine fit2stat_other_kinds val junk fmt dir env ff files writable args ha.noHelp ha.brdf ha.input content _ hf hg d hl _
    (loadAny_nonlinear junk dir env ff _ f1 e1) ?_ ?_
  · show d.input ≠ f1.toFn.par.input
    rw [hpar]; exact hin
  · show d.output ≠ f1.toFn.par.output
    rw [hpar]; exact hout

end
end Alta
