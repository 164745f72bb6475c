import Verif.Spec.Brdf2Gnuplot
import Verif.Props.Brdf2Data
import Verif.Props.GeomConvert
import Mathlib.Tactic.LinearCombination
/-
C68: the plots of a function by `brdf2gnuplot`.
-/
namespace Alta
noncomputable section

theorem mapM_eq_map {α β : Type} (f : α → Option β) (g : α → β) (l : List α) (h : ∀ a ∈ l, f a = some (g a)) :
    l.mapM f = some (l.map g) := by
  induction l with
  | nil => rfl
  | cons a l ih =>
    rw [List.mapM_cons, h a (List.mem_cons_self ..), ih fun b hb => h b (List.mem_cons_of_mem _ hb)]
    rfl

/-- The line of a sample, whatever the weight is. -/
theorem plotLine_eq (g : Evaluable) (d : Data) (h : DistanceReady g d) (kind : PlotKind) (cos : Bool) (i : ℕ)
    (row : List ℝ) (hr : row ∈ d.rows) (w : ℝ) (hw : ∀ x, g.abscissa d row = some x → cosTerm g cos x = some w) :
    plotLine g d kind cos i row = some (plotted g d kind w i row) := by
  obtain ⟨x, v, hx, hd, hv, hvl⟩ := h.distancePoint row hr
  have hs := h.size row hr
  have hval : g.valueFor d row = v := by
    unfold Evaluable.valueFor
    rw [hx]
    simp [hv]
  have harr : ∀ u : ℕ, arr (v.map (w * ·)) u = w * arr v u := by
    intro u
    unfold arr
    simp only [List.getD, List.getElem?_map]
    cases v[u]? <;> simp
  unfold plotLine
  rw [hd, Option.bind_some, hw x hx, Option.bind_some, hv, Option.bind_some]
  simp only []
  rw [if_neg (by rw [List.length_map, hvl, hs]; omega)]
  unfold plotted
  rw [hval]
  cases kind <;> simp [harr]

/-- The plot of a data set, when the weights are known. -/
theorem dataPlot_weighted (g : Evaluable) (d : Data) (h : DistanceReady g d) (hne : d.rows ≠ []) (kind : PlotKind)
    (cos : Bool) (w : List ℝ → ℝ)
    (hw : ∀ row ∈ d.rows, ∀ x, g.abscissa d row = some x → cosTerm g cos x = some (w row)) :
    ∃ l2 linf mean var, l2Distance g d = some l2 ∧ linfDistance g d = some (linf, mean, var) ∧
      dataPlot g d kind cos = some (l2, linf, d.rows.zipIdx.map fun p => plotted g d kind (w p.1) p.2 p.1) := by
  obtain ⟨linf, mean, var, e2, -⟩ := linf_distance g d h
  refine ⟨_, linf, mean, var, l2_distance g d h hne, e2, ?_⟩
  unfold dataPlot
  rw [l2_distance g d h hne, Option.bind_some, e2, Option.bind_some,
    mapM_eq_map _ (fun p => plotted g d kind (w p.1) p.2 p.1)]
  · rfl
  · rintro ⟨row, i⟩ hp
    obtain ⟨hr, -⟩ := List.mem_zipIdx' hp
    have hr : row ∈ d.rows := List.fst_mem_of_mem_zipIdx hp
    exact plotLine_eq g d h kind cos i row hr (w row) (hw row hr)

/-- C68: without `cos-plot`, and with it for a function without a parametrization, there is one line for each sample,
    in order, with the abscissa and the value of the function (or the differences with the data); the two distances
    printed are those of C62. -/
theorem data_plot (g : Evaluable) (d : Data) (h : DistanceReady g d) (hne : d.rows ≠ []) (kind : PlotKind) (cos : Bool)
    (hc : cos = false ∨ g.par.input = .UNKNOWN_INPUT) :
    ∃ l2 linf mean var, l2Distance g d = some l2 ∧ linfDistance g d = some (linf, mean, var) ∧
      dataPlot g d kind cos = some (l2, linf, d.rows.zipIdx.map fun p => plotted g d kind 1 p.2 p.1) := by
  refine dataPlot_weighted g d h hne kind cos (fun _ => 1) ?_
  intro row _ x _
  unfold cosTerm
  rw [if_neg]
  rintro ⟨h1, h2⟩
  rcases hc with hc | hc
  · rw [h1] at hc; exact Bool.noConfusion hc
  · exact h2 hc

/-- C68: the lines of the plots of the values and of the differences are the samples that `brdf2data` writes. -/
theorem plot_is_export (g : Evaluable) (s : Segments) (hwf : s.store.WF) (h : DistanceReady g s.store.toData)
    (hne : s.store.toData.rows ≠ []) (diff : Bool) :
    ∃ s' l2 linf, brdf2data g diff s = some s' ∧
      dataPlot g s.store.toData (if diff then .error else .value) false = some (l2, linf, s'.store.toData.rows) := by
  obtain ⟨s', e1, -, e2, -⟩ := brdf2data_rows g diff s hwf h
  obtain ⟨l2, linf, -, -, -, -, e3⟩ := data_plot g s.store.toData h hne (if diff then .error else .value) false (Or.inl rfl)
  refine ⟨s', l2, linf, e1, ?_⟩
  rw [e3, e2]
  congr 3
  have : (s.store.toData.withValues (exported g s.store.toData diff)).rows =
      s.store.toData.rows.map fun row => row.take s.store.toData.dimX ++ exported g s.store.toData diff row := rfl
  rw [this]
  generalize hd : s.store.toData = d at *
  apply List.ext_getElem
  · simp
  intro i h1 h2
  simp only [List.length_map] at h2
  simp only [List.getElem_map, List.getElem_zipIdx, Nat.zero_add]
  have hmem : d.rows[i] ∈ d.rows := List.getElem_mem h2
  cases diff
  · simp only [Bool.false_eq_true, if_false, plotted, exported, one_mul]
    congr 1
    have hl := exported_length g d h false d.rows[i] hmem
    simp only [exported, Bool.false_eq_true, if_false] at hl
    apply List.ext_getElem
    · simp [hl]
    intro k k1 k2
    simp [arr, k2]
  · simp only [if_true, plotted, exported, one_mul]
    rfl

/-- C68, the documented weight: with `cos-plot` and a function on the two directions, the values are multiplied by
    the product of the two cosines. -/
theorem data_plot_cos (g : Evaluable) (d : Data) (h : DistanceReady g d) (hne : d.rows ≠ []) (kind : PlotKind)
    (hg : g.par.input = .CARTESIAN) (dir : List ℝ → Cart) (hd : ∀ row ∈ d.rows, d.directions row (dir row)) :
    ∃ l2 linf, dataPlot g d kind true =
      some (l2, linf, d.rows.zipIdx.map fun p => plotted g d kind ((dir p.1).v.z * (dir p.1).l.z) p.2 p.1) := by
  obtain ⟨l2, linf, -, -, -, -, e⟩ := dataPlot_weighted g d h hne kind true (fun row => (dir row).v.z * (dir row).l.z) (by
    intro row hr x hx
    unfold Evaluable.abscissa at hx
    rw [if_neg (by rw [hg]; decide), hg, hd row hr] at hx
    injection hx with hx
    unfold cosTerm
    rw [if_pos ⟨rfl, by rw [hg]; decide⟩, hg]
    unfold convertInput
    rw [if_pos rfl, ← hx]
    have hdim : (inputDim .CARTESIAN).toNat = 6 := by decide +kernel
    rw [hdim]
    simp [arr, Cart.toList, List.range_succ, mul_comm])
  exact ⟨l2, linf, e⟩

/-- C68, limit of the code: a function of the half angle alone does not know the cosines of the sample: the values
    are multiplied by the square of its coordinate. -/
theorem cos_plot_half (g : Evaluable) (d : Data) (h : DistanceReady g d) (hne : d.rows ≠ []) (kind : PlotKind)
    (hg : g.par.input = .COS_TH)
    (hc : ∀ row ∈ d.rows, ∀ x, g.abscissa d row = some x → -1 ≤ arr x 0 ∧ arr x 0 ≤ 1) :
    ∃ l2 linf, dataPlot g d kind true = some (l2, linf, d.rows.zipIdx.map fun p =>
      plotted g d kind (arr ((g.abscissa d p.1).getD []) 0 ^ 2) p.2 p.1) := by
  obtain ⟨l2, linf, -, -, -, -, e⟩ := dataPlot_weighted g d h hne kind true
    (fun row => arr ((g.abscissa d row).getD []) 0 ^ 2) (by
    intro row hr x hx
    rw [hx]
    unfold cosTerm
    rw [if_pos ⟨rfl, by rw [hg]; decide⟩, hg]
    have hcos := Real.cos_arccos (hc row hr x hx).1 (hc row hr x hx).2
    have e1 : convertInput (arr x) .COS_TH .CARTESIAN = some (halfToCartesian (Real.arccos (arr x 0)) 0 0 0).toList := rfl
    rw [e1]
    simp only [Option.map_some, Option.some.injEq, Option.getD_some]
    generalize Real.arccos (arr x 0) = t at hcos
    rw [← hcos]
    have hq := Real.sin_sq_add_cos_sq t
    simp only [arr, Cart.toList, halfToCartesian, rotateNormal, rotateBinormal, Real.sin_zero, Real.cos_zero,
      List.getD_cons_zero, List.getD_cons_succ]
    linear_combination (2 * Real.cos t ^ 2) * hq)
  exact ⟨l2, linf, e⟩

/-- C68: an empty data set ends the program (after the file was created). -/
theorem data_plot_empty (g : Evaluable) (d : Data) (hne : d.rows = []) (kind : PlotKind) (cos : Bool) :
    dataPlot g d kind cos = none := by
  unfold dataPlot l2Distance
  rw [hne]
  rfl

/-- C68: an error plot is zero everywhere exactly when the function has the values of the data. -/
theorem error_plot_zero (g : Evaluable) (d : Data) (h : DistanceReady g d) (hne : d.rows ≠ []) :
    ∃ l2 linf lines, dataPlot g d .error false = some (l2, linf, lines) ∧
      ((∀ l ∈ lines, ∀ u < d.dimY, arr l (d.dimX + u) = 0) ↔ l2 = 0) := by
  obtain ⟨l2, linf, -, -, e0, -, e⟩ := data_plot g d h hne .error false (Or.inl rfl)
  refine ⟨l2, linf, _, e, ?_⟩
  have hz := l2_zero_iff g d h hne
  rw [e0] at hz
  have hi : some l2 = some (0:ℝ) ↔ l2 = 0 := by simp
  rw [← hi, hz]
  have key : ∀ row ∈ d.rows, ∀ i : ℕ, ∀ u < d.dimY, arr (plotted g d .error 1 i row) (d.dimX + u) = g.error d row u := by
    intro row hr i u hu
    have hs := h.size row hr
    have ht : (row.take d.dimX).length = d.dimX := by rw [List.length_take, hs]; omega
    simp only [plotted, one_mul]
    unfold arr
    rw [List.getD_eq_getElem?_getD, List.getElem?_append_right (by omega), ht]
    simp [hu, Evaluable.error, Evaluable.valueFor, arr]
  constructor
  · intro hl row hr u hu
    obtain ⟨i, hi, rfl⟩ := List.getElem_of_mem hr
    rw [← key _ hr i u hu]
    exact hl _ (List.mem_map.2 ⟨(d.rows[i], i), by rw [List.mem_iff_getElem]; exact ⟨i, by simpa using hi, by simp⟩, rfl⟩) u hu
  · intro hl l hm u hu
    obtain ⟨⟨row, i⟩, hp, rfl⟩ := List.mem_map.1 hm
    have hr : row ∈ d.rows := List.fst_mem_of_mem_zipIdx hp
    rw [key row hr i u hu]
    exact hl row hr u hu

/-- The hypotheses are met: the data set of one sample of C67. -/
example : ∃ l2 linf, dataPlot exportFn exportStore.toData .value false = some (l2, linf, [[1, 6]]) := by
  obtain ⟨h1, h2, -⟩ := exportStore_ready
  obtain ⟨s', l2, linf, e1, e2⟩ := plot_is_export exportFn (Segments.make exportStore) h1 h2
    (by show exportStore.toData.rows ≠ []; rw [exportStore_rows]; simp) false
  obtain ⟨s'', f1, f2, -⟩ := export_out_of_interval
  rw [e1] at f1
  injection f1 with f1
  refine ⟨l2, linf, ?_⟩
  rw [f1, f2] at e2
  exact e2

end
end Alta
