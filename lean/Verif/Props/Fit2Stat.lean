import Verif.Spec.Fit2Stat
import Verif.Props.Distance
import Verif.Props.Metrics
import Verif.Props.Segment
import Verif.Props.GeomConvert
/-
Property C65: the statistics of `fit2stat`.
-/
namespace Alta
noncomputable section

/-- Writing all the rows of a data set. -/
theorem fill_rows (r : ℕ → List ℝ) (c0 : Segments) (hwf : c0.store.WF)
    (hl : ∀ i < c0.store.size, (r i).length = c0.store.dimX + c0.store.dimY) : ∀ m ≤ c0.store.size,
    ∃ c, (List.range m).foldlM (fun (c : Segments) i => c.set i (r i)) c0 = some c ∧ c.store.WF ∧
      c.store.dimX = c0.store.dimX ∧ c.store.dimY = c0.store.dimY ∧ c.store.input = c0.store.input ∧
      c.store.output = c0.store.output ∧ c.store.size = c0.store.size ∧ ∀ i < m, c.store.get i = some (r i) := by
  intro m
  induction m with
  | zero => intro _; exact ⟨c0, rfl, hwf, rfl, rfl, rfl, rfl, rfl, by simp⟩
  | succ m ih =>
    intro hm
    obtain ⟨c, h1, h2, h3, h4, h5, h6, h7, h8⟩ := ih (by omega)
    have hlm : (r m).length = c.store.dimX + c.store.dimY := by rw [h3, h4]; exact hl m (by omega)
    obtain ⟨s', g1, g2, g3, g4, -, g6, g7, g8, g9, g10, -⟩ := set_get c.store h2 m (by omega) (r m) (Or.inr hlm)
    refine ⟨{ c with store := s' }, ?_, g2, g6.trans h3, g7.trans h4, g8.trans h5, g9.trans h6, g10.trans h7, ?_⟩
    · rw [List.range_succ, List.foldlM_append, h1]
      simp only [List.foldlM_cons, List.foldlM_nil, Segments.set, g1, Option.bind_eq_bind, Option.bind_some,
        Option.map_some]
      rfl
    · intro i hi
      rcases Nat.lt_succ_iff_lt_or_eq.1 hi with hi | rfl
      · rw [(g4 i (by omega)).1, h8 i hi]
      · rw [g3, ← hlm, List.take_length]

theorem foldlM_congr_mem {α β : Type} (l : List α) (f h : β → α → Option β) (hfh : ∀ a ∈ l, ∀ b, f b a = h b a)
    (b : β) : l.foldlM f b = l.foldlM h b := by
  induction l generalizing b with
  | nil => rfl
  | cons a l ih =>
    rw [List.foldlM_cons, List.foldlM_cons, hfh a (by simp)]
    congr 1
    funext b'
    exact ih (fun a' ha' => hfh a' (by simp [ha'])) b'

theorem zeroed_WF (dx dy : ℕ) (i : Input) (o : Output) (n : ℕ) : (Segments.zeroed dx dy i o n).store.WF := by
  unfold Store.WF Segments.zeroed Segments.make Store.columns ciColumns
  simp only [List.length_replicate]
  ring

/-- All the rows of a new data set written one after the other. -/
theorem fill_data (dx dy : ℕ) (i : Input) (o : Output) (n : ℕ) (r : ℕ → List ℝ) (hl : ∀ k < n, (r k).length = dx + dy) :
    ∃ c, (List.range n).foldlM (fun (c : Segments) i => c.set i (r i)) (Segments.zeroed dx dy i o n) = some c ∧
      c.store.toData = ⟨dx, dy, i, o, (List.range n).map r⟩ := by
  obtain ⟨c, h1, -, h3, h4, h5, h6, h7, h8⟩ := fill_rows r (Segments.zeroed dx dy i o n) (zeroed_WF _ _ _ _ _) hl n le_rfl
  refine ⟨c, h1, ?_⟩
  unfold Store.toData
  have e1 : c.store.dimX = dx := h3
  have e2 : c.store.dimY = dy := h4
  have e3 : c.store.input = i := h5
  have e4 : c.store.output = o := h6
  have e5 : c.store.size = n := h7
  rw [e1, e2, e3, e4, e5]
  congr 1
  apply List.map_congr_left
  intro k hk
  rw [h8 k (List.mem_range.1 hk)]
  rfl

theorem map_range_arr (x : List ℝ) : (List.range x.length).map (arr x) = x := by
  apply List.ext_getElem
  · simp
  · intro i h1 h2
    simp [arr, h2]

/-- The converted data: the abscissae of the function and the values of the data. -/
theorem statData_ready (g : Evaluable) (d : Data) (h : StatReady g d) :
    ∃ c, statData d g.par = some c ∧ c.dimX = g.par.dimX ∧ c.dimY = d.dimY ∧ c.input = g.par.input ∧
      c.rows = d.rows.map fun row => (g.abscissa d row).getD [] ++ row.drop d.dimX := by
  have hsz := h.ready.size
  rcases h.inputs with ⟨h1, h2⟩ | ⟨h1, h2, h3, h4⟩
  · refine ⟨d, ?_, h2, rfl, h1, ?_⟩
    · unfold statData
      rw [if_pos h1, if_pos h.output]
    · symm
      conv_rhs => rw [← List.map_id d.rows]
      apply List.map_congr_left
      intro row hr
      obtain ⟨x, v, hx, hl, -, -⟩ := h.ready.points row hr
      have : x = row.take d.dimX := by
        unfold Evaluable.abscissa at hx
        split at hx
        · cases hx; rw [h2]
        · rw [h1] at hx
          unfold convertInput at hx
          rw [if_pos rfl] at hx
          cases hx
          simp only [List.length_map, List.length_range] at hl
          rw [hl, h2]
          have := hsz row hr
          apply List.ext_getElem
          · simp; omega
          · intro i q1 q2
            simp only [List.length_take] at q2
            simp [arr, show i < row.length by omega]
      rw [hx, Option.getD_some, this, List.take_append_drop]
      rfl
  · let r : ℕ → List ℝ := fun i => (g.abscissa d (d.rows.getD i [])).getD [] ++ (d.rows.getD i []).drop d.dimX
    obtain ⟨c, e1, e2⟩ := fill_data g.par.dimX g.par.dimY g.par.input g.par.output d.rows.length r (by
      intro k hk
      have hm : d.rows.getD k [] ∈ d.rows := by
        simp only [List.getD, List.getElem?_eq_getElem hk, Option.getD_some]
        exact List.getElem_mem hk
      obtain ⟨x, v, hx, hl, -, -⟩ := h.ready.points _ hm
      have := hsz _ hm
      simp only [r, hx, Option.getD_some, List.length_append, List.length_drop, hl, h.ready.channels]
      omega)
    have step : ∀ i ∈ List.range d.rows.length, ∀ c : Segments, statInputRow d g.par c i = c.set i (r i) := by
      intro i hi c
      have hi' : i < d.rows.length := List.mem_range.1 hi
      have hm : d.rows[i] ∈ d.rows := List.getElem_mem hi'
      obtain ⟨x, v, hx, hl, -, -⟩ := h.ready.points _ hm
      have hx' := hx
      unfold Evaluable.abscissa at hx'
      rw [if_neg h2] at hx'
      unfold statInputRow
      rw [List.getElem?_eq_getElem hi', Option.bind_some]
      have hc : convertInput (arr (d.rows[i].take d.dimX)) d.input g.par.input = some x := by
        rw [← hx']
        apply convertInput_congr d.input g.par.input h4
        intro k hk
        simp [arr, List.getD, show k < d.dimX by omega]
      rw [hc, Option.bind_some, if_pos ⟨by omega, h.ready.channels.symm⟩]
      congr 1
      simp only [r, List.getD, List.getElem?_eq_getElem hi', Option.getD_some, hx]
      congr 1
      · rw [← hl]; exact map_range_arr x
      · have := hsz _ hm
        congr 1
        omega
    refine ⟨c.store.toData, ?_, by rw [e2], by rw [e2]; exact h.ready.channels, by rw [e2], ?_⟩
    · unfold statData
      rw [if_neg h1, if_pos h.output, foldlM_congr_mem _ _ _ step, e1]
      rfl
    · rw [e2]
      apply List.ext_getElem
      · simp
      · intro i q1 q2
        simp only [List.length_map, List.length_range] at q1
        simp [r, List.getD, q1]

/-- The matrices that are compared are those of the differences. -/
theorem statMatrices_ready (g : Evaluable) (d : Data) (h : StatReady g d) :
    ∃ c A B, statMatrices g d = some (c, A, B) ∧ c.dimX = g.par.dimX ∧ c.input = g.par.input ∧
      (c.rows.map fun row => row.take c.dimX) = d.rows.map (fun row => (g.abscissa d row).getD []) ∧
      A.length = d.rows.length ∧ B.length = d.rows.length ∧
      ∀ k < d.dimY, diffCol A B k = d.rows.map fun row => g.error d row k := by
  obtain ⟨c, h1, h2, h3, h4, h5⟩ := statData_ready g d h
  have hpoint : ∀ row ∈ d.rows, ((g.abscissa d row).getD [] ++ row.drop d.dimX).take c.dimX = (g.abscissa d row).getD [] ∧
      ((g.abscissa d row).getD [] ++ row.drop d.dimX).drop
        (((g.abscissa d row).getD [] ++ row.drop d.dimX).length - c.dimY) = row.drop d.dimX := by
    intro row hr
    obtain ⟨x, v, hx, hl, -, -⟩ := h.ready.points row hr
    have hs := h.ready.size row hr
    rw [hx, Option.getD_some, h2, ← hl, h3]
    refine ⟨by simp, ?_⟩
    have : (x ++ row.drop d.dimX).length - d.dimY = x.length := by
      rw [List.length_append, List.length_drop]; omega
    rw [this, List.drop_left]
  have hxs : (demultiplex c).1 = d.rows.map fun row => (g.abscissa d row).getD [] := by
    show (c.rows.map fun row => row.take c.dimX) = _
    rw [h5, List.map_map]
    exact List.map_congr_left fun row hr => (hpoint row hr).1
  have hys : (demultiplex c).2 = d.rows.map fun row => row.drop d.dimX := by
    show (c.rows.map fun row => row.drop (row.length - c.dimY)) = _
    rw [h5, List.map_map]
    exact List.map_congr_left fun row hr => (hpoint row hr).2
  have hev : evaluateAt g (demultiplex c).1 = some (d.rows.map fun row => ((g.abscissa d row).bind g.value).getD []) := by
    rw [hxs]
    unfold evaluateAt
    have : ∀ l : List (List ℝ), (∀ r ∈ l, r ∈ d.rows) →
        ((l.map fun row => (g.abscissa d row).getD []).mapM fun x =>
          (g.value x).bind fun v => if v.length = g.par.dimY then some v else none) =
        some (l.map fun row => ((g.abscissa d row).bind g.value).getD []) := by
      intro l
      induction l with
      | nil => intro _; rfl
      | cons a l ih =>
        intro hm
        obtain ⟨x, v, hx, -, hv, hvl⟩ := h.ready.points a (hm a (by simp))
        rw [List.map_cons, List.mapM_cons, ih fun r hr => hm r (by simp [hr])]
        simp [hx, hv, hvl]
    exact this d.rows fun r hr => hr
  refine ⟨c, (demultiplex c).2, d.rows.map fun row => ((g.abscissa d row).bind g.value).getD [], ?_, h2, h4, hxs, by rw [hys]; simp, by rw [List.length_map], ?_⟩
  · unfold statMatrices
    rw [h1, Option.bind_some, hev, Option.bind_some, if_pos (h3.trans h.ready.channels.symm)]
  · intro k hk
    rw [hys]
    unfold diffCol
    rw [List.zipWith_map]
    simp only [List.zipWith_self]
    apply List.map_congr_left
    intro row hr
    unfold Evaluable.error
    congr 1
    simp [arr, List.getD]

theorem fastNorms_of (d : Data) (A B : Mat) (e : List ℝ → ℕ → ℝ) (hA : A.length = d.rows.length)
    (hd : ∀ k < d.dimY, diffCol A B k = d.rows.map fun row => e row k) :
    (fastNorms d.dimY A B).Of d e := by
  have hmse : ∀ c < d.dimY, arr (fastNorms d.dimY A B).mse c = meanOver d fun row => e row c ^ 2 := by
    intro c hc
    have e5 : arr (fastNorms d.dimY A B).mse c = ((diffCol A B c).map fun x : ℝ => x ^ 2).sum / (A.length : ℝ) :=
      arr_range_map _ _ c hc
    rw [e5, hd c hc, hA, List.map_map]
    rfl
  refine ⟨⟨by simp [fastNorms], by simp [fastNorms], by simp [fastNorms], by simp [fastNorms], by simp [fastNorms],
    by simp [fastNorms]⟩, ?_, ?_, ?_, ?_, ?_, hmse, ?_⟩
  · intro c hc
    have e4 : arr (fastNorms d.dimY A B).L1 c = norm1 (diffCol A B c) := arr_range_map _ _ c hc
    rw [e4, hd c hc]
    unfold norm1
    rw [List.map_map]
    rfl
  · intro c hc
    have e3 : arr (fastNorms d.dimY A B).L2 c = norm2 (diffCol A B c) := arr_range_map _ _ c hc
    rw [e3]
    refine ⟨norm2_nonneg _, ?_⟩
    rw [norm2_sq, sumSq_abs, hd c hc, List.map_map]
    rfl
  · intro c hc
    have e3 : arr (fastNorms d.dimY A B).L3 c = norm3 (diffCol A B c) := arr_range_map _ _ c hc
    rw [e3]
    refine ⟨norm3_nonneg _, ?_⟩
    rw [norm3_cube, hd c hc, List.map_map]
    rfl
  · intro c hc row hr
    have e1 : arr (fastNorms d.dimY A B).LInf c = normInf (diffCol A B c) := arr_range_map _ _ c hc
    rw [e1]
    apply abs_le_normInf
    rw [hd c hc]
    exact List.mem_map.2 ⟨row, hr, rfl⟩
  · intro c hc hne
    have e1 : arr (fastNorms d.dimY A B).LInf c = normInf (diffCol A B c) := arr_range_map _ _ c hc
    rw [e1]
    obtain ⟨x, hx, hxe⟩ := normInf_attained (diffCol A B c) (by rw [hd c hc]; simpa using hne)
    rw [hd c hc] at hx
    obtain ⟨row, hr, rfl⟩ := List.mem_map.1 hx
    exact ⟨row, hr, hxe⟩
  · intro c hc
    rw [← hmse c hc]
    have : arr (fastNorms d.dimY A B).rmse c = √ (arr (fastNorms d.dimY A B).mse c) := by
      have e5 : arr (fastNorms d.dimY A B).mse c = ((diffCol A B c).map fun x : ℝ => x ^ 2).sum / (A.length : ℝ) :=
        arr_range_map _ _ c hc
      rw [e5]
      unfold fastNorms
      simp only [List.map_map]
      exact arr_range_map _ _ c hc
    exact this

/-- C65: the metrics that `fit2stat` prints are those of the differences between the samples and the function. -/
theorem fit2stat_norms (g : Evaluable) (d : Data) (h : StatReady g d) :
    ∃ m, fit2statNorms g d = some m ∧ m.Of d (g.error d) := by
  obtain ⟨c, A, B, h1, -, -, -, h2, -, h3⟩ := statMatrices_ready g d h
  refine ⟨fastNorms g.par.dimY A B, ?_, ?_⟩
  · unfold fit2statNorms
    rw [h1]
    rfl
  · rw [h.ready.channels]
    exact fastNorms_of d A B _ h2 h3

theorem weightedErrors_of (d : Data) (A B : Mat) (e : List ℝ → ℕ → ℝ) (w : List ℝ → ℝ) (hA : A.length = d.rows.length)
    (hd : ∀ k < d.dimY, diffCol A B k = d.rows.map fun row => e row k) :
    WeightedOf (weightedErrors d.dimY A B (d.rows.map w)) d e w := by
  have key : ∀ c < d.dimY, ((List.zipWith (fun e k => (e * k) ^ 2) (diffCol A B c) (d.rows.map w)).sum : ℝ) / (A.length : ℝ)
      = meanOver d fun row => (w row * e row c) ^ 2 := by
    intro c hc
    rw [hd c hc, List.zipWith_map, List.zipWith_self, hA]
    unfold meanOver
    congr 3
    funext row
    ring
  refine ⟨by simp [weightedErrors], by simp [weightedErrors], fun c hc => ?_⟩
  constructor
  · rw [← key c hc]
    exact arr_range_map _ _ c hc
  · rw [← key c hc]
    unfold weightedErrors
    simp only [List.map_map]
    exact arr_range_map _ _ c hc

/-- C65: a complete run of `fit2stat`, for a function on the two directions.  The weight that is called the cosine of the
    light is the one of the view, and the file contains it twice. -/
theorem fit2stat_run (g : Evaluable) (d : Data) (h : StatReady g d) (hne : d.rows ≠ []) (hc : g.par.input = .CARTESIAN)
    (hx : g.par.dimX = 6) :
    ∃ s, fit2stat g d = some s ∧ s.norms.Of d (g.error d) ∧
      WeightedOf s.light d (g.error d) (fun row => (g.directions d row).v.z) ∧
      WeightedOf s.both d (g.error d) (fun row => (g.directions d row).v.z * (g.directions d row).l.z) ∧
      s.fileLight = s.light ∧ s.fileBoth = s.light ∧
      l2Distance g d = some s.l2 ∧ ∃ mean var, linfDistance g d = some (s.linf, mean, var) := by
  obtain ⟨c, A, B, h1, h2, h2', h3, h4, -, h5⟩ := statMatrices_ready g d h
  obtain ⟨linf, mean, var, hli, -⟩ := linf_distance g d h.ready
  have hl2 := l2_distance g d h.ready hne
  have hw : cosineFactors c = some (d.rows.map (fun row => (g.directions d row).v.z),
      d.rows.map fun row => (g.directions d row).l.z) := by
    unfold cosineFactors
    rw [if_pos (h2'.trans hc), if_neg (by rw [h2, hx]; simp)]
    have e1 : (c.rows.map fun row => arr (row.take c.dimX) 2) = d.rows.map fun row => (g.directions d row).v.z := by
      have := congrArg (List.map fun x : List ℝ => arr x 2) h3
      rw [List.map_map, List.map_map] at this
      exact this
    have e2 : (c.rows.map fun row => arr (row.take c.dimX) 5) = d.rows.map fun row => (g.directions d row).l.z := by
      have := congrArg (List.map fun x : List ℝ => arr x 5) h3
      rw [List.map_map, List.map_map] at this
      exact this
    rw [e1, e2]
  have hboth : List.zipWith (· * ·) (d.rows.map fun row => (g.directions d row).v.z)
      (d.rows.map fun row => (g.directions d row).l.z) =
      d.rows.map fun row => (g.directions d row).v.z * (g.directions d row).l.z := by
    rw [List.zipWith_map, List.zipWith_self]
  have hrun : fit2stat g d = some
      { norms := fastNorms d.dimY A B
        light := weightedErrors d.dimY A B (d.rows.map fun row => (g.directions d row).v.z)
        both := weightedErrors d.dimY A B (d.rows.map fun row => (g.directions d row).v.z * (g.directions d row).l.z)
        fileLight := weightedErrors d.dimY A B (d.rows.map fun row => (g.directions d row).v.z)
        fileBoth := weightedErrors d.dimY A B (d.rows.map fun row => (g.directions d row).v.z)
        l2 := Real.sqrt (meanOver d fun row => ∑ i ∈ Finset.range d.dimY, g.error d row i ^ 2)
        linf := linf } := by
    unfold fit2stat
    rw [h1, Option.bind_some]
    simp only
    rw [hw, Option.bind_some, hl2, Option.bind_some, hli, Option.map_some, h.ready.channels]
    simp only
    rw [hboth]
  exact ⟨_, hrun, fastNorms_of d A B _ h4 h5, weightedErrors_of d A B _ _ h4 h5, weightedErrors_of d A B _ _ h4 h5,
    rfl, rfl, hl2, mean, var, hli⟩

/-- C65: the sum over the channels of the mean squared errors is the square of `L2_distance` (C62). -/
theorem mse_is_l2 (g : Evaluable) (d : Data) (h : StatReady g d) (hne : d.rows ≠ []) :
    ∃ m l, fit2statNorms g d = some m ∧ l2Distance g d = some l ∧ m.mse.sum = l ^ 2 := by
  obtain ⟨m, h1, h2⟩ := fit2stat_norms g d h
  refine ⟨m, _, h1, l2_distance g d h.ready hne, ?_⟩
  have hn : 0 ≤ meanOver d fun row => ∑ i ∈ Finset.range d.dimY, g.error d row i ^ 2 := by
    unfold meanOver
    apply div_nonneg _ (Nat.cast_nonneg _)
    exact List.sum_nonneg (by
      intro x hx
      obtain ⟨row, -, rfl⟩ := List.mem_map.1 hx
      exact errors_nonneg g d row)
  rw [Real.sq_sqrt hn]
  have hs : m.mse = (List.range d.dimY).map fun c => meanOver d fun row => g.error d row c ^ 2 := by
    apply List.ext_getElem
    · simp [h2.sizes.2.2.2.2.1]
    · intro i q1 q2
      simp only [List.length_map, List.length_range] at q2
      have := h2.mse i q2
      simp only [arr, List.getD, List.getElem?_eq_getElem q1, Option.getD_some] at this
      simp [this]
  rw [hs, range_sum]
  unfold meanOver
  rw [← Finset.sum_div]
  congr 1
  induction d.rows with
  | nil => simp
  | cons a l ih => simp only [List.map_cons, List.sum_cons]; rw [Finset.sum_add_distrib, ih]

/-- C65: the metrics of a fit are ordered, and all zero exactly when the function has the values of the data. -/
theorem fit2stat_zero (g : Evaluable) (d : Data) (h : StatReady g d) (hne : d.rows ≠ []) :
    ∃ m, fit2statNorms g d = some m ∧ ∀ c < d.dimY,
      ((arr m.mse c = 0 ↔ ∀ row ∈ d.rows, g.error d row c = 0) ∧
       (arr m.LInf c = 0 ↔ ∀ row ∈ d.rows, g.error d row c = 0) ∧
       (arr m.L1 c = 0 ↔ ∀ row ∈ d.rows, g.error d row c = 0)) ∧
      arr m.LInf c ≤ arr m.L3 c ∧ arr m.L3 c ≤ arr m.L2 c ∧ arr m.L2 c ≤ arr m.L1 c ∧
      arr m.rmse c ≤ arr m.LInf c := by
  obtain ⟨c', A, B, h1, -, -, -, h2, h2', h3⟩ := statMatrices_ready g d h
  have hm : fit2statNorms g d = some (fastNorms d.dimY A B) := by
    unfold fit2statNorms
    rw [h1, ← h.ready.channels]
    rfl
  have hof := fastNorms_of d A B (g.error d) h2 h3
  have hN : (0:ℝ) < d.rows.length := by exact_mod_cast List.length_pos_iff.2 hne
  refine ⟨_, hm, fun c hc => ?_⟩
  obtain ⟨o1, o2, o3, -, -, o6⟩ := metrics_consistent d.dimY A B (h2.trans h2'.symm) c hc
  obtain ⟨z1, z2, -, z4⟩ := norms_zero (d.rows.map fun row => g.error d row c)
  have back : ∀ x : Prop, (x ↔ ∀ y ∈ d.rows.map fun row => g.error d row c, y = 0) →
      (x ↔ ∀ row ∈ d.rows, g.error d row c = 0) := by
    intro x hx
    rw [hx]
    simp
  refine ⟨⟨?_, ?_, ?_⟩, o1, o2, o3, o6⟩
  · apply back
    rw [← z2, hof.mse c hc]
    unfold meanOver
    rw [div_eq_zero_iff, or_iff_left hN.ne']
    have hn2 := norm2_sq (d.rows.map fun row => g.error d row c)
    rw [sumSq_abs, List.map_map] at hn2
    change _ = (List.map (fun row => g.error d row c ^ 2) d.rows).sum at hn2
    rw [← hn2]
    simp
  · apply back
    rw [← z4]
    have e1 : arr (fastNorms d.dimY A B).LInf c = normInf (diffCol A B c) := arr_range_map _ _ c hc
    rw [e1, h3 c hc]
  · apply back
    rw [← z1]
    have e1 : arr (fastNorms d.dimY A B).L1 c = norm1 (diffCol A B c) := arr_range_map _ _ c hc
    rw [e1, h3 c hc]

end
end Alta
