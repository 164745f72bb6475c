import Verif.Spec.Brdf2Data
import Verif.Props.Distance
import Verif.Props.Segment
import Verif.Props.GeomConvert
/-
Property C67: exporting a function on the abscissae of a data set.
-/
namespace Alta
noncomputable section

theorem toData_row (s : Store ℝ) (i : ℕ) (hi : i < s.size) : ∃ r, s.get i = some r ∧ r ∈ s.toData.rows := by
  unfold Store.get
  rw [if_pos hi]
  refine ⟨_, rfl, ?_⟩
  unfold Store.toData
  simp only [List.mem_map, List.mem_range]
  exact ⟨i, hi, by simp [Store.get, hi]⟩

theorem toData_get (s : Store ℝ) (i : ℕ) (hi : i < s.size) (r : List ℝ) (h : s.get i = some r) :
    s.toData.rows[i]? = some r := by
  unfold Store.toData
  simp [hi, h]

theorem DistanceReady.distancePoint {g : Evaluable} {d : Data} (h : DistanceReady g d) (row : List ℝ) (hr : row ∈ d.rows) :
    ∃ x v, g.abscissa d row = some x ∧ Alta.distancePoint g d row = some x ∧ g.value x = some v ∧ v.length = d.dimY := by
  obtain ⟨x, v, hx, hl, hv, hvl⟩ := h.points row hr
  refine ⟨x, v, hx, ?_, hv, hvl.trans h.channels⟩
  unfold Alta.distancePoint
  unfold Evaluable.abscissa at hx
  split_ifs at hx ⊢ with h1 h2
  · exact hx
  · cases hx
    simp only [List.length_take] at hl
    omega
  · rw [hx]
    simp [hl]

theorem exported_row (g : Evaluable) (d : Data) (h : DistanceReady g d) (diff : Bool) (row : List ℝ) (hr : row ∈ d.rows)
    (x v : List ℝ) (hx : g.abscissa d row = some x) (hv : g.value x = some v) (hvl : v.length = d.dimY) :
    (row.take (row.length - d.dimY) ++ if diff then List.zipWith (· - ·) (row.drop (row.length - d.dimY)) v else v) =
      row.take d.dimX ++ exported g d diff row ∧ (exported g d diff row).length = d.dimY := by
  have hs := h.size row hr
  have hval : g.valueFor d row = v := by
    unfold Evaluable.valueFor
    rw [hx, Option.bind_some, hv, Option.getD_some]
  have hk : row.length - d.dimY = d.dimX := by omega
  rw [hk]
  have key : List.zipWith (· - ·) (row.drop d.dimX) v = (List.range d.dimY).map (g.error d row) := by
    apply List.ext_getElem
    · simp; omega
    · intro i q1 q2
      simp only [List.length_map, List.length_range] at q2
      simp only [List.getElem_zipWith, List.getElem_drop, List.getElem_map, List.getElem_range]
      unfold Evaluable.error
      rw [hx, Option.bind_some, hv, Option.getD_some]
      simp [arr, show d.dimX + i < row.length by omega, show i < v.length by omega]
  unfold exported
  cases diff with
  | false => simp [hval, hvl]
  | true => simp [key]

/-- C67: `brdf2data` replaces the values of every sample by those of the function (with `export-diff`, by the differences),
    and changes nothing else: abscissae, number of samples, parametrizations and intervals are kept. -/
theorem brdf2data_rows (g : Evaluable) (diff : Bool) (s : Segments) (hwf : s.store.WF)
    (h : DistanceReady g s.store.toData) :
    ∃ s', brdf2data g diff s = some s' ∧ s'.store.WF ∧
      s'.store.toData = s.store.toData.withValues (exported g s.store.toData diff) ∧
      s'.min = s.min ∧ s'.max = s.max ∧ s'.store.kind = s.store.kind ∧
      ∀ i < s.store.size, (s'.store.row i).drop (s.store.dimX + s.store.dimY) =
        (s.store.row i).drop (s.store.dimX + s.store.dimY) := by
  have hX : s.store.toData.dimX = s.store.dimX := rfl
  have hY : s.store.toData.dimY = s.store.dimY := rfl
  have main : ∀ m ≤ s.store.size, ∃ s', (List.range m).foldlM (exportRow g diff) s = some s' ∧ s'.store.WF ∧
      s'.store.dimX = s.store.dimX ∧ s'.store.dimY = s.store.dimY ∧ s'.store.input = s.store.input ∧
      s'.store.output = s.store.output ∧ s'.store.size = s.store.size ∧ s'.store.kind = s.store.kind ∧
      s'.min = s.min ∧ s'.max = s.max ∧
      (∀ i, m ≤ i → s'.store.get i = s.store.get i) ∧
      (∀ i < m, ∀ r, s.store.get i = some r →
        s'.store.get i = some (r.take s.store.dimX ++ exported g s.store.toData diff r)) ∧
      (∀ i, (s'.store.row i).drop (s.store.dimX + s.store.dimY) =
        (s.store.row i).drop (s.store.dimX + s.store.dimY)) := by
    intro m
    induction m with
    | zero =>
      intro _
      exact ⟨s, rfl, hwf, rfl, rfl, rfl, rfl, rfl, rfl, rfl, rfl, fun _ _ => rfl, by simp, fun _ => rfl⟩
    | succ m ih =>
      intro hm
      obtain ⟨s', e1, e2, e3, e4, e5, e6, e7, e8, e9, e10, e11, e12, e13⟩ := ih (by omega)
      obtain ⟨r, hr, hrm⟩ := toData_row s.store m (by omega)
      obtain ⟨x, v, hx, hp, hv, hvl⟩ := h.distancePoint r hrm
      obtain ⟨q1, q2⟩ := exported_row g s.store.toData h diff r hrm x v hx hv hvl
      have hp' : Alta.distancePoint g s'.store.toData r = some x := by
        rw [← hp]
        unfold Alta.distancePoint
        have : s'.store.toData.input = s.store.toData.input := e5
        rw [this]
      have hrl := h.size r hrm
      have hlen : (r.take s.store.dimX ++ exported g s.store.toData diff r).length = s'.store.dimX + s'.store.dimY := by
        rw [List.length_append, q2, List.length_take, e3, e4, hY, hrl, hX, hY]
        omega
      obtain ⟨t, g1, g2, g3, g4, g5, g6, g7, g8, g9, g10, g11⟩ := set_get s'.store e2 m (by omega)
        (r.take s.store.dimX ++ exported g s.store.toData diff r) (Or.inr hlen)
      refine ⟨{ s' with store := t }, ?_, g2, g6.trans e3, g7.trans e4, g8.trans e5, g9.trans e6, g10.trans e7,
        g11.trans e8, e9, e10, ?_, ?_, ?_⟩
      · rw [List.range_succ, List.foldlM_append, e1]
        simp only [Option.bind_eq_bind, Option.bind_some, List.foldlM_cons, List.foldlM_nil]
        unfold exportRow
        rw [e11 m le_rfl, hr, Option.bind_some, hp', Option.bind_some, hv, Option.bind_some, if_pos (by rw [e4]; exact hvl)]
        simp only [e4]
        rw [hX, hY] at q1
        rw [q1]
        unfold Segments.set
        rw [g1]
        rfl
      · intro i hi
        show t.get i = _
        rw [(g4 i (by omega)).1, e11 i (by omega)]
      · intro i hi r' hr'
        rcases Nat.lt_succ_iff_lt_or_eq.1 hi with hi' | rfl
        · show t.get i = _
          rw [(g4 i (by omega)).1, e12 i hi' r' hr']
        · rw [hr] at hr'
          cases hr'
          show t.get i = _
          rw [g3, ← hlen, List.take_length]
      · intro i
        show (t.row i).drop _ = _
        by_cases hi : i = m
        · subst hi
          have hl' : s.store.dimX + s.store.dimY =
              (r.take s.store.dimX ++ exported g s.store.toData diff r).length := by rw [hlen, e3, e4]
          rw [g5, ← e13 i, hl', List.drop_left]
        · rw [(g4 i hi).2]
          exact e13 i
  obtain ⟨s', e1, e2, e3, e4, e5, e6, e7, e8, e9, e10, -, e12, e13⟩ := main s.store.size le_rfl
  refine ⟨s', e1, e2, ?_, e9, e10, e8, fun i _ => e13 i⟩
  have hrows : s'.store.toData.rows = s.store.toData.rows.map fun row =>
      row.take s.store.dimX ++ exported g s.store.toData diff row := by
    apply List.ext_getElem?
    intro i
    by_cases hi : i < s.store.size
    · obtain ⟨r, hr, -⟩ := toData_row s.store i hi
      rw [List.getElem?_map, toData_get _ i hi r hr, toData_get _ i (by rw [e7]; exact hi) _ (e12 i hi r hr)]
      rfl
    · rw [List.getElem?_eq_none (by simp [Store.toData, e7]; omega),
        List.getElem?_eq_none (by simp [Store.toData]; omega)]
  have : s'.store.toData = ⟨s'.store.dimX, s'.store.dimY, s'.store.input, s'.store.output, s'.store.toData.rows⟩ := rfl
  rw [this, hrows, e3, e4, e5, e6]
  rfl

theorem withValues_abscissa (g : Evaluable) (d : Data) (h : DistanceReady g d) (ha : ReadsAbscissae g d)
    (v : List ℝ → List ℝ) (row : List ℝ) (hr : row ∈ d.rows) :
    g.abscissa (d.withValues v) (row.take d.dimX ++ v row) = g.abscissa d row := by
  have hs := h.size row hr
  unfold Evaluable.abscissa
  rcases ha with ⟨h1, h2⟩ | ⟨h1, h2, h3⟩
  · rw [if_pos h1, if_pos h1]
    rw [List.take_append_of_le_length (by simp; omega), List.take_take, Nat.min_eq_left h2]
  · rw [if_neg h1, if_neg h1]
    show convertInput _ d.input _ = _
    apply convertInput_congr _ _ h2
    intro k hk
    simp [arr, List.getD, List.getElem?_append, show k < min d.dimX row.length by omega, show k < row.length by omega]

/-- The data set with other values can be compared with the function as well, and has the other values. -/
theorem withValues_ready (g : Evaluable) (d : Data) (h : DistanceReady g d) (ha : ReadsAbscissae g d)
    (v : List ℝ → List ℝ) (hv : ∀ row ∈ d.rows, (v row).length = d.dimY) :
    DistanceReady g (d.withValues v) ∧ ReadsAbscissae g (d.withValues v) ∧
    ∀ row ∈ d.rows, ∀ i < d.dimY, g.error (d.withValues v) (row.take d.dimX ++ v row) i =
      arr (v row) i - arr (g.valueFor d row) i := by
  refine ⟨⟨h.channels, ?_, ?_⟩, ha, ?_⟩
  · intro row hr
    obtain ⟨r, hr', rfl⟩ := List.mem_map.1 hr
    have := h.size r hr'
    simp only [List.length_append, List.length_take, hv r hr']
    show _ = d.dimX + d.dimY
    omega
  · intro row hr
    obtain ⟨r, hr', rfl⟩ := List.mem_map.1 hr
    rw [withValues_abscissa g d h ha v r hr']
    exact h.points r hr'
  · intro row hr i hi
    unfold Evaluable.error Evaluable.valueFor
    rw [withValues_abscissa g d h ha v row hr]
    congr 1
    have := h.size row hr
    show arr _ (d.dimX + i) = _
    simp [arr, List.getD, List.getElem?_append, Nat.min_eq_left (show d.dimX ≤ row.length by omega)]

theorem exported_length (g : Evaluable) (d : Data) (h : DistanceReady g d) (diff : Bool) (row : List ℝ) (hr : row ∈ d.rows) :
    (exported g d diff row).length = d.dimY := by
  obtain ⟨x, v, hx, -, hv, hvl⟩ := h.distancePoint row hr
  exact (exported_row g d h diff row hr x v hx hv hvl).2

/-- C67: a function is at distance 0 of its export (`L2_distance` and `Linf_distance`). -/
theorem export_distance (g : Evaluable) (s : Segments) (hwf : s.store.WF) (h : DistanceReady g s.store.toData)
    (ha : ReadsAbscissae g s.store.toData) (hne : s.store.size ≠ 0) :
    ∃ s', brdf2data g false s = some s' ∧ l2Distance g s'.store.toData = some 0 ∧
      ∃ mean var, linfDistance g s'.store.toData = some (0, mean, var) := by
  obtain ⟨s', e1, -, e2, -⟩ := brdf2data_rows g false s hwf h
  have hl := exported_length g s.store.toData h false
  obtain ⟨q1, q2, q3⟩ := withValues_ready g s.store.toData h ha _ hl
  have hz : ∀ row ∈ (s.store.toData.withValues (exported g s.store.toData false)).rows,
      ∀ i < s.store.toData.dimY, g.error (s.store.toData.withValues (exported g s.store.toData false)) row i = 0 := by
    intro row hr i hi
    obtain ⟨r, hr', rfl⟩ := List.mem_map.1 hr
    rw [q3 r hr' i hi]
    simp [exported]
  refine ⟨s', e1, ?_, ?_⟩
  · rw [e2, l2_zero_iff g _ q1 (by
      intro h0
      apply hne
      have := congrArg List.length h0
      simpa [Data.withValues, Store.toData] using this)]
    exact hz
  · rw [e2]
    obtain ⟨r, mean, var, h1, h2, h3, h4⟩ := linf_distance g _ q1
    have : r = 0 := by
      rcases h4 with h4 | ⟨row, hr, i, hi, h4⟩
      · exact h4
      · rw [h4, hz row hr i hi, abs_zero]
    exact ⟨mean, var, by rw [h1, this]⟩

/-- C67: exporting twice is the same as exporting once. -/
theorem export_twice (g : Evaluable) (s : Segments) (hwf : s.store.WF) (h : DistanceReady g s.store.toData)
    (ha : ReadsAbscissae g s.store.toData) :
    ∃ s' s'', brdf2data g false s = some s' ∧ brdf2data g false s' = some s'' ∧ s''.store.toData = s'.store.toData := by
  obtain ⟨s', e1, ewf, e2, -⟩ := brdf2data_rows g false s hwf h
  have hl := exported_length g s.store.toData h false
  obtain ⟨q1, q2, q3⟩ := withValues_ready g s.store.toData h ha _ hl
  obtain ⟨s'', f1, -, f2, -⟩ := brdf2data_rows g false s' ewf (by rw [e2]; exact q1)
  refine ⟨s', s'', e1, f1, ?_⟩
  rw [f2, e2]
  generalize s.store.toData = d at *
  unfold Data.withValues
  simp only [List.map_map]
  congr 1
  apply List.map_congr_left
  intro row hr
  have hs := h.size row hr
  have hv : g.valueFor (d.withValues (exported g d false)) (row.take d.dimX ++ exported g d false row) = g.valueFor d row := by
    unfold Evaluable.valueFor
    rw [withValues_abscissa g d h ha _ row hr]
  have ht : (row.take d.dimX ++ exported g d false row).take d.dimX = row.take d.dimX := by
    rw [List.take_append_of_le_length (by simp; omega), List.take_take, Nat.min_self]
  simp only [Function.comp]
  rw [ht]
  congr 1

/-- C67: the exported differences plus the exported values are the data. -/
theorem export_diff_sum (g : Evaluable) (s : Segments) (hwf : s.store.WF) (h : DistanceReady g s.store.toData) :
    ∃ sv sd, brdf2data g false s = some sv ∧ brdf2data g true s = some sd ∧
      ∀ i r rv rd, s.store.get i = some r → sv.store.get i = some rv → sd.store.get i = some rd →
        rv.take s.store.dimX = r.take s.store.dimX ∧ rd.take s.store.dimX = r.take s.store.dimX ∧
        ∀ c < s.store.dimY, arr rv (s.store.dimX + c) + arr rd (s.store.dimX + c) = arr r (s.store.dimX + c) := by
  obtain ⟨sv, e1, -, e2, -⟩ := brdf2data_rows g false s hwf h
  obtain ⟨sd, f1, -, f2, -⟩ := brdf2data_rows g true s hwf h
  refine ⟨sv, sd, e1, f1, ?_⟩
  intro i r rv rd hr hrv hrd
  have hi : i < s.store.size := by
    unfold Store.get at hr
    split_ifs at hr with hi
    exact hi
  have esz : sv.store.size = s.store.size := by
    have := congrArg (fun d : Data => d.rows.length) e2
    simpa [Data.withValues, Store.toData] using this
  have fsz : sd.store.size = s.store.size := by
    have := congrArg (fun d : Data => d.rows.length) f2
    simpa [Data.withValues, Store.toData] using this
  have g0 := toData_get s.store i hi r hr
  have g1 := toData_get sv.store i (by omega) rv hrv
  have g2 := toData_get sd.store i (by omega) rd hrd
  have hrm : r ∈ s.store.toData.rows := List.mem_of_getElem? g0
  rw [e2] at g1
  rw [f2] at g2
  simp only [Data.withValues, List.getElem?_map, g0, Option.map_some, Option.some.injEq] at g1 g2
  have hs := h.size r hrm
  have hX : s.store.toData.dimX = s.store.dimX := rfl
  have hY : s.store.toData.dimY = s.store.dimY := rfl
  rw [hX] at g1 g2 hs
  rw [hY] at hs
  have tk : ∀ v : List ℝ, (r.take s.store.dimX ++ v).take s.store.dimX = r.take s.store.dimX := by
    intro v
    rw [List.take_append_of_le_length (by simp; omega), List.take_take, Nat.min_self]
  have at' : ∀ (v : List ℝ) (c : ℕ), arr (r.take s.store.dimX ++ v) (s.store.dimX + c) = arr v c := by
    intro v c
    simp [arr, List.getD, List.getElem?_append, Nat.min_eq_left (show s.store.dimX ≤ r.length by omega)]
  refine ⟨by rw [← g1, tk], by rw [← g2, tk], fun c hc => ?_⟩
  rw [← g1, ← g2, at', at']
  have e : arr (exported g s.store.toData true r) c = g.error s.store.toData r c := by
    simp only [exported, if_true]
    simp [arr, List.getD, hY, hc]
  rw [e]
  unfold Evaluable.error
  simp only [exported, Evaluable.valueFor]
  rw [hX]
  simp

/-- The function and data sets of the examples. -/
def exportFn : Evaluable := ⟨⟨1, 1, .UNKNOWN_INPUT, .INV_STERADIAN⟩, fun x => some [4 * arr x 0 + 2]⟩
def exportStore : Store ℝ := ⟨1, 1, .UNKNOWN_INPUT, .INV_STERADIAN, 1, [1, 5, 4, 11 / 2], .asymmetrical⟩

theorem exportStore_rows : exportStore.toData.rows = [[1, 5]] := by
  simp [exportStore, Store.toData, Store.get, Store.columns, ciColumns, List.range_succ]

theorem exportStore_ready : exportStore.WF ∧ DistanceReady exportFn exportStore.toData ∧
    ReadsAbscissae exportFn exportStore.toData := by
  refine ⟨rfl, ⟨rfl, ?_, ?_⟩, Or.inl ⟨rfl, le_rfl⟩⟩
  · intro row hr
    rw [exportStore_rows, List.mem_singleton] at hr
    rw [hr]
    rfl
  · intro row hr
    rw [exportStore_rows, List.mem_singleton] at hr
    rw [hr]
    exact ⟨[1], [4 * arr [1] 0 + 2], if_pos rfl, rfl, rfl, rfl⟩

/-- C67, limit: the intervals are those of the template, and the exported values can be out of them. -/
theorem export_out_of_interval : ∃ s', brdf2data exportFn false (Segments.make exportStore) = some s' ∧
    s'.store.toData.rows = [[1, 6]] ∧ (s'.store.row 0).drop 2 = [4, 11 / 2] ∧ s'.store.kind = .asymmetrical ∧
    ¬ (6:ℝ) ≤ 11 / 2 := by
  obtain ⟨h1, h2, -⟩ := exportStore_ready
  obtain ⟨s', e1, -, e2, -, -, e3, e4⟩ := brdf2data_rows exportFn false (Segments.make exportStore) h1 h2
  refine ⟨s', e1, ?_, ?_, e3, by norm_num⟩
  · have : s'.store.toData.rows = _ := congrArg Data.rows e2
    rw [this]
    unfold Data.withValues
    simp only
    rw [show (Segments.make exportStore).store.toData.rows = [[1, 5]] from exportStore_rows, List.map_singleton]
    simp [exported, Evaluable.valueFor, Evaluable.abscissa, exportFn, arr, Segments.make, exportStore, Store.toData]
    norm_num
  · have := e4 0 (by decide)
    rw [show (Segments.make exportStore).store.dimX + (Segments.make exportStore).store.dimY = 2 from rfl] at this
    rw [this]
    simp [Segments.make, exportStore, Store.row, Store.columns, ciColumns]

end
end Alta
