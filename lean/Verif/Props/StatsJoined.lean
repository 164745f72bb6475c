import Verif.Props.StatsOrder
/-
C97: the statistics of two files of data that are joined, and those of the two files.
-/
namespace Alta
noncomputable section

/-- `R` holds of the lines of three files, one by one; they have the same number of lines. -/
def LineByLine {α : Type} (R : α → α → α → Prop) : List α → List α → List α → Prop
  | [], [], [] => True
  | x :: a, y :: b, z :: j => R x y z ∧ LineByLine R a b j
  | _, _, _ => False

/-- The value `v` of the statistic `name` for two files together, from the values `u` and `w` for each: the norms do not
    decrease, the means are between the two, and the maximum is the larger one. -/
def JoinedValue (name : Str) (u w v : ℝ) : Prop :=
  (¬ IsMeanOrMax name → max u w ≤ v) ∧ (IsMeanOrMax name → min u w ≤ v ∧ v ≤ max u w) ∧ (name = "LINF".toList → v = max u w)

/-- A line of the three files: the same name, and a value for each channel. -/
def JoinedLine (x y z : Str × List ℝ) : Prop :=
  x.1 = z.1 ∧ y.1 = z.1 ∧ x.2.length = z.2.length ∧ y.2.length = z.2.length ∧
    ∀ c < z.2.length, JoinedValue z.1 (arr x.2 c) (arr y.2 c) (arr z.2 c)

/-- The statistics of two files and those of the two together. -/
def JoinedStats (a b j : List (Str × List ℝ)) : Prop := LineByLine JoinedLine a b j

/-! ### Values -/

theorem JoinedValue.mono {name : Str} {u w v : ℝ} (h : JoinedValue name u w v) {p : ℝ → ℝ} (hp : Monotone p) :
    JoinedValue name (p u) (p w) (p v) := by
  obtain ⟨h1, h2, h3⟩ := h
  refine ⟨fun hn => ?_, fun hn => ?_, fun hn => ?_⟩
  · rw [← hp.map_max]; exact hp (h1 hn)
  · rw [← hp.map_max, ← hp.map_min]; exact ⟨hp (h2 hn).1, hp (h2 hn).2⟩
  · rw [← hp.map_max, h3 hn]

theorem joinedLine_range (p : ℝ → ℝ) (hp : Monotone p) (name : Str) (n : ℕ) (f g h : ℕ → ℝ)
    (hv : ∀ c < n, JoinedValue name (f c) (g c) (h c)) :
    JoinedLine (name, ((List.range n).map f).map p) (name, ((List.range n).map g).map p) (name, ((List.range n).map h).map p) := by
  refine ⟨rfl, rfl, by simp, by simp, fun c hc => ?_⟩
  have hc : c < n := by simpa using hc
  simp only [List.map_map]
  rw [arr_range_map n _ c hc, arr_range_map n _ c hc, arr_range_map n _ c hc]
  exact (hv c hc).mono hp

theorem joined_norm {name : Str} (h : ¬ IsMeanOrMax name) {u w v : ℝ} (hu : u ≤ v) (hw : w ≤ v) : JoinedValue name u w v :=
  ⟨fun _ => max_le hu hw, fun hn => absurd hn h, fun hn => absurd (by subst hn; exact ⟨by decide, by decide, by decide⟩) h⟩

theorem joined_mean {name : Str} (h : name ≠ "LINF".toList) (hm : IsMeanOrMax name) {u w v : ℝ} (h1 : min u w ≤ v)
    (h2 : v ≤ max u w) : JoinedValue name u w v :=
  ⟨fun hn => absurd hm hn, fun _ => ⟨h1, h2⟩, fun hn => absurd hn h⟩

/-- The mean of two lists together is between their means. -/
theorem mean_between (s t : ℝ) (n m : ℕ) (hn : 0 < n) (hm : 0 < m) :
    min (s / n) (t / m) ≤ (s + t) / ((n + m : ℕ) : ℝ) ∧ (s + t) / ((n + m : ℕ) : ℝ) ≤ max (s / n) (t / m) := by
  have hn' : (0 : ℝ) < n := by exact_mod_cast hn
  have hm' : (0 : ℝ) < m := by exact_mod_cast hm
  have hs : s = s / n * n := by field_simp
  have ht : t = t / m * m := by field_simp
  have hnm : (0 : ℝ) < ((n + m : ℕ) : ℝ) := by push_cast; linarith
  constructor
  · rw [le_div_iff₀ hnm]
    have h1 := mul_le_mul_of_nonneg_right (min_le_left (s / n) (t / m)) hn'.le
    have h2 := mul_le_mul_of_nonneg_right (min_le_right (s / n) (t / m)) hm'.le
    push_cast
    nlinarith
  · rw [div_le_iff₀ hnm]
    have h1 := mul_le_mul_of_nonneg_right (le_max_left (s / n) (t / m)) hn'.le
    have h2 := mul_le_mul_of_nonneg_right (le_max_right (s / n) (t / m)) hm'.le
    push_cast
    nlinarith

theorem sqrt_between {u w v : ℝ} (h : min u w ≤ v ∧ v ≤ max u w) : min (√u) (√w) ≤ √v ∧ √v ≤ max (√u) (√w) := by
  have hm : Monotone Real.sqrt := fun _ _ h => Real.sqrt_le_sqrt h
  rw [← hm.map_min, ← hm.map_max]
  exact ⟨hm h.1, hm h.2⟩

theorem normInf_append (a b : List ℝ) : normInf (a ++ b) = max (normInf a) (normInf b) := by
  have h0 := normInf_nonneg a
  unfold normInf at h0 ⊢
  rw [List.foldl_append]
  have := maxError_pull b (a.foldl (fun m x => max m |x|) 0) 0
  rw [max_eq_left h0] at this
  exact this

theorem sum_append_le (q : ℝ → ℝ) (hq : ∀ x, 0 ≤ q x) (a b : List ℝ) :
    (a.map q).sum ≤ ((a ++ b).map q).sum ∧ (b.map q).sum ≤ ((a ++ b).map q).sum := by
  have h : ∀ l : List ℝ, 0 ≤ (l.map q).sum := fun l => List.sum_nonneg (by
    intro x hx
    obtain ⟨y, -, rfl⟩ := List.mem_map.1 hx
    exact hq y)
  rw [List.map_append, List.sum_append]
  constructor <;> linarith [h a, h b]

theorem statsOf_joined (p : ℝ → ℝ) (hp : Monotone p) (n s t : ℕ) (hs : 0 < s) (ht : 0 < t) (e e' : ℕ → List ℝ)
    (a b j : List (Str × List ℝ)) (h : LineByLine JoinedLine a b j) :
    LineByLine JoinedLine ((statsOf n s e).map (fun x => (x.1, x.2.map p)) ++ a)
      ((statsOf n t e').map (fun x => (x.1, x.2.map p)) ++ b)
      ((statsOf n (s + t) fun c => e c ++ e' c).map (fun x => (x.1, x.2.map p)) ++ j) := by
  unfold statsOf
  simp only [List.map_cons, List.map_nil, List.cons_append, List.nil_append]
  have sq : ∀ c, _ := fun c => sum_append_le (fun x : ℝ => x ^ 2) (fun x => sq_nonneg x) (e c) (e' c)
  have ab : ∀ c, _ := fun c => sum_append_le (fun x : ℝ => |x|) (fun x => abs_nonneg x) (e c) (e' c)
  have cu : ∀ c, _ := fun c => sum_append_le (fun x : ℝ => |x| ^ 3) (fun x => by positivity) (e c) (e' c)
  have nn : ∀ l : List ℝ, 0 ≤ (l.map fun x : ℝ => |x| ^ 3).sum := fun l => sumPow_nonneg l 3
  have mean : ∀ c, _ := fun c => mean_between ((e c).map fun x : ℝ => x ^ 2).sum ((e' c).map fun x : ℝ => x ^ 2).sum s t hs ht
  refine ⟨joinedLine_range p hp _ _ _ _ _ fun c _ => ?_, joinedLine_range p hp _ _ _ _ _ fun c _ => ?_,
    joinedLine_range p hp _ _ _ _ _ fun c _ => ?_, joinedLine_range p hp _ _ _ _ _ fun c _ => ?_,
    joinedLine_range p hp _ _ _ _ _ fun c _ => ?_, joinedLine_range p hp _ _ _ _ _ fun c _ => ?_, h⟩
  · exact joined_norm (by unfold IsMeanOrMax; decide) (ab c).1 (ab c).2
  · exact joined_norm (by unfold IsMeanOrMax; decide) (Real.sqrt_le_sqrt (sq c).1) (Real.sqrt_le_sqrt (sq c).2)
  · exact joined_norm (by unfold IsMeanOrMax; decide) (Real.rpow_le_rpow (nn _) (cu c).1 (by norm_num))
      (Real.rpow_le_rpow (nn _) (cu c).2 (by norm_num))
  · refine ⟨fun hn => absurd (by unfold IsMeanOrMax; decide) hn, fun _ => ?_, fun _ => normInf_append _ _⟩
    rw [normInf_append]
    exact ⟨min_le_max, le_rfl⟩
  · rw [List.map_append, List.sum_append]
    exact joined_mean (by decide) (by unfold IsMeanOrMax; decide) (mean c).1 (mean c).2
  · rw [List.map_append, List.sum_append]
    exact joined_mean (by decide) (by unfold IsMeanOrMax; decide) (sqrt_between (mean c)).1 (sqrt_between (mean c)).2

theorem meanOver_between {d e j : Data} (h : j.rows = d.rows ++ e.rows) (hd : d.rows ≠ []) (he : e.rows ≠ []) (q : List ℝ → ℝ) :
    min (meanOver d q) (meanOver e q) ≤ meanOver j q ∧ meanOver j q ≤ max (meanOver d q) (meanOver e q) := by
  unfold meanOver
  rw [h, List.map_append, List.sum_append, List.length_append]
  exact mean_between _ _ _ _ (List.length_pos_iff.2 hd) (List.length_pos_iff.2 he)

theorem weightedStats_joined (p : ℝ → ℝ) (hp : Monotone p) {d e j : Data} (hs : SameShape d e) (hs' : SameShape d j)
    (hr : j.rows = d.rows ++ e.rows) (hd : d.rows ≠ []) (he : e.rows ≠ []) (f : List ℝ → ℕ → ℝ) (w : List ℝ → ℝ)
    (mse rmse : Str) (hm : mse ≠ "LINF".toList ∧ IsMeanOrMax mse) (hm' : rmse ≠ "LINF".toList ∧ IsMeanOrMax rmse)
    (a b k : List (Str × List ℝ)) (h : LineByLine JoinedLine a b k) :
    LineByLine JoinedLine ((weightedStats d f w mse rmse).map (fun x => (x.1, x.2.map p)) ++ a)
      ((weightedStats e f w mse rmse).map (fun x => (x.1, x.2.map p)) ++ b)
      ((weightedStats j f w mse rmse).map (fun x => (x.1, x.2.map p)) ++ k) := by
  unfold weightedStats
  simp only [List.map_cons, List.map_nil, List.cons_append, List.nil_append, hs.dimY, hs'.dimY]
  have mean : ∀ c, _ := fun c => meanOver_between hr hd he fun row => (w row * f row c) ^ 2
  refine ⟨joinedLine_range p hp _ _ _ _ _ fun c _ => ?_, joinedLine_range p hp _ _ _ _ _ fun c _ => ?_, h⟩
  · exact joined_mean hm.1 hm.2 (mean c).1 (mean c).2
  · exact joined_mean hm'.1 hm'.2 (sqrt_between (mean c)).1 (sqrt_between (mean c)).2

theorem fitStatsOf_joined (fmt : ℝ → Decimal) (hp : Monotone fun v => ((fmt v).value : ℝ)) {d e j : Data} (hs : SameShape d e)
    (hs' : SameShape d j) (hr : j.rows = d.rows ++ e.rows) (hd : d.rows ≠ []) (he : e.rows ≠ []) (f : List ℝ → ℕ → ℝ)
    (w w' : List ℝ → ℝ) :
    JoinedStats (printedStats fmt (fitStatsOf d f w w')) (printedStats fmt (fitStatsOf e f w w'))
      (printedStats fmt (fitStatsOf j f w w')) := by
  unfold JoinedStats printedStats fitStatsOf
  simp only [List.map_append, List.append_assoc, hs.dimY, hs'.dimY]
  rw [show j.rows.length = d.rows.length + e.rows.length by rw [hr, List.length_append]]
  have key := statsOf_joined _ hp d.dimY _ _ (List.length_pos_iff.2 hd) (List.length_pos_iff.2 he)
    (fun c => d.rows.map fun row => f row c) (fun c => e.rows.map fun row => f row c) _ _ _
    (weightedStats_joined _ hp hs hs' hr hd he f w "MSE * cos(theta_light)".toList "RMSE * cos(theta_light)".toList
      (by unfold IsMeanOrMax; decide) (by unfold IsMeanOrMax; decide) _ _ _
      (weightedStats_joined _ hp hs hs' hr hd he f w' "MSE * cos(theta_light) * cos(theta_view)".toList
        "RMSE * cos(theta_light) cos(theta_view)".toList (by unfold IsMeanOrMax; decide) (by unfold IsMeanOrMax; decide)
        [] [] [] trivial))
  simp only [List.append_nil] at key
  rw [hr]
  simp only [List.map_append]
  exact key

/-! ### The commands -/

/-- **C97.**  `fit2stat` on two files and on the two joined: the norms do not decrease, the means are between those of the
    two files, the maximum is the larger one, when the printing of the numbers is monotone. -/
theorem fit2stat_joined (val : Dbl → ℝ) (junk : ℝ) (fmt : ℝ → Decimal) (hfmt : ∀ v, (fmt v).ip ≠ [] ∨ (fmt v).fp ≠ [])
    (hmono : Monotone fun v => ((fmt v).value : ℝ))
    (dir : Str) (env : Option Str) (ff : Str → Option (Symbols (Provider LobeObj))) (files files' files'' : Str → Option Str)
    (writable : Str → Bool) (args : SMap) (ha : AsksFitStats args writable) (a b ab text : Str)
    (hf : files (args.get "input".toList) = some a) (hf' : files' (args.get "input".toList) = some b)
    (hf'' : files'' (args.get "input".toList) = some ab) (hg : files (args.get "brdf".toList) = some text)
    (hg' : files' (args.get "brdf".toList) = some text) (hg'' : files'' (args.get "brdf".toList) = some text)
    (d e j : Segments) (hd : loadDataText a (args.update "filename".toList (args.get "input".toList)) = some d)
    (he : loadDataText b (args.update "filename".toList (args.get "input".toList)) = some e)
    (hj : loadDataText ab (args.update "filename".toList (args.get "input".toList)) = some j)
    (hl : SameLayout e d) (hl' : SameLayout j d) (hs : j.samples = d.samples ++ e.samples)
    (f : AnyFn) (hload : loadAny junk dir env ff text = some (some f))
    (h : StatComparable f.evaluable d.store.toData) (h' : StatComparable f.evaluable e.store.toData)
    (hne : d.store.toData.rows ≠ []) (hne' : e.store.toData.rows ≠ []) (hn : 0 < d.store.dimY)
    (hc : f.evaluable.par.input = .CARTESIAN) (hx : f.evaluable.par.dimX = 6) :
    ∃ file file' file'', fit2statMain val junk fmt dir env ff files writable args = (some 0, some file) ∧
      fit2statMain val junk fmt dir env ff files' writable args = (some 0, some file') ∧
      fit2statMain val junk fmt dir env ff files'' writable args = (some 0, some file'') ∧
      JoinedStats (readFitStats file) (readFitStats file') (readFitStats file'') := by
  have s : SameShape d.store.toData e.store.toData := sameLayout_shape hl
  have s' : SameShape d.store.toData j.store.toData := sameLayout_shape hl'
  have hp : j.store.toData.rows = d.store.toData.rows ++ e.store.toData.rows := by
    rw [samples_rows, hs, List.map_append, ← samples_rows, ← samples_rows]
  have hcj : StatComparable f.evaluable j.store.toData := by
    have ab : ∀ row, f.evaluable.abscissa j.store.toData row = f.evaluable.abscissa d.store.toData row :=
      fun row => by unfold Evaluable.abscissa; rw [s'.input]
    have ab' : ∀ row, f.evaluable.abscissa j.store.toData row = f.evaluable.abscissa e.store.toData row :=
      fun row => by unfold Evaluable.abscissa; rw [s'.input, s.input]
    obtain ⟨⟨h1, h2, h3⟩, h4⟩ := h
    obtain ⟨⟨-, k2, k3⟩, -⟩ := h'
    refine ⟨⟨by rw [s'.dimY]; exact h1, fun row hrow => ?_, fun row hrow => ?_⟩,
      by rw [s'.input, s'.output, s'.dimX]; exact h4⟩
    · rw [hp] at hrow
      rw [s'.dimX, s'.dimY]
      rcases List.mem_append.1 hrow with hr | hr
      · exact h2 row hr
      · have := k2 row hr
        rwa [s.dimX, s.dimY] at this
    · rw [hp] at hrow
      rcases List.mem_append.1 hrow with hr | hr
      · rw [ab]; exact h3 row hr
      · rw [ab']; exact k3 row hr
  obtain ⟨t, t1, t2⟩ := fit2stat_file val junk fmt hfmt dir env ff files writable args ha a text hf hg d.store.toData
    (loadDataStream_text val dir env _ _ (.inr rfl) a _ d hd) f hload h hne hn hc hx
  obtain ⟨u, u1, u2⟩ := fit2stat_file val junk fmt hfmt dir env ff files' writable args ha b text hf' hg' e.store.toData
    (loadDataStream_text val dir env _ _ (.inr rfl) b _ e he) f hload h' hne' (by rw [s.dimY]; exact hn) hc hx
  obtain ⟨v, v1, v2⟩ := fit2stat_file val junk fmt hfmt dir env ff files'' writable args ha ab text hf'' hg'' j.store.toData
    (loadDataStream_text val dir env _ _ (.inr rfl) ab _ j hj) f hload hcj
    (fun h0 => hne (by rw [hp] at h0; exact (List.append_eq_nil_iff.1 h0).1)) (by rw [s'.dimY]; exact hn) hc hx
  refine ⟨t, u, v, t1, u1, v1, ?_⟩
  rw [t2, u2, v2, s.error, s'.error, s.directions, s'.directions]
  exact fitStatsOf_joined fmt hmono s s' hp hne hne' _ _ _

/-- **C97.**  `data2stats` on two references and on the two joined. -/
theorem data2stats_joined (val : Dbl → ℝ) (fmt : ℝ → Decimal) (hfmt : ∀ v, (fmt v).ip ≠ [] ∨ (fmt v).fp ≠ [])
    (hmono : Monotone fun v => ((fmt v).value : ℝ)) (dir : Str)
    (env : Option Str) (fs : Str → Option (Symbols (Str → SMap → Option DataObj))) (files files' files'' : Str → Option Str)
    (writable : Str → Bool) (args : SMap) (ha : AsksStats args writable) (input : DataObj)
    (hi : loadDataFile val dir env fs files (args.get "input".toList) (args.get "in-data".toList) = some (some input))
    (hi' : loadDataFile val dir env fs files' (args.get "input".toList) (args.get "in-data".toList) = some (some input))
    (hi'' : loadDataFile val dir env fs files'' (args.get "input".toList) (args.get "in-data".toList) = some (some input))
    (ht : args.get "ref-data".toList = [] ∨ args.get "ref-data".toList = "vertical_segment".toList) (a b ab : Str)
    (hf : files (args.get "ref".toList) = some a) (hf' : files' (args.get "ref".toList) = some b)
    (hf'' : files'' (args.get "ref".toList) = some ab) (d e j : Segments)
    (hd : loadDataText a (SMap.update [] "filename".toList (args.get "ref".toList)) = some d)
    (he : loadDataText b (SMap.update [] "filename".toList (args.get "ref".toList)) = some e)
    (hj : loadDataText ab (SMap.update [] "filename".toList (args.get "ref".toList)) = some j)
    (hl : SameLayout e d) (hl' : SameLayout j d) (hs : j.samples = d.samples ++ e.samples)
    (hne : d.store.toData.rows ≠ []) (hne' : e.store.toData.rows ≠ []) (hn : 0 < d.store.dimY)
    (h : Comparable input.inp (DataObj.ofData d.store.toData).ref)
    (h' : Comparable input.inp (DataObj.ofData e.store.toData).ref) :
    ∃ file file' file'', data2stats val fmt dir env fs files writable args = some (0, some file) ∧
      data2stats val fmt dir env fs files' writable args = some (0, some file') ∧
      data2stats val fmt dir env fs files'' writable args = some (0, some file'') ∧
      JoinedStats (readStats file) (readStats file') (readStats file'') := by
  have s : SameShape d.store.toData e.store.toData := sameLayout_shape hl
  have s' : SameShape d.store.toData j.store.toData := sameLayout_shape hl'
  have hp : j.store.toData.rows = d.store.toData.rows ++ e.store.toData.rows := by
    rw [samples_rows, hs, List.map_append, ← samples_rows, ← samples_rows]
  obtain ⟨t, t1, t2⟩ := data2stats_run val fmt hfmt dir env fs files writable args ha input _ hi
    (by unfold loadDataFile; rw [hf]; exact loadDataStream_text val dir env fs _ ht a _ d hd) hn h
  obtain ⟨u, u1, u2⟩ := data2stats_run val fmt hfmt dir env fs files' writable args ha input (.ofData e.store.toData) hi'
    (by unfold loadDataFile; rw [hf']; exact loadDataStream_text val dir env fs _ ht b _ e he)
    (by show 0 < e.store.toData.dimY; rw [s.dimY]; exact hn) h'
  have hcj : Comparable input.inp (DataObj.ofData j.store.toData).ref := by
    have r1 : ∀ row ∈ j.store.toData.rows, row ∈ d.store.toData.rows ∨ row ∈ e.store.toData.rows := by
      intro row hr
      rw [hp] at hr
      exact List.mem_append.1 hr
    -- each sample alone
    have key : ∀ row ∈ j.store.toData.rows,
        Comparable input.inp ⟨j.store.toData.dimX, j.store.toData.dimY, j.store.toData.input, [row]⟩ := by
      intro row hr
      rcases r1 row hr with hr | hr
      · exact h.of_rows s'.dimX s'.dimY s'.input fun x hx => by
          rw [List.mem_singleton.1 hx]; exact hr
      · exact h'.of_rows (s'.dimX.trans s.dimX.symm) (s'.dimY.trans s.dimY.symm) (s'.input.trans s.input.symm) fun x hx => by
          rw [List.mem_singleton.1 hx]; exact hr
    refine ⟨fun row hr => ?_, fun row hr => ?_, fun row hr => ?_⟩
    · exact (key row hr).1 row (List.mem_singleton.2 rfl)
    · exact (key row hr).2 row (List.mem_singleton.2 rfl)
    · exact (key row hr).3 row (List.mem_singleton.2 rfl)
  obtain ⟨v, v1, v2⟩ := data2stats_run val fmt hfmt dir env fs files'' writable args ha input (.ofData j.store.toData) hi''
    (by unfold loadDataFile; rw [hf'']; exact loadDataStream_text val dir env fs _ ht ab _ j hj)
    (by show 0 < j.store.toData.dimY; rw [s'.dimY]; exact hn) hcj
  refine ⟨t, u, v, t1, u1, v1, ?_⟩
  rw [t2, u2, v2]
  show JoinedStats (printedStats fmt (statsOf d.store.toData.dimY d.store.toData.rows.length _))
    (printedStats fmt (statsOf e.store.toData.dimY e.store.toData.rows.length _))
    (printedStats fmt (statsOf j.store.toData.dimY j.store.toData.rows.length _))
  have key := statsOf_joined _ hmono d.store.toData.dimY _ _ (List.length_pos_iff.2 hne) (List.length_pos_iff.2 hne')
    (fun c => d.store.toData.rows.map fun row => errorAt input.inp (DataObj.ofData d.store.toData).ref row c)
    (fun c => e.store.toData.rows.map fun row => errorAt input.inp (DataObj.ofData d.store.toData).ref row c) [] [] [] trivial
  simp only [List.append_nil] at key
  unfold JoinedStats printedStats errorsOf
  rw [errorAt_ref (inp := input.inp) (ref := (DataObj.ofData d.store.toData).ref)
    (ref' := (DataObj.ofData e.store.toData).ref) s.dimX s.input,
    errorAt_ref (inp := input.inp) (ref := (DataObj.ofData d.store.toData).ref)
    (ref' := (DataObj.ofData j.store.toData).ref) s'.dimX s'.input, s.dimY, s'.dimY, hp, List.length_append]
  show LineByLine JoinedLine _ _ (List.map _ (statsOf _ _ fun c => j.store.toData.rows.map _))
  rw [hp]
  simp only [List.map_append]
  exact key

end
end Alta
