import Verif.Spec.Joined
import Verif.Proofs.Interrupted
import Mathlib.Data.List.Flatten
/-
C94, text files: joined, cut between two lines, lines put in another order.
-/
namespace Alta
noncomputable section

theorem readNumbers_length : ∀ (n : ℕ) (s : Str) (l : List ℚ) (r : Str), readNumbers n s = some (l, r) → l.length = n
  | 0, s, l, r, h => by
    simp only [readNumbers, Option.some.injEq, Prod.mk.injEq] at h
    rw [← h.1]; rfl
  | n + 1, s, l, r, h => by
    unfold readNumbers at h
    split at h
    · cases h
    · split at h
      · cases h
      · rename_i _ _ xs r' h'
        simp only [Option.some.injEq, Prod.mk.injEq] at h
        rw [← h.1, List.length_cons, readNumbers_length n _ _ _ h']

theorem readIntervals_length (o : CIOptions) (kind : CIKind) (dt : Option ℚ) : ∀ (vs : List ℝ) (i : ℕ) (s : Str)
    (t : List (ℝ × ℝ × ℝ)), readIntervals o kind dt i vs s = some t → t.length = vs.length
  | [], i, s, t, h => by
    simp only [readIntervals, Option.some.injEq] at h
    rw [← h]; rfl
  | v :: vs, i, s, t, h => by
    unfold readIntervals at h
    split at h
    · cases h
    · split at h
      · cases h
      · rename_i h'
        simp only [Option.some.injEq] at h
        rw [← h, List.length_cons, List.length_cons, readIntervals_length o kind dt vs _ _ _ h']

theorem cosineCorrection_length (x y : List ℝ) (p : Input) (z : List ℝ) (h : cosineCorrection x y p = some (some z)) :
    z.length = y.length := by
  unfold cosineCorrection at h
  split at h
  · cases h
  · split at h
    · simp only [Option.some.injEq] at h
      rw [← h, List.length_map]
    · cases h

theorem loadRow_length (c : LoadSetup) (l : Str) (v : List ℝ) (h : loadRow c l = some (some v)) :
    v.length = c.dimX + 3 * c.dimY := by
  unfold loadRow at h
  split at h
  · cases h
  · rename_i nums rest hn
    have hl := readNumbers_length _ _ _ _ hn
    simp only at h
    split at h
    · cases h
    · rename_i t ht
      have htl := readIntervals_length _ _ _ _ _ _ _ ht
      rw [List.length_drop, List.length_map, hl] at htl
      split at h
      · split at h
        · split at h
          · cases h
          · cases h
          · rename_i y' hy
            have := cosineCorrection_length _ _ _ _ hy
            rw [List.length_map] at this
            simp only [Option.some.injEq] at h
            rw [← h]
            simp only [List.length_append, List.length_take, List.length_map, hl, htl, this]
            omega
        · simp only [Option.some.injEq] at h
          rw [← h]
          simp only [List.length_append, List.length_take, List.length_map, hl, htl]
          omega
      · cases h

theorem loadRows_lengths (c : LoadSetup) : ∀ (s : Str) (rows : List (List ℝ)), loadRows c s = some rows →
    ∀ r ∈ rows, r.length = c.dimX + 3 * c.dimY := by
  intro s
  induction hn : s.length using Nat.strong_induction_on generalizing s with
  | _ n ih =>
    intro rows h
    cases s with
    | nil =>
      rw [loadRows_nil] at h
      simp only [Option.some.injEq] at h
      subst h
      simp
    | cons a r =>
      have hlt : (getLine (a :: r)).2.length < n := by
        rw [← hn]
        simp only [getLine, List.length_drop, List.length_cons]
        have := (List.dropWhile_sublist (l := a :: r) (· ≠ '\n')).length_le
        simp only [List.length_cons] at this
        omega
      rw [loadRows] at h
      split at h
      · exact ih _ hlt _ rfl rows h
      · split at h
        · rename_i v rows' h1 h2
          simp only [Option.some.injEq] at h
          subst h
          intro r hr
          rcases List.mem_cons.1 hr with rfl | hr
          · exact loadRow_length c _ _ h1
          · exact ih _ hlt _ rfl rows' h2 r hr
        · rename_i rows' h1 h2
          simp only [Option.some.injEq] at h
          subst h
          exact ih _ hlt _ rfl _ h2
        · cases h

/-- The data set made of the rows. -/
def madeOf (c : LoadSetup) (rows : List (List ℝ)) : Segments :=
  Segments.make { dimX := c.dimX, dimY := c.dimY, input := c.input, output := c.output, size := rows.length,
                  raw := rows.flatten, kind := .asymmetrical }

theorem loadText_iff (s : Str) (h args : SMap) (d : Segments) : loadText s h args = some d ↔
    ∃ c rows, loadSetup h args = some c ∧ loadRows c s = some rows ∧ c.dimX + 3 * c.dimY ≠ 0 ∧ d = madeOf c rows := by
  unfold loadText
  constructor
  · intro hd
    split at hd
    · cases hd
    · rename_i c hc
      split at hd
      · cases hd
      · rename_i rows hr
        split at hd
        · cases hd
        · rename_i hz
          simp only [Option.some.injEq] at hd
          exact ⟨c, rows, hc, hr, hz, hd.symm⟩
  · rintro ⟨c, rows, hc, hr, hz, rfl⟩
    rw [hc]
    simp only
    rw [hr]
    simp only
    rw [if_neg hz]
    rfl

/-- The sample made of a row. -/
def sampleOfRow (c : LoadSetup) (r : List ℝ) : Option (List ℝ) × Option (List ℝ × List ℝ × List ℝ) :=
  (some (r.take (c.dimX + c.dimY)),
    some (segment r 0 c.dimX, segment r (c.dimX + c.dimY) c.dimY, segment r (c.dimX + 2 * c.dimY) c.dimY))

theorem samples_madeOf (c : LoadSetup) (rows : List (List ℝ)) (h : ∀ r ∈ rows, r.length = c.dimX + 3 * c.dimY) :
    (madeOf c rows).samples = rows.map (sampleOfRow c) := by
  apply List.ext_getElem
  · simp [Segments.samples, madeOf, Segments.make]
  intro i h1 h2
  rw [List.length_map] at h2
  have hi : rows[i]? = some rows[i] := List.getElem?_eq_getElem h2
  have hcol : (madeOf c rows).store.columns = c.dimX + 3 * c.dimY := by
    show c.dimX + c.dimY + 2 * c.dimY = _
    omega
  have hrow := flatten_row rows _ h i _ hi
  have hsz : i < (madeOf c rows).store.size := h2
  simp only [Segments.samples, List.getElem_map, List.getElem_range, sampleOfRow]
  have hr : (madeOf c rows).store.row i = rows[i] := by
    unfold Store.row
    rw [hcol]
    exact hrow
  congr 1
  · unfold Store.get
    rw [if_pos hsz, hcol]
    show some ((rows.flatten.drop (i * (c.dimX + 3 * c.dimY))).take (c.dimX + c.dimY)) = _
    rw [← hrow, List.take_take, show min (c.dimX + c.dimY) (c.dimX + 3 * c.dimY) = c.dimX + c.dimY by omega]
  · unfold Store.getSegment
    rw [if_pos hsz]
    simp only [hr]
    rfl

theorem xView_rows (dimX n : ℕ) : ∀ rows : List (List ℝ), (∀ r ∈ rows, r.length = n) → dimX ≤ n →
    xView dimX n rows.length rows.flatten = rows.map (List.take dimX)
  | [], _, _ => rfl
  | r :: rows, h, hd => by
    have hr := h r List.mem_cons_self
    rw [List.length_cons, List.flatten_cons, List.map_cons, xView, List.drop_left' hr,
      xView_rows dimX n rows (fun r hr => h r (List.mem_cons_of_mem _ hr)) hd,
      List.take_append_of_le_length (by omega)]

theorem madeOf_bounds (c : LoadSetup) (rows : List (List ℝ)) (h : ∀ r ∈ rows, r.length = c.dimX + 3 * c.dimY) :
    (madeOf c rows).min = dataMin c.dimX (rows.map (List.take c.dimX)) ∧
      (madeOf c rows).max = dataMax c.dimX (rows.map (List.take c.dimX)) := by
  have hv := xView_rows c.dimX (c.dimX + c.dimY + 2 * c.dimY) rows (fun r hr => by rw [h r hr]; omega) (by omega)
  exact ⟨congrArg (dataMin c.dimX) hv, congrArg (dataMax c.dimX) hv⟩

theorem zipWith_assoc {α : Type} (f : α → α → α) (hf : ∀ a b c, f (f a b) c = f a (f b c)) : ∀ a b c : List α,
    List.zipWith f (List.zipWith f a b) c = List.zipWith f a (List.zipWith f b c)
  | [], _, _ => by simp
  | _ :: _, [], _ => by simp
  | _ :: _, _ :: _, [] => by simp
  | x :: a, y :: b, z :: c => by simp [hf, zipWith_assoc f hf a b c]

theorem zipWith_comm' {α : Type} (f : α → α → α) (hf : ∀ a b, f a b = f b a) : ∀ a b : List α,
    List.zipWith f a b = List.zipWith f b a
  | [], _ => by simp
  | _ :: _, [] => by simp
  | x :: a, y :: b => by simp [hf x y, zipWith_comm' f hf a b]

theorem zipWith_self {α : Type} (f : α → α → α) (hf : ∀ a, f a a = a) : ∀ a : List α, List.zipWith f a a = a
  | [] => rfl
  | x :: a => by simp [hf, zipWith_self f hf a]

theorem foldl_zipWith {α : Type} (f : α → α → α) (hf : ∀ a b c, f (f a b) c = f a (f b c)) : ∀ (l : List (List α)) (x y : List α),
    l.foldl (fun m col => List.zipWith f m col) (List.zipWith f x y) =
      List.zipWith f x (l.foldl (fun m col => List.zipWith f m col) y)
  | [], _, _ => rfl
  | a :: l, x, y => by
    rw [List.foldl_cons, List.foldl_cons, zipWith_assoc f hf, foldl_zipWith f hf l]

theorem foldl_zipWith_append {α : Type} (f : α → α → α) (hf : ∀ a b c, f (f a b) c = f a (f b c)) (hc : ∀ a b, f a b = f b a)
    (hi : ∀ a, f a a = a) (i : List α) (l l' : List (List α)) :
    (l ++ l').foldl (fun m col => List.zipWith f m col) i =
      List.zipWith f (l.foldl (fun m col => List.zipWith f m col) i) (l'.foldl (fun m col => List.zipWith f m col) i) := by
  have h1 := foldl_zipWith f hf l i i
  rw [zipWith_self f hi i, zipWith_comm' f hc] at h1
  rw [List.foldl_append]
  conv_lhs => rw [h1]
  exact foldl_zipWith f hf l' _ i

theorem foldl_zipWith_perm {α : Type} (f : α → α → α) (hf : ∀ a b c, f (f a b) c = f a (f b c)) (hc : ∀ a b, f a b = f b a)
    (i : List α) (l l' : List (List α)) (hp : l.Perm l') :
    l.foldl (fun m col => List.zipWith f m col) i = l'.foldl (fun m col => List.zipWith f m col) i := by
  refine hp.foldl_eq' (fun x _ y _ z => ?_) i
  rw [zipWith_assoc f hf, zipWith_assoc f hf, zipWith_comm' f hc y x]

/-- **C94.**  The body of a file followed by another one, with the same header and options: all the samples of the first
    one, then all those of the second one. -/
theorem joined_bodies (s t : Str) (hs : s = [] ∨ s.getLast? = some '\n') (h args : SMap) (d e : Segments)
    (hd : loadText s h args = some d) (he : loadText t h args = some e) :
    ∃ j, loadText (s ++ t) h args = some j ∧ SameLayout j d ∧ j.samples = d.samples ++ e.samples ∧
      j.min = List.zipWith min d.min e.min ∧ j.max = List.zipWith max d.max e.max := by
  obtain ⟨c, rows, hc, hr, hz, rfl⟩ := (loadText_iff _ _ _ _).1 hd
  obtain ⟨c', rows', hc', hr', -, rfl⟩ := (loadText_iff _ _ _ _).1 he
  rw [hc] at hc'
  obtain rfl := Option.some.inj hc'
  have hj : loadRows c (s ++ t) = some (rows ++ rows') := by
    rw [loadRows_append c s t hs, hr, hr']
    rfl
  refine ⟨madeOf c (rows ++ rows'), (loadText_iff _ _ _ _).2 ⟨c, _, hc, hj, hz, rfl⟩, ⟨rfl, rfl, rfl, rfl, rfl⟩, ?_, ?_⟩
  · rw [samples_madeOf c _ (loadRows_lengths c _ _ hj), samples_madeOf c _ (loadRows_lengths c _ _ hr),
      samples_madeOf c _ (loadRows_lengths c _ _ hr'), List.map_append]
  · obtain ⟨a1, a2⟩ := madeOf_bounds c _ (loadRows_lengths c _ _ hj)
    obtain ⟨b1, b2⟩ := madeOf_bounds c _ (loadRows_lengths c _ _ hr)
    obtain ⟨c1, c2⟩ := madeOf_bounds c _ (loadRows_lengths c _ _ hr')
    rw [a1, a2, b1, b2, c1, c2, List.map_append]
    exact ⟨foldl_zipWith_append min min_assoc min_comm min_self _ _ _,
      foldl_zipWith_append max max_assoc max_comm max_self _ _ _⟩

theorem joined_rejected (s t : Str) (hs : s = [] ∨ s.getLast? = some '\n') (h args : SMap) (j : Segments)
    (hj : loadText (s ++ t) h args = some j) :
    ∃ d e, loadText s h args = some d ∧ loadText t h args = some e := by
  obtain ⟨c, rows, hc, hr, hz, rfl⟩ := (loadText_iff _ _ _ _).1 hj
  rw [loadRows_append c s t hs] at hr
  cases h1 : loadRows c s with
  | none => rw [h1] at hr; cases hr
  | some a =>
    rw [h1] at hr
    cases h2 : loadRows c t with
    | none => rw [h2] at hr; cases hr
    | some b =>
      exact ⟨_, _, (loadText_iff _ _ _ _).2 ⟨c, a, hc, h1, hz, rfl⟩, (loadText_iff _ _ _ _).2 ⟨c, b, hc, h2, hz, rfl⟩⟩

/-! ### Lines -/

theorem loadRows_lines (c : LoadSetup) : ∀ ls : List Str,
    loadRows c (textOfLines ls) = (ls.mapM fun l => loadRows c (l ++ ['\n'])).map List.flatten
  | [] => by
    simp [textOfLines, loadRows_nil]
  | l :: ls => by
    have e : textOfLines (l :: ls) = (l ++ ['\n']) ++ textOfLines ls := rfl
    rw [e, loadRows_append c _ _ (.inr (by simp)), loadRows_lines c ls, List.mapM_cons]
    cases loadRows c (l ++ ['\n']) with
    | none => rfl
    | some a =>
      cases ls.mapM fun l => loadRows c (l ++ ['\n']) with
      | none => rfl
      | some b => rfl

theorem mapM_getD {α β : Type} (f : α → Option (List β)) : ∀ (l : List α) (r : List (List β)), l.mapM f = some r →
    r = l.map (fun x => (f x).getD []) ∧ ∀ x ∈ l, (f x).isSome
  | [], r, h => by
    simp only [List.mapM_nil, Option.pure_def, Option.some.injEq] at h
    subst h
    simp
  | a :: l, r, h => by
    rw [List.mapM_cons] at h
    cases ha : f a with
    | none => rw [ha] at h; cases h
    | some v =>
      cases hl : l.mapM f with
      | none => rw [ha, hl] at h; cases h
      | some w =>
        rw [ha, hl] at h
        simp only [Option.pure_def, Option.bind_eq_bind, Option.bind_some, Option.some.injEq] at h
        obtain ⟨h1, h2⟩ := mapM_getD f l w hl
        subst h
        refine ⟨by rw [h1]; simp [ha], ?_⟩
        intro x hx
        rcases List.mem_cons.1 hx with rfl | hx
        · simp [ha]
        · exact h2 x hx

theorem mapM_of_isSome {α β : Type} (f : α → Option (List β)) : ∀ l : List α, (∀ x ∈ l, (f x).isSome) →
    l.mapM f = some (l.map fun x => (f x).getD [])
  | [], _ => by simp
  | a :: l, h => by
    rw [List.mapM_cons, mapM_of_isSome f l fun x hx => h x (List.mem_cons_of_mem _ hx)]
    obtain ⟨v, hv⟩ := Option.isSome_iff_exists.1 (h a List.mem_cons_self)
    rw [hv]
    simp [hv]

/-- The samples of the lines, each on its own. -/
theorem lines_loaded (ls : List Str) (h args : SMap) (d : Segments) (hd : loadText (textOfLines ls) h args = some d) :
    ∃ (c : LoadSetup) (g : Str → List (List ℝ)), loadSetup h args = some c ∧ c.dimX + 3 * c.dimY ≠ 0 ∧
      d = madeOf c (ls.map g).flatten ∧ ∀ l ∈ ls, loadRows c (l ++ ['\n']) = some (g l) := by
  obtain ⟨c, rows, hc, hr, hz, rfl⟩ := (loadText_iff _ _ _ _).1 hd
  rw [loadRows_lines] at hr
  obtain ⟨rs, h1, rfl⟩ := Option.map_eq_some_iff.1 hr
  obtain ⟨h2, h3⟩ := mapM_getD _ _ _ h1
  refine ⟨c, fun l => (loadRows c (l ++ ['\n'])).getD [], hc, hz, by rw [h2], ?_⟩
  intro l hl
  obtain ⟨v, hv⟩ := Option.isSome_iff_exists.1 (h3 l hl)
  simp only [hv, Option.getD_some]

theorem lines_load (ls : List Str) (h args : SMap) (c : LoadSetup) (g : Str → List (List ℝ))
    (hc : loadSetup h args = some c) (hz : c.dimX + 3 * c.dimY ≠ 0)
    (hl : ∀ l ∈ ls, loadRows c (l ++ ['\n']) = some (g l)) :
    loadText (textOfLines ls) h args = some (madeOf c (ls.map g).flatten) ∧
      (madeOf c (ls.map g).flatten).samples = (ls.map g).flatten.map (sampleOfRow c) ∧
      ∀ r ∈ (ls.map g).flatten, r.length = c.dimX + 3 * c.dimY := by
  have hr : loadRows c (textOfLines ls) = some (ls.map g).flatten := by
    rw [loadRows_lines, mapM_of_isSome _ _ fun l h => by rw [hl l h]; rfl]
    simp only [Option.map_some, Option.some.injEq]
    congr 1
    apply List.map_congr_left
    intro l h
    rw [hl l h]; rfl
  exact ⟨(loadText_iff _ _ _ _).2 ⟨c, _, hc, hr, hz, rfl⟩, samples_madeOf c _ (loadRows_lengths c _ _ hr),
    loadRows_lengths c _ _ hr⟩

/-- **C94.**  The lines of the body in another order: the same samples, in another order. -/
theorem permuted_lines (ls ms : List Str) (hp : ls.Perm ms) (h args : SMap) (d : Segments)
    (hd : loadText (textOfLines ls) h args = some d) :
    ∃ e, loadText (textOfLines ms) h args = some e ∧ SameLayout e d ∧ d.samples.Perm e.samples ∧
      e.min = d.min ∧ e.max = d.max := by
  obtain ⟨c, g, hc, hz, rfl, hl⟩ := lines_loaded ls h args d hd
  obtain ⟨-, s1, n1⟩ := lines_load ls h args c g hc hz hl
  obtain ⟨e2, s2, n2⟩ := lines_load ms h args c g hc hz fun l hm => hl l (hp.mem_iff.2 hm)
  have hq := (hp.map g).flatten
  refine ⟨_, e2, ⟨rfl, rfl, rfl, rfl, rfl⟩, ?_, ?_⟩
  · rw [s1, s2]
    exact hq.map _
  · obtain ⟨a1, a2⟩ := madeOf_bounds c _ n1
    obtain ⟨b1, b2⟩ := madeOf_bounds c _ n2
    rw [a1, a2, b1, b2]
    exact ⟨foldl_zipWith_perm min min_assoc min_comm _ _ _ (hq.symm.map _),
      foldl_zipWith_perm max max_assoc max_comm _ _ _ (hq.symm.map _)⟩

/-- **C94.**  Some of the lines of the body, in the same order: some of the samples, in the same order. -/
theorem selected_lines (ls ms : List Str) (hp : ms.Sublist ls) (h args : SMap) (d : Segments)
    (hd : loadText (textOfLines ls) h args = some d) :
    ∃ e, loadText (textOfLines ms) h args = some e ∧ SameLayout e d ∧ e.samples.Sublist d.samples := by
  obtain ⟨c, g, hc, hz, rfl, hl⟩ := lines_loaded ls h args d hd
  obtain ⟨-, s1, -⟩ := lines_load ls h args c g hc hz hl
  obtain ⟨e2, s2, -⟩ := lines_load ms h args c g hc hz fun l hm => hl l (hp.subset hm)
  refine ⟨_, e2, ⟨rfl, rfl, rfl, rfl, rfl⟩, ?_⟩
  rw [s1, s2]
  exact ((hp.map g).flatten).map _

/-! ### Files -/

theorem parseHeaderFrom_append (t : Str) : ∀ (s : Str) (m h : SMap) (rest : Str), parseHeaderFrom s m = (h, rest) →
    rest ≠ [] → parseHeaderFrom (s ++ t) m = (h, rest ++ t) := by
  intro s
  induction hn : s.length using Nat.strong_induction_on generalizing s with
  | _ n ih =>
    intro m h rest hp hr
    cases s with
    | nil =>
      rw [parseHeaderFrom.eq_def] at hp
      simp only [Prod.mk.injEq] at hp
      exact absurd hp.2.symm hr
    | cons a r =>
      by_cases ha : a = '#'
      · subst ha
        have hmem : '\n' ∈ r := by
          by_contra hm
          rw [parseHeaderFrom.eq_def] at hp
          simp only [getLine_noNewline r hm] at hp
          split at hp
          · rw [parseHeaderFrom.eq_def] at hp
            simp only [Prod.mk.injEq] at hp
            exact hr hp.2.symm
          · simp only [Prod.mk.injEq] at hp
            exact hr hp.2.symm
        obtain ⟨l, r', rfl, hl⟩ := split_newline r hmem
        rw [parseHeaderFrom.eq_def] at hp ⊢
        simp only [List.cons_append, List.append_assoc, getLine_append l r' hl, getLine_append l (r' ++ t) hl] at hp ⊢
        split at hp
        · rename_i m' hm
          refine ih r'.length ?_ r' rfl m' h rest hp hr
          rw [← hn]
          simp only [List.length_cons, List.length_append]
          omega
        · rename_i hm
          simp only [Prod.mk.injEq] at hp ⊢
          exact ⟨hp.1, by rw [hp.2]⟩
      · rw [parseHeaderFrom.eq_def] at hp ⊢
        split at hp
        · rename_i heq
          simp only [List.cons.injEq] at heq
          exact absurd heq.1 ha
        · simp only [Prod.mk.injEq] at hp
          obtain ⟨rfl, rfl⟩ := hp
          split
          · rename_i heq
            simp only [List.cons_append, List.cons.injEq] at heq
            exact absurd heq.1 ha
          · rfl

/-- The lines of a header are comments for the reader of the samples. -/
theorem loadRows_header (c : LoadSetup) : ∀ (s : Str) (m : SMap),
    loadRows c (parseHeaderFrom s m).2 = loadRows c s := by
  intro s
  induction hn : s.length using Nat.strong_induction_on generalizing s with
  | _ n ih =>
    intro m
    rw [parseHeaderFrom.eq_def]
    split
    · rename_i r
      have step : loadRows c ('#' :: r) = loadRows c (getLine r).2 := by
        rw [loadRows]
        have e : getLine ('#' :: r) = ('#' :: (getLine r).1, (getLine r).2) := rfl
        rw [e]
        simp
      rw [step]
      split
      · refine ih _ ?_ _ rfl _
        rw [← hn]
        simp only [getLine, List.length_drop, List.length_cons]
        have := (List.dropWhile_sublist (l := r) (· ≠ '\n')).length_le
        omega
      · rfl
    · rfl

/-- What is left after the header ends as the file does. -/
theorem parseHeaderFrom_last : ∀ (s : Str) (m : SMap), (parseHeaderFrom s m).2 ≠ [] →
    (parseHeaderFrom s m).2.getLast? = s.getLast? := by
  intro s
  induction hn : s.length using Nat.strong_induction_on generalizing s with
  | _ n ih =>
    intro m h
    have last : ∀ (l r : Str), r ≠ [] → ('#' :: (l ++ '\n' :: r)).getLast? = r.getLast? := by
      intro l r hr
      rw [show ('#' :: (l ++ '\n' :: r)) = ('#' :: l ++ ['\n']) ++ r by simp, List.getLast?_append]
      cases hg : r.getLast? with
      | none => exact absurd (List.getLast?_eq_none_iff.1 hg) hr
      | some v => rfl
    cases s with
    | nil =>
      rw [parseHeaderFrom.eq_def]
    | cons a r =>
      by_cases ha : a = '#'
      · subst ha
        rw [parseHeaderFrom.eq_def] at h ⊢
        by_cases hm : '\n' ∈ r
        · obtain ⟨l, r', rfl, hl⟩ := split_newline r hm
          simp only [getLine_append l r' hl] at h ⊢
          cases hh : headerLine l m with
          | none =>
            rw [hh] at h
            simp only at h ⊢
            exact (last l r' h).symm
          | some m' =>
            rw [hh] at h
            simp only at h ⊢
            have hr' : r' ≠ [] := by
              rintro rfl
              rw [parseHeaderFrom.eq_def] at h
              exact h rfl
            rw [last l r' hr']
            refine ih r'.length ?_ r' rfl m' h
            rw [← hn]
            simp only [List.length_cons, List.length_append]
            omega
        · exfalso
          simp only [getLine_noNewline r hm] at h
          cases hh : headerLine r m with
          | none => rw [hh] at h; exact h rfl
          | some m' =>
            rw [hh] at h
            simp only at h
            rw [parseHeaderFrom.eq_def] at h
            exact h rfl
      · rw [parseHeaderFrom.eq_def]
        split
        · rename_i heq
          simp only [List.cons.injEq] at heq
          exact absurd heq.1 ha
        · rfl

/-- **C94.**  A text file followed by another one (`cat a b > c`), when the first one has something after its header and
    ends with an end of line, and the two headers say the same thing: all the samples of the first one, then all those of the
    second one. -/
theorem joined_files (a b : Str) (args : SMap) (d e : Segments) (ha : loadDataText a args = some d)
    (hb : loadDataText b args = some e) (hsame : loadSetup (parseHeader a).1 args = loadSetup (parseHeader b).1 args)
    (hbody : (parseHeader a).2 ≠ []) (hend : a.getLast? = some '\n') :
    ∃ j, loadDataText (a ++ b) args = some j ∧ SameLayout j d ∧ j.samples = d.samples ++ e.samples ∧
      j.min = List.zipWith min d.min e.min ∧ j.max = List.zipWith max d.max e.max := by
  unfold loadDataText at ha hb ⊢
  have hp : parseHeader (a ++ b) = ((parseHeader a).1, (parseHeader a).2 ++ b) :=
    parseHeaderFrom_append b a [] _ _ rfl hbody
  rw [hp]
  simp only at ha hb ⊢
  split at ha
  · cases ha
  · rename_i hf
    rw [if_neg hf]
    split at hb
    · cases hb
    · obtain ⟨c, rows, hc, hr, hz, rfl⟩ := (loadText_iff _ _ _ _).1 hb
      refine joined_bodies _ _ ?_ _ _ _ _ ha ((loadText_iff _ _ _ _).2 ⟨c, rows, hsame.trans hc, ?_, hz, rfl⟩)
      · right
        exact (parseHeaderFrom_last a [] hbody).trans hend
      · rw [← hr]
        exact (loadRows_header c b []).symm

end
end Alta
