import Verif.Model.TextLoad
import Verif.Spec.TextFile
import Verif.Props.Header
import Verif.Props.Segment
import Verif.Proofs.Decimal
import Mathlib.Tactic.FieldSimp
/-
Properties C23 (rows kept by the text loader) and C24 (intervals made by it).
-/
namespace Alta

/-! reading numbers -/

theorem space_numberEnds (c : Char) (h : isSpace c = true) :
    isDigit c = false ∧ c ≠ '.' ∧ c ≠ 'e' ∧ c ≠ 'E' := by
  simp only [isSpace, Bool.or_eq_true, decide_eq_true_eq] at h
  rcases h with ((((h | h) | h) | h) | h) | h <;> subst h <;> decide

theorem numberEnds_fields (fs : List (Str × Decimal)) (tail : Str) (h : FieldsOk fs)
    (h1 : ∀ f ∈ fs.head?, f.1 ≠ []) (ht : Blank tail) : NumberEnds (fieldsText fs ++ tail) := by
  intro c r he
  apply space_numberEnds
  cases fs with
  | nil =>
    simp only [fieldsText, List.nil_append] at he
    exact (ht c (by rw [he]; simp)).1
  | cons f fs =>
    obtain ⟨sep, d⟩ := f
    have hsep := h1 (sep, d) (by simp)
    cases sep with
    | nil => exact absurd rfl hsep
    | cons a b =>
      simp only [fieldsText, List.cons_append, List.cons.injEq] at he
      rw [← he.1]
      exact (h.1 a (by simp)).1

theorem readNumbers_fields (n : ℕ) (fs : List (Str × Decimal)) (tail : Str) (h : FieldsOk fs)
    (ht : Blank tail) (hn : n ≤ fs.length) :
    readNumbers n (fieldsText fs ++ tail)
      = some ((fs.take n).map (·.2.value), fieldsText (fs.drop n) ++ tail) := by
  induction n generalizing fs with
  | zero => simp [readNumbers]
  | succ n ih =>
    cases fs with
    | nil => simp at hn
    | cons f fs =>
      obtain ⟨sep, d⟩ := f
      obtain ⟨h1, h2, h3, h4⟩ := h
      have hs := strtod_text sep (fieldsText fs ++ tail) d (fun c hc => (h1 c hc).1) h2
        (numberEnds_fields fs tail h4 h3 ht)
      have e : fieldsText ((sep, d) :: fs) ++ tail = sep ++ (d.text ++ (fieldsText fs ++ tail)) := by
        simp [fieldsText]
      rw [readNumbers, e, hs]
      simp only [ih fs h4 (by simpa using hn)]
      simp

theorem FieldsOk.drop {fs : List (Str × Decimal)} (h : FieldsOk fs) (n : ℕ) : FieldsOk (fs.drop n) := by
  induction n generalizing fs with
  | zero => exact h
  | succ n ih =>
    cases fs with
    | nil => trivial
    | cons f fs => exact ih h.2.2.2

/-! text of a row -/

theorem showDigits_noSpace (l : List (Fin 10)) : ∀ c ∈ showDigits l, isSpace c = false := by
  intro c hc
  obtain ⟨d, hd, rfl⟩ := showDigits_all l c hc
  exact (digitChar_spec d hd).2.2.1

theorem showInt_noSpace (z : ℤ) : ∀ c ∈ showInt z, isSpace c = false := by
  intro c hc
  unfold showInt at hc
  have h : ∀ c ∈ showNat z.natAbs, isSpace c = false := by
    intro c hc
    obtain ⟨d, hd, rfl⟩ := showNat_digits _ c hc
    exact (digitChar_spec d hd).2.2.1
  split at hc
  · rcases List.mem_cons.1 hc with rfl | hc
    · decide
    · exact h c hc
  · exact h c hc

theorem Decimal.text_noSpace (d : Decimal) : ∀ c ∈ d.text, isSpace c = false := by
  intro c hc
  unfold Decimal.text at hc
  simp only [List.mem_append] at hc
  rcases hc with ((hc | hc) | hc) | hc
  · split at hc
    · simp at hc; subst hc; decide
    · simp at hc
  · exact showDigits_noSpace _ c hc
  · split at hc
    · simp at hc
    · rcases List.mem_cons.1 hc with rfl | hc
      · decide
      · exact showDigits_noSpace _ c hc
  · split at hc
    · simp at hc
    · rcases List.mem_cons.1 hc with rfl | hc
      · decide
      · exact showInt_noSpace _ c hc

/-- no digit, sign or point is a hash -/
theorem Decimal.text_head (d : Decimal) (h : d.ip ≠ [] ∨ d.fp ≠ []) :
    ∃ c r, d.text = c :: r ∧ c ≠ '#' := by
  have hdig : ∀ k : Fin 10, digitChar k.val ≠ '#' := by intro k; revert k; decide
  unfold Decimal.text
  cases hn : d.neg with
  | true => exact ⟨'-', _, rfl, by decide⟩
  | false =>
    cases hi : d.ip with
    | cons k l =>
      refine ⟨digitChar k.val, _, by simp [showDigits]; rfl, hdig k⟩
    | nil =>
      cases hf : d.fp with
      | cons k l => exact ⟨'.', _, by simp [showDigits]; rfl, by decide⟩
      | nil => rcases h with h | h <;> contradiction

theorem fieldsText_noNewline (fs : List (Str × Decimal)) (h : FieldsOk fs) : '\n' ∉ fieldsText fs := by
  induction fs with
  | nil => simp [fieldsText]
  | cons f fs ih =>
    obtain ⟨sep, d⟩ := f
    obtain ⟨h1, -, -, h4⟩ := h
    simp only [fieldsText, List.mem_append, not_or]
    refine ⟨fun hc => (h1 _ hc).2 rfl, fun hc => ?_, ih h4⟩
    have := d.text_noSpace _ hc
    rw [newline_isSpace] at this; cases this

theorem BodyLine.noNewline (l : BodyLine) (h : l.WellFormed) : '\n' ∉ l.text := by
  cases l with
  | blank => simp [BodyLine.text]
  | comment t =>
    simp only [BodyLine.WellFormed] at h
    simp [BodyLine.text, h]
  | row r =>
    simp only [BodyLine.text, TextRow.text, List.mem_append, not_or]
    exact ⟨fieldsText_noNewline _ h.2.1, fun hc => (h.2.2 _ hc).2 rfl⟩

theorem TextRow.text_head (r : TextRow) (h : r.WellFormed) : r.text ≠ [] ∧ r.text.head? ≠ some '#' := by
  obtain ⟨fs, tr⟩ := r
  obtain ⟨h0, h1, -⟩ := h
  cases fs with
  | nil => exact absurd rfl h0
  | cons f fs =>
    obtain ⟨sep, d⟩ := f
    obtain ⟨hs, hd, -, -⟩ := h1
    obtain ⟨c, r', hc, hne⟩ := d.text_head hd
    cases sep with
    | nil => simp [TextRow.text, fieldsText, hc, hne]
    | cons a b =>
      have ha := (hs a (by simp)).1
      refine ⟨by simp [TextRow.text, fieldsText], ?_⟩
      simp only [TextRow.text, fieldsText, List.cons_append, List.head?_cons, ne_eq, Option.some.injEq]
      rintro rfl; revert ha; decide

/-! Specification of a loaded row -/

/-- The width mode asked for. -/
def CIOptions.mode (o : CIOptions) : WidthMode :=
  if o.relative then .relative else if o.max then .greatest else .absolute

/-- Abscissa of a row. -/
noncomputable def rowX (c : LoadSetup) (r : TextRow) : List ℝ := r.values.take c.dimX

/-- Values of a row as written. -/
noncomputable def rawY (c : LoadSetup) (r : TextRow) : List ℝ := (r.values.drop c.dimX).take c.dimY

/-- Values of a row, clamped when `--dt-positive` is given. -/
noncomputable def rowY (c : LoadSetup) (r : TextRow) : List ℝ :=
  if c.opt.positive then (rawY c r).map (max · 0) else rawY c r

/-- How many numbers after the values give the interval. -/
def ciNumbers : CIKind → ℕ
  | .asymmetrical => 2
  | .symmetrical => 1
  | .none => 0

/-- The widths (below, above) for the component `i`: those written in the row, for the
    first component only, otherwise the option `--dt`. -/
noncomputable def rowWidths (c : LoadSetup) (dt : ℝ) (r : TextRow) (i : ℕ) : ℝ × ℝ :=
  let e := r.values.drop (c.dimX + c.dimY)
  match i, c.kind with
  | 0, .asymmetrical => (e.getD 0 0, e.getD 1 0)
  | 0, .symmetrical => (e.getD 0 0, e.getD 0 0)
  | _, _ => (dt, dt)

/-- The interval of the component `i` of value `v`. -/
noncomputable def rowInterval (c : LoadSetup) (dt : ℝ) (r : TextRow) (i : ℕ) (v : ℝ) : ℝ × ℝ :=
  let w := rowWidths c dt r i
  let b := intervalBounds c.opt.mode v w.1 w.2
  if c.opt.positive then (max b.1 0, max b.2 0) else b

/-- View and light directions of a row: the abscissa converted to `CARTESIAN`. -/
noncomputable def rowDirections (c : LoadSetup) (r : TextRow) : List ℝ :=
  (convertInput (arr (rowX c r)) c.input .CARTESIAN).getD []

/-- The abscissa and the values of the row are inside the asked domain. -/
def InDomain (c : LoadSetup) (r : TextRow) : Prop :=
  Inside c.min (rowX c r) c.max ∧ Inside c.ymin (rowY c r) c.ymax

/-- The rows to keep: inside the asked domain and, when the cosine is to be corrected,
    with both directions above the horizon. -/
def Keep (c : LoadSetup) (r : TextRow) : Prop :=
  InDomain c r ∧ (c.cosine = true → 0 < arr (rowDirections c r) 5 ∧ 0 < arr (rowDirections c r) 2)

/-- The values to store: with `--data-correct-cosine` they are multiplied by the cosine
    of the light and divided by that of the view. -/
noncomputable def rowValue (c : LoadSetup) (r : TextRow) : List ℝ :=
  if c.cosine then (rowY c r).map (· * arr (rowDirections c r) 5 / arr (rowDirections c r) 2) else rowY c r

/-- lower bounds and upper bounds of a row -/
noncomputable def rowLower (c : LoadSetup) (dt : ℝ) (r : TextRow) : List ℝ :=
  (rawY c r).mapIdx fun i v => (rowInterval c dt r i v).1

noncomputable def rowUpper (c : LoadSetup) (dt : ℝ) (r : TextRow) : List ℝ :=
  (rawY c r).mapIdx fun i v => (rowInterval c dt r i v).2

theorem withinBounds_iff (v lo hi : List ℝ) (h1 : v.length = lo.length) (h2 : v.length = hi.length) :
    withinBounds v lo hi = true ↔ Inside lo v hi := by
  unfold withinBounds Inside
  rw [Bool.and_eq_true]
  refine and_congr ?_ ?_
  · clear h2
    induction v generalizing lo with
    | nil => cases lo <;> simp at h1 ⊢
    | cons a v ih =>
      cases lo with
      | nil => simp at h1
      | cons b lo =>
        rw [List.forall₂_cons, ← ih lo (by simpa using h1)]
        simp
  · clear h1
    induction v generalizing hi with
    | nil => cases hi <;> simp at h2 ⊢
    | cons a v ih =>
      cases hi with
      | nil => simp at h2
      | cons b hi =>
        rw [List.forall₂_cons, ← ih hi (by simpa using h2)]
        simp

theorem storeInterval_eq (o : CIOptions) (v a b : ℝ) :
    storeInterval o v (-a) b =
      (if o.positive then max v 0 else v,
       if o.positive then max (intervalBounds o.mode v a b).1 0 else (intervalBounds o.mode v a b).1,
       if o.positive then max (intervalBounds o.mode v a b).2 0 else (intervalBounds o.mode v a b).2) := by
  have e1 : v * (1 + -a) = v - a * v := by ring
  have e2 : v * (1 + b) = v + b * v := by ring
  have e3 : v * -a = -(a * v) := by ring
  have e4 : v * b = b * v := by ring
  obtain ⟨rel, mx, pos⟩ := o
  cases rel <;> cases mx <;> cases pos <;>
    simp [storeInterval, CIOptions.mode, intervalBounds, e1, e2, e3, e4, sub_eq_add_neg]

/-- components after the first one -/
theorem readIntervals_succ (o : CIOptions) (kind : CIKind) (dt : ℚ) (i : ℕ) (ys : List ℝ) (s : Str) :
    readIntervals o kind (some dt) (i + 1) ys s
      = some (ys.map fun v => storeInterval o v (-(dt : ℝ)) (dt : ℝ)) := by
  induction ys generalizing i with
  | nil => rfl
  | cons v ys ih =>
    have hd : readDt kind (some dt) (i + 1) s = some ((-dt, dt), s) := by
      unfold readDt; cases kind <;> rfl
    rw [readIntervals, hd]
    simp only [ih, List.map_cons]
    push_cast
    rfl

/-- the intervals of a row, as triples -/
theorem readIntervals_row (c : LoadSetup) (dt : ℚ) (hdt : c.dt = some dt) (r : TextRow) (hr : r.WellFormed)
    (hlen : c.dimX + c.dimY + ciNumbers c.kind ≤ r.fields.length) :
    readIntervals c.opt c.kind c.dt 0 (rawY c r) (fieldsText (r.fields.drop (c.dimX + c.dimY)) ++ r.trailing)
      = some ((rawY c r).mapIdx fun i v =>
          (if c.opt.positive then max v 0 else v, rowInterval c dt r i v)) := by
  cases hy : rawY c r with
  | nil => rfl
  | cons v ys =>
    have hfs := hr.2.1.drop (c.dimX + c.dimY)
    have hvals : ∀ k, k < (r.fields.drop (c.dimX + c.dimY)).length →
        (r.values.drop (c.dimX + c.dimY)).getD k 0
          = ((((r.fields.drop (c.dimX + c.dimY)).map (·.2.value)).getD k 0 : ℚ) : ℝ) := by
      intro k hk
      unfold TextRow.values
      rw [← List.map_drop, List.getD_eq_getElem?_getD, List.getD_eq_getElem?_getD, List.getElem?_map,
        List.getElem?_map, List.getElem?_eq_getElem hk]
      rfl
    have hlen' : ciNumbers c.kind ≤ (r.fields.drop (c.dimX + c.dimY)).length := by
      rw [List.length_drop]; omega
    have hrd : ∃ s', readDt c.kind c.dt 0 (fieldsText (r.fields.drop (c.dimX + c.dimY)) ++ r.trailing)
        = some (s') ∧ ((s'.1.1 : ℚ) : ℝ) = -(rowWidths c dt r 0).1 ∧ ((s'.1.2 : ℚ) : ℝ) = (rowWidths c dt r 0).2 := by
      generalize hfs' : r.fields.drop (c.dimX + c.dimY) = fs at *
      cases hk : c.kind with
      | none => exact ⟨_, by rw [hdt]; rfl, by simp [rowWidths, hk], by simp [rowWidths, hk]⟩
      | symmetrical =>
        rw [hk] at hlen'
        have hl : 1 ≤ fs.length := hlen'
        have h1 := readNumbers_fields 1 fs r.trailing hfs hr.2.2 hl
        refine ⟨_, by unfold readDt; rw [h1]; rfl, ?_, ?_⟩
        · simp only [rowWidths, hk, hvals 0 (by omega)]
          cases fs with
          | nil => simp at hl
          | cons f fs => simp
        · simp only [rowWidths, hk, hvals 0 (by omega)]
          cases fs with
          | nil => simp at hl
          | cons f fs => simp
      | asymmetrical =>
        rw [hk] at hlen'
        have hl : 2 ≤ fs.length := hlen'
        have h1 := readNumbers_fields 2 fs r.trailing hfs hr.2.2 hl
        refine ⟨_, by unfold readDt; rw [h1]; rfl, ?_, ?_⟩
        · simp only [rowWidths, hk, hvals 0 (by omega)]
          match fs, hl with
          | f :: g :: fs, _ => simp
        · simp only [rowWidths, hk, hvals 1 (by omega)]
          match fs, hl with
          | f :: g :: fs, _ => simp
    obtain ⟨⟨⟨a, b⟩, s'⟩, hrd, ha, hb⟩ := hrd
    simp only at ha hb
    rw [readIntervals, hrd]
    simp only
    rw [hdt, readIntervals_succ]
    simp only [List.mapIdx_cons, Option.some.injEq, List.cons.injEq]
    refine ⟨?_, ?_⟩
    · rw [ha, hb, storeInterval_eq]
      unfold rowInterval
      cases c.opt.positive <;> rfl
    · rw [List.mapIdx_eq_zipIdx_map]
      apply List.ext_getElem
      · simp
      · intro n h1 h2
        simp only [List.getElem_map, List.getElem_zipIdx]
        have hw : rowWidths c dt r (0 + n + 1) = (((dt : ℚ) : ℝ), ((dt : ℚ) : ℝ)) := by
          unfold rowWidths; cases c.kind <;> rfl
        rw [storeInterval_eq]
        unfold rowInterval
        simp only [Nat.zero_add] at hw ⊢
        rw [hw]
        by_cases hp : c.opt.positive = true <;> simp [hp]

theorem map_mapIdx' {α β γ : Type*} (l : List α) (f : ℕ → α → β) (g : β → γ) :
    (l.mapIdx f).map g = l.mapIdx fun i a => g (f i a) := by
  apply List.ext_getElem <;> simp

open Classical in
theorem loadRow_spec (c : LoadSetup) (dt : ℚ) (hdt : c.dt = some dt) 
    (h1 : c.min.length = c.dimX) (h2 : c.max.length = c.dimX) (h3 : c.ymin.length = c.dimY)
    (h4 : c.ymax.length = c.dimY) (r : TextRow) (hr : r.WellFormed)
    (hlen : c.dimX + c.dimY + ciNumbers c.kind ≤ r.fields.length)
    (hcos : c.cosine = true → InDomain c r → (convertInput (arr (rowX c r)) c.input .CARTESIAN).isSome = true) :
    loadRow c r.text = some (if Keep c r then
      some (rowX c r ++ rowValue c r ++ rowLower c dt r ++ rowUpper c dt r) else Option.none) := by
  have hread := readNumbers_fields (c.dimX + c.dimY) r.fields r.trailing hr.2.1 hr.2.2 (by omega)
  have hv : ((r.fields.take (c.dimX + c.dimY)).map (·.2.value)).map (fun q : ℚ => (q : ℝ))
      = r.values.take (c.dimX + c.dimY) := by
    unfold TextRow.values; rw [List.map_map, ← List.map_take]; rfl
  have hx : (r.values.take (c.dimX + c.dimY)).take c.dimX = rowX c r := by
    rw [List.take_take, Nat.min_eq_left (by omega)]; rfl
  have hy : (r.values.take (c.dimX + c.dimY)).drop c.dimX = rawY c r := by
    rw [List.drop_take, Nat.add_sub_cancel_left]; rfl
  have hrl : r.values.length = r.fields.length := by simp [TextRow.values]
  have hxl : (rowX c r).length = c.dimX := by unfold rowX; rw [List.length_take, hrl]; omega
  have hyl : (rawY c r).length = c.dimY := by
    unfold rawY; rw [List.length_take, List.length_drop, hrl]; omega
  have hyl' : (rowY c r).length = c.dimY := by unfold rowY; split <;> simp [hyl]
  unfold loadRow TextRow.text
  rw [hread]
  simp only [hv, hx, hy]
  rw [readIntervals_row c dt hdt r hr hlen]
  have e1 : ((rawY c r).mapIdx fun i v => (if c.opt.positive then max v 0 else v, rowInterval c dt r i v)).map (·.1)
      = rowY c r := by
    rw [map_mapIdx']
    unfold rowY
    by_cases hp : c.opt.positive = true
    · apply List.ext_getElem <;> simp [hp]
    · apply List.ext_getElem <;> simp [hp]
  have e2 : ((rawY c r).mapIdx fun i v => (if c.opt.positive then max v 0 else v, rowInterval c dt r i v)).map (·.2.1)
      = rowLower c dt r := by rw [map_mapIdx']; rfl
  have e3 : ((rawY c r).mapIdx fun i v => (if c.opt.positive then max v 0 else v, rowInterval c dt r i v)).map (·.2.2)
      = rowUpper c dt r := by rw [map_mapIdx']; rfl
  simp only [e1, e2, e3]
  have hw1 := withinBounds_iff (rowX c r) c.min c.max (by omega) (by omega)
  have hw2 := withinBounds_iff (rowY c r) c.ymin c.ymax (by omega) (by omega)
  have hw : (withinBounds (rowX c r) c.min c.max && withinBounds (rowY c r) c.ymin c.ymax) = true ↔ InDomain c r := by
    rw [Bool.and_eq_true, hw1, hw2]; rfl
  by_cases hin : InDomain c r
  · rw [hw.2 hin, if_pos rfl]
    cases hc : c.cosine with
    | false =>
      have hk : Keep c r := ⟨hin, by simp [hc]⟩
      rw [if_pos hk]
      simp [rowValue, hc]
    | true =>
      obtain ⟨d, hd⟩ := Option.isSome_iff_exists.1 (hcos hc hin)
      have hdir : rowDirections c r = d := by unfold rowDirections; rw [hd]; rfl
      rw [if_pos rfl]
      unfold cosineCorrection
      rw [hd]
      simp only
      by_cases hz : arr d 5 > 0 ∧ arr d 2 > 0
      · have hk : Keep c r := ⟨hin, fun _ => by rw [hdir]; exact hz⟩
        rw [if_pos hz, if_pos hk]
        have hv : rowValue c r = (rowY c r).map (· / (1 / arr d 5 * arr d 2)) := by
          unfold rowValue
          rw [hc, if_pos rfl, hdir]
          refine List.map_congr_left fun y _ => ?_
          have h5 := hz.1.ne'
          have h2 := hz.2.ne'
          field_simp
        rw [hv]
      · have hk : ¬ Keep c r := fun hk => hz (by have := hk.2 hc; rwa [hdir] at this)
        rw [if_neg hz, if_neg hk]
  · rw [if_neg (show ¬ _ = true from fun h => hin (hw.1 h)), if_neg (fun hk => hin hk.1)]

theorem loadRows_nil (c : LoadSetup) : loadRows c [] = some [] := by rw [loadRows]

theorem loadRows_line (c : LoadSetup) (l rest : Str) (h : '\n' ∉ l) :
    loadRows c (l ++ '\n' :: rest) =
      if l = [] ∨ l.head? = some '#' then loadRows c rest
      else match loadRow c l, loadRows c rest with
        | some (some v), some rows => some (v :: rows)
        | some Option.none, some rows => some rows
        | _, _ => Option.none := by
  have hg := getLine_append l rest h
  cases l with
  | nil =>
    rw [List.nil_append, loadRows]
    rw [List.nil_append] at hg
    rw [hg]; rfl
  | cons a l =>
    rw [List.cons_append, loadRows]
    rw [List.cons_append] at hg
    rw [hg]; rfl

open Classical in
/-- C23, on rows: what the text loader keeps, in order. -/
theorem loadRows_spec (c : LoadSetup) (dt : ℚ) (hdt : c.dt = some dt)
    (h1 : c.min.length = c.dimX) (h2 : c.max.length = c.dimX) (h3 : c.ymin.length = c.dimY)
    (h4 : c.ymax.length = c.dimY) (ls : List BodyLine) (hl : ∀ l ∈ ls, l.WellFormed)
    (hlen : ∀ r ∈ bodyRows ls, c.dimX + c.dimY + ciNumbers c.kind ≤ r.fields.length)
    (hcos : c.cosine = true → ∀ r ∈ bodyRows ls, InDomain c r →
      (convertInput (arr (rowX c r)) c.input .CARTESIAN).isSome = true) :
    loadRows c (bodyText ls) = some (((bodyRows ls).filter (fun r => decide (Keep c r))).map
      fun r => rowX c r ++ rowValue c r ++ rowLower c dt r ++ rowUpper c dt r) := by
  induction ls with
  | nil => simp [bodyText, bodyRows, loadRows_nil]
  | cons l ls ih =>
    have hlw := hl l (by simp)
    rw [bodyText, loadRows_line c _ _ (l.noNewline hlw)]
    cases l with
    | blank =>
      rw [if_pos (show BodyLine.blank.text = [] ∨ _ from Or.inl rfl)]
      exact ih (fun l h => hl l (by simp [h])) (fun r hr => hlen r (by simpa [bodyRows] using hr))
        (fun hc r hr => hcos hc r (by simpa [bodyRows] using hr))
    | comment t =>
      rw [if_pos (show (BodyLine.comment t).text = [] ∨ (BodyLine.comment t).text.head? = some '#' from Or.inr rfl)]
      exact ih (fun l h => hl l (by simp [h])) (fun r hr => hlen r (by simpa [bodyRows] using hr))
        (fun hc r hr => hcos hc r (by simpa [bodyRows] using hr))
    | row r =>
      have hh := r.text_head hlw
      rw [if_neg (by simp only [BodyLine.text]; tauto)]
      rw [ih (fun l h => hl l (by simp [h])) (fun r' hr => hlen r' (by simp [bodyRows, hr]))
        (fun hc r' hr => hcos hc r' (by simp [bodyRows, hr]))]
      simp only [BodyLine.text]
      rw [loadRow_spec c dt hdt h1 h2 h3 h4 r hlw (hlen r (by simp [bodyRows]))
        (fun hc => hcos hc r (by simp [bodyRows]))]
      by_cases hk : Keep c r
      · simp only [bodyRows, if_pos hk]
        rw [List.filter_cons_of_pos (by simpa using hk), List.map_cons]
      · simp only [bodyRows, if_neg hk]
        rw [List.filter_cons_of_neg (by simpa using hk)]

theorem flatten_row {α : Type} (rows : List (List α)) (n : ℕ) (h : ∀ r ∈ rows, r.length = n) (i : ℕ) (r : List α)
    (hi : rows[i]? = some r) : (rows.flatten.drop (i * n)).take n = r := by
  induction rows generalizing i with
  | nil => simp at hi
  | cons a rows ih =>
    have ha := h a (by simp)
    cases i with
    | zero =>
      simp only [List.getElem?_cons_zero, Option.some.injEq] at hi
      subst hi
      rw [Nat.zero_mul, List.drop_zero, List.flatten_cons, List.take_left' ha]
    | succ i =>
      rw [List.getElem?_cons_succ] at hi
      rw [List.flatten_cons, Nat.add_mul, one_mul, Nat.add_comm, ← List.drop_drop, List.drop_left' ha]
      exact ih (fun r hr => h r (by simp [hr])) i hi

theorem flatten_length_const {α : Type} (rows : List (List α)) (n : ℕ) (h : ∀ r ∈ rows, r.length = n) :
    rows.flatten.length = rows.length * n := by
  induction rows with
  | nil => simp
  | cons a rows ih =>
    rw [List.flatten_cons, List.length_append, h a (by simp), ih (fun r hr => h r (by simp [hr])),
      List.length_cons, Nat.add_mul, one_mul, Nat.add_comm]

theorem fillVec_length (d : ℚ) (n : ℕ) (s : Str) : (fillVec d n s).length = n := by
  induction n generalizing s with
  | zero => rfl
  | succ n ih =>
    unfold fillVec
    split <;> simp [ih]

theorem getVec_length (m : SMap) (k : Str) (n : ℕ) (d : ℚ) : (m.getVec k n d).length = n := by
  unfold SMap.getVec
  split
  · exact fillVec_length _ _ _
  · simp

theorem loadSetup_lengths (header args : SMap) (c : LoadSetup) (h : loadSetup header args = some c) :
    c.min.length = c.dimX ∧ c.max.length = c.dimX ∧ c.ymin.length = c.dimY ∧ c.ymax.length = c.dimY := by
  unfold loadSetup at h
  split at h
  · cases h
  · split at h
    · cases h
    · simp only [Option.some.injEq] at h
      rw [← h]
      simp only [List.length_map]
      exact ⟨getVec_length _ _ _ _, getVec_length _ _ _ _, getVec_length _ _ _ _, getVec_length _ _ _ _⟩

theorem row_lengths (c : LoadSetup) (dt : ℝ) (r : TextRow)
    (hlen : c.dimX + c.dimY + ciNumbers c.kind ≤ r.fields.length) :
    (rowX c r).length = c.dimX ∧ (rowValue c r).length = c.dimY ∧ (rowLower c dt r).length = c.dimY ∧
      (rowUpper c dt r).length = c.dimY := by
  have hrl : r.values.length = r.fields.length := by simp [TextRow.values]
  have hyl : (rawY c r).length = c.dimY := by
    unfold rawY; rw [List.length_take, List.length_drop, hrl]; omega
  have hyl' : (rowY c r).length = c.dimY := by unfold rowY; split <;> simp [hyl]
  refine ⟨by unfold rowX; rw [List.length_take, hrl]; omega, ?_, by simp [rowLower, hyl], by simp [rowUpper, hyl]⟩
  unfold rowValue; split <;> simp [hyl']

/-- C23: without the options min, max, ymin and ymax a row is kept by the domain exactly when all of its abscissae and
    values are within the range of single precision numbers. -/
theorem text_no_domain (header args : SMap) (c : LoadSetup) (hc : loadSetup header args = some c)
    (h1 : args.isDefined "min".toList = false) (h2 : args.isDefined "max".toList = false)
    (h3 : args.isDefined "ymin".toList = false) (h4 : args.isDefined "ymax".toList = false) (r : TextRow)
    (hx : (rowX c r).length = c.dimX) (hy : (rowY c r).length = c.dimY) :
    InDomain c r ↔ ∀ v ∈ rowX c r ++ rowY c r, |v| ≤ (2 ^ 24 - 1) * 2 ^ 104 := by
  have hm : ((fltMax : ℚ) : ℝ) = (2 ^ 24 - 1) * 2 ^ 104 := by
    unfold fltMax
    push_cast
    norm_num
  have hv : ∀ (k : Str) (n : ℕ) (d : ℚ), args.isDefined k = false →
      (args.getVec k n d).map (fun q : ℚ => (q : ℝ)) = List.replicate n (d : ℝ) := by
    intro k n d h
    have hf : args.find k = Option.none := by simpa [SMap.isDefined] using h
    unfold SMap.getVec SMap.getFloat
    rw [hf]
    simp
  have hcs : c.min = List.replicate c.dimX (-((2 ^ 24 - 1) * 2 ^ 104)) ∧ c.max = List.replicate c.dimX ((2 ^ 24 - 1) * 2 ^ 104) ∧
      c.ymin = List.replicate c.dimY (-((2 ^ 24 - 1) * 2 ^ 104)) ∧ c.ymax = List.replicate c.dimY ((2 ^ 24 - 1) * 2 ^ 104) := by
    unfold loadSetup at hc
    split at hc
    · cases hc
    · split at hc
      · cases hc
      · simp only [Option.some.injEq] at hc
        rw [← hc]
        simp only [hv _ _ _ h1, hv _ _ _ h2, hv _ _ _ h3, hv _ _ _ h4, Rat.cast_neg, hm, and_self]
  have low : ∀ (B : ℝ) (l : List ℝ) (n : ℕ), l.length = n →
      (Inside (List.replicate n (-B)) l (List.replicate n B) ↔ ∀ v ∈ l, |v| ≤ B) := by
    intro B l
    unfold Inside
    induction l with
    | nil => intro n hn; subst hn; simp
    | cons v l ih =>
      intro n hn
      obtain ⟨n, rfl⟩ : ∃ k, n = k + 1 := ⟨l.length, by simpa using hn.symm⟩
      have := ih n (by simpa using hn)
      simp only [List.replicate_succ, List.forall₂_cons, List.mem_cons, forall_eq_or_imp, abs_le]
      simp only [abs_le] at this
      rw [← this]
      tauto
  obtain ⟨e1, e2, e3, e4⟩ := hcs
  unfold InDomain
  rw [e1, e2, e3, e4, low _ _ _ hx, low _ _ _ hy]
  simp only [List.mem_append]
  constructor
  · rintro ⟨a, b⟩ v (h | h)
    · exact a v h
    · exact b v h
  · exact fun h => ⟨fun v hv => h v (Or.inl hv), fun v hv => h v (Or.inr hv)⟩

open Classical in
/-- C23: loading a well formed body stores, in file order, exactly the rows to keep.
    For each of them the sample holds the abscissa and the values of the row, and the
    reported segment is the one made from the widths of the row and the options.
    (`c` is the setup read from the header and the arguments, see `loadSetup`.) -/
theorem loadText_spec (header args : SMap) (c : LoadSetup) (hc : loadSetup header args = some c)
    (hdim : 0 < c.dimX + c.dimY) (dt : ℚ) (hdt : c.dt = some dt)
    (ls : List BodyLine) (hl : ∀ l ∈ ls, l.WellFormed)
    (hlen : ∀ r ∈ bodyRows ls, c.dimX + c.dimY + ciNumbers c.kind ≤ r.fields.length)
    (hcos : c.cosine = true → ∀ r ∈ bodyRows ls, InDomain c r →
      (convertInput (arr (rowX c r)) c.input .CARTESIAN).isSome = true) :
    ∃ d kept, loadText (bodyText ls) header args = some d ∧
      kept = (bodyRows ls).filter (fun r => decide (Keep c r)) ∧
      d.store.WF ∧ d.store.size = kept.length ∧
      d.store.dimX = c.dimX ∧ d.store.dimY = c.dimY ∧ d.store.input = c.input ∧ d.store.output = c.output ∧
      d.store.kind = .asymmetrical ∧
      ∀ i r, kept[i]? = some r →
        d.store.get i = some (rowX c r ++ rowValue c r) ∧
        d.store.getSegment i = some (rowX c r, rowLower c dt r, rowUpper c dt r) := by
  obtain ⟨h1, h2, h3, h4⟩ := loadSetup_lengths header args c hc
  have hrows := loadRows_spec c dt hdt h1 h2 h3 h4 ls hl hlen hcos
  set kept := (bodyRows ls).filter (fun r => decide (Keep c r)) with hkept
  set rows := kept.map fun r => rowX c r ++ rowValue c r ++ rowLower c dt r ++ rowUpper c dt r with hrw
  let st : Store ℝ := { dimX := c.dimX, dimY := c.dimY, input := c.input, output := c.output, size := rows.length,
                        raw := rows.flatten, kind := .asymmetrical }
  have hcol : st.columns = c.dimX + c.dimY + 2 * c.dimY := rfl
  have hrl : ∀ r ∈ rows, r.length = st.columns := by
    intro r hr
    rw [hrw] at hr
    obtain ⟨r', hr', rfl⟩ := List.mem_map.1 hr
    have hmem : r' ∈ bodyRows ls := (List.mem_filter.1 (by rw [hkept] at hr'; exact hr')).1
    obtain ⟨a1, a2, a3, a4⟩ := row_lengths c dt r' (hlen r' hmem)
    simp only [List.length_append, a1, a2, a3, a4, hcol]; omega
  refine ⟨Segments.make st, kept, ?_, rfl, ?_, by simp [st, hrw, Segments.make], rfl, rfl, rfl, rfl, rfl, ?_⟩
  · unfold loadText
    rw [hc]
    simp only
    rw [hrows]
    simp only
    rw [if_neg (by omega)]
  · exact flatten_length_const rows st.columns hrl
  · intro i r hi
    have hmem : r ∈ bodyRows ls := (List.mem_filter.1 (by rw [← hkept]; exact List.mem_of_getElem? hi)).1
    obtain ⟨a1, a2, a3, a4⟩ := row_lengths c dt r (hlen r hmem)
    have hri : rows[i]? = some (rowX c r ++ rowValue c r ++ rowLower c dt r ++ rowUpper c dt r) := by
      rw [hrw, List.getElem?_map, hi]; rfl
    have hilt : i < st.size := by
      have := (List.getElem?_eq_some_iff.1 hri).1
      exact this
    refine getSegment_asymmetrical st rfl i hilt _ _ _ _ a1 a2 a3 a4 ?_
    unfold Store.row
    rw [show st.raw = rows.flatten from rfl, flatten_row rows st.columns hrl i _ hri]
    simp [List.append_assoc]

theorem getLine_noNewline (s : Str) (h : '\n' ∉ s) : getLine s = (s, []) := by
  have h' : ∀ c ∈ s, decide (c ≠ '\n') = true := fun c hc => by
    simp only [ne_eq, decide_eq_true_eq]; rintro rfl; exact h hc
  unfold getLine
  rw [takeWhile_all _ _ h', dropWhile_all _ _ h']
  rfl

theorem split_newline (s : Str) (h : '\n' ∈ s) : ∃ l r, s = l ++ '\n' :: r ∧ '\n' ∉ l := by
  induction s with
  | nil => simp at h
  | cons a t ih =>
    by_cases ha : a = '\n'
    · exact ⟨[], t, by simp [ha], by simp⟩
    · have : '\n' ∈ t := by
        rcases List.mem_cons.1 h with h | h
        · exact absurd h.symm ha
        · exact h
      obtain ⟨l, r, rfl, hl⟩ := ih this
      exact ⟨a :: l, r, rfl, by simp [hl, Ne.symm ha]⟩

/-- C23: the final end of line may be missing. -/
theorem loadRows_unterminated (c : LoadSetup) (s : Str) (h : s ≠ []) (hlast : s.getLast? ≠ some '\n') :
    loadRows c (s ++ ['\n']) = loadRows c s := by
  induction hn : s.length using Nat.strong_induction_on generalizing s with
  | _ n ih =>
    by_cases hmem : '\n' ∈ s
    · obtain ⟨l, r, rfl, hl⟩ := split_newline s hmem
      have hr : r ≠ [] := by rintro rfl; simp at hlast
      have hlr : r.getLast? ≠ some '\n' := by
        rw [List.getLast?_append, List.getLast?_cons] at hlast
        cases hg : r.getLast? with
        | none => simp
        | some v => rw [hg] at hlast; simpa using hlast
      have := ih r.length (by rw [← hn]; simp; omega) r hr hlr rfl
      rw [List.append_assoc, List.cons_append, loadRows_line c l _ hl, loadRows_line c l _ hl, this]
    · cases s with
      | nil => contradiction
      | cons a t =>
        have hg := getLine_append (a :: t) [] hmem
        have hg2 := getLine_noNewline (a :: t) hmem
        rw [List.cons_append, loadRows, loadRows]
        rw [List.cons_append] at hg
        rw [hg, hg2]

/-! C24 -/

/-- C24: intervals made with non negative widths contain the value, for absolute
    widths, and for relative widths or `--dt-max` when the value is not negative. -/
theorem intervalBounds_encloses (m : WidthMode) (v a b : ℝ) (ha : 0 ≤ a) (hb : 0 ≤ b)
    (hv : m ≠ .absolute → 0 ≤ v) :
    (intervalBounds m v a b).1 ≤ v ∧ v ≤ (intervalBounds m v a b).2 := by
  cases m with
  | absolute => exact ⟨by simp only [intervalBounds]; linarith, by simp only [intervalBounds]; linarith⟩
  | relative =>
    have := hv (by simp)
    have h1 := mul_nonneg ha this
    have h2 := mul_nonneg hb this
    exact ⟨by simp only [intervalBounds]; linarith, by simp only [intervalBounds]; linarith⟩
  | greatest =>
    have := hv (by simp)
    have h1 := mul_nonneg ha this
    have h2 := mul_nonneg hb this
    refine ⟨?_, ?_⟩ <;> simp only [intervalBounds]
    · have : max (-(a * v)) (-a) ≤ 0 := max_le (by linarith) (by linarith)
      linarith
    · have := le_max_right (b * v) b
      linarith

/-- C24, as loaded from a text file: without cosine correction, and with non negative
    widths, each value is between the bounds of its interval (for relative widths and
    `--dt-max`, when the written values are not negative). -/
theorem loaded_interval_encloses (c : LoadSetup) (dt : ℝ) (r : TextRow) (hcos : c.cosine = false)
    (hw : ∀ i, 0 ≤ (rowWidths c dt r i).1 ∧ 0 ≤ (rowWidths c dt r i).2)
    (hv : c.opt.mode ≠ .absolute → ∀ v ∈ rawY c r, 0 ≤ v) :
    VecLe (rowLower c dt r) (rowValue c r) ∧ VecLe (rowValue c r) (rowUpper c dt r) := by
  have hval : rowValue c r = rowY c r := by simp [rowValue, hcos]
  rw [hval]
  unfold VecLe
  have hy : rowY c r = (rawY c r).map (fun v => if c.opt.positive then max v 0 else v) := by
    unfold rowY; split
    · rfl
    · simp
  have key : ∀ i v, v ∈ rawY c r →
      (rowInterval c dt r i v).1 ≤ (if c.opt.positive then max v 0 else v) ∧
      (if c.opt.positive then max v 0 else v) ≤ (rowInterval c dt r i v).2 := by
    intro i v hmem
    have := intervalBounds_encloses c.opt.mode v _ _ (hw i).1 (hw i).2 (fun h => hv h v hmem)
    unfold rowInterval
    split
    · exact ⟨max_le_max_right 0 this.1, max_le_max_right 0 this.2⟩
    · exact this
  rw [hy]
  constructor
  · rw [List.forall₂_iff_get]
    refine ⟨by simp [rowLower], ?_⟩
    intro i h1 h2
    simp only [rowLower, List.get_eq_getElem, List.getElem_mapIdx, List.getElem_map]
    exact (key i _ (List.getElem_mem _)).1
  · rw [List.forall₂_iff_get]
    refine ⟨by simp [rowUpper], ?_⟩
    intro i h1 h2
    simp only [rowUpper, List.get_eq_getElem, List.getElem_mapIdx, List.getElem_map]
    exact (key i _ (List.getElem_mem _)).2

/-- C24, limit: for a negative value, a relative interval is turned upside down, and
    with `--dt-max` the lower bound exceeds the value. -/
theorem intervalBounds_negative (v a b : ℝ) (hv : v < 0) (ha : 0 < a) (hb : 0 < b) :
    v < (intervalBounds .relative v a b).1 ∧ (intervalBounds .relative v a b).2 < v ∧
    v < (intervalBounds .greatest v a b).1 := by
  have h1 := mul_neg_of_pos_of_neg ha hv
  have h2 := mul_neg_of_pos_of_neg hb hv
  refine ⟨by simp only [intervalBounds]; linarith, by simp only [intervalBounds]; linarith, ?_⟩
  simp only [intervalBounds]
  have := le_max_left (-(a * v)) (-a)
  linarith

/-- C24, limit: `--dt-max` takes the greater of the absolute and relative widths above
    the value but the *smaller* below it. -/
theorem intervalBounds_greatest (v a b : ℝ) :
    (intervalBounds .greatest v a b).2 = v + max (b * v) b ∧
    (intervalBounds .greatest v a b).1 = v - min (a * v) a := by
  refine ⟨rfl, ?_⟩
  simp only [intervalBounds]
  rw [max_neg_neg]; ring

/-- C24, limit: widths are read from the file for the first component only; the other
    ones get the option `--dt`. -/
theorem rowWidths_first_only (c : LoadSetup) (dt : ℝ) (r : TextRow) (i : ℕ) :
    rowWidths c dt r (i + 1) = (dt, dt) := by
  unfold rowWidths; cases c.kind <;> rfl

/-! a concrete file: `#DIM 1 1`, `--max 1`, the body `0.5 2`, a comment, an empty line,
    `1.5 3` -/

def exHeader : SMap := [("DIM".toList, "1 1".toList), ("PARAM_IN".toList, "COS_TH".toList)]
def exArgs : SMap := [("max".toList, "1".toList)]
def exRow1 : TextRow := ⟨[([], ⟨false, [0], [5], .none⟩), ([' '], ⟨false, [2], [], .none⟩)], []⟩
def exRow2 : TextRow := ⟨[([], ⟨false, [1], [5], .none⟩), (['\t'], ⟨false, [3], [], .none⟩)], [' ']⟩
def exBody : List BodyLine := [.row exRow1, .comment "x".toList, .blank, .row exRow2]

theorem bodyText_example : bodyText exBody = "0.5 2\n#x\n\n1.5\t3 \n".toList := by decide +kernel

theorem loadText_example : ∃ c, loadSetup exHeader exArgs = some c ∧ 0 < c.dimX + c.dimY ∧ c.dt = some (1 / 10) ∧
    (∀ l ∈ exBody, l.WellFormed) ∧
    (∀ r ∈ bodyRows exBody, c.dimX + c.dimY + ciNumbers c.kind ≤ r.fields.length) ∧ c.cosine = false ∧
    Keep c exRow1 ∧ ¬ Keep c exRow2 ∧
    (∀ r ∈ bodyRows exBody, ∀ i, 0 ≤ (rowWidths c (1 / 10) r i).1 ∧ 0 ≤ (rowWidths c (1 / 10) r i).2) := by
  have hdim : exHeader.getPairInt "DIM".toList = some (1, 1) := by decide +kernel
  have hmax : exArgs.getVec "max".toList 1 fltMax = [1] := by decide +kernel
  have hmin : exArgs.getVec "min".toList 1 (-fltMax) = [-fltMax] := by rfl
  have hymin : exArgs.getVec "ymin".toList 1 (-fltMax) = [-fltMax] := by rfl
  have hymax : exArgs.getVec "ymax".toList 1 fltMax = [fltMax] := by rfl
  have hvs : exHeader.getInt "VS".toList 0 = 0 := by rfl
  have h1 : exArgs.isDefined "dt-relative".toList = false := by rfl
  have h2 : exArgs.isDefined "dt-max".toList = false := by rfl
  have h3 : exArgs.isDefined "dt-positive".toList = false := by rfl
  have h4 : exArgs.isDefined "data-correct-cosine".toList = false := by rfl
  have h5 : exArgs.getDouble "dt".toList (1 / 10) = some (1 / 10) := by rfl
  have hf : (3 : ℝ) ≤ ((fltMax : ℚ) : ℝ) := by
    have : (3 : ℚ) ≤ fltMax := by unfold fltMax; norm_num
    exact_mod_cast this
  have e1 : exRow1.values = [1 / 2, 2] := by
    simp [exRow1, TextRow.values, Decimal.value, digitsNum]; norm_num
  have e2 : exRow2.values = [3 / 2, 3] := by
    simp [exRow2, TextRow.values, Decimal.value, digitsNum]; norm_num
  refine ⟨_, by unfold loadSetup; rw [hdim]; rfl, ?_, h5, ?_, ?_, h4, ?_, ?_, ?_⟩
  · decide
  · intro l hl
    simp only [exBody, List.mem_cons, List.not_mem_nil, or_false] at hl
    rcases hl with rfl | rfl | rfl | rfl
    · refine ⟨by decide, ⟨by simp [Blank], by simp, by decide, ⟨?_, by simp, by decide, trivial⟩⟩, by simp [Blank, exRow1]⟩
      simp only [Blank]; decide
    · simp only [BodyLine.WellFormed]; decide +kernel
    · trivial
    · refine ⟨by decide, ⟨by simp [Blank], by simp, by decide, ⟨?_, by simp, by decide, trivial⟩⟩, ?_⟩
      · simp only [Blank]; decide
      · simp only [Blank, exRow2]; decide
  · intro r hr
    simp only [hvs]
    simp only [exBody, bodyRows, List.mem_cons, List.not_mem_nil, or_false] at hr
    rcases hr with rfl | rfl <;> decide
  · refine ⟨⟨?_, ?_⟩, ?_⟩
    · simp only [Int.toNat_one, hmax, hmin, Inside, rowX, e1]
      simp only [List.take_succ_cons, List.take_zero, List.map_cons, List.map_nil, List.forall₂_cons,
        List.Forall₂.nil, and_true]
      push_cast
      constructor <;> linarith
    · simp only [Int.toNat_one, hymax, hymin, Inside, rowY, rawY, h3, e1]
      simp only [Bool.false_eq_true, if_false, List.drop_succ_cons, List.drop_zero, List.take_succ_cons, List.take_zero, List.map_cons,
        List.map_nil, List.forall₂_cons, List.Forall₂.nil, and_true]
      push_cast
      constructor <;> linarith
    · simp only [h4]; intro h; cases h
  · intro hk
    have := hk.1.1.2
    simp only [Int.toNat_one, hmax, rowX, e2] at this
    simp only [List.take_succ_cons, List.take_zero, List.map_cons, List.map_nil, List.forall₂_cons,
      List.Forall₂.nil, and_true] at this
    push_cast at this
    linarith
  · intro r _ i
    have hw : ∀ c : LoadSetup, c.kind = .none → rowWidths c (1 / 10) r i = (1 / 10, 1 / 10) := by
      intro c hc; unfold rowWidths; cases i <;> simp [hc]
    rw [hw _ (by simp only [hvs]; rfl)]
    norm_num

/-- without options the second row is in the domain -/
example : ∃ c, loadSetup exHeader [] = some c ∧ InDomain c exRow2 := by
  have hdim : exHeader.getPairInt "DIM".toList = some (1, 1) := by decide +kernel
  have e2 : exRow2.values = [3 / 2, 3] := by
    simp [exRow2, TextRow.values, Decimal.value, digitsNum]; norm_num
  obtain ⟨c, hc, h1, h2, h3⟩ : ∃ c, loadSetup exHeader [] = some c ∧ c.dimX = 1 ∧ c.dimY = 1 ∧ c.opt.positive = false :=
    ⟨_, by unfold loadSetup; rw [hdim]; rfl, rfl, rfl, rfl⟩
  have hx : rowX c exRow2 = [3 / 2] := by simp [rowX, e2, h1]
  have hy : rowY c exRow2 = [3] := by simp [rowY, rawY, e2, h1, h2, h3]
  refine ⟨c, hc, (text_no_domain exHeader [] c hc rfl rfl rfl rfl exRow2 (by rw [hx, h1]; rfl) (by rw [hy, h2]; rfl)).2 ?_⟩
  rw [hx, hy]
  intro v hv
  simp only [List.cons_append, List.nil_append, List.mem_cons, List.not_mem_nil, or_false] at hv
  rcases hv with rfl | rfl <;> norm_num [abs_le]

end Alta
