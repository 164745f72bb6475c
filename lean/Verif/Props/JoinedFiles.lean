import Verif.Props.JoinedUse
import Verif.Props.Interrupted
import Verif.Props.GenerationsExamples
import Verif.Props.Data2Brdf
/-
C94, files: joined, with their samples in another order, with another header; and examples.
-/
namespace Alta
noncomputable section

/-- What the command line without filter makes of the header of a saved file. -/
def savedSetup (dimX dimY : ℕ) (i : Input) (o : Output) : LoadSetup :=
  { dimX := dimX, dimY := dimY, input := i, output := o
    min := List.replicate dimX (((-fltMax : ℚ)) : ℝ), max := List.replicate dimX ((fltMax : ℚ) : ℝ)
    ymin := List.replicate dimY (((-fltMax : ℚ)) : ℝ), ymax := List.replicate dimY ((fltMax : ℚ) : ℝ)
    kind := .none, dt := some (1 / 10), opt := ⟨false, false, false⟩, cosine := false }

theorem saved_parts (fmt : ℝ → Decimal) (hfmt : ∀ v, (fmt v).ip ≠ [] ∨ (fmt v).fp ≠ []) (d : Data)
    (hdim : 0 < d.dimX + d.dimY) (hrows : ∀ r ∈ d.rows, r.length = d.dimX + d.dimY)
    (hin : d.input.Named ∨ d.input = .UNKNOWN_INPUT) (args : SMap) (hargs : PlainArgs args) :
    (parseHeader (saveText fmt d)).2 = (d.rows.map (saveRow fmt)).flatten ∧
      loadSetup (parseHeader (saveText fmt d)).1 args = some (savedSetup d.dimX d.dimY d.input d.output) ∧
      (parseHeader (saveText fmt d)).1.get "FORMAT".toList ≠ "binary".toList := by
  have htake : (d.rows.map fun r => saveRow fmt (r.take (d.dimX + d.dimY))) = d.rows.map (saveRow fmt) :=
    List.map_congr_left fun r hr => by rw [List.take_of_length_le (by rw [hrows r hr])]
  have hbody : ∀ r, (d.rows.map (saveRow fmt)).flatten ≠ '#' :: r := by
    intro r h
    cases hd : d.rows with
    | nil => rw [hd] at h; cases h
    | cons a rows =>
      rw [hd, List.map_cons, List.flatten_cons] at h
      cases ha : a with
      | nil =>
        have := hrows a (by rw [hd]; exact List.mem_cons_self)
        rw [ha] at this
        simp at this
        omega
      | cons x xs =>
        rw [ha, saveRow] at h
        obtain ⟨c, u, hx, hc⟩ := Decimal.text_head (fmt x) (hfmt x)
        rw [hx] at h
        simp only [List.cons_append, List.cons.injEq] at h
        exact hc h.1
  obtain ⟨p1, p2, -⟩ := parseHeader_spec (textLines d) (textLines_wellFormed d) _ hbody
  rw [saveText_rows, htake]
  refine ⟨p1, saved_setup d _ args hargs p2 hin, ?_⟩
  unfold SMap.get
  rw [p2, lastBinding_absent _ _ (by simp only [textLines, List.filterMap, HLine.key?]; decide)]
  decide

theorem saveRow_last (fmt : ℝ → Decimal) : ∀ r : List ℝ, (saveRow fmt r).getLast? = some '\n'
  | [] => rfl
  | x :: r => by
    rw [saveRow, List.getLast?_append, List.getLast?_cons, saveRow_last fmt r]
    rfl

theorem saved_last (fmt : ℝ → Decimal) (d : Data) (h : d.rows ≠ []) : (saveText fmt d).getLast? = some '\n' := by
  rw [saveText_rows]
  obtain ⟨l, r, hr⟩ : ∃ l r, d.rows = l ++ [r] := ⟨d.rows.dropLast, d.rows.getLast h, (List.dropLast_append_getLast h).symm⟩
  rw [hr]
  simp only [List.map_append, List.map_cons, List.map_nil, List.flatten_append, List.flatten_cons, List.flatten_nil,
    List.append_nil]
  rw [List.getLast?_append, List.getLast?_append, saveRow_last]
  rfl

/-- The samples of a saved file. -/
theorem saved_samples (fmt : ℝ → Decimal) (d : Data) (l : Segments) (hs : l.store.size = d.rows.length)
    (h : ∀ i r, d.rows[i]? = some r → l.store.get i = some (r.map fun v => ((fmt v).value : ℝ)) ∧
        l.store.getSegment i = some ((r.take d.dimX).map (fun v => ((fmt v).value : ℝ)),
          (r.drop d.dimX).map (fun v => ((fmt v).value : ℝ) - 1 / 10),
          (r.drop d.dimX).map (fun v => ((fmt v).value : ℝ) + 1 / 10))) :
    l.samples = d.rows.map fun r => (some (r.map fun v => ((fmt v).value : ℝ)),
      some ((r.take d.dimX).map (fun v => ((fmt v).value : ℝ)), (r.drop d.dimX).map (fun v => ((fmt v).value : ℝ) - 1 / 10),
        (r.drop d.dimX).map (fun v => ((fmt v).value : ℝ) + 1 / 10))) := by
  apply List.ext_getElem
  · simp [Segments.samples, hs]
  intro i h1 h2
  rw [List.length_map] at h2
  obtain ⟨a1, a2⟩ := h i d.rows[i] (List.getElem?_eq_getElem h2)
  simp only [Segments.samples, List.getElem_map, List.getElem_range, a1, a2]

/-- **C94.**  Two saved files joined: the data set with the samples of both. -/
theorem saved_files_joined (fmt : ℝ → Decimal) (hfmt : ∀ v, (fmt v).ip ≠ [] ∨ (fmt v).fp ≠ []) (a b : Data)
    (hx : b.dimX = a.dimX) (hy : b.dimY = a.dimY) (hi : b.input = a.input) (ho : b.output = a.output)
    (hdim : 0 < a.dimX + a.dimY) (hrows : ∀ r ∈ a.rows ++ b.rows, r.length = a.dimX + a.dimY)
    (hfin : ∀ r ∈ a.rows ++ b.rows, ∀ v ∈ r, |((fmt v).value : ℝ)| ≤ ((fltMax : ℚ) : ℝ))
    (hin : a.input.Named ∨ a.input = .UNKNOWN_INPUT) (args : SMap) (hargs : PlainArgs args) (hne : a.rows ≠ []) :
    ∃ j, loadDataText (saveText fmt a ++ saveText fmt b) args = some j ∧ j.store.dimX = a.dimX ∧ j.store.dimY = a.dimY ∧
      j.store.input = a.input ∧ j.store.output = a.output ∧
      j.samples = (a.rows ++ b.rows).map fun r => (some (r.map fun v => ((fmt v).value : ℝ)),
        some ((r.take a.dimX).map (fun v => ((fmt v).value : ℝ)), (r.drop a.dimX).map (fun v => ((fmt v).value : ℝ) - 1 / 10),
          (r.drop a.dimX).map (fun v => ((fmt v).value : ℝ) + 1 / 10))) := by
  have ra : ∀ r ∈ a.rows, r.length = a.dimX + a.dimY := fun r hr => hrows r (List.mem_append_left _ hr)
  have rb : ∀ r ∈ b.rows, r.length = b.dimX + b.dimY := fun r hr => by
    rw [hx, hy]; exact hrows r (List.mem_append_right _ hr)
  have hdb : 0 < b.dimX + b.dimY := by omega
  have hib : b.input.Named ∨ b.input = .UNKNOWN_INPUT := by rw [hi]; exact hin
  obtain ⟨d, d1, -, d3, d4, d5, d6, d7, d8⟩ := text_round_trip fmt hfmt a hdim ra
    (fun r hr => hfin r (List.mem_append_left _ hr)) hin args hargs
  obtain ⟨e, e1, -, e3, e4, e5, e6, e7, e8⟩ := text_round_trip fmt hfmt b hdb rb
    (fun r hr => hfin r (List.mem_append_right _ hr)) hib args hargs
  obtain ⟨pa1, pa2, -⟩ := saved_parts fmt hfmt a hdim ra hin args hargs
  obtain ⟨-, pb2, -⟩ := saved_parts fmt hfmt b hdb rb hib args hargs
  have hbody : (parseHeader (saveText fmt a)).2 ≠ [] := by
    rw [pa1]
    intro h
    rw [List.flatten_eq_nil_iff] at h
    obtain ⟨r, rs, hr⟩ := List.exists_cons_of_ne_nil hne
    have h0 := h (saveRow fmt r) (List.mem_map_of_mem (by rw [hr]; exact List.mem_cons_self))
    have := saveRow_last fmt r
    rw [h0] at this
    cases this
  obtain ⟨j, j1, ⟨k1, k2, k3, k4, -⟩, j3, -⟩ := joined_files _ _ args d e d1 e1
    (by rw [pa2, pb2, hx, hy, hi, ho]) hbody (saved_last fmt a hne)
  refine ⟨j, j1, k1.trans d3, k2.trans d4, k3.trans d5, k4.trans d6, ?_⟩
  rw [j3, saved_samples fmt a d d7 d8, saved_samples fmt b e e7 e8, List.map_append, hx]

/-- **C94.**  The lines of the body of a file in another order, after the same header. -/
theorem permuted_files (a b : Str) (args : SMap) (d : Segments) (ls ms : List Str) (h : SMap) (hp : ls.Perm ms)
    (ha : parseHeader a = (h, textOfLines ls)) (hb : parseHeader b = (h, textOfLines ms))
    (hd : loadDataText a args = some d) : ∃ e, loadDataText b args = some e ∧ Reordered d e := by
  unfold loadDataText at hd ⊢
  rw [ha] at hd
  rw [hb]
  simp only at hd ⊢
  split at hd
  · cases hd
  · rename_i hf
    rw [if_neg hf]
    obtain ⟨e, e1, e2, e3, e4, e5⟩ := permuted_lines ls ms hp h args d hd
    exact ⟨e, e1, e2, e3, e4, e5⟩

/-- **C94.**  A data set and the same one with its samples in another order, saved and loaded: every function is at the same
    distances from both. -/
theorem saved_reordered (fmt : ℝ → Decimal) (hfmt : ∀ v, (fmt v).ip ≠ [] ∨ (fmt v).fp ≠ []) (a b : Data)
    (hx : b.dimX = a.dimX) (hy : b.dimY = a.dimY) (hi : b.input = a.input) (ho : b.output = a.output)
    (hp : a.rows.Perm b.rows) (hdim : 0 < a.dimX + a.dimY) (hrows : ∀ r ∈ a.rows, r.length = a.dimX + a.dimY)
    (hfin : ∀ r ∈ a.rows, ∀ v ∈ r, |((fmt v).value : ℝ)| ≤ ((fltMax : ℚ) : ℝ))
    (hin : a.input.Named ∨ a.input = .UNKNOWN_INPUT) (args : SMap) (hargs : PlainArgs args) :
    ∃ d e, loadDataText (saveText fmt a) args = some d ∧ loadDataText (saveText fmt b) args = some e ∧ Reordered d e ∧
      ∀ g : Evaluable, l2Distance g e.store.toData = l2Distance g d.store.toData ∧
        linfDistance g e.store.toData = linfDistance g d.store.toData := by
  have rb : ∀ r ∈ b.rows, r.length = b.dimX + b.dimY := fun r hr => by
    rw [hx, hy]; exact hrows r (hp.mem_iff.2 hr)
  have hdb : 0 < b.dimX + b.dimY := by omega
  have hib : b.input.Named ∨ b.input = .UNKNOWN_INPUT := by rw [hi]; exact hin
  obtain ⟨d, d1, -, d3, d4, d5, d6, d7, d8⟩ := text_round_trip fmt hfmt a hdim hrows hfin hin args hargs
  obtain ⟨pa1, pa2, pa3⟩ := saved_parts fmt hfmt a hdim hrows hin args hargs
  obtain ⟨pb1, pb2, pb3⟩ := saved_parts fmt hfmt b hdb rb hib args hargs
  have lines : ∀ rows : List (List ℝ), (rows.map (saveRow fmt)).flatten =
      textOfLines (rows.map fun r => (saveRow fmt r).dropLast) := by
    intro rows
    unfold textOfLines
    rw [List.flatMap_map, ← List.flatMap_def]
    refine List.flatMap_congr fun r _ => ?_
    have hl := saveRow_last fmt r
    exact (List.dropLast_append_getLast? '\n' hl).symm
  obtain ⟨c, rows, hc, hr, hz, hdd⟩ := (loadText_iff _ _ _ _).1 (show loadText (textOfLines (a.rows.map fun r =>
      (saveRow fmt r).dropLast)) (parseHeader (saveText fmt a)).1 args = some d from by
    unfold loadDataText at d1
    rw [← lines, ← pa1]
    simp only [if_neg pa3] at d1
    exact d1)
  have hsame : loadSetup (parseHeader (saveText fmt b)).1 args = loadSetup (parseHeader (saveText fmt a)).1 args := by
    rw [pa2, pb2, hx, hy, hi, ho]
  obtain ⟨e, e1, e2, e3, e4, e5⟩ := permuted_lines _ _ (hp.map fun r => (saveRow fmt r).dropLast)
    (parseHeader (saveText fmt b)).1 args d ((loadText_iff _ _ _ _).2 ⟨c, rows, hsame.trans hc, hr, hz, hdd⟩)
  have hre : Reordered d e := ⟨e2, e3, e4, e5⟩
  refine ⟨d, e, d1, ?_, hre, fun g => ⟨l2_reordered hre g, linf_reordered hre g⟩⟩
  unfold loadDataText
  simp only [if_neg pb3]
  rw [pb1, lines]
  exact e1

/-- **C94, limit.**  When the headers do not say the same thing, the parametrization and the dimensions are those of the first
    file for all the samples, whatever the second one says. -/
theorem joined_other_header (a b : Str) (args : SMap) (d j : Segments) (ha : loadDataText a args = some d)
    (hj : loadDataText (a ++ b) args = some j) (hbody : (parseHeader a).2 ≠ []) (hend : a.getLast? = some '\n') :
    SameLayout j d ∧ ∃ rest, j.samples = d.samples ++ rest := by
  unfold loadDataText at ha hj
  have hp : parseHeader (a ++ b) = ((parseHeader a).1, (parseHeader a).2 ++ b) :=
    parseHeaderFrom_append b a [] _ _ rfl hbody
  rw [hp] at hj
  simp only at ha hj
  split at ha
  · cases ha
  · rename_i hf
    rw [if_neg hf] at hj
    have hs : (parseHeader a).2 = [] ∨ (parseHeader a).2.getLast? = some '\n' :=
      .inr ((parseHeaderFrom_last a [] hbody).trans hend)
    obtain ⟨d', e, h1, h2⟩ := joined_rejected _ _ hs _ _ _ hj
    rw [ha] at h1
    obtain rfl := Option.some.inj h1
    obtain ⟨j', h3, h4, h5, -⟩ := joined_bodies _ _ hs _ _ _ _ ha h2
    rw [hj] at h3
    obtain rfl := Option.some.inj h3
    exact ⟨h4, _, h5⟩

/-! ### Examples -/

/-- Two files of one sample each, joined. -/
example : ∃ j, loadDataText (saveText exampleFmt ⟨1, 1, .COS_TH, .ENERGY, [[0, 1]]⟩ ++
      saveText exampleFmt ⟨1, 1, .COS_TH, .ENERGY, [[1, 2]]⟩) [] = some j ∧
    j.samples.map Prod.fst = [some [0, 1], some [1, 2]] := by
  have e0 : ((exampleFmt 0).value : ℝ) = 0 := exampleFmt_values.1
  have e1 : ((exampleFmt 1).value : ℝ) = 1 := exampleFmt_values.2.1
  have e2 : ((exampleFmt 2).value : ℝ) = 2 := exampleFmt_values.2.2.1
  obtain ⟨j, h1, -, -, -, -, h6⟩ := saved_files_joined exampleFmt exampleFmt_digits ⟨1, 1, .COS_TH, .ENERGY, [[0, 1]]⟩
    ⟨1, 1, .COS_TH, .ENERGY, [[1, 2]]⟩ rfl rfl rfl rfl (by decide) (by simp) (by
      intro r hr v hv
      have : v = 0 ∨ v = 1 ∨ v = 2 := by
        simp only [List.cons_append, List.nil_append, List.mem_cons, List.not_mem_nil, or_false] at hr
        rcases hr with rfl | rfl <;> simp only [List.mem_cons, List.not_mem_nil, or_false] at hv <;>
          rcases hv with h | h <;> simp [h]
      unfold fltMax
      rcases this with rfl | rfl | rfl <;> simp only [e0, e1, e2] <;> norm_num)
    (.inl (by unfold Input.Named; decide)) [] (by constructor <;> rfl) (by simp)
  exact ⟨j, h1, by rw [h6]; simp [e0, e1, e2]⟩

end
end Alta
