import Verif.Spec.Brdf2GnuplotMain
import Verif.Props.Data2Stats
import Verif.Props.Brdf2Gnuplot
import Verif.Props.Data2BrdfSizes
/-
C90: the file of `brdf2gnuplot`.
-/
namespace Alta
noncomputable section

theorem cutAt_ne_nil (c : Char) (s : Str) : cutAt c s ≠ [] := by
  cases s with
  | nil => simp [cutAt]
  | cons x r =>
    rw [cutAt]
    split
    · simp
    · split <;> simp

theorem cutAt_ended (c : Char) (l : List Str) (h : ∀ s ∈ l, c ∉ s) : cutAt c (l.flatMap fun s => s ++ [c]) = l ++ [[]] := by
  induction l with
  | nil => rfl
  | cons a l ih =>
    rw [List.flatMap_cons, List.append_assoc, List.singleton_append, cutAt_append _ _ _ (h a (by simp)),
      ih fun s hs => h s (by simp [hs])]
    rfl

theorem endedBy_ended (c : Char) (l : List Str) (h : ∀ s ∈ l, c ∉ s) : endedBy c (l.flatMap fun s => s ++ [c]) = some l := by
  unfold endedBy
  rw [cutAt_ended c l h, if_pos (by simp), List.dropLast_concat]

theorem mapM_map_some {α β γ : Type} (F : β → Option γ) (G : α → β) (H : α → γ) (l : List α) (h : ∀ x ∈ l, F (G x) = some (H x)) :
    (l.map G).mapM F = some (l.map H) := by
  induction l with
  | nil => rfl
  | cons a l ih =>
    rw [List.map_cons, List.mapM_cons, h a (by simp), ih fun x hx => h x (by simp [hx])]
    rfl

/-- A table of texts of numbers is read again. -/
theorem readTable_lines {α : Type} (l : List α) (cells : α → List Str) (nums : α → List ℝ)
    (h : ∀ x ∈ l, (cells x).mapM wholeNumber = some (nums x)) (hc : ∀ x ∈ l, ∀ s ∈ cells x, '\t' ∉ s ∧ '\n' ∉ s) :
    readTable (l.map fun x => tabLine (cells x)).flatten = some (l.map nums) := by
  have e : (l.map fun x => tabLine (cells x)).flatten = (l.map fun x => (cells x).flatMap fun c => c ++ ['\t']).flatMap
      fun s => s ++ ['\n'] := by
    rw [List.flatMap_map]
    rfl
  unfold readTable
  rw [e, endedBy_ended]
  · rw [Option.bind_some]
    refine mapM_map_some _ _ _ l fun x hx => ?_
    rw [endedBy_ended '\t' _ fun s hs => (hc x hx s hs).1, Option.bind_some]
    exact h x hx
  · intro s hs
    obtain ⟨x, hx, rfl⟩ := List.mem_map.1 hs
    intro hn
    obtain ⟨c, hcc, hn⟩ := List.mem_flatMap.1 hn
    rcases List.mem_append.1 hn with hn | hn
    · exact (hc x hx c hcc).2 hn
    · exact absurd hn (by decide)

theorem wholeNumber_showNat (n : ℕ) : wholeNumber (showNat n) = some (n : ℝ) := by
  unfold wholeNumber
  rw [strtod_showNat]
  simp

theorem showNat_avoids (n : ℕ) (c : Char) (h : isDigit c = false) : c ∉ showNat n := by
  intro hc
  obtain ⟨d, hd, e⟩ := showNat_digits n _ hc
  have := (digitChar_spec d hd).1
  rw [← e, h] at this
  cases this

/-- The table of the texts of numbers. -/
theorem readTable_numbers (fmt : ℝ → Decimal) (hfmt : ∀ v, (fmt v).ip ≠ [] ∨ (fmt v).fp ≠ []) (t : List (List ℝ)) :
    readTable (t.map fun l => tabLine (l.map fun x => (fmt x).text)).flatten = some (printedTable fmt t) := by
  refine readTable_lines t (fun l => l.map fun x => (fmt x).text) (fun l => l.map fun x => ((fmt x).value : ℝ)) ?_ ?_
  · intro l _
    exact mapM_map_some _ _ _ l fun x _ => (wholeNumber_text fmt hfmt x).1
  · intro l _ s hs
    obtain ⟨x, _, rfl⟩ := List.mem_map.1 hs
    exact ⟨(fmt x).text_avoids _ (by decide), (fmt x).text_avoids _ (by decide)⟩

theorem mapM_map_after {α β γ : Type} (F : α → Option β) (G : β → γ) (l : List α) :
    (l.mapM fun x => (F x).map G) = (l.mapM F).map (List.map G) := by
  induction l with
  | nil => rfl
  | cons a l ih =>
    rw [List.mapM_cons, List.mapM_cons, ih]
    cases F a with
    | none => rfl
    | some y => cases l.mapM F <;> rfl

/-- The file of the values or of the differences is the table of the lines of C68. -/
theorem gnuplotData_text (fmt : ℝ → Decimal) (g : Evaluable) (d : Data) (kind : PlotKind) (hk : kind ≠ .linear) (cos : Bool) :
    gnuplotData fmt g d kind cos = (dataPlot g d kind cos).map fun r =>
      (r.2.2.map fun l => tabLine (l.map fun x => (fmt x).text)).flatten := by
  unfold gnuplotData dataPlot
  cases l2Distance g d with
  | none => rfl
  | some l2 =>
    cases linfDistance g d with
    | none => rfl
    | some linf =>
      simp only [Option.bind_some, Option.map_map]
      have : (fun p : List ℝ × ℕ => gnuplotLine fmt g d kind cos p.2 p.1) = fun p =>
          (plotLine g d kind cos p.2 p.1).map fun l => tabLine (l.map fun x => (fmt x).text) := by
        funext p
        unfold gnuplotLine
        rw [if_neg hk]
      rw [this, mapM_map_after, Option.map_map]
      rfl

/-- The linear plot. -/
theorem gnuplotData_linear (fmt : ℝ → Decimal) (g : Evaluable) (d : Data) (h : DistanceReady g d) (hne : d.rows ≠ []) (cos : Bool)
    (w : List ℝ → ℝ) (hw : ∀ row ∈ d.rows, ∀ x, g.abscissa d row = some x → cosTerm g cos x = some (w row)) :
    gnuplotData fmt g d .linear cos = some (d.rows.zipIdx.map fun p => tabLine (showNat p.2 ::
      (List.range d.dimY).map fun u =>
        quotientText fmt (arr p.1 (d.dimX + u) - w p.1 * arr (g.valueFor d p.1) u) (arr p.1 (d.dimX + u)))).flatten := by
  obtain ⟨linf, mean, var, e2, -⟩ := linf_distance g d h
  unfold gnuplotData
  rw [l2_distance g d h hne, Option.bind_some, e2, Option.bind_some, mapM_eq_map _ (fun p : List ℝ × ℕ => tabLine (showNat p.2 ::
      (List.range d.dimY).map fun u =>
        quotientText fmt (arr p.1 (d.dimX + u) - w p.1 * arr (g.valueFor d p.1) u) (arr p.1 (d.dimX + u))))]
  · rfl
  · rintro ⟨row, i⟩ hp
    have hr : row ∈ d.rows := List.fst_mem_of_mem_zipIdx hp
    unfold gnuplotLine
    rw [if_pos rfl, plotLine_eq g d h .error cos i row hr (w row) (hw row hr), Option.map_some]
    have hs := h.size row hr
    have ht : (row.take d.dimX).length = d.dimX := by rw [List.length_take, hs]; omega
    refine congrArg some (congrArg tabLine (congrArg _ (List.map_congr_left fun u hu => ?_)))
    have hu := List.mem_range.1 hu
    congr 1
    simp only [plotted]
    unfold arr
    rw [List.getD_eq_getElem?_getD, List.getElem?_append_right (by omega), ht]
    simp [hu]

end
end Alta
