import Verif.Props.SamplewiseExport
import Verif.Props.Data2DataExample
/-
C95: two files of one sample, joined and converted.
-/
namespace Alta
noncomputable section

def firstSample : Data := ⟨2, 1, .RUSIN_TH_TD, .INV_STERADIAN, [[1, 0, 2]]⟩
def secondSample : Data := ⟨2, 1, .RUSIN_TH_TD, .INV_STERADIAN, [[1, 1, 3]]⟩

theorem exampleFmt_small (x : ℝ) : |((exampleFmt x).value : ℝ)| ≤ ((fltMax : ℚ) : ℝ) := by
  obtain ⟨e0, e1, e2, e3⟩ := exampleFmt_values
  have hm : (3 : ℝ) ≤ ((fltMax : ℚ) : ℝ) := by
    have : (3 : ℚ) ≤ fltMax := by norm_num [fltMax]
    exact_mod_cast this
  have h : ((exampleFmt x).value : ℝ) = 0 ∨ ((exampleFmt x).value : ℝ) = 1 ∨ ((exampleFmt x).value : ℝ) = 2 ∨
      ((exampleFmt x).value : ℝ) = 3 := by
    by_cases h1 : x = 1
    · subst h1; exact .inr (.inl e1)
    by_cases h2 : x = 2
    · subst h2; exact .inr (.inr (.inl e2))
    by_cases h3 : x = 3
    · subst h3; exact .inr (.inr (.inr e3))
    have : exampleFmt x = exampleFmt 0 := by
      unfold exampleFmt
      rw [if_neg h1, if_neg h2, if_neg h3, if_neg (by norm_num), if_neg (by norm_num), if_neg (by norm_num)]
    rw [this]
    exact .inl e0
  rcases h with h | h | h | h <;> rw [h, abs_of_nonneg (by norm_num)] <;> linarith

theorem toText_plain : PlainArgs (toTextArgs.update "filename".toList (toTextArgs.get "input".toList)) := by
  refine PlainArgs.filename ?_ ?_ _
  · simp [SMap.Ordered, toTextArgs] <;> decide
  · constructor <;> decide

/-- Two files of one sample, joined: `data2data` writes a file, that is the two converted files joined. -/
example (val : Dbl → ℝ) (bits : ℝ → Dbl) (dir : Str) (env : Option Str)
    (fs : Str → Option (Symbols (Str → SMap → Option DataObj)))
    (gs : Str → Option (Symbols (ℕ → Par → SMap → OutPlugin))) :
    ∃ t u v, ConvertsTo val bits exampleFmt dir env fs gs toTextArgs (saveText exampleFmt firstSample) t ∧
      ConvertsTo val bits exampleFmt dir env fs gs toTextArgs (saveText exampleFmt secondSample) u ∧
      ConvertsTo val bits exampleFmt dir env fs gs toTextArgs
        (saveText exampleFmt firstSample ++ saveText exampleFmt secondSample) v ∧ FilesJoined t u v := by
  have hn : (Input.RUSIN_TH_TD).Named := by unfold Input.Named; decide
  have ra : ∀ r ∈ firstSample.rows, r.length = firstSample.dimX + firstSample.dimY := by
    intro r hr
    rw [List.mem_singleton.1 hr]; rfl
  have rb : ∀ r ∈ secondSample.rows, r.length = secondSample.dimX + secondSample.dimY := by
    intro r hr
    rw [List.mem_singleton.1 hr]; rfl
  obtain ⟨d, d1, -, d3, d4, d5, d6, d7, d8⟩ := text_round_trip exampleFmt exampleFmt_digits firstSample (by decide) ra
    (fun _ _ _ _ => exampleFmt_small _) (.inl hn) _ toText_plain
  obtain ⟨e, e1, -, e3, e4, e5, e6, e7, e8⟩ := text_round_trip exampleFmt exampleFmt_digits secondSample (by decide) rb
    (fun _ _ _ _ => exampleFmt_small _) (.inl hn) _ toText_plain
  obtain ⟨pa1, pa2, -⟩ := saved_parts exampleFmt exampleFmt_digits firstSample (by decide) ra (.inl hn) _ toText_plain
  obtain ⟨-, pb2, -⟩ := saved_parts exampleFmt exampleFmt_digits secondSample (by decide) rb (.inl hn) _ toText_plain
  have hi : d.store.toData.input = .RUSIN_TH_TD := d5
  have hi' : e.store.toData.input = .RUSIN_TH_TD := e5
  have hw : ∀ x : Data, x.input = .RUSIN_TH_TD → wantedParam toTextArgs x = .RUSIN_TH_TD := by
    intro x hx
    unfold wantedParam
    rw [if_pos (by decide), hx]
  have run : ∀ a (l : Segments), loadDataText a (toTextArgs.update "filename".toList (toTextArgs.get "input".toList)) = some l →
      l.store.toData.input = .RUSIN_TH_TD → ∃ t, ConvertsTo val bits exampleFmt dir env fs gs toTextArgs a t := by
    intro a l hl hli
    refine (convertsTo_iff val bits exampleFmt dir env fs gs toTextArgs toText_run.asks (.inl (by decide)) (.inl (by decide))
      a l hl (by rw [hw _ hli]; exact hn)).2 fun x _ => ?_
    rw [hw _ hli, hli]
    exact samples_convert x
  obtain ⟨t, rt⟩ := run _ d d1 hi
  obtain ⟨u, ru⟩ := run _ e e1 hi'
  have hbody : (parseHeader (saveText exampleFmt firstSample)).2 ≠ [] := by
    rw [pa1]
    intro h
    have h0 := (List.flatten_eq_nil_iff.1 h) (saveRow exampleFmt [1, 0, 2]) (List.mem_map_of_mem (List.mem_singleton.2 rfl))
    have := saveRow_last exampleFmt [1, 0, 2]
    rw [h0] at this
    cases this
  obtain ⟨⟨v, rv⟩, hv⟩ := data2data_of_joined_files val bits exampleFmt exampleFmt_digits dir env fs gs toTextArgs toText_run.asks
    (.inl (by decide)) (.inl (by decide)) _ _ d e d1 e1 (by rw [pa2, pb2]; rfl) hbody
    (saved_last exampleFmt firstSample (by simp [firstSample])) (by rw [hw _ hi]; exact hn) t u rt ru
  exact ⟨t, u, v, rt, ru, rv, hv v rv⟩

end
end Alta
