import Verif.Props.Data2DataRun
/-
C87: the option `--splat` of `data2data`, with an output made by a plugin.
-/
namespace Alta
noncomputable section

/-- What an iteration does. -/
theorem splatRow_some (din : Data) (all : Bool) (out : Par) (hn : out.input.Named) (hx : out.dimX = (inputDim out.input).toNat)
    (hy : out.dimY = din.dimY) (s s' : (ℕ → ℝ) × List (List ℝ)) (n : ℕ) (x : List ℝ) (hrow : din.rows[n]? = some x)
    (hlen : x.length = din.dimX + din.dimY) (h : splatRow din all out s n = some s') :
    ∃ t above, convertInput (arr x) din.input out.input = some t ∧ isAboveHemisphere (arr t) out.input = some above ∧
      (above ∨ all = true → n < s.2.length ∧ s'.2 = s.2.set n (t ++ x.drop din.dimX)) ∧
      (¬ above → all = false → s'.2 = s.2) := by
  unfold splatRow at h
  rw [hrow, Option.bind_some] at h
  obtain ⟨t, ht, h⟩ := Option.bind_eq_some_iff.1 h
  obtain ⟨above, ha, h⟩ := Option.bind_eq_some_iff.1 h
  have htl : t.length = out.dimX := by
    have := convertInput_length _ _ _ hn t ht
    omega
  have htemp : ∀ k < (inputDim out.input).toNat, (fun k => if k < t.length then arr t k else s.1 k) k = arr t k := by
    intro k hk
    simp only
    rw [if_pos (by omega)]
  have ha' : isAboveHemisphere (arr t) out.input = some above := by
    rw [← ha]
    unfold isAboveHemisphere
    rw [convertInput_congr out.input .CARTESIAN hn (arr t) (fun k => if k < t.length then arr t k else s.1 k) (by
      intro k hk
      exact (htemp k hk).symm)]
  refine ⟨t, above, ht, ha', fun hab => ?_, fun hab hall => ?_⟩
  · rw [if_neg (by
      rintro ⟨h1, h2⟩
      rcases hab with hab | hab
      · exact h1 hab
      · rw [hab] at h2; cases h2)] at h
    obtain ⟨o, hoo, h⟩ := Option.bind_eq_some_iff.1 h
    obtain ⟨o', ho', hcv⟩ := convertOutput_copy (fun k => arr x (din.dimX + k))
      (fun k => (fun k => if k < t.length then arr t k else s.1 k) (out.dimX + k)) din.dimY out.dimY (Or.inl hy)
    simp only at hoo ho'
    rw [hoo] at ho'
    cases ho'
    split at h
    · rename_i hlt
      refine ⟨hlt, ?_⟩
      have := congrArg Prod.snd (Option.some.inj h)
      simp only at this
      rw [← this]
      congr 1
      apply List.ext_getElem (by simp [htl, hlen, hy])
      intro k k1 k2
      rw [List.getElem_map, List.getElem_range]
      by_cases hk : k < out.dimX
      · rw [if_pos hk, if_pos (by omega), List.getElem_append_left (by omega)]
        simp [arr, List.getD, List.getElem?_eq_getElem (show k < t.length by omega)]
      · have hk' : k < out.dimX + out.dimY := by simpa using k1
        have hxi : din.dimX + (k - out.dimX) < x.length := by omega
        rw [if_neg hk, hcv.2.1 hy _ (by omega), List.getElem_append_right (by omega), List.getElem_drop]
        simp [arr, List.getD, List.getElem?_eq_getElem hxi, htl]
    · cases h
  · rw [if_pos ⟨hab, hall⟩] at h
    cases h
    rfl

/-- **C87.**  With `--splat` the samples of an output made by a plugin are the converted samples of the input, in the same
    places; the samples below the surface (but with `--all-values`) and those after the last one of the input are left. -/
theorem data2data_splat (junk : ℕ → ℝ) (evs : List RowEvent) (din : DataObj) (o : OutPlugin) (args : SMap)
    (hsp : args.isDefined "splat".toList = true) (hs : din.toData.Sampled) (hn : o.par.input.Named)
    (hx : o.par.dimX = (inputDim o.par.input).toNat) (hy : o.par.dimY = din.par.dimY) (rows : List (List ℝ))
    (h : convertPlugin junk evs din o args = some rows) :
    rows.length = o.rows.length ∧
    (∀ (i : ℕ) (x : List ℝ), din.rows[i]? = some x → ∃ t above, convertInput (arr x) din.par.input o.par.input = some t ∧
      isAboveHemisphere (arr t) o.par.input = some above ∧
      (above ∨ args.isDefined "all-values".toList = true → rows[i]? = some (t ++ x.drop din.par.dimX)) ∧
      (¬ above → args.isDefined "all-values".toList = false → rows[i]? = o.rows[i]?)) ∧
    ∀ i : ℕ, din.rows.length ≤ i → rows[i]? = o.rows[i]? := by
  unfold convertPlugin at h
  rw [if_pos hsp] at h
  obtain ⟨s', h1, rfl⟩ := Option.map_eq_some_iff.1 h
  have key : ∀ n ≤ din.rows.length, ∀ s' : (ℕ → ℝ) × List (List ℝ),
      (List.range n).foldlM (splatRow din.toData (args.isDefined "all-values".toList) o.par) (junk, o.rows) = some s' →
      s'.2.length = o.rows.length ∧
      (∀ i : ℕ, i < n → ∀ x : List ℝ, din.rows[i]? = some x → ∃ t above, convertInput (arr x) din.par.input o.par.input = some t ∧
        isAboveHemisphere (arr t) o.par.input = some above ∧
        (above ∨ args.isDefined "all-values".toList = true → s'.2[i]? = some (t ++ x.drop din.par.dimX)) ∧
        (¬ above → args.isDefined "all-values".toList = false → s'.2[i]? = o.rows[i]?)) ∧
      ∀ i : ℕ, n ≤ i → s'.2[i]? = o.rows[i]? := by
    intro n
    induction n with
    | zero =>
      intro _ s' hs'
      cases hs'
      exact ⟨rfl, fun i hi => absurd hi (by omega), fun i _ => rfl⟩
    | succ n ih =>
      intro hle s' hs'
      rw [List.range_succ, List.foldlM_append] at hs'
      obtain ⟨s, hs1, hs2⟩ := Option.bind_eq_some_iff.1 hs'
      rw [List.foldlM_cons] at hs2
      obtain ⟨s2, hs3, hs4⟩ := Option.bind_eq_some_iff.1 hs2
      rw [List.foldlM_nil] at hs4
      cases hs4
      obtain ⟨i1, i2, i3⟩ := ih (by omega) s hs1
      have hrow : din.toData.rows[n]? = some (din.rows[n]'(by omega)) := List.getElem?_eq_getElem (show n < din.rows.length by omega)
      obtain ⟨t, above, g1, g2, g3, g4⟩ := splatRow_some din.toData _ o.par hn hx hy s _ n _ hrow
        (hs _ (List.mem_of_getElem? hrow)) hs3
      have hother : ∀ i, i ≠ n → s'.2[i]? = s.2[i]? := by
        intro i hi
        by_cases hab : above ∨ args.isDefined "all-values".toList = true
        · rw [(g3 hab).2, List.getElem?_set_ne (fun h => hi h.symm)]
        · push Not at hab
          rw [g4 hab.1 (by simpa using hab.2)]
      refine ⟨?_, ?_, ?_⟩
      · by_cases hab : above ∨ args.isDefined "all-values".toList = true
        · rw [(g3 hab).2, List.length_set, i1]
        · push Not at hab
          rw [g4 hab.1 (by simpa using hab.2), i1]
      · intro i hi x hx'
        by_cases hin : i = n
        · subst hin
          have hxe : x = din.rows[i] := by
            have h' : din.rows[i]? = some din.rows[i] := hrow
            rw [hx'] at h'
            exact Option.some.inj h'
          subst hxe
          refine ⟨t, above, g1, g2, fun hab => ?_, fun hab hall => ?_⟩
          · rw [(g3 hab).2, List.getElem?_set_self (g3 hab).1]
            rfl
          · rw [g4 hab hall]
            exact i3 i (le_refl _)
        · rw [hother i hin]
          exact i2 i (by omega) x hx'
      · intro i hi
        rw [hother i (by omega)]
        exact i3 i (by omega)
  obtain ⟨k1, k2, k3⟩ := key _ le_rfl s' h1
  refine ⟨k1, fun i x hx' => ?_, k3⟩
  have hi : i < din.rows.length := by
    by_contra hc
    rw [List.getElem?_eq_none (by omega)] at hx'
    cases hx'
  exact k2 i hi x hx'

end
end Alta
