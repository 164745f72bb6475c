import Verif.Props.Data2BrdfRational
import Verif.Props.RationalFitExamples
import Verif.Props.Data2BrdfExample
/-
C81: data2brdf with vertical segments, and a run.
-/
namespace Alta
noncomputable section

/-- The abscissa of a segment is the beginning of the sample. -/
theorem segment_abscissa (s : Store ℝ) (hwf : s.WF) (i : ℕ) (x yl yu : List ℝ) (h : s.getSegment i = some (x, yl, yu)) :
    (List.range s.dimX).map (arr ((s.get i).getD [])) = x ∧ i < s.size := by
  have hi : i < s.size := by
    unfold Store.getSegment at h
    split at h
    · assumption
    · cases h
  refine ⟨?_, hi⟩
  have hx : x = (s.raw.drop (i * s.columns)).take s.dimX := by
    have hc : s.dimX ≤ s.columns := by unfold Store.columns; omega
    have e : segment (s.row i) 0 s.dimX = (s.raw.drop (i * s.columns)).take s.dimX := by
      unfold segment Store.row
      rw [List.drop_zero, List.take_take, min_eq_left hc]
    rw [← e]
    unfold Store.getSegment at h
    rw [if_pos hi] at h
    simp only [] at h
    split at h <;> simp only [Option.some.injEq, Prod.mk.injEq] at h <;> exact h.1.symm
  have hlen : ((s.raw.drop (i * s.columns)).take (s.dimX + s.dimY)).length = s.dimX + s.dimY := by
    have := store_row_length s hwf ((s.get i).getD []) (List.mem_map.2 ⟨i, List.mem_range.2 hi, rfl⟩)
    rwa [Store.get, if_pos hi, Option.getD_some] at this
  rw [hx, Store.get, if_pos hi, Option.getD_some]
  apply List.ext_getElem
  · rw [List.length_take] at hlen
    simp only [List.length_map, List.length_range, List.length_take]
    omega
  · intro k h1 h2
    have hk : k < s.dimX := by simpa using h1
    rw [List.getElem_map, List.getElem_range, arr, List.getD_eq_getElem?_getD, List.getElem?_take_of_lt (by omega), List.getElem_take]
    rw [List.length_take] at hlen
    rw [List.getElem?_eq_getElem (by omega)]
    rfl

/-- C81: with `rational_fitter_quadprog`, when the command succeeds the function passes strictly through the vertical segment
    of every sample, in every channel; and so does the function that is loaded from the file, if the numbers are printed
    exactly. -/
theorem data2brdf_quadprog_segments (junk : ℝ) (dir : Str) (env : Option Str)
    (fs : Str → Option (Symbols (Provider LobeObj))) (solve : Solver) (hsound : solve.Sound)
    (fmt6 fmt10 fmt : ℝ → Decimal) (h6 : PrintsNonneg fmt6) (h10 : PrintsDigits fmt10) (other : AnyFn → SMap → Option Str)
    (args : SMap) (ho : args.Ordered) (ha : CmdMap args) (hx : args.find kExport = none)
    (hdelta : 0 < args.getFloat "delta".toList 1)
    (h1p : 1 ≤ sizeOption args "min-np".toList (sizeOption args "np".toList 10))
    (h1q : 1 ≤ sizeOption args "min-nq".toList (sizeOption args "nq".toList 10))
    (d : Segments) (hord : d.store.Ordered) (hdx : 1 ≤ d.store.dimX) (hin : d.store.input.Named)
    (hlo : d.min.length = d.store.dimX) (hhi : d.max.length = d.store.dimX) (r : FittedRational)
    (h : data2brdfRational dir env fs (quadprogFitter solve junk) fmt6 fmt10 fmt other args d = some (0, some r)) :
    (∀ i x yl yu, d.store.getSegment i = some (x, yl, yu) → ∃ v, r.function.value x = some v ∧ v.length = d.store.dimY ∧
      ∀ m < d.store.dimY, arr yl m < arr v m ∧ arr v m < arr yu m) ∧
    ∃ g, loadAny junk dir env fs r.file = some (some (.rational (d.store.toData.par.withOutput .UNKNOWN_OUTPUT) g)) ∧
      ((∀ x ∈ d.min ++ d.max, printed fmt10 x = x) →
        (∀ (m : ℕ) (c : Rat1), r.function.rs[m]? = some (some c) → ∀ a ∈ c.getP ++ c.getQ, printed fmt10 a = a) →
        ∀ i x yl yu, d.store.getSegment i = some (x, yl, yu) → ∃ v, g.value x = some v ∧ v.length = d.store.dimY ∧
          ∀ m < d.store.dimY, arr yl m < arr v m ∧ arr v m < arr yu m) := by
  obtain ⟨-, h2⟩ := data2brdf_rational_outcome dir env fs _ fmt6 fmt10 fmt other args d 0 (some r) h
  obtain ⟨hne, -, g2, -⟩ := h2 r rfl
  have hsize : 0 < d.store.size := by
    rcases Nat.eq_zero_or_pos d.store.size with h0 | h0
    · exact absurd (by simp [Store.toData, h0]) hne
    · exact h0
  have key : ∀ i x yl yu, d.store.getSegment i = some (x, yl, yu) → ∃ v, r.function.value x = some v ∧
      v.length = d.store.dimY ∧ ∀ m < d.store.dimY, arr yl m < arr v m ∧ arr v m < arr yu m := by
    intro i x yl yu hs
    obtain ⟨v, k1, k2, k3⟩ := quadprog_fit_sound solve hsound junk _ (by exact_mod_cast hdelta) d hord hsize hdx _ _ _ _
      (by exact h1p) (by exact h1q) (newRational d.store.toData.par) r.function rfl rfl g2 i x yl yu hs
    exact ⟨v, k1, k2, fun m hm => ⟨(k3 m hm).1, (k3 m hm).2.1⟩⟩
  refine ⟨key, ?_⟩
  obtain ⟨g, e1, -, -, -, -, -, e2⟩ := data2brdf_rational_file junk dir env fs _ (RationalFitter.quadprog (junk := junk) solve hsound).onData
    fmt6 fmt10 fmt h6 h10 other args ho ha hx d hdx hin hlo hhi r h
  refine ⟨g, e1, fun hb he i x yl yu hs => ?_⟩
  obtain ⟨e3, -⟩ := e2 hb he
  rw [e3]
  exact key i x yl yu hs

/-- C81: with `rational_fitter_quadprog`, when no segment goes farther than `ε` from the value of its sample, the largest
    error that the command prints is smaller than `ε`. -/
theorem data2brdf_quadprog_linf (junk : ℝ) (dir : Str) (env : Option Str)
    (fs : Str → Option (Symbols (Provider LobeObj))) (solve : Solver) (hsound : solve.Sound)
    (fmt6 fmt10 fmt : ℝ → Decimal) (other : AnyFn → SMap → Option Str) (args : SMap)
    (hdelta : 0 < args.getFloat "delta".toList 1)
    (h1p : 1 ≤ sizeOption args "min-np".toList (sizeOption args "np".toList 10))
    (h1q : 1 ≤ sizeOption args "min-nq".toList (sizeOption args "nq".toList 10))
    (d : Segments) (hord : d.store.Ordered) (hwf : d.store.WF) (hdx : 1 ≤ d.store.dimX) (hin : d.store.input.Named)
    (hdim : inputDim d.store.input = d.store.dimX) (ε : ℝ) (hε : 0 < ε)
    (hseg : ∀ i x yl yu, d.store.getSegment i = some (x, yl, yu) → ∀ m < d.store.dimY,
      d.store.ordinate i m - ε ≤ arr yl m ∧ arr yu m ≤ d.store.ordinate i m + ε) (r : FittedRational)
    (h : data2brdfRational dir env fs (quadprogFitter solve junk) fmt6 fmt10 fmt other args d = some (0, some r)) :
    r.linf < ε := by
  obtain ⟨-, h2⟩ := data2brdf_rational_outcome dir env fs _ fmt6 fmt10 fmt other args d 0 (some r) h
  obtain ⟨hne, -, g2, -, ⟨mean, var, g4⟩, -⟩ := h2 r rfl
  have hsize : 0 < d.store.size := by
    rcases Nat.eq_zero_or_pos d.store.size with h0 | h0
    · exact absurd (by simp [Store.toData, h0]) hne
    · exact h0
  have hf := (RationalFitter.quadprog (junk := junk) solve hsound).onData d args _ _ (newRational_ready d hdx) g2
  obtain ⟨hr, habs⟩ := fitted_distanceReady d hwf r.function hf hin hdim
  obtain ⟨li, mean', var', e2, -, -, e5⟩ := linf_distance _ _ hr
  rw [g4] at e2
  simp only [Option.some.injEq, Prod.mk.injEq] at e2
  obtain ⟨rfl, -, -⟩ := e2
  rcases e5 with e5 | ⟨row, hrow, m, hm, e5⟩
  · rw [e5]; exact hε
  · obtain ⟨i, hi, rfl⟩ := List.mem_map.1 hrow
    have hi : i < d.store.size := List.mem_range.1 hi
    have hm : m < d.store.dimY := hm
    obtain ⟨⟨x, yl, yu⟩, hs⟩ : ∃ c, d.store.getSegment i = some c := by
      unfold Store.getSegment
      rw [if_pos hi]
      simp only []
      split <;> exact ⟨_, rfl⟩
    obtain ⟨v, k1, k2, k3⟩ := quadprog_fit_sound solve hsound junk _ (by exact_mod_cast hdelta) d hord hsize hdx _ _ _ _
      (by exact h1p) (by exact h1q) (newRational d.store.toData.par) r.function rfl rfl g2 i x yl yu hs
    obtain ⟨s1, s2⟩ := hseg i x yl yu hs m hm
    obtain ⟨k4, k5, -⟩ := k3 m hm
    rw [e5]
    unfold Evaluable.error
    rw [habs, Option.bind_some, (segment_abscissa d.store hwf i x yl yu hs).1]
    rw [show (r.function.evaluable d.store.toData.par).value x = some v from k1, Option.getD_some]
    have e : arr ((d.store.get i).getD []) (d.store.toData.dimX + m) = d.store.ordinate i m := rfl
    rw [e, abs_lt]
    constructor <;> linarith

end
end Alta
