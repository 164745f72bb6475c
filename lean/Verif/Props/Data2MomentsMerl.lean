import Verif.Props.Data2MomentsMain
import Verif.Props.MerlStats
import Verif.Props.Data2StatsMerl
/-
C91: the program `data2moments` on MERL files, and on data with one value.
-/
namespace Alta
noncomputable section

/-! ### MERL files -/

theorem merlInterpolant_rows (brdf : List ℝ) : (merlInterpolant brdf).rows = (merlObj brdf).rows := rfl

theorem merl_row (brdf : List ℝ) (hb : brdf.length = 3 * merlSize) (row : List ℝ) (hr : row ∈ (merlInterpolant brdf).rows) :
    ∃ i < merlSize, row.length = 6 ∧ ∀ k < 3, arr row (3 + k) = arr (merlColour brdf i) k := by
  rw [merlInterpolant_rows] at hr
  obtain ⟨kh, kd, kp, h1, h2, h3, rfl⟩ := merlObj_row brdf hb row hr
  refine ⟨_, merlCell_lt kh kd kp h1 h2 h3, rfl, ?_⟩
  intro k hk
  match k, hk with
  | 0, _ => rfl
  | 1, _ => rfl
  | 2, _ => rfl

theorem merl_row_of (brdf : List ℝ) (hb : brdf.length = 3 * merlSize) (i : ℕ) (hi : i < merlSize) :
    ∃ row ∈ (merlInterpolant brdf).rows, ∀ k < 3, arr row (3 + k) = arr (merlColour brdf i) k := by
  refine ⟨(merlGet brdf i).getD [], ?_, ?_⟩
  · rw [merlInterpolant_rows, merlObj_rows]
    exact List.mem_map.2 ⟨i, List.mem_range.2 hi, rfl⟩
  · obtain ⟨kh, kd, kp, h1, h2, h3, rfl, -⟩ := merl_cells i hi
    rw [merl_get brdf hb kh kd kp h1 h2 h3]
    intro k hk
    match k, hk with
    | 0, _ => rfl
    | 1, _ => rfl
    | 2, _ => rfl

/-- The smallest value of a channel of a MERL table. -/
theorem merl_lowest (brdf : List ℝ) (hb : brdf.length = 3 * merlSize) (k : ℕ) (hk : k < 3) (low : ℝ) :
    (merlInterpolant brdf).Lowest k low ↔ IsLeast {v | ∃ i < merlSize, v = arr (merlColour brdf i) k} low := by
  have : {v | ∃ row ∈ (merlInterpolant brdf).rows, v = arr row (3 + k)} = {v | ∃ i < merlSize, v = arr (merlColour brdf i) k} := by
    ext v
    constructor
    · rintro ⟨row, hr, rfl⟩
      obtain ⟨i, hi, -, he⟩ := merl_row brdf hb row hr
      exact ⟨i, hi, he k hk⟩
    · rintro ⟨i, hi, rfl⟩
      obtain ⟨row, hr, he⟩ := merl_row_of brdf hb i hi
      exact ⟨row, hr, (he k hk).symm⟩
  rw [← this]
  exact Iff.rfl

theorem merl_extent (brdf : List ℝ) (k : ℕ) (hk : k < 3) :
    arr (merlInterpolant brdf).lo k < arr (merlInterpolant brdf).hi k := by
  have := Real.pi_pos
  match k, hk with
  | 0, _ => show (0 : ℝ) < 0.5 * Real.pi; positivity
  | 1, _ => show (0 : ℝ) < 0.5 * Real.pi; positivity
  | 2, _ => show (0 : ℝ) < 2 * Real.pi; positivity

/-- **C91.**  The volume of the domain of the MERL files. -/
theorem merl_volume (brdf : List ℝ) : (merlInterpolant brdf).volume = Real.pi ^ 3 / 2 := by
  unfold Interpolant.volume
  rw [show (merlInterpolant brdf).dimX = 3 from rfl]
  rw [Finset.prod_congr rfl (g := fun k => arr (merlInterpolant brdf).hi k - arr (merlInterpolant brdf).lo k)
    (fun k hk => if_pos (merl_extent brdf k (Finset.mem_range.1 hk)))]
  rw [Finset.prod_range_succ, Finset.prod_range_succ, Finset.prod_range_succ, Finset.prod_range_zero]
  show 1 * (0.5 * Real.pi - 0) * (0.5 * Real.pi - 0) * (2 * Real.pi - 0) = _
  ring

theorem merl_counts (brdf : List ℝ) (samples : List ℕ) (hs : samples.length = 3) :
    (merlInterpolant brdf).counts samples = samples := by
  unfold Interpolant.counts
  rw [show (merlInterpolant brdf).dimX = 3 from rfl]
  apply List.ext_getElem
  · simp [hs]
  · intro i h1 h2
    rw [List.getElem_map, List.getElem_range, if_pos (merl_extent brdf i (by omega))]
    simp [List.getD, h2]

/-- **C91.**  A MERL table has moments for every number of samples. -/
theorem merl_ready (brdf : List ℝ) (hb : brdf.length = 3 * merlSize) (samples : List ℕ) (hs : samples.length = 3)
    (hp : ∀ n ∈ samples, 1 ≤ n) (hint : samples.prod < 2 ^ 31) (a b : ℕ) (hab : a < 3 ∧ b < 3) :
    MomentsReady (merlInterpolant brdf) samples a b where
  nonempty := by
    obtain ⟨row, hr, -⟩ := merl_row_of brdf hb 0 (by rw [merlSize_eq]; norm_num)
    intro h
    rw [h] at hr
    cases hr
  rows := by
    intro row hr
    obtain ⟨_, -, h, -⟩ := merl_row brdf hb row hr
    rw [h]
    exact le_rfl
  lo := le_rfl
  hi := le_rfl
  perDimension := hs
  positive := hp
  int := by rw [merl_counts brdf samples hs]; exact hint
  dims := hab
  values := by
    intro x hx
    match x, hx with
    | [th, td, pd], _ =>
      unfold merlInterpolant
      simp only [merlValue]
      obtain ⟨v, hv, -⟩ := merl_value brdf hb th td pd
      rw [merlValue, Option.map_eq_some_iff] at hv
      obtain ⟨c, hc, -⟩ := hv
      rw [hc, Option.map_some]
      refine ⟨_, rfl, ?_⟩
      split <;> exact le_rfl

/-- **C91.**  The run of the program on a MERL file. -/
theorem data2moments_merl (val : Dbl → ℝ) (fmt : ℝ → Decimal) (hfmt : ∀ v, (fmt v).ip ≠ [] ∨ (fmt v).fp ≠ []) (dir : Str)
    (env : Option Str) (fs : Str → Option (Symbols (Str → SMap → Option MomentsInput))) (files : Str → Option Str)
    (writable : Str → Bool) (args : SMap) (ha : AsksMoments args writable)
    (ht : args.get "data".toList ≠ [] ∧ args.get "data".toList ≠ "vertical_segment".toList)
    (hl : openLibrary dir env fs (args.get "data".toList) "load_data".toList = some (some (merlMoments val)))
    (t : List Dbl) (htl : t.length = 3 * merlSize) (hf : files (args.get "input".toList) = some (merlSave t))
    (samples : List ℕ) (a b : ℕ) (hs : AsksNumbers args "samples".toList [100, 100, 100] samples)
    (hdim : AsksNumbers args "dim".toList [0, 1] [a, b]) (h3 : samples.length = 3) (hp : ∀ n ∈ samples, 1 ≤ n)
    (hint : samples.prod < 2 ^ 31) (hab : a < 3 ∧ b < 3)
    (hpos : ∀ k < 3, ∀ low, IsLeast {v | ∃ i < merlSize, v = arr (merlColour (t.map val) i) k} low →
      (merlInterpolant (t.map val)).cells samples ((merlInterpolant (t.map val)).weight k low) ≠ 0) :
    ∃ (file : Str) (m : ℕ → Moments), data2momentsMain fmt dir env fs files writable args = some (0, some file) ∧
      readMoments file = some (printedStats fmt (momentsNamed 3 m)) ∧
      ∀ k < 3, ∃ low, IsLeast {v | ∃ i < merlSize, v = arr (merlColour (t.map val) i) k} low ∧
        MomentsOf (m k) ((merlInterpolant (t.map val)).cells samples) ((merlInterpolant (t.map val)).weight k low) a b := by
  have lt : (t.map val).length = 3 * merlSize := by rw [List.length_map, htl]
  have load : loadMomentsInput dir env fs (args.get "data".toList) (merlSave t)
      (args.update "filename".toList (args.get "input".toList)) = some (some (.other (merlInterpolant (t.map val)))) := by
    unfold loadMomentsInput
    rw [if_neg (by rintro (h | h); exacts [ht.1 h, ht.2 h])]
    simp only [hl]
    unfold merlMoments
    rw [merl_file_round_trip t htl, Option.map_some, Option.map_some]
  obtain ⟨file, m, e1, e2, e3⟩ := data2moments_run fmt hfmt dir env fs files writable args ha _ hf _ load samples a b hs hdim
    (merl_ready _ lt samples h3 hp hint a b hab) (show 0 < 3 by norm_num)
    (fun k hk low hlow => hpos k hk low ((merl_lowest _ lt k hk low).1 hlow))
  refine ⟨file, m, e1, e2, ?_⟩
  intro k hk
  obtain ⟨low, g1, g2⟩ := e3 k hk
  exact ⟨low, (merl_lowest _ lt k hk low).1 g1, g2⟩

/-- **C91.**  What is summed at a position of the domain: the colour of the cell that contains it, or black if a channel of it is
    negative, above the smallest value of the channel. -/
theorem merl_weight (brdf : List ℝ) (hb : brdf.length = 3 * merlSize) (k : ℕ) (low : ℝ) (th td pd : ℝ)
    (h1 : 0 ≤ th ∧ th ≤ Real.pi / 2) (h2 : 0 ≤ td ∧ td ≤ Real.pi / 2) (h3 : 0 ≤ pd ∧ pd ≤ 2 * Real.pi) :
    ∃ kh kd kp, kh < 90 ∧ kd < 90 ∧ kp < 180 ∧ InCell kh kd kp th td (foldPhi pd) ∧
      (merlInterpolant brdf).weight k low [th, td, pd] = arr (merlShown brdf (merlCell kh kd kp)) k - low := by
  obtain ⟨v, hv, -, h⟩ := merl_value brdf hb th td pd
  obtain ⟨kh, kd, kp, g1, g2, g3, g4, g5⟩ := h h1.1 h1.2 h2.1 h2.2 (by rw [abs_of_nonneg h3.1]; exact h3.2)
  refine ⟨kh, kd, kp, g1, g2, g3, g4, ?_⟩
  show arr ((merlValue brdf [th, td, pd]).getD []) k - low = _
  rw [hv, Option.getD_some, g5]
  rfl

theorem merl_shown_nonneg (brdf : List ℝ) (hb : brdf.length = 3 * merlSize) (k : ℕ) (th td pd : ℝ) :
    0 ≤ arr ((merlValue brdf [th, td, pd]).getD []) k := by
  obtain ⟨v, hv, -, -⟩ := merl_value brdf hb th td pd
  rw [hv, Option.getD_some]
  rw [merlValue, Option.map_eq_some_iff] at hv
  obtain ⟨c, -, rfl⟩ := hv
  have z : ∀ k, 0 ≤ arr ([0, 0, 0] : List ℝ) k := by
    intro k
    match k with
    | 0 => exact le_rfl
    | 1 => exact le_rfl
    | 2 => exact le_rfl
    | k + 3 => simp [arr]
  split
  · exact z k
  · rename_i h
    push Not at h
    match k with
    | 0 => exact h.1
    | 1 => exact h.2.1
    | 2 => exact h.2.2
    | k + 3 => simp [arr]

theorem gridSum_const (ns : List ℕ) (c : ℝ) : gridSum ns (fun _ => c) = ns.prod * c := by
  induction ns with
  | nil => simp [gridSum]
  | cons n t ih =>
    rw [gridSum]
    simp only [ih, Finset.sum_const, Finset.card_range, List.prod_cons, nsmul_eq_mul]
    push_cast
    ring

/-- The sum of a constant: its integral. -/
theorem cells_const (d : Interpolant) (samples : List ℕ) (hp : (d.counts samples).prod ≠ 0) (c : ℝ) :
    d.cells samples (fun _ => c) = c * d.volume := by
  unfold Interpolant.cells
  rw [gridSum_const]
  have : ((d.counts samples).prod : ℝ) ≠ 0 := by exact_mod_cast hp
  field_simp

/-- **C91.**  A MERL table with a negative number, the mark of what was not measured: it is the smallest value, so that its
    opposite, times the volume of the domain, is added to the moment of order 0. -/
theorem merl_moments_negative (brdf : List ℝ) (hb : brdf.length = 3 * merlSize) (samples : List ℕ) (hs : samples.length = 3)
    (hp : ∀ n ∈ samples, 1 ≤ n) (k : ℕ) (low : ℝ)
    (hlow : IsLeast {v | ∃ i < merlSize, v = arr (merlColour brdf i) k} low)
    (hneg : ∃ i < merlSize, arr (merlColour brdf i) k < 0) :
    (merlInterpolant brdf).cells samples ((merlInterpolant brdf).weight k low) =
        (merlInterpolant brdf).cells samples (fun x => arr ((merlValue brdf x).getD []) k) + -low * (Real.pi ^ 3 / 2) ∧
      0 < -low * (Real.pi ^ 3 / 2) ∧
      0 < (merlInterpolant brdf).cells samples ((merlInterpolant brdf).weight k low) := by
  have hprod : ((merlInterpolant brdf).counts samples).prod ≠ 0 := by
    rw [merl_counts brdf samples hs]
    intro h
    have := hp 0 (List.prod_eq_zero_iff.1 h)
    omega
  have hpos : 0 < -low * (Real.pi ^ 3 / 2) := by
    obtain ⟨i, hi, hv⟩ := hneg
    have := hlow.2 ⟨i, hi, rfl⟩
    have : 0 < -low := by linarith
    have := Real.pi_pos
    positivity
  have e : (merlInterpolant brdf).cells samples ((merlInterpolant brdf).weight k low) =
        (merlInterpolant brdf).cells samples (fun x => arr ((merlValue brdf x).getD []) k) + -low * (Real.pi ^ 3 / 2) := by
    rw [← merl_volume brdf, ← cells_const _ samples hprod, ← cells_add]
    congr 1
  refine ⟨e, hpos, ?_⟩
  rw [e]
  have h0 : (merlInterpolant brdf).cells samples (fun _ => (0 : ℝ)) ≤
      (merlInterpolant brdf).cells samples (fun x => arr ((merlValue brdf x).getD []) k) := by
    apply cells_mono
    rintro x ⟨hx, -⟩
    match x, hx with
    | [th, td, pd], _ => exact merl_shown_nonneg brdf hb k th td pd
  rw [cells_const _ samples hprod, zero_mul] at h0
  linarith

end
end Alta
