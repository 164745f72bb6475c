import Verif.Props.Slice
/-
C73: what `value` does at the border of the domain and outside of it, with examples.
-/
namespace Alta
noncomputable section
open Real

/-- The coordinates the test looks at, as a condition on the abscissa. -/
theorem value_junk {s : Slice} {w h : ℕ} (hs : SliceOf s w h) {u v z : ℝ} :
    s.value (sliceAbscissa s.par.input s.par.dimX u v z) = .junk ↔
      ((sliceInterval s.par.input).2 < u ∨
       (if AzimuthFirst s.par.input then z else u) < (sliceInterval s.par.input).1 ∨
       (sliceInterval s.par.input).2 < v ∨ v < (sliceInterval s.par.input).1) := by
  obtain ⟨hw, hh, _, _, _, _, _, b1, b2, b3, b4⟩ := sliceOf_facts hs
  obtain ⟨c1, c2, c3, c4⟩ := value_coords hs u v z
  unfold Slice.value
  simp only [c1, c2, c3, c4, b1, b2, b3, b4, hw, hh]
  generalize (if AzimuthFirst s.par.input then z else u) = t
  split_ifs with h1
  · exact ⟨fun _ => h1, fun _ => rfl⟩
  · constructor
    · intro h2
      cases hq : s.sample ((⌊(u - (sliceInterval s.par.input).1) * (w : ℝ) /
          ((sliceInterval s.par.input).2 - (sliceInterval s.par.input).1)⌋ +
          ⌊(v - (sliceInterval s.par.input).1) * (h : ℝ) /
          ((sliceInterval s.par.input).2 - (sliceInterval s.par.input).1)⌋ * (w : ℤ)) * 1) with
      | none => rw [hq] at h2; cases h2
      | some a => rw [hq] at h2; cases h2
    · intro h2; exact absurd h2 h1

/-- Outside of the domain of an ordinary parametrization the result is not initialised. -/
theorem slice_outside_uninitialised {s : Slice} {w h : ℕ} (hs : SliceOf s w h)
    (ha : ¬ AzimuthFirst s.par.input) {u v z : ℝ}
    (ho : u < (sliceInterval s.par.input).1 ∨ (sliceInterval s.par.input).2 < u ∨
      v < (sliceInterval s.par.input).1 ∨ (sliceInterval s.par.input).2 < v) :
    s.value (sliceAbscissa s.par.input s.par.dimX u v z) = .junk := by
  rw [value_junk hs, if_neg ha]
  tauto

/-- An azimuth below −90° makes every sample of an azimuth-first slice unreadable: the lower bound is
    tested on the azimuth. -/
theorem slice_low_azimuth {s : Slice} {w h : ℕ} (hs : SliceOf s w h) (ha : AzimuthFirst s.par.input)
    (hz : s.phi < -(π / 2)) (id : ℕ) (hid : id < w * h) : s.value (s.abscissa id) = .junk := by
  have hlo : (sliceInterval s.par.input).1 = -(π / 2) := by
    rcases ha with e | e | e <;> rw [e] <;> rfl
  rw [slice_abscissa hs id hid, value_junk hs, if_pos ha, hlo]
  exact Or.inr (Or.inl hz)

/-- The upper bound of the coordinate along the lines is accepted, and the first sample of the
    *next* line is read; on the last line, the numbers after the storage. -/
theorem slice_upper_bound {s : Slice} {w h : ℕ} (hs : SliceOf s w h) {v z : ℝ}
    (hv : (sliceInterval s.par.input).1 ≤ v) (hv' : v < (sliceInterval s.par.input).2)
    (hz : AzimuthFirst s.par.input → -(π / 2) ≤ z) :
    ∃ j < h, |v - cellCentre (sliceInterval s.par.input).1 (sliceInterval s.par.input).2 h j| ≤
        ((sliceInterval s.par.input).2 - (sliceInterval s.par.input).1) / (2 * h) ∧
      s.value (sliceAbscissa s.par.input s.par.dimX (sliceInterval s.par.input).2 v z) =
        if j + 1 < h then .values [arr s.data (3 * ((j + 1) * w)), arr s.data (3 * ((j + 1) * w) + 1),
          arr s.data (3 * ((j + 1) * w) + 2)] else .outside := by
  obtain ⟨i, hi, j, hj, hval, _, dj, ei, ej⟩ := value_in_cell (u := (sliceInterval s.par.input).1) hs le_rfl
    (sliceInterval_lt _) hv hv' hz
  obtain ⟨hw, hh, hl, _, _, _, _, b1, b2, b3, b4⟩ := sliceOf_facts hs
  obtain ⟨c1, c2, c3, c4⟩ := value_coords hs (sliceInterval s.par.input).2 v z
  have hlt := sliceInterval_lt s.par.input
  have hlo : AzimuthFirst s.par.input → (sliceInterval s.par.input).1 = -(π / 2) := by
    rintro (e | e | e) <;> rw [e] <;> rfl
  have hx0 : ¬ arr (sliceAbscissa s.par.input s.par.dimX (sliceInterval s.par.input).2 v z) 0 <
      (sliceInterval s.par.input).1 := by
    rw [c4]
    split_ifs with ha
    · rw [hlo ha]; exact not_lt.2 (hz ha)
    · exact not_lt.2 hlt.le
  refine ⟨j, hj, dj, ?_⟩
  have fi : ⌊((sliceInterval s.par.input).2 - (sliceInterval s.par.input).1) * (w : ℝ) /
      ((sliceInterval s.par.input).2 - (sliceInterval s.par.input).1)⌋ = (w : ℤ) := by
    rw [mul_div_right_comm, div_self (by linarith), one_mul]
    exact Int.floor_natCast w
  unfold Slice.value
  simp only [c1, c2, c3, b1, b2, b3, b4, hw, hh]
  rw [if_neg (by
    rintro (h' | h' | h' | h')
    · linarith
    · exact hx0 h'
    · linarith
    · linarith), fi, ← ej]
  have : ((w : ℤ) + j * w) * 1 = (((j + 1) * w : ℕ) : ℤ) := by push_cast; ring
  rw [this]
  by_cases hlast : j + 1 < h
  · rw [if_pos hlast]
    have hid : (j + 1) * w < w * h := by
      rw [Nat.mul_comm]; exact Nat.mul_lt_mul_of_pos_left hlast hs.1
    rw [sample_eq hs _ hid]
  · rw [if_neg hlast]
    have he : j + 1 = h := by omega
    have : s.sample (((j + 1) * w : ℕ) : ℤ) = none := by
      unfold Slice.sample
      rw [if_pos (Int.natCast_nonneg _), Int.toNat_natCast, he]
      have : s.data[3 * (h * w) + 0]? = none := by
        rw [List.getElem?_eq_none_iff, hl, Nat.mul_comm h w]; omega
      rw [this]
      rfl
    rw [this]

/-- In the azimuth-first parametrizations the lower bound of the coordinate along the lines is not
    tested: below it, in the first line, memory before the storage is read. -/
theorem slice_lower_bound_untested {s : Slice} {w h : ℕ} (hs : SliceOf s w h)
    (ha : AzimuthFirst s.par.input) {u z : ℝ} (hu : u < -(π / 2)) (hz : -(π / 2) ≤ z) :
    s.value (sliceAbscissa s.par.input s.par.dimX u (-(π / 2)) z) = .outside := by
  obtain ⟨hw, hh, hl, _, _, _, _, b1, b2, b3, b4⟩ := sliceOf_facts hs
  obtain ⟨c1, c2, c3, c4⟩ := value_coords hs u (-(π / 2)) z
  have hlt := sliceInterval_lt s.par.input
  have hlo : (sliceInterval s.par.input).1 = -(π / 2) := by
    rcases ha with e | e | e <;> rw [e] <;> rfl
  have hhi : (sliceInterval s.par.input).2 = π / 2 := by
    rcases ha with e | e | e <;> rw [e] <;> rfl
  have hp := pi_pos
  have wp : (0 : ℝ) < w := by exact_mod_cast hs.1
  have fi : ⌊(u - -(π / 2)) * (w : ℝ) / (π / 2 - -(π / 2))⌋ < 0 := by
    rw [Int.floor_lt]
    push_cast
    apply div_neg_of_neg_of_pos _ (by linarith)
    nlinarith
  have fj : ⌊(-(π / 2) - -(π / 2)) * (h : ℝ) / (π / 2 - -(π / 2))⌋ = 0 := by simp
  unfold Slice.value
  simp only [c1, c2, c3, c4, b1, b2, b3, b4, hw, hh, hlo, hhi, if_pos ha]
  rw [if_neg (by
    rintro (h' | h' | h' | h') <;> linarith), fj]
  have : s.sample ((⌊(u - -(π / 2)) * (w : ℝ) / (π / 2 - -(π / 2))⌋ + 0 * w) * 1) = none := by
    unfold Slice.sample
    rw [if_neg (by rw [zero_mul, add_zero, mul_one]; omega)]
  rw [this]

/-- An object of the plugin: two columns and three lines, in the parametrization of Stark. -/
def exampleSlice : Slice := mkSlice ([] : SMap) 2 3 1 [0, 1, 2, 3, 4, 5, 6, 7, 8, 9, 10, 11, 12, 13, 14, 15, 16, 17]

theorem exampleSlice_of : SliceOf exampleSlice 2 3 :=
  ⟨by norm_num, by norm_num, [], _, by simp, rfl⟩

theorem exampleSlice_par : exampleSlice.par = ⟨2, 3, .STARK_2D, .RGB_COLOR⟩ := rfl

example : exampleSlice.get 3 = some ([3 / 4, 1 / 2] ++ [9, 10, 11]) := by
  rw [slice_get exampleSlice_of 3 (by norm_num), exampleSlice_par]
  have h : ¬ AzimuthFirst .STARK_2D := by decide
  simp only [sliceAbscissa, if_neg h, sliceInterval, cellCentre, exampleSlice, mkSlice, arr, List.getD]
  norm_num

/-- the values at a point of the domain that is not an abscissa -/
example : ∃ id < 6, ∃ u' v' : ℝ, ∃ rgb : List ℝ,
    exampleSlice.get id = some ([u', v'] ++ rgb) ∧ exampleSlice.value [7 / 10, 1 / 3] = .values rgb ∧
    |7 / 10 - u'| ≤ 1 / 4 ∧ |1 / 3 - v'| ≤ 1 / 6 := by
  have hp := exampleSlice_par
  obtain ⟨id, h1, u', v', rgb, h2, h3, _, h4, h5⟩ :=
    slice_value_nearest_partial (u := 7 / 10) (v := 1 / 3) (z := 0) exampleSlice_of
      (by rw [hp]; simp only [sliceInterval]; norm_num) (by rw [hp]; simp only [sliceInterval]; norm_num)
      (by rw [hp]; simp only [sliceInterval]; norm_num) (by rw [hp]; simp only [sliceInterval]; norm_num)
      (by rw [hp]; intro h; revert h; decide)
  rw [hp] at h2 h3 h4 h5
  have h : ¬ AzimuthFirst .STARK_2D := by decide
  simp only [sliceAbscissa, if_neg h, sliceInterval] at h2 h3 h4 h5
  refine ⟨id, h1, u', v', rgb, h2, h3, ?_, ?_⟩
  · refine h4.trans ?_; norm_num
  · refine h5.trans ?_; norm_num

/-- An object of an azimuth-first parametrization, at the azimuth −100°. -/
def projectedArgs : SMap :=
  [("param".toList, "ISOTROPIC_TL_TV_PROJ_DPHI".toList), ("phi".toList, "-100".toList)]

theorem projected_par : slicePar projectedArgs = ⟨3, 3, .ISOTROPIC_TL_TV_PROJ_DPHI, .RGB_COLOR⟩ := by
  have h1 : projectedArgs.isDefined "param".toList = true := by decide +kernel
  have h2 : parseInput (String.ofList (projectedArgs.get "param".toList)) = .ISOTROPIC_TL_TV_PROJ_DPHI := by
    decide +kernel
  have h3 : inputDim .ISOTROPIC_TL_TV_PROJ_DPHI = 3 := by decide +kernel
  unfold slicePar
  rw [if_pos h1]
  simp only [h2, h3]
  rfl

example : ∃ s : Slice, SliceOf s 1 1 ∧ s.get 0 = some ([s.phi, 0, 0] ++ [5, 6, 7]) ∧
    s.value [s.phi, 0, 0] = .junk := by
  let s := mkSlice projectedArgs 1 1 1 [5, 6, 7]
  have hs : SliceOf s 1 1 := ⟨by norm_num, by norm_num, projectedArgs, _, by simp, rfl⟩
  have hpar : s.par = ⟨3, 3, .ISOTROPIC_TL_TV_PROJ_DPHI, .RGB_COLOR⟩ := projected_par
  have ha : AzimuthFirst s.par.input := by rw [hpar]; exact Or.inl rfl
  have hphi : s.phi = (π / 180) * (-100) := by
    have h1 : projectedArgs.isDefined "param".toList = true := by decide +kernel
    have h2 : projectedArgs.getFloat "phi".toList 90 = -100 := by decide +kernel
    show (if projectedArgs.isDefined "param".toList ∧ (slicePar projectedArgs).dimX = 3 then
      (π / 180) * ((projectedArgs.getFloat "phi".toList 90 : ℚ) : ℝ) else 0.5 * π) = _
    rw [projected_par, if_pos ⟨h1, rfl⟩, h2]
    norm_num
  have hab : s.abscissa 0 = [s.phi, 0, 0] := by
    rw [slice_abscissa hs 0 (by norm_num), sliceAbscissa, if_pos ha, hpar]
    simp only [sliceInterval, cellCentre]
    norm_num
    ring
  refine ⟨s, hs, ?_, ?_⟩
  · have := slice_get hs 0 (by norm_num)
    rw [← slice_abscissa hs 0 (by norm_num), hab] at this
    exact this
  · rw [← hab]
    apply slice_low_azimuth hs ha _ 0 (by norm_num)
    rw [hphi]
    have := pi_pos
    linarith

/-- **C73.**  A slice of three coordinates whose azimuth is not given is at 90 degrees, and at the given number of degrees
    otherwise. -/
theorem slice_plane (args : SMap) (w h n : ℕ) (content : List ℝ) (h3 : (mkSlice args w h n content).par.dimX = 3) :
    (args.isDefined "phi".toList = false → (mkSlice args w h n content).phi = π / 2) ∧
    (mkSlice args w h n content).phi = (π / 180) * ((args.getFloat "phi".toList 90 : ℚ) : ℝ) := by
  have hp : args.isDefined "param".toList = true := by
    by_contra hc
    have h2 : (slicePar args).dimX = 2 := by
      unfold slicePar
      rw [if_neg hc]
    have : (slicePar args).dimX = 3 := h3
    omega
  have e : (mkSlice args w h n content).phi = (π / 180) * ((args.getFloat "phi".toList 90 : ℚ) : ℝ) := by
    unfold mkSlice
    exact if_pos ⟨hp, h3⟩
  refine ⟨fun hu => ?_, e⟩
  rw [e]
  have : args.getFloat "phi".toList 90 = 90 := by
    have hn : args.find "phi".toList = none := by simpa [SMap.isDefined] using hu
    simp only [SMap.getFloat, hn]
  rw [this]
  push_cast
  ring

end
end Alta
