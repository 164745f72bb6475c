import Verif.Props.Data2StatsRun
import Verif.Props.Merl
import Verif.Props.GeomRoundTrip
/-
C80: a MERL file compared with itself.
-/
namespace Alta
noncomputable section
open Real

/-- The coordinates of RUSIN_TH_TD_PD survive the conversion to the directions and back. -/
theorem RUSIN_TH_TD_PD_coordinates (th td pd : ℝ) (hth : 0 ≤ th) (hth' : th ≤ π / 2) (htd : 0 ≤ td) (htd' : td < π / 2)
    (hpd : pd ∈ Set.Ioc (-π) π) (htol : cos td ≤ 1 - 1e-14) :
    ∃ c, toCartesian .RUSIN_TH_TD_PD (arr [th, td, pd]) = some c ∧ fromCartesian c .RUSIN_TH_TD_PD = some [th, td, pd] := by
  refine ⟨_, rfl, ?_⟩
  simp only [arr, List.getD_cons_zero, List.getD_cons_succ]
  have hctd : 0 < cos td := cos_pos_of_mem_Ioo ⟨by linarith [pi_pos], htd'⟩
  have hcth : 0 ≤ cos th := cos_nonneg_of_mem_Icc ⟨by linarith [pi_pos], hth'⟩
  obtain ⟨-, ⟨gx, gy, gz⟩, -, -⟩ := halfToCartesian_geometry th 0 td pd
  have hzz : (sph th 0).z = cos th := rfl
  rw [fromCartesian_eq _ _ (by rw [gz, hzz]; positivity)]
  have hpi := pi_pos
  have h1 : arccos (sph th 0).z = th := arccos_sph 0 hth (by linarith)
  have h2 : atan2 (sph th 0).y (sph th 0).x = 0 := atan2_sph hth (by linarith) ⟨by linarith, by linarith⟩ (fun _ => rfl)
  have hh := halfVector_recovered th 0 td pd hctd
  obtain ⟨-, hA2⟩ := rusin3_switch (halfToCartesian th 0 td pd) th 0 (sph td pd)
    (by rw [hh, h1]) (by rw [hh, h2]) (halfToCartesian_frame th 0 td pd)
  have hal := alongsideZ_iff (sph td pd) (sph_isUnit td pd) hctd.le
  have hne : td ≠ 0 := by rintro rfl; rw [cos_zero] at htol; norm_num at htol
  rw [hA2 (by rw [hal]; exact not_lt.2 htol), arccos_sph pd htd (by linarith),
    atan2_sph htd (by linarith) hpd (fun h => absurd h hne)]

/-- The centres of the cells are far from the pole. -/
theorem cos_centre (kd : ℕ) (h : kd < 90) : cos (((kd : ℝ) + 1 / 2) / 90 * (π / 2)) ≤ 1 - 1e-14 := by
  have hpi := pi_gt_three
  have hpi4 := pi_le_four
  have r : (kd : ℝ) + 1 ≤ 90 := by exact_mod_cast h
  set t := ((kd : ℝ) + 1 / 2) / 90 * (π / 2) with ht
  have hk : (0 : ℝ) ≤ kd := Nat.cast_nonneg _
  have h0 : 1 / 180 * (3 / 2) ≤ t := by
    rw [ht]
    apply mul_le_mul <;> linarith
  have h1 : t ≤ π / 2 := by
    rw [ht]
    have : ((kd : ℝ) + 1 / 2) / 90 ≤ 1 := by linarith
    nlinarith
  have h2 : |t| ≤ π := by rw [abs_of_nonneg (by linarith)]; linarith
  have h3 : cos t ≤ 1 - 2 / π ^ 2 * t ^ 2 := Real.cos_le_one_sub_mul_cos_sq h2
  have h4 : (2 : ℝ) / 16 ≤ 2 / π ^ 2 := by
    apply div_le_div_of_nonneg_left (by norm_num) (by positivity)
    nlinarith
  have h5 : (1 / 180 * (3 / 2)) ^ 2 ≤ t ^ 2 := by
    apply pow_le_pow_left₀ (by norm_num) h0
  have h6 : (2 : ℝ) / 16 * (1 / 180 * (3 / 2)) ^ 2 ≤ 2 / π ^ 2 * t ^ 2 := by
    apply mul_le_mul h4 h5 (by positivity) (by positivity)
  have : (1e-14 : ℝ) ≤ 2 / 16 * (1 / 180 * (3 / 2)) ^ 2 := by norm_num
  linarith

/-- The abscissa of a cell: its centre. -/
def merlCentre (kh kd kp : ℕ) : List ℝ :=
  [((kh : ℝ) + 1 / 2) ^ 2 / 90 ^ 2 * (π / 2), ((kd : ℝ) + 1 / 2) / 90 * (π / 2), ((kp : ℝ) + 1 / 2) / 180 * π]

/-- What `value` gives for the sample `i`: black if a channel is negative. -/
def merlShown (brdf : List ℝ) (i : ℕ) : List ℝ :=
  if ∃ c ∈ merlColour brdf i, c < 0 then [0, 0, 0] else merlColour brdf i

theorem merlCentre_convert (kh kd kp : ℕ) (h1 : kh < 90) (h2 : kd < 90) (h3 : kp < 180) :
    ∃ cart, convertInput (arr (merlCentre kh kd kp)) .RUSIN_TH_TD_PD .CARTESIAN = some cart ∧
      convertInput (arr cart) .CARTESIAN .RUSIN_TH_TD_PD = some (merlCentre kh kd kp) ∧ ¬ (arr cart 2 < 0 ∧ arr cart 5 < 0) := by
  have hpi := pi_pos
  have r1 : (kh : ℝ) + 1 ≤ 90 := by exact_mod_cast h1
  have r2 : (kd : ℝ) + 1 ≤ 90 := by exact_mod_cast h2
  have r3 : (kp : ℝ) + 1 ≤ 180 := by exact_mod_cast h3
  have n1 : (0 : ℝ) ≤ kh := Nat.cast_nonneg _
  have n2 : (0 : ℝ) ≤ kd := Nat.cast_nonneg _
  have n3 : (0 : ℝ) ≤ kp := Nat.cast_nonneg _
  have hth : ((kh : ℝ) + 1 / 2) ^ 2 / 90 ^ 2 < 1 := by
    rw [div_lt_one (by norm_num)]
    exact pow_lt_pow_left₀ (by linarith) (by linarith) (by norm_num)
  have htd : ((kd : ℝ) + 1 / 2) / 90 < 1 := by rw [div_lt_one (by norm_num)]; linarith
  have hpd : ((kp : ℝ) + 1 / 2) / 180 < 1 := by rw [div_lt_one (by norm_num)]; linarith
  have p2 : 0 < π / 2 := by positivity
  have a1 : ((kh : ℝ) + 1 / 2) ^ 2 / 90 ^ 2 * (π / 2) < π / 2 := by nlinarith
  have a2 : ((kd : ℝ) + 1 / 2) / 90 * (π / 2) < π / 2 := by nlinarith
  have a3 : ((kp : ℝ) + 1 / 2) / 180 * π < π := by nlinarith
  have b3 : 0 < ((kp : ℝ) + 1 / 2) / 180 * π := by positivity
  obtain ⟨c, e1, e2⟩ := RUSIN_TH_TD_PD_coordinates (((kh : ℝ) + 1 / 2) ^ 2 / 90 ^ 2 * (π / 2)) (((kd : ℝ) + 1 / 2) / 90 * (π / 2))
    (((kp : ℝ) + 1 / 2) / 180 * π) (by positivity) a1.le (by positivity) a2 ⟨by linarith, a3.le⟩ (cos_centre kd h2)
  have key : Cart.ofFun (arr c.toList) = c := by simp [Cart.ofFun, arr, Cart.toList]
  refine ⟨c.toList, ?_, ?_, ?_⟩
  · unfold convertInput
    rw [if_neg (by decide), if_neg (by decide), if_pos rfl]
    unfold merlCentre
    rw [e1]; rfl
  · unfold convertInput
    rw [if_neg (by decide), if_pos rfl, key, e2]
    rfl
  · have hc : c = halfToCartesian (((kh : ℝ) + 1 / 2) ^ 2 / 90 ^ 2 * (π / 2)) 0 (((kd : ℝ) + 1 / 2) / 90 * (π / 2))
        (((kp : ℝ) + 1 / 2) / 180 * π) := (Option.some.inj e1).symm
    obtain ⟨-, ⟨gx, gy, gz⟩, -, -⟩ := halfToCartesian_geometry (((kh : ℝ) + 1 / 2) ^ 2 / 90 ^ 2 * (π / 2)) 0
      (((kd : ℝ) + 1 / 2) / 90 * (π / 2)) (((kp : ℝ) + 1 / 2) / 180 * π)
    rw [← hc] at gz
    have hz : 0 ≤ c.v.z + c.l.z := by
      rw [gz]
      have u1 : 0 ≤ cos (((kd : ℝ) + 1 / 2) / 90 * (π / 2)) := cos_nonneg_of_mem_Icc ⟨by linarith [show 0 ≤ ((kd : ℝ) + 1 / 2) / 90 * (π / 2) by positivity], a2.le⟩
      have u2 : 0 ≤ (sph (((kh : ℝ) + 1 / 2) ^ 2 / 90 ^ 2 * (π / 2)) 0).z :=
        cos_nonneg_of_mem_Icc ⟨by linarith [show 0 ≤ ((kh : ℝ) + 1 / 2) ^ 2 / 90 ^ 2 * (π / 2) by positivity], a1.le⟩
      positivity
    have v2 : arr c.toList 2 = c.v.z := rfl
    have v5 : arr c.toList 5 = c.l.z := rfl
    rw [v2, v5]
    rintro ⟨x, y⟩
    linarith

theorem merl_shown (brdf : List ℝ) (hb : brdf.length = 3 * merlSize) (kh kd kp : ℕ) (h1 : kh < 90) (h2 : kd < 90) (h3 : kp < 180) :
    merlValue brdf (merlCentre kh kd kp) = some (merlShown brdf (merlCell kh kd kp)) := by
  have hpi := pi_pos
  have r1 : (kh : ℝ) + 1 ≤ 90 := by exact_mod_cast h1
  have r2 : (kd : ℝ) + 1 ≤ 90 := by exact_mod_cast h2
  have r3 : (kp : ℝ) + 1 ≤ 180 := by exact_mod_cast h3
  have n1 : (0 : ℝ) ≤ kh := Nat.cast_nonneg _
  have n2 : (0 : ℝ) ≤ kd := Nat.cast_nonneg _
  have n3 : (0 : ℝ) ≤ kp := Nat.cast_nonneg _
  have p2 : 0 < π / 2 := by positivity
  have hth : ((kh : ℝ) + 1 / 2) ^ 2 / 90 ^ 2 ≤ 1 := by
    rw [div_le_one (by norm_num)]
    exact pow_le_pow_left₀ (by linarith) (by linarith) _
  have htd : ((kd : ℝ) + 1 / 2) / 90 ≤ 1 := by rw [div_le_one (by norm_num)]; linarith
  have hpd : ((kp : ℝ) + 1 / 2) / 180 ≤ 1 := by rw [div_le_one (by norm_num)]; linarith
  have b3 : 0 ≤ ((kp : ℝ) + 1 / 2) / 180 * π := by positivity
  have a3 : ((kp : ℝ) + 1 / 2) / 180 * π ≤ π := by nlinarith
  obtain ⟨v, e, -, hv⟩ := merl_value brdf hb (((kh : ℝ) + 1 / 2) ^ 2 / 90 ^ 2 * (π / 2)) (((kd : ℝ) + 1 / 2) / 90 * (π / 2))
    (((kp : ℝ) + 1 / 2) / 180 * π)
  obtain ⟨kh', kd', kp', g1, g2, g3, g4, g5⟩ := hv (by positivity) (by nlinarith) (by positivity) (by nlinarith)
    (by rw [abs_of_nonneg b3]; linarith)
  have hf : foldPhi (((kp : ℝ) + 1 / 2) / 180 * π) = ((kp : ℝ) + 1 / 2) / 180 * π := by
    unfold foldPhi
    rw [abs_of_nonneg b3]
    split
    · linarith
    · rfl
  rw [hf] at g4
  obtain ⟨rfl, rfl, rfl⟩ := cell_of_centre kh kd kp kh' kd' kp' g4
  unfold merlCentre merlShown
  rw [e, g5]

theorem ref_rows (d : DataObj) : d.ref.rows = d.rows := rfl

theorem merlObj_rows (brdf : List ℝ) : (merlObj brdf).rows = (List.range merlSize).map fun i => (merlGet brdf i).getD [] := by
  simp only [merlObj]

theorem merlObj_row (brdf : List ℝ) (hb : brdf.length = 3 * merlSize) (row : List ℝ) (hr : row ∈ (merlObj brdf).rows) :
    ∃ kh kd kp, kh < 90 ∧ kd < 90 ∧ kp < 180 ∧ row = merlCentre kh kd kp ++ merlColour brdf (merlCell kh kd kp) := by
  rw [merlObj_rows] at hr
  obtain ⟨i, hi, rfl⟩ := List.mem_map.1 hr
  obtain ⟨kh, kd, kp, h1, h2, h3, rfl, -⟩ := merl_cells i (List.mem_range.1 hi)
  refine ⟨kh, kd, kp, h1, h2, h3, ?_⟩
  rw [merl_get brdf hb kh kd kp h1 h2 h3]
  rfl

theorem merlShown_length (brdf : List ℝ) (i : ℕ) : (merlShown brdf i).length = 3 := by
  unfold merlShown
  split <;> rfl

/-- **C80.**  Two MERL files can be compared, whatever they contain. -/
theorem merl_comparable (a b : List ℝ) (ha : a.length = 3 * merlSize) (hb : b.length = 3 * merlSize) :
    Comparable (merlObj a).inp (merlObj b).ref := by
  refine ⟨?_, ?_, ?_⟩
  · intro row hr
    obtain ⟨kh, kd, kp, -, -, -, rfl⟩ := merlObj_row b hb row (by rw [ref_rows] at hr; exact hr)
    rfl
  · intro row hr
    obtain ⟨kh, kd, kp, h1, h2, h3, rfl⟩ := merlObj_row b hb row (by rw [ref_rows] at hr; exact hr)
    obtain ⟨cart, e, -⟩ := merlCentre_convert kh kd kp h1 h2 h3
    show (convertInput (arr (merlCentre kh kd kp)) .RUSIN_TH_TD_PD .CARTESIAN).isSome = true
    rw [e]; rfl
  · intro row hr cart hc _
    obtain ⟨kh, kd, kp, h1, h2, h3, rfl⟩ := merlObj_row b hb row (by rw [ref_rows] at hr; exact hr)
    obtain ⟨cart', e1, e2, -⟩ := merlCentre_convert kh kd kp h1 h2 h3
    have hc' : convertInput (arr (merlCentre kh kd kp)) .RUSIN_TH_TD_PD .CARTESIAN = some cart := hc
    rw [e1] at hc'
    cases hc'
    refine ⟨_, e2, ?_⟩
    show ((merlValue a (merlCentre kh kd kp)).getD []).length = 3
    rw [merl_shown a ha kh kd kp h1 h2 h3]
    exact merlShown_length _ _

theorem errorAt_converted (inp : InpData) (ref : RefData) (row : List ℝ) (c : ℕ) (cart x : List ℝ)
    (h1 : convertInput (arr (row.take ref.nX)) ref.input .CARTESIAN = some cart)
    (h2 : convertInput (arr cart) .CARTESIAN inp.input = some x) (h3 : ¬ (arr cart 2 < 0 ∧ arr cart 5 < 0)) :
    errorAt inp ref row c = arr (inp.value x) c - arr row (ref.nX + c) := by
  unfold errorAt
  simp only [h1, h2, Option.getD_some]
  rw [if_neg h3]

theorem merl_error_cell (inp : InpData) (ref : RefData) (hx : ref.nX = 3) (hr : ref.input = .RUSIN_TH_TD_PD)
    (hi : inp.input = .RUSIN_TH_TD_PD) (kh kd kp : ℕ) (h1 : kh < 90) (h2 : kd < 90) (h3 : kp < 180) (v col : List ℝ)
    (hv : inp.value (merlCentre kh kd kp) = v) (c : ℕ) :
    errorAt inp ref (merlCentre kh kd kp ++ col) c = arr v c - arr col c := by
  obtain ⟨cart, e1, e2, e3⟩ := merlCentre_convert kh kd kp h1 h2 h3
  have ht : (merlCentre kh kd kp ++ col).take ref.nX = merlCentre kh kd kp := by rw [hx]; rfl
  rw [errorAt_converted inp ref _ c cart (merlCentre kh kd kp) (by rw [ht, hr]; exact e1) (by rw [hi]; exact e2) e3, hv, hx]
  congr 1
  simp [arr, merlCentre, Nat.add_comm 3 c]

/-- **C80.**  The errors between two MERL files: for each cell, the difference of the stored colours, except that a
    colour with a negative channel counts as black in the input (and not in the reference). -/
theorem merl_errors (a b : List ℝ) (ha : a.length = 3 * merlSize) (hb : b.length = 3 * merlSize) (c : ℕ) :
    errorsOf (merlObj a).inp (merlObj b).ref c =
      (List.range merlSize).map fun i => arr (merlShown a i) c - arr (merlColour b i) c := by
  unfold errorsOf
  rw [ref_rows, merlObj_rows, List.map_map]
  apply List.map_congr_left
  intro i hi
  obtain ⟨kh, kd, kp, h1, h2, h3, rfl, -⟩ := merl_cells i (List.mem_range.1 hi)
  simp only [Function.comp]
  rw [merl_get b hb kh kd kp h1 h2 h3, Option.getD_some]
  have hv : (merlObj a).inp.value (merlCentre kh kd kp) = merlShown a (merlCell kh kd kp) := by
    show (merlValue a (merlCentre kh kd kp)).getD [] = _
    rw [merl_shown a ha kh kd kp h1 h2 h3, Option.getD_some]
  exact merl_error_cell (merlObj a).inp (merlObj b).ref rfl rfl rfl kh kd kp h1 h2 h3 _ _ hv c

/-- **C80.**  A MERL file compared with itself: no error when no channel is negative. -/
theorem merl_self (brdf : List ℝ) (hb : brdf.length = 3 * merlSize) (hpos : ∀ i < merlSize, ∀ x ∈ merlColour brdf i, 0 ≤ x) (c : ℕ) :
    ∀ e ∈ errorsOf (merlObj brdf).inp (merlObj brdf).ref c, e = 0 := by
  rw [merl_errors brdf brdf hb hb c]
  intro e he
  obtain ⟨i, hi, rfl⟩ := List.mem_map.1 he
  have : merlShown brdf i = merlColour brdf i := by
    unfold merlShown
    rw [if_neg]
    rintro ⟨x, hx, h⟩
    exact absurd (hpos i (List.mem_range.1 hi) x hx) (not_le.2 h)
  rw [this, sub_self]

/-- Limit of C80: a MERL file with a negative channel is not at distance 0 of itself: the sample counts as its whole
    colour. -/
theorem merl_self_negative (brdf : List ℝ) (hb : brdf.length = 3 * merlSize) (i : ℕ) (hi : i < merlSize)
    (hneg : ∃ x ∈ merlColour brdf i, x < 0) (c : ℕ) (hc : c < 3) :
    (errorsOf (merlObj brdf).inp (merlObj brdf).ref c)[i]? = some (-arr (merlColour brdf i) c) := by
  rw [merl_errors brdf brdf hb hb c, List.getElem?_map, List.getElem?_range hi, Option.map_some]
  congr 1
  have : merlShown brdf i = [0, 0, 0] := by unfold merlShown; rw [if_pos hneg]
  rw [this]
  have : arr [(0 : ℝ), 0, 0] c = 0 := by
    have : c = 0 ∨ c = 1 ∨ c = 2 := by omega
    rcases this with rfl | rfl | rfl <;> rfl
  rw [this, zero_sub]

end
end Alta
