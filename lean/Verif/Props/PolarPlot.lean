import Verif.Props.Brdf2Gnuplot
import Verif.Proofs.Half
import Verif.Spec.Reciprocity
/-
C68: the polar plot of a function.
-/
namespace Alta
noncomputable section
open Real

theorem polar_coordinates (inc t s az : ℝ) (h : (s = -1 ∧ az = π) ∨ (s = 1 ∧ az = 0)) :
    toCartesian .SPHERICAL_TL_PL_TV_PV (arr [inc, π, t, az]) = some (polarDirections inc (s * t)) := by
  rcases h with ⟨rfl, rfl⟩ | ⟨rfl, rfl⟩ <;> simp [toCartesian, arr, polarDirections]

/-- The conversion of a pair of spherical directions is that of the directions themselves. -/
theorem spherical_conversion (x : ℕ → ℝ) (c : Cart) (p : Input) (hp : p ≠ .SPHERICAL_TL_PL_TV_PV)
    (hc : toCartesian .SPHERICAL_TL_PL_TV_PV x = some c) :
    convertInput x .SPHERICAL_TL_PL_TV_PV p = convertInput (arr c.toList) .CARTESIAN p := by
  rw [convertInput_via_cartesian _ _ _ (Ne.symm hp)]
  have : convertInput x .SPHERICAL_TL_PL_TV_PV .CARTESIAN = some c.toList := by
    unfold convertInput
    rw [if_neg (by decide), if_neg (by decide), if_pos rfl, hc]
    rfl
  rw [this]
  rfl

/-- The function has a value for the pair of directions. -/
def Evaluable.SeenAt (g : Evaluable) (c : Cart) : Prop := ∃ y, g.reflect c = some y ∧ y.length = g.par.dimY

theorem polarLine_eq (g : Evaluable) (inc : ℝ) (N : ℕ) (s az : ℝ) (h : (s = -1 ∧ az = π) ∨ (s = 1 ∧ az = 0)) (i : ℕ)
    (hp : g.par.input ≠ .SPHERICAL_TL_PL_TV_PV) (hn : g.par.input.Named) (hd : (inputDim g.par.input).toNat = g.par.dimX)
    (hy : g.SeenAt (polarDirections inc (s * (π / 2 * ((i : ℝ) / N))))) :
    polarLine g inc N s az i = some (s * (π / 2 * ((i : ℝ) / N)) ::
      (g.reflect (polarDirections inc (s * (π / 2 * ((i : ℝ) / N))))).getD []) := by
  have e : 1 / 2 * π * (i : ℝ) / (N : ℝ) = π / 2 * ((i : ℝ) / N) := by ring
  unfold polarLine
  simp only [e]
  generalize π / 2 * ((i : ℝ) / N) = t at hy
  obtain ⟨y, hy, hl⟩ := hy
  rw [spherical_conversion _ _ _ hp (polar_coordinates inc t s az h), hy]
  unfold Evaluable.reflect at hy
  cases hx : convertInput (arr (polarDirections inc (s * t)).toList) .CARTESIAN g.par.input with
  | none => rw [hx] at hy; simp at hy
  | some x =>
    rw [hx] at hy
    have hlen := convertInput_length _ _ _ hn x hx
    rw [Option.bind_some] at hy ⊢
    rw [if_pos (by omega), hy, Option.bind_some, if_neg (by omega)]
    simp only [Option.getD_some, Option.some.injEq, List.cons.injEq, true_and]
    apply List.ext_getElem
    · simp [hl]
    intro k k1 k2
    simp [arr, k2]

/-- C68: the polar plot has one line for each signed elevation, with the values of the function for the directions
    of that elevation in the plane of incidence. -/
theorem polar_plot (g : Evaluable) (inc : ℝ) (samples : ℤ) (hp : g.par.input ≠ .SPHERICAL_TL_PL_TV_PV)
    (hn : g.par.input.Named) (hd : (inputDim g.par.input).toNat = g.par.dimX)
    (hy : ∀ t ∈ polarAngles (samples / 2).toNat, g.SeenAt (polarDirections inc t)) :
    polarPlot g inc samples = some ((polarAngles (samples / 2).toNat).map fun t =>
      t :: (g.reflect (polarDirections inc t)).getD []) := by
  have hN : (samples.tdiv 2).toNat = (samples / 2).toNat := by
    rcases le_or_gt 0 samples with h | h
    · rw [Int.tdiv_eq_ediv_of_nonneg h]
    · have h1 : samples.tdiv 2 = -((-samples).tdiv 2) := by rw [Int.neg_tdiv, neg_neg]
      have h2 : (-samples).tdiv 2 = (-samples) / 2 := Int.tdiv_eq_ediv_of_nonneg (by omega)
      rw [h2] at h1
      omega
  unfold polarPlot
  rw [hN]
  generalize (samples / 2).toNat = N at hy ⊢
  have h1 : ∀ i ∈ List.range N, polarLine g inc N (-1) π i = some (-(π / 2 * ((i : ℝ) / N)) ::
      (g.reflect (polarDirections inc (-(π / 2 * ((i : ℝ) / N))))).getD []) := by
    intro i hi
    have := polarLine_eq g inc N (-1) π (Or.inl ⟨rfl, rfl⟩) i hp hn hd (by
      rw [neg_one_mul]
      refine hy _ (List.mem_append_left _ (List.mem_map.2 ⟨i, hi, rfl⟩)))
    rwa [neg_one_mul] at this
  have h2 : ∀ i ∈ List.range N, polarLine g inc N 1 0 i = some (π / 2 * ((i : ℝ) / N) ::
      (g.reflect (polarDirections inc (π / 2 * ((i : ℝ) / N)))).getD []) := by
    intro i hi
    have := polarLine_eq g inc N 1 0 (Or.inr ⟨rfl, rfl⟩) i hp hn hd (by
      rw [one_mul]
      refine hy _ (List.mem_append_right _ (List.mem_map.2 ⟨i, hi, rfl⟩)))
    rwa [one_mul] at this
  simp only []
  rw [mapM_eq_map _ _ _ h1, Option.bind_some, mapM_eq_map _ _ _ h2]
  simp [polarAngles, List.map_append, List.map_map, Function.comp_def]

/-- C68: a function of the spherical coordinates themselves receives the four angles, the azimuths being 0 or π. -/
theorem polar_plot_spherical (g : Evaluable) (inc : ℝ) (samples : ℤ) (hp : g.par.input = .SPHERICAL_TL_PL_TV_PV)
    (hd : g.par.dimX = 4) (val : List ℝ → List ℝ)
    (hv : ∀ x, x.length = 4 → g.value x = some (val x) ∧ (val x).length = g.par.dimY) :
    ∃ lines, polarPlot g inc samples = some lines ∧ lines.length = 2 * (samples.tdiv 2).toNat ∧
      ∀ i < (samples.tdiv 2).toNat,
        lines[i]? = some (-(π / 2 * ((i : ℝ) / (samples.tdiv 2).toNat)) ::
          val [inc, π, π / 2 * ((i : ℝ) / (samples.tdiv 2).toNat), π]) ∧
        lines[(samples.tdiv 2).toNat + i]? = some (π / 2 * ((i : ℝ) / (samples.tdiv 2).toNat) ::
          val [inc, π, π / 2 * ((i : ℝ) / (samples.tdiv 2).toNat), 0]) := by
  unfold polarPlot
  generalize (samples.tdiv 2).toNat = N
  have key : ∀ (s az : ℝ) (i : ℕ), polarLine g inc N s az i =
      some (s * (π / 2 * ((i : ℝ) / N)) :: val [inc, π, π / 2 * ((i : ℝ) / N), az]) := by
    intro s az i
    have e : 1 / 2 * π * (i : ℝ) / (N : ℝ) = π / 2 * ((i : ℝ) / N) := by ring
    unfold polarLine
    simp only [e]
    generalize π / 2 * ((i : ℝ) / N) = t
    have hx : convertInput (arr [inc, π, t, az]) .SPHERICAL_TL_PL_TV_PV g.par.input = some [inc, π, t, az] := by
      rw [hp]
      unfold convertInput
      rw [if_pos rfl]
      have hdim : (inputDim .SPHERICAL_TL_PL_TV_PV).toNat = 4 := by decide +kernel
      rw [hdim]
      simp [arr, List.range_succ]
    rw [hx, Option.bind_some, if_pos (by rw [hd]; rfl), (hv _ rfl).1, Option.bind_some,
      if_neg (by rw [(hv _ rfl).2]; omega)]
    simp only [Option.some.injEq, List.cons.injEq, true_and]
    apply List.ext_getElem
    · simp [(hv [inc, π, t, az] rfl).2]
    intro k k1 k2
    simp [arr, k2]
  simp only []
  rw [mapM_eq_map _ _ _ (fun i _ => key (-1) π i), Option.bind_some, mapM_eq_map _ _ _ (fun i _ => key 1 0 i)]
  refine ⟨_, rfl, by simp; ring, ?_⟩
  intro i hi
  constructor
  · rw [List.getElem?_append_left (by simpa using hi)]
    simp [hi]
  · rw [List.getElem?_append_right (by simp)]
    simp [hi]

/-- C68: the polar plot is in the plane of incidence, from the grazing direction on the side of the light (excluded)
    to the opposite one (excluded), the normal is seen twice; the light is seen from its own direction at `-inc` and
    from the mirror one at `inc`. -/
theorem polar_directions (inc : ℝ) (h0 : 0 ≤ inc) (h1 : inc ≤ π / 2) (n : ℕ) :
    (∀ t ∈ polarAngles n, -(π / 2) < t ∧ t < π / 2 ∧ (polarDirections inc t).Above ∧ (polarDirections inc t).v.y = 0) ∧
    (polarAngles n).length = 2 * n ∧
    (polarDirections inc (-inc)).v = (polarDirections inc (-inc)).l ∧
    (polarDirections inc inc).v = ⟨-(polarDirections inc inc).l.x, -(polarDirections inc inc).l.y,
      (polarDirections inc inc).l.z⟩ := by
  have hb : ∀ i ∈ List.range n, 0 ≤ π / 2 * ((i : ℝ) / n) ∧ π / 2 * ((i : ℝ) / n) < π / 2 := by
    intro i hi
    have hi := List.mem_range.1 hi
    have hn : (0 : ℝ) < n := by exact_mod_cast lt_of_le_of_lt (Nat.zero_le i) hi
    have hq : (i : ℝ) / n < 1 := by rw [div_lt_one hn]; exact_mod_cast hi
    have hq0 : 0 ≤ (i : ℝ) / n := by positivity
    constructor
    · positivity
    · nlinarith [pi_pos]
  have above : ∀ t, -(π / 2) < t → t < π / 2 → (polarDirections inc t).Above := by
    intro t k1 k2
    refine ⟨⟨?_, ?_⟩, ?_, ?_⟩
    · simp only [V3.IsUnit, polarDirections]; nlinarith [sin_sq_add_cos_sq t]
    · simp only [V3.IsUnit, polarDirections]; nlinarith [sin_sq_add_cos_sq inc]
    · exact cos_nonneg_of_neg_pi_div_two_le_of_le k1.le k2.le
    · exact cos_nonneg_of_neg_pi_div_two_le_of_le (by linarith [pi_pos]) h1
  refine ⟨?_, by simp [polarAngles]; ring, ?_, ?_⟩
  · intro t ht
    have : -(π / 2) < t ∧ t < π / 2 := by
      rcases List.mem_append.1 ht with ht | ht
      · obtain ⟨i, hi, rfl⟩ := List.mem_map.1 ht
        obtain ⟨k1, k2⟩ := hb i hi
        constructor <;> linarith [pi_pos]
      · obtain ⟨i, hi, rfl⟩ := List.mem_map.1 ht
        obtain ⟨k1, k2⟩ := hb i hi
        constructor <;> linarith [pi_pos]
    exact ⟨this.1, this.2, above t this.1 this.2, rfl⟩
  · simp [polarDirections]
  · simp [polarDirections]

/-- C68, limit of the code: an odd number of samples gives one line less, and one sample none. -/
theorem polar_plot_odd (g : Evaluable) (inc : ℝ) (k : ℕ) (lines : List (List ℝ))
    (h : polarPlot g inc (2 * k + 1) = some lines) : lines.length = 2 * k := by
  have hN : ((2 * (k : ℤ) + 1).tdiv 2).toNat = k := by
    rw [Int.tdiv_eq_ediv_of_nonneg (by omega)]
    omega
  unfold polarPlot at h
  simp only [hN] at h
  cases e1 : (List.range k).mapM (polarLine g inc k (-1) π) with
  | none => rw [e1] at h; simp at h
  | some a =>
    rw [e1, Option.bind_some] at h
    cases e2 : (List.range k).mapM (polarLine g inc k 1 0) with
    | none => rw [e2] at h; simp at h
    | some b =>
      rw [e2] at h
      simp only [Option.map_some, Option.some.injEq] at h
      have len : ∀ (l : List ℕ) (f : ℕ → Option (List ℝ)) (r : List (List ℝ)), l.mapM f = some r → r.length = l.length := by
        intro l f
        induction l with
        | nil => intro r hr; simp at hr; simp [← hr]
        | cons x l ih =>
          intro r hr
          rw [List.mapM_cons] at hr
          cases hx : f x with
          | none => rw [hx] at hr; simp at hr
          | some y =>
            cases hl : l.mapM f with
            | none => rw [hx, hl] at hr; simp at hr
            | some ys =>
              rw [hx, hl] at hr
              simp at hr
              rw [← hr]
              simp [ih ys hl]
      rw [← h, List.length_append, len _ _ _ e1, len _ _ _ e2]
      simp
      ring

/-- C68, limit of the code: the polar plot of a function without a parametrization ends the program, where the plot
    of a data set copies the coordinates. -/
theorem polar_plot_unknown (g : Evaluable) (inc : ℝ) (samples : ℤ) (hg : g.par.input = .UNKNOWN_INPUT) (hs : 2 ≤ samples) :
    polarPlot g inc samples = none := by
  have hN : 1 ≤ (samples.tdiv 2).toNat := by
    rw [Int.tdiv_eq_ediv_of_nonneg (by omega)]
    omega
  unfold polarPlot
  obtain ⟨m, hm⟩ : ∃ m, (samples.tdiv 2).toNat = m + 1 := ⟨_, (Nat.sub_add_cancel hN).symm⟩
  have h0 : polarLine g inc (m + 1) (-1) π 0 = none := by
    unfold polarLine
    simp only []
    rw [hg]
    have : ∀ x : ℕ → ℝ, convertInput x .SPHERICAL_TL_PL_TV_PV .UNKNOWN_INPUT = none := by
      intro x
      simp [convertInput, toCartesian, fromCartesian, fromCartesianSwitch]
    rw [this]
    rfl
  simp only [hm]
  rw [List.range_succ_eq_map, List.mapM_cons, h0]
  rfl

/-- A Lambertian function, on the two directions. -/
def flatFn : Evaluable := ⟨⟨6, 1, .CARTESIAN, .INV_STERADIAN⟩, fun _ => some [1]⟩

/-- The hypotheses of `polar_plot` are met. -/
example : polarPlot flatFn 0 4 =
    some [[0, 1], [-(π / 4), 1], [0, 1], [π / 4, 1]] := by
  have hseen : ∀ t : ℝ, -(π / 2) < t → t < π / 2 → flatFn.reflect (polarDirections 0 t) = some [1] := by
    intro t h1 h2
    have e : convertInput (arr (polarDirections 0 t).toList) .CARTESIAN .CARTESIAN = some (polarDirections 0 t).toList := by
      unfold convertInput
      rw [if_pos rfl]
      have hdim : (inputDim .CARTESIAN).toNat = 6 := by decide +kernel
      rw [hdim]
      simp [arr, Cart.toList, List.range_succ]
    have e' : flatFn.par.input = .CARTESIAN := rfl
    unfold Evaluable.reflect
    rw [e', e]
    rfl
  have hall := (polar_directions 0 le_rfl (by positivity) 2).1
  have h := polar_plot flatFn 0 4 (by decide) (by unfold Input.Named; decide) (by decide +kernel) (by
    intro t ht
    obtain ⟨h1, h2, -⟩ := hall t ht
    exact ⟨[1], hseen t h1 h2, rfl⟩)
  rw [h]
  have e2 : ((4 : ℤ) / 2).toNat = 2 := by decide
  rw [e2]
  have hm : (polarAngles 2).map (fun t => t :: (flatFn.reflect (polarDirections 0 t)).getD []) =
      (polarAngles 2).map fun t => [t, 1] := by
    refine List.map_congr_left fun t ht => ?_
    obtain ⟨h1, h2, -⟩ := hall t ht
    rw [hseen t h1 h2]
    rfl
  rw [hm]
  have e4 : π / 2 * (1 / 2) = π / 4 := by ring
  simp [polarAngles, List.range_succ]
  ring_nf

end
end Alta
