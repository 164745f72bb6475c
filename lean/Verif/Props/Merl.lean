import Verif.Model.Merl
import Verif.Props.Binary
import Mathlib.Tactic.Linarith
import Mathlib.Tactic.Ring
import Mathlib.Tactic.FieldSimp
import Mathlib.Tactic.Positivity
import Mathlib.Algebra.Order.Floor.Ring
/-
Property C43: the table of the MERL plugin.
-/
namespace Alta
noncomputable section

/-! ### Specification: the cells of the table -/

/-- The sample number of the cell (theta_h, theta_d, phi_d). -/
def merlCell (kh kd kp : ℕ) : ℕ := (kh * 90 + kd) * 180 + kp

/-- Each cell is a product of three intervals; the limits in theta_h are quadratic. -/
def InCell (kh kd kp : ℕ) (thetaH thetaD phiD : ℝ) : Prop :=
  (kh : ℝ) ^ 2 / 90 ^ 2 * (Real.pi / 2) ≤ thetaH ∧ thetaH ≤ ((kh : ℝ) + 1) ^ 2 / 90 ^ 2 * (Real.pi / 2) ∧
  (kd : ℝ) / 90 * (Real.pi / 2) ≤ thetaD ∧ thetaD ≤ ((kd : ℝ) + 1) / 90 * (Real.pi / 2) ∧
  (kp : ℝ) / 180 * Real.pi ≤ phiD ∧ phiD ≤ ((kp : ℝ) + 1) / 180 * Real.pi

/-- The colour of the sample `i` of a table. -/
def merlColour (brdf : List ℝ) (i : ℕ) : List ℝ :=
  [arr brdf i * (1 / 1500), arr brdf (i + merlSize) * (115 / 150000), arr brdf (i + 2 * merlSize) * (166 / 150000)]

theorem merlColour_eq (brdf : List ℝ) (i : ℕ) : merlColour brdf i =
    [arr brdf i * redScale, arr brdf (i + merlSize) * greenScale, arr brdf (i + 2 * merlSize) * blueScale] := by
  have h1 : redScale = 1 / 1500 := by norm_num [redScale]
  have h2 : greenScale = 115 / 150000 := by norm_num [greenScale]
  have h3 : blueScale = 166 / 150000 := by norm_num [blueScale]
  rw [h1, h2, h3, merlColour]

/-! ### Indices -/

theorem merlSize_eq : merlSize = 1458000 := by decide

/-- C43: the samples are numbered by the cells, one to one. -/
theorem merl_cells (i : ℕ) (h : i < merlSize) :
    ∃ kh kd kp, kh < 90 ∧ kd < 90 ∧ kp < 180 ∧ merlCell kh kd kp = i ∧
      ∀ kh' kd' kp', kd' < 90 → kp' < 180 → merlCell kh' kd' kp' = i → kh' = kh ∧ kd' = kd ∧ kp' = kp := by
  rw [merlSize_eq] at h
  refine ⟨i / (180 * 90), i / 180 % 90, i % 180, by omega, by omega, by omega, by unfold merlCell; omega, ?_⟩
  intro kh' kd' kp' h1 h2 h3
  unfold merlCell at h3
  omega

theorem merlCell_lt (kh kd kp : ℕ) (h1 : kh < 90) (h2 : kd < 90) (h3 : kp < 180) : merlCell kh kd kp < merlSize := by
  rw [merlSize_eq]; unfold merlCell; omega

theorem cint_nonneg (x : ℝ) (h : 0 ≤ x) : ∃ n : ℕ, cint x = n ∧ (n : ℝ) ≤ x ∧ x < n + 1 := by
  refine ⟨⌊x⌋.toNat, ?_, ?_, ?_⟩
  · rw [cint, if_pos h, Int.toNat_of_nonneg (Int.floor_nonneg.2 h)]
  · have : ((⌊x⌋.toNat : ℤ) : ℝ) ≤ x := by
      rw [Int.toNat_of_nonneg (Int.floor_nonneg.2 h)]; exact Int.floor_le x
    exact_mod_cast this
  · have : x < ((⌊x⌋.toNat : ℤ) : ℝ) + 1 := by
      rw [Int.toNat_of_nonneg (Int.floor_nonneg.2 h)]; exact Int.lt_floor_add_one x
    exact_mod_cast this

theorem thetaDiffIndex_spec (t : ℝ) (h0 : 0 ≤ t) (h1 : t ≤ Real.pi / 2) : ∃ k : ℕ, thetaDiffIndex t = k ∧ k < 90 ∧
    (k : ℝ) / 90 * (Real.pi / 2) ≤ t ∧ t ≤ ((k : ℝ) + 1) / 90 * (Real.pi / 2) := by
  have hpi := Real.pi_pos
  obtain ⟨n, e, l, u⟩ := cint_nonneg (t / (Real.pi * 0.5) * 90) (by positivity)
  have hx : t = t / (Real.pi * 0.5) * 90 * (Real.pi / 180) := by field_simp; ring
  unfold thetaDiffIndex
  simp only [e]
  generalize t / (Real.pi * 0.5) * 90 = x at e l u hx
  rw [if_neg (by omega)]
  by_cases hn : (n : ℤ) < 90 - 1
  · rw [if_pos hn]
    refine ⟨n, rfl, by omega, ?_, ?_⟩
    · rw [hx]; nlinarith
    · rw [hx]; nlinarith
  · rw [if_neg hn]
    have hn' : (89 : ℝ) ≤ n := by exact_mod_cast (by omega : 89 ≤ n)
    refine ⟨89, by norm_num, by norm_num, ?_, ?_⟩
    · rw [hx]; push_cast; nlinarith
    · push_cast; linarith

theorem phiDiffIndex_spec (t : ℝ) (h0 : 0 ≤ t) (h1 : t ≤ Real.pi) : ∃ k : ℕ, phiDiffIndex t = k ∧ k < 180 ∧
    (k : ℝ) / 180 * Real.pi ≤ t ∧ t ≤ ((k : ℝ) + 1) / 180 * Real.pi := by
  have hpi := Real.pi_pos
  obtain ⟨n, e, l, u⟩ := cint_nonneg (t / Real.pi * 360 / 2) (by positivity)
  have hx : t = t / Real.pi * 360 / 2 * (Real.pi / 180) := by field_simp; ring
  unfold phiDiffIndex
  simp only [if_neg (not_lt.2 h0), e]
  generalize t / Real.pi * 360 / 2 = x at e l u hx
  rw [if_neg (by omega)]
  by_cases hn : (n : ℤ) < 360 / 2 - 1
  · rw [if_pos hn]
    refine ⟨n, rfl, by omega, ?_, ?_⟩
    · rw [hx]; nlinarith
    · rw [hx]; nlinarith
  · rw [if_neg hn]
    have hn' : (179 : ℝ) ≤ n := by exact_mod_cast (by omega : 179 ≤ n)
    refine ⟨179, by norm_num, by norm_num, ?_, ?_⟩
    · rw [hx]; push_cast; nlinarith
    · push_cast; linarith

theorem thetaHalfIndex_spec (t : ℝ) (h0 : 0 ≤ t) (h1 : t ≤ Real.pi / 2) : ∃ k : ℕ, thetaHalfIndex t = k ∧ k < 90 ∧
    (k : ℝ) ^ 2 / 90 ^ 2 * (Real.pi / 2) ≤ t ∧ t ≤ ((k : ℝ) + 1) ^ 2 / 90 ^ 2 * (Real.pi / 2) := by
  have hpi := Real.pi_pos
  unfold thetaHalfIndex
  by_cases hz : t ≤ 0
  · rw [if_pos hz]
    refine ⟨0, by norm_num, by norm_num, ?_, ?_⟩
    · simp; exact h0
    · exact le_trans hz (by positivity)
  · rw [if_neg hz]
    have hnn : 0 ≤ t / (Real.pi / 2) * 90 * 90 := by positivity
    obtain ⟨n, e, l, u⟩ := cint_nonneg (√ (t / (Real.pi / 2) * 90 * 90)) (Real.sqrt_nonneg _)
    have hs := Real.sq_sqrt hnn
    have hs0 := Real.sqrt_nonneg (t / (Real.pi / 2) * 90 * 90)
    have hx : t = √ (t / (Real.pi / 2) * 90 * 90) ^ 2 * (Real.pi / (2 * 90 ^ 2)) := by
      rw [hs]; field_simp
    have hneg : ¬ ((n : ℤ) < 0) := by omega
    simp only [e, if_neg hneg]
    generalize √ (t / (Real.pi / 2) * 90 * 90) = x at e l u hx hs0
    have hp : 0 < Real.pi / (2 * 90 ^ 2) := by positivity
    have lo : ∀ m : ℝ, 0 ≤ m → m ≤ x → m ^ 2 / 90 ^ 2 * (Real.pi / 2) ≤ t := by
      intro m hm hmx
      have : m ^ 2 ≤ x ^ 2 := pow_le_pow_left₀ hm hmx 2
      have := mul_le_mul_of_nonneg_right this hp.le
      rw [hx]
      calc m ^ 2 / 90 ^ 2 * (Real.pi / 2) = m ^ 2 * (Real.pi / (2 * 90 ^ 2)) := by ring
        _ ≤ _ := this
    by_cases hn : (n : ℤ) ≥ 90
    · rw [if_pos hn]
      refine ⟨89, by norm_num, by norm_num, lo 89 (by norm_num) ?_, ?_⟩
      · have : (90 : ℝ) ≤ n := by exact_mod_cast hn
        linarith
      · push_cast; linarith
    · rw [if_neg hn]
      refine ⟨n, rfl, by omega, lo n (by positivity) l, ?_⟩
      have : x ^ 2 ≤ ((n : ℝ) + 1) ^ 2 := pow_le_pow_left₀ hs0 u.le 2
      have := mul_le_mul_of_nonneg_right this hp.le
      rw [hx]
      calc _ ≤ _ := this
        _ = _ := by ring

/-- C43: for angles in the domain, the index is the one of a cell of the table that contains the
    angles. -/
theorem merl_index (th td pd : ℝ) (h1 : 0 ≤ th) (h2 : th ≤ Real.pi / 2) (h3 : 0 ≤ td) (h4 : td ≤ Real.pi / 2)
    (h5 : 0 ≤ pd) (h6 : pd ≤ Real.pi) : ∃ kh kd kp : ℕ, kh < 90 ∧ kd < 90 ∧ kp < 180 ∧
      merlIndex th td pd = merlCell kh kd kp ∧ InCell kh kd kp th td pd := by
  obtain ⟨kh, a1, a2, a3, a4⟩ := thetaHalfIndex_spec th h1 h2
  obtain ⟨kd, b1, b2, b3, b4⟩ := thetaDiffIndex_spec td h3 h4
  obtain ⟨kp, c1, c2, c3, c4⟩ := phiDiffIndex_spec pd h5 h6
  refine ⟨kh, kd, kp, a2, b2, c2, ?_, a3, a4, b3, b4, c3, c4⟩
  unfold merlIndex merlCell
  rw [a1, b1, c1]
  push_cast
  omega

/-- the angle phi_d used by the look up -/
def foldPhi (phi : ℝ) : ℝ := if |phi| > Real.pi then 2 * Real.pi - |phi| else |phi|

theorem merlLookup_eq (brdf : List ℝ) (hb : brdf.length = 3 * merlSize) (th td pd : ℝ) :
    (th < 0 ∨ th > Real.pi / 2 ∨ td < 0 ∨ td > Real.pi / 2 ∨ |pd| > 2 * Real.pi →
      merlLookup brdf th td pd = some (0, 0, 0)) ∧
    (0 ≤ th → th ≤ Real.pi / 2 → 0 ≤ td → td ≤ Real.pi / 2 → |pd| ≤ 2 * Real.pi →
      ∃ kh kd kp, kh < 90 ∧ kd < 90 ∧ kp < 180 ∧ InCell kh kd kp th td (foldPhi pd) ∧
        merlIndex th td (foldPhi pd) = merlCell kh kd kp ∧
        merlLookup brdf th td pd = some (arr brdf (merlCell kh kd kp) * redScale,
          arr brdf (merlCell kh kd kp + merlSize) * greenScale, arr brdf (merlCell kh kd kp + 2 * merlSize) * blueScale)) := by
  have hpi := Real.pi_pos
  have habs : (if pd < 0 then -pd else pd) = |pd| := by
    split
    · rw [abs_of_neg (by assumption)]
    · rw [abs_of_nonneg (by linarith)]
  have h05 : (0.5 : ℝ) * Real.pi = Real.pi / 2 := by ring
  have hfold : (if |pd| > Real.pi then 2 * Real.pi - |pd| else |pd|) = foldPhi pd := rfl
  unfold merlLookup
  simp only [habs, hfold, h05]
  have hf : foldPhi pd ≤ Real.pi := by
    unfold foldPhi; split <;> linarith
  constructor
  · intro h
    rw [if_pos]
    rcases h with h | h | h | h | h
    · exact Or.inl h
    · exact Or.inr (Or.inl h)
    · exact Or.inr (Or.inr (Or.inl h))
    · exact Or.inr (Or.inr (Or.inr (Or.inl h)))
    · refine Or.inr (Or.inr (Or.inr (Or.inr (Or.inr ?_))))
      unfold foldPhi
      rw [if_pos (by linarith)]; linarith
  · intro h1 h2 h3 h4 h5
    have hf0 : 0 ≤ foldPhi pd := by
      unfold foldPhi; split
      · linarith
      · exact abs_nonneg pd
    rw [if_neg (by push Not; exact ⟨h1, h2, h3, h4, hf, hf0⟩)]
    obtain ⟨kh, kd, kp, c1, c2, c3, c4, c5⟩ := merl_index th td (foldPhi pd) h1 h2 h3 h4 hf0 hf
    have hlt := merlCell_lt kh kd kp c1 c2 c3
    refine ⟨kh, kd, kp, c1, c2, c3, c5, c4, ?_⟩
    rw [c4, if_neg (by omega), Int.toNat_natCast]
    generalize merlCell kh kd kp = i at hlt
    rw [merlSize_eq] at *
    have g : ∀ j, j < brdf.length → brdf[j]? = some (arr brdf j) := by
      intro j hj; rw [List.getElem?_eq_getElem hj]; simp [arr, hj]
    rw [show i + 90 * 90 * 360 / 2 = i + 1458000 by omega, show i + 90 * 90 * 360 = i + 2 * 1458000 by omega,
      g i (by omega), g (i + 1458000) (by omega), g (i + 2 * 1458000) (by omega)]

/-- C43: every look up stays inside of the table; it gives the colour of a cell that contains the
    angles (phi_d being brought back to [0, π] by symmetry), or zero: out of the domain, or if the
    colour has a negative component. -/
theorem merl_value (brdf : List ℝ) (hb : brdf.length = 3 * merlSize) (th td pd : ℝ) :
    ∃ v, merlValue brdf [th, td, pd] = some v ∧
      (th < 0 ∨ th > Real.pi / 2 ∨ td < 0 ∨ td > Real.pi / 2 ∨ |pd| > 2 * Real.pi → v = [0, 0, 0]) ∧
      (0 ≤ th → th ≤ Real.pi / 2 → 0 ≤ td → td ≤ Real.pi / 2 → |pd| ≤ 2 * Real.pi →
        ∃ kh kd kp, kh < 90 ∧ kd < 90 ∧ kp < 180 ∧ InCell kh kd kp th td (foldPhi pd) ∧
          v = if ∃ c ∈ merlColour brdf (merlCell kh kd kp), c < 0 then [0, 0, 0] else merlColour brdf (merlCell kh kd kp)) := by
  obtain ⟨o, i⟩ := merlLookup_eq brdf hb th td pd
  have a0 : arr [th, td, pd] 0 = th := rfl
  have a1 : arr [th, td, pd] 1 = td := rfl
  have a2 : arr [th, td, pd] 2 = pd := rfl
  by_cases hd : th < 0 ∨ th > Real.pi / 2 ∨ td < 0 ∨ td > Real.pi / 2 ∨ |pd| > 2 * Real.pi
  · refine ⟨[0, 0, 0], ?_, fun _ => rfl, ?_⟩
    · unfold merlValue
      rw [a0, a1, a2, o hd]; simp
    · intro h1 h2 h3 h4 h5
      rcases hd with h | h | h | h | h <;> linarith
  · push Not at hd
    obtain ⟨h1, h2, h3, h4, h5⟩ := hd
    obtain ⟨kh, kd, kp, c1, c2, c3, c4, _, c5⟩ := i h1 h2 h3 h4 h5
    refine ⟨if ∃ c ∈ merlColour brdf (merlCell kh kd kp), c < 0 then [0, 0, 0] else merlColour brdf (merlCell kh kd kp),
      ?_, ?_, fun _ _ _ _ _ => ⟨kh, kd, kp, c1, c2, c3, c4, rfl⟩⟩
    · unfold merlValue
      rw [a0, a1, a2, c5, Option.map_some]
      simp only [merlColour_eq, List.mem_cons, List.not_mem_nil, or_false, exists_eq_or_imp, exists_eq_left]
    · intro hd
      rcases hd with h | h | h | h | h <;> linarith

/-! ### Samples -/

/-- C43: the sample `i` is the centre of its cell and its colour. -/
theorem merl_get (brdf : List ℝ) (hb : brdf.length = 3 * merlSize) (kh kd kp : ℕ) (h1 : kh < 90) (h2 : kd < 90) (h3 : kp < 180) :
    merlGet brdf (merlCell kh kd kp) = some ([((kh : ℝ) + 1 / 2) ^ 2 / 90 ^ 2 * (Real.pi / 2),
      ((kd : ℝ) + 1 / 2) / 90 * (Real.pi / 2), ((kp : ℝ) + 1 / 2) / 180 * Real.pi] ++ merlColour brdf (merlCell kh kd kp)) := by
  have hlt := merlCell_lt kh kd kp h1 h2 h3
  have m1 : merlCell kh kd kp % (360 / 2) = kp := by unfold merlCell; omega
  have m2 : merlCell kh kd kp / (360 / 2) % 90 = kd := by unfold merlCell; omega
  have m3 : merlCell kh kd kp / (360 / 2 * 90) % 90 = kh := by unfold merlCell; omega
  unfold merlGet
  simp only [m1, m2, m3]
  rw [merlColour_eq]
  generalize merlCell kh kd kp = i at hlt
  rw [merlSize_eq] at *
  have g : ∀ j, j < brdf.length → brdf[j]? = some (arr brdf j) := by
    intro j hj; rw [List.getElem?_eq_getElem hj]; simp [arr, hj]
  rw [show i + 90 * 90 * 360 / 2 = i + 1458000 by omega, show i + 90 * 90 * 360 = i + 2 * 1458000 by omega,
    g i (by omega), g (i + 1458000) (by omega), g (i + 2 * 1458000) (by omega)]
  simp only [thetaHalfFromIndex, thetaDiffFromIndex, phiDiffFromIndex, List.cons_append, List.nil_append,
    Option.some.injEq, List.cons.injEq, and_true]
  refine ⟨by ring, by ring, by push_cast; ring⟩

theorem cell_of_centre (kh kd kp kh' kd' kp' : ℕ)
    (h : InCell kh' kd' kp' (((kh : ℝ) + 1 / 2) ^ 2 / 90 ^ 2 * (Real.pi / 2)) (((kd : ℝ) + 1 / 2) / 90 * (Real.pi / 2))
      (((kp : ℝ) + 1 / 2) / 180 * Real.pi)) : kh' = kh ∧ kd' = kd ∧ kp' = kp := by
  have hpi := Real.pi_pos
  obtain ⟨a1, a2, b1, b2, c1, c2⟩ := h
  have hp2 : 0 < Real.pi / 2 := by positivity
  have nat : ∀ a b : ℕ, (a : ℝ) ≤ b + 1 / 2 → (b : ℝ) + 1 / 2 ≤ a + 1 → a = b := by
    intro a b h1 h2
    have h3 : (a : ℝ) < ((b + 1 : ℕ) : ℝ) := by push_cast; linarith
    have h4 : (b : ℝ) < ((a + 1 : ℕ) : ℝ) := by push_cast; linarith
    have h3 := Nat.cast_lt.1 h3
    have h4 := Nat.cast_lt.1 h4
    omega
  have q : ∀ x y d c : ℝ, 0 < c → 0 < d → x / d * c ≤ y / d * c → x ≤ y := by
    intro x y d c hc hd h
    have h := le_of_mul_le_mul_right h hc
    rwa [div_le_div_iff_of_pos_right hd] at h
  refine ⟨nat _ _ ?_ ?_, nat _ _ (q _ _ 90 _ hp2 (by norm_num) b1) (q _ _ 90 _ hp2 (by norm_num) b2),
    nat _ _ (q _ _ 180 _ hpi (by norm_num) c1) (q _ _ 180 _ hpi (by norm_num) c2)⟩
  · exact le_of_pow_le_pow_left₀ (n := 2) (by norm_num) (by positivity) (q _ _ _ _ hp2 (by norm_num) a1)
  · exact le_of_pow_le_pow_left₀ (n := 2) (by norm_num) (by positivity) (q _ _ _ _ hp2 (by norm_num) a2)

/-- C43: the value at the abscissa of a stored sample is the stored colour, if it is not negative. -/
theorem merl_value_get (brdf : List ℝ) (hb : brdf.length = 3 * merlSize) (i : ℕ) (hi : i < merlSize)
    (hpos : ∀ c ∈ merlColour brdf i, 0 ≤ c) :
    ∃ a b c, merlGet brdf i = some ([a, b, c] ++ merlColour brdf i) ∧ merlValue brdf [a, b, c] = some (merlColour brdf i) := by
  have hpi := Real.pi_pos
  obtain ⟨kh, kd, kp, h1, h2, h3, rfl, _⟩ := merl_cells i hi
  refine ⟨_, _, _, merl_get brdf hb kh kd kp h1 h2 h3, ?_⟩
  have r1 : (kh : ℝ) + 1 ≤ 90 := by exact_mod_cast h1
  have r2 : (kd : ℝ) + 1 ≤ 90 := by exact_mod_cast h2
  have r3 : (kp : ℝ) + 1 ≤ 180 := by exact_mod_cast h3
  have b1 : ((kh : ℝ) + 1 / 2) ^ 2 / 90 ^ 2 * (Real.pi / 2) ≤ Real.pi / 2 := by
    have : ((kh : ℝ) + 1 / 2) ^ 2 ≤ 90 ^ 2 := pow_le_pow_left₀ (by positivity) (by linarith) 2
    have : ((kh : ℝ) + 1 / 2) ^ 2 / 90 ^ 2 ≤ 1 := (div_le_one (by norm_num)).2 this
    calc _ ≤ 1 * (Real.pi / 2) := mul_le_mul_of_nonneg_right this (by positivity)
      _ = _ := one_mul _
  have b2 : ((kd : ℝ) + 1 / 2) / 90 * (Real.pi / 2) ≤ Real.pi / 2 := by
    have : ((kd : ℝ) + 1 / 2) / 90 ≤ 1 := (div_le_one (by norm_num)).2 (by linarith)
    calc _ ≤ 1 * (Real.pi / 2) := mul_le_mul_of_nonneg_right this (by positivity)
      _ = _ := one_mul _
  have b3 : ((kp : ℝ) + 1 / 2) / 180 * Real.pi ≤ Real.pi := by
    have : ((kp : ℝ) + 1 / 2) / 180 ≤ 1 := (div_le_one (by norm_num)).2 (by linarith)
    calc _ ≤ 1 * Real.pi := mul_le_mul_of_nonneg_right this (by positivity)
      _ = _ := one_mul _
  have b4 : 0 ≤ ((kp : ℝ) + 1 / 2) / 180 * Real.pi := by positivity
  have hf : foldPhi (((kp : ℝ) + 1 / 2) / 180 * Real.pi) = ((kp : ℝ) + 1 / 2) / 180 * Real.pi := by
    unfold foldPhi
    rw [abs_of_nonneg b4, if_neg (by linarith)]
  obtain ⟨v, v1, _, v2⟩ := merl_value brdf hb (((kh : ℝ) + 1 / 2) ^ 2 / 90 ^ 2 * (Real.pi / 2))
    (((kd : ℝ) + 1 / 2) / 90 * (Real.pi / 2)) (((kp : ℝ) + 1 / 2) / 180 * Real.pi)
  obtain ⟨kh', kd', kp', _, _, _, c4, c5⟩ := v2 (by positivity) b1 (by positivity) b2 (by rw [abs_of_nonneg b4]; linarith)
  rw [hf] at c4
  obtain ⟨rfl, rfl, rfl⟩ := cell_of_centre kh kd kp kh' kd' kp' c4
  rw [v1, c5, if_neg]
  push Not
  exact hpos

theorem arr_of_get {l l' : List ℝ} {k k' : ℕ} (h : l[k]? = l'[k']?) : arr l k = arr l' k' := by
  simp only [arr, List.getD, h]

theorem set3_get (b : List ℝ) (m i : ℕ) (u v w : ℝ) (hm : 0 < m) (hb : b.length = 3 * m) (hi : i < m) :
    (((b.set i u).set (i + m) v).set (i + m + m) w)[i]? = some u ∧
    (((b.set i u).set (i + m) v).set (i + m + m) w)[i + m]? = some v ∧
    (((b.set i u).set (i + m) v).set (i + m + m) w)[i + 2 * m]? = some w ∧
    ∀ j < m, j ≠ i → (((b.set i u).set (i + m) v).set (i + m + m) w)[j]? = b[j]? ∧
      (((b.set i u).set (i + m) v).set (i + m + m) w)[j + m]? = b[j + m]? ∧
      (((b.set i u).set (i + m) v).set (i + m + m) w)[j + 2 * m]? = b[j + 2 * m]? := by
  have hget : ∀ k, k ≠ i → k ≠ i + m → k ≠ i + m + m → (((b.set i u).set (i + m) v).set (i + m + m) w)[k]? = b[k]? := by
    intro k h1 h2 h3
    rw [List.getElem?_set_ne (Ne.symm h3), List.getElem?_set_ne (Ne.symm h2), List.getElem?_set_ne (Ne.symm h1)]
  refine ⟨?_, ?_, ?_, fun j hj hne => ⟨hget _ hne (by omega) (by omega), hget _ (by omega) (by omega) (by omega),
    hget _ (by omega) (by omega) (by omega)⟩⟩
  · rw [List.getElem?_set_ne (by omega), List.getElem?_set_ne (by omega), List.getElem?_set_self (by omega)]
  · rw [List.getElem?_set_ne (by omega), List.getElem?_set_self (by rw [List.length_set]; omega)]
  · rw [show i + 2 * m = i + m + m by omega, List.getElem?_set_self (by rw [List.length_set, List.length_set]; omega)]

theorem merlGet_congr (b b' : List ℝ) (j : ℕ) (h1 : b[j]? = b'[j]?) (h2 : b[j + merlSize]? = b'[j + merlSize]?)
    (h3 : b[j + 2 * merlSize]? = b'[j + 2 * merlSize]?) : merlGet b j = merlGet b' j := by
  have e := merlSize_eq
  unfold merlGet
  rw [show j + 90 * 90 * 360 / 2 = j + merlSize by omega, show j + 90 * 90 * 360 = j + 2 * merlSize by omega, h1, h2, h3]

/-- C43: `set(i, x)` stores the colour of `x` in the sample `i` and changes no other sample. -/
theorem merl_set (brdf : List ℝ) (hb : brdf.length = 3 * merlSize) (i : ℕ) (hi : i < merlSize) (x : List ℝ) (hx : x.length = 6) :
    ∃ b', merlSet brdf i x = some b' ∧ b'.length = 3 * merlSize ∧ merlColour b' i = [arr x 3, arr x 4, arr x 5] ∧
      ∀ j < merlSize, j ≠ i → merlColour b' j = merlColour brdf j ∧ merlGet b' j = merlGet brdf j := by
  have sc : redScale ≠ 0 ∧ greenScale ≠ 0 ∧ blueScale ≠ 0 := by
    refine ⟨?_, ?_, ?_⟩ <;> norm_num [redScale, greenScale, blueScale]
  have hc := fun b : List ℝ => fun j => merlGet_congr b brdf j
  unfold merlSet
  simp only [merlColour_eq]
  have hm : 0 < merlSize := by rw [merlSize_eq]; norm_num
  revert hb hi hc hm
  generalize merlSize = m
  intro hb hi hc hm
  have hl : i + m + m < brdf.length := by omega
  simp only [hx, hl, and_self, if_true]
  obtain ⟨e1, e2, e3, eo⟩ := set3_get brdf m i (arr x 3 / redScale) (arr x 4 / greenScale) (arr x 5 / blueScale) hm hb hi
  refine ⟨_, rfl, by simp [hb], ?_, ?_⟩
  · simp only [arr_of_get (e1.trans (show some (arr x 3 / redScale) = [arr x 3 / redScale][0]? from rfl)),
      arr_of_get (e2.trans (show some (arr x 4 / greenScale) = [arr x 4 / greenScale][0]? from rfl)),
      arr_of_get (e3.trans (show some (arr x 5 / blueScale) = [arr x 5 / blueScale][0]? from rfl))]
    have h0 : ∀ a : ℝ, arr [a] 0 = a := fun _ => rfl
    rw [h0, h0, h0, div_mul_cancel₀ _ sc.1, div_mul_cancel₀ _ sc.2.1, div_mul_cancel₀ _ sc.2.2]
  · intro j hj hne
    obtain ⟨o1, o2, o3⟩ := eo j hj hne
    exact ⟨by rw [arr_of_get o1, arr_of_get o2, arr_of_get o3], hc _ j o1 o2 o3⟩

/-- C43: the value is even in phi_d, and symmetric around π. -/
theorem merl_mirror (brdf : List ℝ) (th td pd : ℝ) :
    merlValue brdf [th, td, -pd] = merlValue brdf [th, td, pd] ∧
    (0 ≤ pd → pd ≤ 2 * Real.pi → merlValue brdf [th, td, 2 * Real.pi - pd] = merlValue brdf [th, td, pd]) := by
  have hpi := Real.pi_pos
  have habs : ∀ p : ℝ, (if p < 0 then -p else p) = |p| := by
    intro p
    split
    · rw [abs_of_neg (by assumption)]
    · rw [abs_of_nonneg (by linarith)]
  have hv : ∀ p q : ℝ, foldPhi p = foldPhi q → merlValue brdf [th, td, p] = merlValue brdf [th, td, q] := by
    intro p q h
    unfold merlValue merlLookup
    have e : ∀ r : ℝ, arr [th, td, r] 2 = r := fun _ => rfl
    have e0 : ∀ r : ℝ, arr [th, td, r] 0 = th := fun _ => rfl
    have e1 : ∀ r : ℝ, arr [th, td, r] 1 = td := fun _ => rfl
    have hf : ∀ p : ℝ, (if |p| > Real.pi then 2 * Real.pi - |p| else |p|) = foldPhi p := fun _ => rfl
    simp only [e, e0, e1, habs, hf, h]
  refine ⟨hv _ _ (by unfold foldPhi; rw [abs_neg]), fun h0 h1 => hv _ _ ?_⟩
  unfold foldPhi
  rw [abs_of_nonneg h0, abs_of_nonneg (by linarith : 0 ≤ 2 * Real.pi - pd)]
  by_cases h : pd > Real.pi
  · rw [if_neg (by linarith), if_pos h]
  · rw [if_neg h]
    by_cases h2 : 2 * Real.pi - pd > Real.pi
    · rw [if_pos h2]; ring
    · rw [if_neg h2]; linarith

/-- C43 (limit): swapping the two directions adds π to phi_d; the lookup does not wrap phi_d by π but
    mirrors it, hence reads the cell of `π - phi_d`: the value is not that of the sample at phi_d. -/
theorem merl_swap (brdf : List ℝ) (th td pd : ℝ) (h0 : 0 ≤ pd) (h1 : pd ≤ Real.pi) :
    merlValue brdf [th, td, pd + Real.pi] = merlValue brdf [th, td, Real.pi - pd] := by
  have h := (merl_mirror brdf th td (Real.pi - pd)).2 (by linarith) (by linarith)
  rw [← h, show 2 * Real.pi - (Real.pi - pd) = pd + Real.pi by ring]

/-- the table whose only non-zero sample is the red one of the first cell -/
def oneCell : List ℝ := (List.replicate (3 * merlSize) 0).set 0 1500

theorem oneCell_length : oneCell.length = 3 * merlSize := by simp [oneCell]

theorem oneCell_colour (i : ℕ) (hi : i < merlSize) : merlColour oneCell i = if i = 0 then [1, 0, 0] else [0, 0, 0] := by
  have hz : ∀ k, k ≠ 0 → arr oneCell k = 0 := by
    intro k hk
    unfold arr oneCell List.getD
    rw [List.getElem?_set_ne (Ne.symm hk), List.getElem?_replicate]
    split <;> rfl
  have h0 : arr oneCell 0 = 1500 := by
    unfold arr oneCell List.getD
    rw [List.getElem?_set_self (by rw [List.length_replicate, merlSize_eq]; norm_num)]
    rfl
  rw [merlSize_eq] at hi
  unfold merlColour
  rw [merlSize_eq, hz (i + 1458000) (by omega), hz (i + 2 * 1458000) (by omega)]
  split
  · subst i
    rw [h0]
    norm_num [redScale]
  · rename_i h
    rw [hz i h]
    simp

/-- C43 (limit): there are tables for which swapping the two directions changes the value. -/
theorem merl_not_reciprocal : ∃ (brdf : List ℝ) (th td pd : ℝ), brdf.length = 3 * merlSize ∧ 0 ≤ pd ∧ pd ≤ Real.pi ∧
    merlValue brdf [th, td, pd + Real.pi] ≠ merlValue brdf [th, td, pd] := by
  have hpi := Real.pi_pos
  have pos : ∀ i < merlSize, ∀ c ∈ merlColour oneCell i, 0 ≤ c := by
    intro i hi
    rw [oneCell_colour i hi]
    split <;> simp
  have z : 0 < merlSize := by rw [merlSize_eq]; norm_num
  have h179 : (179 : ℕ) < merlSize := by rw [merlSize_eq]; norm_num
  have e0 := merl_get oneCell oneCell_length 0 0 0 (by norm_num) (by norm_num) (by norm_num)
  have e1 := merl_get oneCell oneCell_length 0 0 179 (by norm_num) (by norm_num) (by norm_num)
  rw [show merlCell 0 0 0 = 0 from rfl] at e0
  rw [show merlCell 0 0 179 = 179 from rfl] at e1
  obtain ⟨a, b, c, g0, v0⟩ := merl_value_get oneCell oneCell_length 0 z (pos 0 z)
  obtain ⟨a', b', c', g1, v1⟩ := merl_value_get oneCell oneCell_length 179 h179 (pos _ h179)
  rw [g0] at e0
  rw [g1] at e1
  simp only [List.cons_append, List.nil_append, Option.some.injEq, List.cons.injEq, and_true] at e0 e1
  obtain ⟨rfl, rfl, rfl⟩ := e0
  obtain ⟨rfl, rfl, rfl⟩ := e1
  refine ⟨oneCell, (((0 : ℕ) : ℝ) + 1 / 2) ^ 2 / 90 ^ 2 * (Real.pi / 2), (((0 : ℕ) : ℝ) + 1 / 2) / 90 * (Real.pi / 2), (((0 : ℕ) : ℝ) + 1 / 2) / 180 * Real.pi, oneCell_length, by positivity, ?_, ?_⟩
  rotate_left
  · rw [merl_swap _ _ _ _ (by positivity), v0,
      show Real.pi - (((0 : ℕ) : ℝ) + 1 / 2) / 180 * Real.pi = (((179 : ℕ) : ℝ) + 1 / 2) / 180 * Real.pi by push_cast; ring, v1,
      oneCell_colour 0 z, oneCell_colour 179 h179]
    · norm_num
    · push_cast
      nlinarith
  · push_cast
    nlinarith

/-- the hypotheses of the theorems above are met by a concrete table, whose value is not zero -/
example : oneCell.length = 3 * merlSize ∧ ∃ a b c, merlValue oneCell [a, b, c] = some [1, 0, 0] := by
  have z : 0 < merlSize := by rw [merlSize_eq]; norm_num
  refine ⟨oneCell_length, ?_⟩
  obtain ⟨a, b, c, _, v⟩ := merl_value_get oneCell oneCell_length 0 z (by rw [oneCell_colour 0 z]; simp)
  exact ⟨a, b, c, by rw [v, oneCell_colour 0 z]; rfl⟩

/-! ### Files -/

theorem bytesInt_intBytes (n : ℕ) (h : n < 2 ^ 31) : bytesInt (intBytes n) = n := by
  have hb : ∀ i, (Char.ofNat (n / 256 ^ i % 256)).toNat = n / 256 ^ i % 256 :=
    fun i => ofNat_byte _ (Nat.mod_lt _ (by norm_num))
  have e : (intBytes n).foldr (fun c n => c.toNat + 256 * n) 0 = n := by
    unfold intBytes
    simp only [List.range, List.range.loop, List.map_cons, List.map_nil, List.foldr_cons, List.foldr_nil, hb]
    omega
  unfold bytesInt
  rw [e, BitVec.toInt_eq_toNat_cond, BitVec.toNat_ofNat, Nat.mod_eq_of_lt (by omega), if_pos (by omega)]

/-- C43: a saved table is loaded bit for bit. -/
theorem merl_file_round_trip (brdf : List Dbl) (hb : brdf.length = 3 * merlSize) : merlLoad (merlSave brdf) = some brdf := by
  have l : ∀ n, (intBytes n).length = 4 := fun n => by simp [intBytes]
  have hs : merlSave brdf = intBytes 90 ++ (intBytes 90 ++ (intBytes 180 ++ arrayBytes brdf)) := by
    unfold merlSave
    rw [List.take_of_length_le (by rw [hb, merlSize_eq]), List.append_assoc, List.append_assoc]
  have t0 : (merlSave brdf).take 4 = intBytes 90 := by rw [hs, List.take_left' (l 90)]
  have d0 : (merlSave brdf).drop 4 = intBytes 90 ++ (intBytes 180 ++ arrayBytes brdf) := by rw [hs, List.drop_left' (l 90)]
  have d1 : (merlSave brdf).drop 8 = intBytes 180 ++ arrayBytes brdf := by
    rw [show 8 = 4 + 4 from rfl, ← List.drop_drop, d0, List.drop_left' (l 90)]
  have d2 : (merlSave brdf).drop 12 = arrayBytes brdf := by
    rw [show 12 = 8 + 4 from rfl, ← List.drop_drop, d1, List.drop_left' (l 180)]
  unfold merlLoad
  simp only [t0, d0, d1, d2, List.take_left' (l 90), List.take_left' (l 180)]
  rw [bytesInt_intBytes 90 (by norm_num), bytesInt_intBytes 180 (by norm_num), if_neg (by norm_num), ← hb,
    bytesArray_arrayBytes]

end
end Alta
