import Verif.Model.Utia
import Verif.Props.Binary
import Verif.Props.Merl
import Mathlib.Tactic.Linarith
import Mathlib.Tactic.Ring
import Mathlib.Tactic.FieldSimp
import Mathlib.Tactic.Positivity
import Mathlib.Tactic.LinearCombination
import Mathlib.Tactic.IntervalCases
import Mathlib.Algebra.Order.Floor.Ring
/-
Property C44: the table of the UTIA plugin.
-/
namespace Alta
noncomputable section

/-! ### Specification -/

/-- The sample number of the node (theta_i, phi_i, theta_v, phi_v). -/
def utiaCell (a b c d : ℕ) : ℕ := ((a * 48 + b) * 6 + c) * 48 + d

/-- The number of samples. -/
def utiaCount : ℕ := 6 * 48 * (6 * 48)

/-- The channel `ch` of the node. -/
def utiaNode (bd : List ℝ) (ch a b c d : ℕ) : ℝ := arr bd (ch * utiaCount + utiaCell a b c d)

/-- Linear interpolation between `f k` (`t = 0`) and `f (k + 1)` (`t = 1`). -/
def lin (t : ℝ) (f : ℕ → ℝ) (k : ℕ) : ℝ := (1 - t) * f k + t * f (k + 1)

/-- Interpolation along the four axes; the azimuths are periodic. -/
def utiaInterp (bd : List ℝ) (ch : ℕ) (ka kb kc kd : ℕ) (ta tb tc td : ℝ) : ℝ :=
  lin ta (fun a => lin tc (fun c => lin tb (fun b => lin td (fun d => utiaNode bd ch a (b % 48) c (d % 48)) kd) kb) kc) ka

/-- `x` is `t` steps after the node `k` of an elevation; beyond the last node (75°) the position is
    relative to the last interval. -/
def AtTheta (x : ℝ) (k : ℕ) (t : ℝ) : Prop :=
  k ≤ 4 ∧ 0 ≤ t ∧ (x ≤ 5 * (Real.pi / 12) → t ≤ 1) ∧ (5 * (Real.pi / 12) ≤ x → k = 4) ∧ x = (k + t) * (Real.pi / 12)

/-- `x` is `t` steps after the node `k` of an azimuth. -/
def AtPhi (x : ℝ) (k : ℕ) (t : ℝ) : Prop :=
  k < 48 ∧ 0 ≤ t ∧ t < 1 ∧ ∃ n : ℤ, x = (k + t) * (Real.pi / 24) + 2 * Real.pi * n

/-! ### Indices -/

/-- C44: the samples are numbered by the nodes, one to one. -/
theorem utia_cells (i : ℕ) (h : i < utiaCount) :
    ∃ a b c d, a < 6 ∧ b < 48 ∧ c < 6 ∧ d < 48 ∧ utiaCell a b c d = i ∧
      ∀ a' b' c' d', b' < 48 → c' < 6 → d' < 48 → utiaCell a' b' c' d' = i → a' = a ∧ b' = b ∧ c' = c ∧ d' = d := by
  unfold utiaCount at h
  refine ⟨i / 48 / 6 / 48, i / 48 / 6 % 48, i / 48 % 6, i % 48, by omega, by omega, by omega, by omega,
    by unfold utiaCell; omega, ?_⟩
  intro a' b' c' d' h1 h2 h3 h4
  unfold utiaCell at h4
  omega

theorem utiaCell_lt (a b c d : ℕ) (h1 : a < 6) (h2 : b < 48) (h3 : c < 6) (h4 : d < 48) : utiaCell a b c d < utiaCount := by
  unfold utiaCell utiaCount; omega

theorem utiaPlane_eq : utiaPlane = utiaCount := by decide

/-! ### Values -/

theorem utiaTheta (x : ℝ) (h0 : 0 ≤ x) :
    ∃ k t, AtTheta x k t ∧ (∀ i < 2, utiaThetaIndex (x * (180 / Real.pi)) i = ((k + i : ℕ) : ℤ)) ∧
      utiaWeights stepT (x * (180 / Real.pi)) (utiaThetaIndex (x * (180 / Real.pi))) 0 = 1 - t ∧
      utiaWeights stepT (x * (180 / Real.pi)) (utiaThetaIndex (x * (180 / Real.pi))) 1 = t := by
  have hpi := Real.pi_pos
  have e : x * (180 / Real.pi) / stepT = x / (Real.pi / 12) := by unfold stepT; field_simp; ring
  have hq : 0 ≤ x / (Real.pi / 12) := by positivity
  have hx : x = x / (Real.pi / 12) * (Real.pi / 12) := by field_simp
  have hd : x * (180 / Real.pi) = 15 * (x / (Real.pi / 12)) := by field_simp; ring
  have hle : ∀ c : ℝ, x / (Real.pi / 12) ≤ c ↔ x ≤ c * (Real.pi / 12) := fun c => div_le_iff₀ (by positivity)
  have hge : ∀ c : ℝ, c ≤ x / (Real.pi / 12) ↔ c * (Real.pi / 12) ≤ x := fun c => le_div_iff₀ (by positivity)
  generalize hy : x / (Real.pi / 12) = y at *
  have w : ∀ (idx : ℕ → ℤ) (k : ℕ), idx 0 = k → idx 1 = ((k + 1 : ℕ) : ℤ) →
      utiaWeights stepT (x * (180 / Real.pi)) idx 0 = 1 - (y - k) ∧ utiaWeights stepT (x * (180 / Real.pi)) idx 1 = y - k := by
    intro idx k h0 h1
    unfold utiaWeights
    simp only [h0, h1, hd, stepT, if_true, one_ne_zero, if_false]
    push_cast
    constructor <;> (field_simp; ring)
  obtain ⟨n, hn⟩ := Int.eq_ofNat_of_zero_le (Int.floor_nonneg.2 hq)
  have f1 : (n : ℝ) ≤ y := by have := Int.floor_le y; rw [hn] at this; exact_mod_cast this
  have f2 : y < n + 1 := by have := Int.lt_floor_add_one y; rw [hn] at this; exact_mod_cast this
  have hfl : ⌊x * (180 / Real.pi) / stepT⌋ = n := by rw [e, hn]
  by_cases h : 4 < n
  · have idx : ∀ i < 2, utiaThetaIndex (x * (180 / Real.pi)) i = ((4 + i : ℕ) : ℤ) := by
      intro i hi
      unfold utiaThetaIndex
      simp only [hfl]
      rw [if_pos (by unfold utiaNt; push_cast; omega)]
      unfold utiaNt
      interval_cases i <;> norm_num
    have h5 : (5 : ℝ) ≤ y := le_trans (by exact_mod_cast h) f1
    refine ⟨4, y - (4 : ℕ), ⟨by norm_num, by push_cast; linarith, ?_, fun _ => rfl, by rw [hx]; ring⟩, idx,
      w _ 4 (idx 0 (by norm_num)) (idx 1 (by norm_num))⟩
    intro h6
    have := (hle 5).2 h6
    push_cast
    linarith
  · have idx : ∀ i < 2, utiaThetaIndex (x * (180 / Real.pi)) i = ((n + i : ℕ) : ℤ) := by
      intro i hi
      unfold utiaThetaIndex
      simp only [hfl]
      rw [if_neg (by unfold utiaNt; push_cast; omega)]
      interval_cases i <;> simp
    refine ⟨n, y - n, ⟨by omega, by linarith, fun _ => by linarith, ?_, by rw [hx]; ring⟩, idx,
      w _ n (idx 0 (by norm_num)) (idx 1 (by norm_num))⟩
    intro h6
    have h7 := (hge 5).2 h6
    have : (5 : ℝ) < n + 1 := lt_of_le_of_lt h7 f2
    have : (5 : ℕ) < n + 1 := by exact_mod_cast this
    omega

/-- the azimuth in degrees, as `value` computes it -/
def utiaDeg (x : ℝ) : ℝ :=
  let x := if x < 0 then Real.pi * 2 + x else x
  let x := x * (180 / Real.pi)
  if x ≥ 360 then 0 else x

theorem utiaPhi (x : ℝ) (h0 : -(2 * Real.pi) ≤ x) (h1 : x ≤ 2 * Real.pi) :
    ∃ k t, AtPhi x k t ∧ (∀ i < 2, utiaWrap (utiaPhiIndex (utiaDeg x)) i = (((k + i) % 48 : ℕ) : ℤ)) ∧
      utiaWeights stepP (utiaDeg x) (utiaPhiIndex (utiaDeg x)) 0 = 1 - t ∧
      utiaWeights stepP (utiaDeg x) (utiaPhiIndex (utiaDeg x)) 1 = t := by
  have hpi := Real.pi_pos
  obtain ⟨y, n, hy0, hy1, hdeg, hx⟩ : ∃ (y : ℝ) (n : ℤ), 0 ≤ y ∧ y < 48 ∧ utiaDeg x = 7.5 * y ∧
      x = y * (Real.pi / 24) + 2 * Real.pi * n := by
    have hq : ∀ z : ℝ, z * (180 / Real.pi) ≥ 360 ↔ 2 * Real.pi ≤ z := by
      intro z
      rw [ge_iff_le, ← mul_div_assoc, le_div_iff₀ hpi]
      constructor <;> intro h <;> linarith
    have hz : ∀ z : ℝ, z * (180 / Real.pi) = 7.5 * (z / (Real.pi / 24)) := by intro z; field_simp; ring
    have hlt : ∀ z : ℝ, z < 2 * Real.pi → z / (Real.pi / 24) < 48 := by
      intro z hz
      rw [div_lt_iff₀ (by positivity)]; linarith
    unfold utiaDeg
    by_cases hneg : x < 0
    · simp only [hneg, if_true]
      refine ⟨(Real.pi * 2 + x) / (Real.pi / 24), -1, div_nonneg (by linarith) (by positivity), hlt _ (by linarith), ?_, ?_⟩
      · rw [if_neg (by rw [hq]; linarith), hz]
      · rw [div_mul_cancel₀ _ (by positivity)]; push_cast; ring
    · simp only [hneg, if_false]
      by_cases h2 : 2 * Real.pi ≤ x
      · refine ⟨0, 1, le_refl _, by norm_num, ?_, ?_⟩
        · rw [if_pos ((hq x).2 h2)]; ring
        · push_cast; linarith
      · refine ⟨x / (Real.pi / 24), 0, div_nonneg (by linarith) (by positivity), hlt _ (by linarith), ?_, ?_⟩
        · rw [if_neg (by rw [hq]; exact h2), hz]
        · rw [div_mul_cancel₀ _ (by positivity)]; push_cast; ring
  rw [hdeg]
  obtain ⟨k, hk⟩ := Int.eq_ofNat_of_zero_le (Int.floor_nonneg.2 hy0)
  have f1 : (k : ℝ) ≤ y := by have := Int.floor_le y; rw [hk] at this; exact_mod_cast this
  have f2 : y < k + 1 := by have := Int.lt_floor_add_one y; rw [hk] at this; exact_mod_cast this
  have hk48 : k < 48 := by
    have : (k : ℝ) < (48 : ℕ) := lt_of_le_of_lt f1 (by push_cast; exact hy1)
    exact_mod_cast this
  have e : 7.5 * y / stepP = y := by unfold stepP; field_simp
  refine ⟨k, y - k, ⟨hk48, by linarith, by linarith, n, by rw [hx]; ring⟩, ?_, ?_⟩
  · intro i hi
    unfold utiaWrap utiaPhiIndex
    simp only [e, hk, utiaNp]
    interval_cases i
    · simp only [if_true]
      norm_cast
      omega
    · simp only [if_true, one_ne_zero, if_false]
      split
      · norm_cast; omega
      · norm_cast; omega
  · unfold utiaWeights utiaPhiIndex
    have hfl : ⌊7.5 * y / stepP⌋ = k := by rw [e, hk]
    simp only [hfl, if_true, one_ne_zero, if_false]
    unfold stepP
    push_cast
    constructor <;> (field_simp; ring)

theorem utiaSum_eq (bd : List ℝ) (hb : bd.length = 3 * utiaCount) (ch : ℕ) (hch : ch < 3)
    (iti itv ipi ipv : ℕ → ℤ) (wti wtv wpi wpv : ℕ → ℝ) (ka kb kc kd : ℕ) (ta tb tc td : ℝ)
    (ha : ka ≤ 4) (hc : kc ≤ 4)
    (i1 : ∀ i < 2, iti i = ((ka + i : ℕ) : ℤ)) (i2 : ∀ i < 2, itv i = ((kc + i : ℕ) : ℤ))
    (i3 : ∀ i < 2, ipi i = (((kb + i) % 48 : ℕ) : ℤ)) (i4 : ∀ i < 2, ipv i = (((kd + i) % 48 : ℕ) : ℤ))
    (w1 : wti 0 = 1 - ta ∧ wti 1 = ta) (w2 : wtv 0 = 1 - tc ∧ wtv 1 = tc)
    (w3 : wpi 0 = 1 - tb ∧ wpi 1 = tb) (w4 : wpv 0 = 1 - td ∧ wpv 1 = td) :
    utiaSum bd ch iti itv ipi ipv wti wtv wpi wpv = some (utiaInterp bd ch ka kb kc kd ta tb tc td) := by
  have hread : ∀ i j k l : ℕ, i < 2 → j < 2 → k < 2 → l < 2 → utiaRead bd
      (((ch : ℕ) : ℤ) * ((utiaNp : ℤ) * utiaNt) * ((utiaNp : ℤ) * utiaNt) + (utiaNp : ℤ) * utiaNt * (utiaNp * iti i + ipi k) + utiaNp * itv j + ipv l)
      = some (utiaNode bd ch (ka + i) ((kb + k) % 48) (kc + j) ((kd + l) % 48)) := by
    intro i j k l hi hj hk hl
    have he : (((ch : ℕ) : ℤ) * ((utiaNp : ℤ) * utiaNt) * ((utiaNp : ℤ) * utiaNt) + (utiaNp : ℤ) * utiaNt * (utiaNp * iti i + ipi k) + utiaNp * itv j + ipv l)
        = ((ch * utiaCount + utiaCell (ka + i) ((kb + k) % 48) (kc + j) ((kd + l) % 48) : ℕ) : ℤ) := by
      rw [i1 i hi, i2 j hj, i3 k hk, i4 l hl]
      unfold utiaCell utiaCount utiaNp utiaNt
      push_cast
      ring
    have hlt := utiaCell_lt (ka + i) ((kb + k) % 48) (kc + j) ((kd + l) % 48) (by omega) (Nat.mod_lt _ (by norm_num)) (by omega)
      (Nat.mod_lt _ (by norm_num))
    rw [he]
    unfold utiaRead utiaNode
    rw [if_pos (Int.natCast_nonneg _), Int.toNat_natCast]
    generalize utiaCell (ka + i) ((kb + k) % 48) (kc + j) ((kd + l) % 48) = n at hlt
    have hl : ch * utiaCount + n < bd.length := by
      rw [hb]; unfold utiaCount at *; omega
    rw [List.getElem?_eq_getElem hl]
    simp [arr, hl]
  unfold utiaSum
  simp only [loop4, List.range, List.range.loop, List.flatMap_cons, List.flatMap_nil, List.map_cons, List.map_nil, List.append_nil,
    List.cons_append, List.nil_append, List.foldl_cons, List.foldl_nil,
    hread 0 0 0 0 (by norm_num) (by norm_num) (by norm_num) (by norm_num), hread 0 0 0 1 (by norm_num) (by norm_num) (by norm_num) (by norm_num),
    hread 0 0 1 0 (by norm_num) (by norm_num) (by norm_num) (by norm_num), hread 0 0 1 1 (by norm_num) (by norm_num) (by norm_num) (by norm_num),
    hread 0 1 0 0 (by norm_num) (by norm_num) (by norm_num) (by norm_num), hread 0 1 0 1 (by norm_num) (by norm_num) (by norm_num) (by norm_num),
    hread 0 1 1 0 (by norm_num) (by norm_num) (by norm_num) (by norm_num), hread 0 1 1 1 (by norm_num) (by norm_num) (by norm_num) (by norm_num),
    hread 1 0 0 0 (by norm_num) (by norm_num) (by norm_num) (by norm_num), hread 1 0 0 1 (by norm_num) (by norm_num) (by norm_num) (by norm_num),
    hread 1 0 1 0 (by norm_num) (by norm_num) (by norm_num) (by norm_num), hread 1 0 1 1 (by norm_num) (by norm_num) (by norm_num) (by norm_num),
    hread 1 1 0 0 (by norm_num) (by norm_num) (by norm_num) (by norm_num), hread 1 1 0 1 (by norm_num) (by norm_num) (by norm_num) (by norm_num),
    hread 1 1 1 0 (by norm_num) (by norm_num) (by norm_num) (by norm_num), hread 1 1 1 1 (by norm_num) (by norm_num) (by norm_num) (by norm_num)]
  simp only [w1.1, w1.2, w2.1, w2.2, w3.1, w3.2, w4.1, w4.2, Option.some.injEq, utiaInterp, lin, Nat.add_zero]
  ring

/-- C44: for directions in the upper hemisphere no read is outside of the table, and the value is the
    interpolation of the stored samples around the configuration. -/
theorem utia_value (bd : List ℝ) (hb : bd.length = 3 * utiaCount) (ti pi tv pv : ℝ)
    (h1 : 0 ≤ ti) (h2 : ti ≤ Real.pi / 2) (h3 : 0 ≤ tv) (h4 : tv ≤ Real.pi / 2)
    (h5 : -(2 * Real.pi) ≤ pi) (h6 : pi ≤ 2 * Real.pi) (h7 : -(2 * Real.pi) ≤ pv) (h8 : pv ≤ 2 * Real.pi) :
    ∃ ka kb kc kd ta tb tc td, AtTheta ti ka ta ∧ AtPhi pi kb tb ∧ AtTheta tv kc tc ∧ AtPhi pv kd td ∧
      utiaValue bd [ti, pi, tv, pv] = some [utiaInterp bd 0 ka kb kc kd ta tb tc td,
        utiaInterp bd 1 ka kb kc kd ta tb tc td, utiaInterp bd 2 ka kb kc kd ta tb tc td] := by
  have hpi := Real.pi_pos
  obtain ⟨ka, ta, a1, a2, a3⟩ := utiaTheta ti h1
  obtain ⟨kc, tc, c1, c2, c3⟩ := utiaTheta tv h3
  obtain ⟨kb, tb, b1, b2, b3⟩ := utiaPhi pi h5 h6
  obtain ⟨kd, td, d1, d2, d3⟩ := utiaPhi pv h7 h8
  refine ⟨ka, kb, kc, kd, ta, tb, tc, td, a1, b1, c1, d1, ?_⟩
  have s := fun ch (hch : ch < 3) => utiaSum_eq bd hb ch hch _ _ _ _ _ _ _ _ ka kb kc kd ta tb tc td a1.1 c1.1 a2 c2 b2 d2 a3 c3 b3 d3
  have e0 : arr [ti, pi, tv, pv] 0 = ti := rfl
  have e1 : arr [ti, pi, tv, pv] 1 = pi := rfl
  have e2 : arr [ti, pi, tv, pv] 2 = tv := rfl
  have e3 : arr [ti, pi, tv, pv] 3 = pv := rfl
  have r : ∀ x : ℝ, -(2 * Real.pi) ≤ x → x ≤ 2 * Real.pi → 0 ≤ (if x < 0 then Real.pi * 2 + x else x) ∧ (if x < 0 then Real.pi * 2 + x else x) ≤ Real.pi * 2 := by
    intro x hx hx'
    split <;> constructor <;> linarith
  unfold utiaValue
  simp only [e0, e1, e2, e3]
  rw [if_neg (by push Not; constructor <;> linarith), if_neg (not_not.2 ⟨r pi h5 h6, r pv h7 h8⟩)]
  unfold utiaDeg at s
  simp only [s 0 (by norm_num), s 1 (by norm_num), s 2 (by norm_num)]

/-- C44: outside of the upper hemisphere the value is zero. -/
theorem utia_below (bd : List ℝ) (ti pi tv pv : ℝ) (h : Real.pi / 2 < ti ∨ Real.pi / 2 < tv) :
    utiaValue bd [ti, pi, tv, pv] = some [0, 0, 0] := by
  unfold utiaValue
  have e0 : arr [ti, pi, tv, pv] 0 = ti := rfl
  have e2 : arr [ti, pi, tv, pv] 2 = tv := rfl
  simp only [e0, e2]
  rw [if_pos]
  rcases h with h | h
  · left; linarith
  · right; linarith

theorem lin_node (t : ℝ) (f : ℕ → ℝ) (k m : ℕ) (h0 : 0 ≤ t) (h1 : t ≤ 1) (h : (k : ℝ) + t = m) : lin t f k = f m := by
  unfold lin
  rcases eq_or_lt_of_le h0 with h2 | h2
  · have : (k : ℝ) = m := by rw [← h2] at h; linarith
    have : k = m := by exact_mod_cast this
    rw [← h2, this]; ring
  · have a : (k : ℝ) < m := by linarith
    have b : (m : ℝ) ≤ ((k + 1 : ℕ) : ℝ) := by push_cast; linarith
    have a : k < m := by exact_mod_cast a
    have b : m ≤ k + 1 := by exact_mod_cast b
    have e : m = k + 1 := by omega
    subst e
    have : t = 1 := by push_cast at h; linarith
    rw [this]; ring

theorem theta_node (m : ℕ) (hm : m < 6) (k : ℕ) (t : ℝ) (h : AtTheta ((m : ℝ) * (Real.pi / 12)) k t) (f : ℕ → ℝ) :
    lin t f k = f m := by
  have hpi := Real.pi_pos
  obtain ⟨_, h0, h1, _, h2⟩ := h
  have h1 := h1 (mul_le_mul_of_nonneg_right (by exact_mod_cast (by omega : m ≤ 5)) (by positivity))
  exact lin_node t f k m h0 h1 (mul_right_cancel₀ (by positivity : Real.pi / 12 ≠ 0) h2.symm)

theorem phi_node (m : ℕ) (hm : m < 48) (k : ℕ) (t : ℝ) (h : AtPhi ((m : ℝ) * (Real.pi / 24)) k t) (f : ℕ → ℝ) :
    lin t (fun b => f (b % 48)) k = f m := by
  have hpi := Real.pi_pos
  obtain ⟨hk, h0, h1, n, h2⟩ := h
  have e : (m : ℝ) = k + t + 48 * n := by
    apply mul_right_cancel₀ (by positivity : Real.pi / 24 ≠ 0)
    rw [h2]; ring
  have hn : n = 0 := by
    have a : (k : ℝ) ≤ 47 := by exact_mod_cast (by omega : k ≤ 47)
    have b : (m : ℝ) ≤ 47 := by exact_mod_cast (by omega : m ≤ 47)
    have c : (0 : ℝ) ≤ k := Nat.cast_nonneg k
    have d : (0 : ℝ) ≤ m := Nat.cast_nonneg m
    have l1 : (n : ℝ) < 1 := by linarith
    have l2 : (-1 : ℝ) < n := by linarith
    have l1 : n < 1 := by exact_mod_cast l1
    have l2 : -1 < n := by exact_mod_cast l2
    omega
  rw [lin_node t _ k m h0 h1.le (by rw [e, hn]; push_cast; ring), Nat.mod_eq_of_lt hm]

/-- The colour of the sample `i`. -/
def utiaColour (bd : List ℝ) (i : ℕ) : List ℝ := [arr bd i, arr bd (utiaCount + i), arr bd (2 * utiaCount + i)]

/-- C44: the sample `i` is its node and its colour. -/
theorem utia_get (bd : List ℝ) (hb : bd.length = 3 * utiaCount) (a b c d : ℕ) (h1 : a < 6) (h2 : b < 48) (h3 : c < 6) (h4 : d < 48) :
    utiaGet bd (utiaCell a b c d) = some ([(a : ℝ) * (Real.pi / 12), (b : ℝ) * (Real.pi / 24), (c : ℝ) * (Real.pi / 12),
      (d : ℝ) * (Real.pi / 24)] ++ utiaColour bd (utiaCell a b c d)) := by
  have hlt := utiaCell_lt a b c d h1 h2 h3 h4
  have m1 : utiaCell a b c d % 48 = d := by unfold utiaCell; omega
  have m2 : utiaCell a b c d / 48 % 6 = c := by unfold utiaCell; omega
  have m3 : utiaCell a b c d / 48 / 6 % 48 = b := by unfold utiaCell; omega
  have m4 : utiaCell a b c d / 48 / 6 / 48 % 6 = a := by unfold utiaCell; omega
  unfold utiaGet utiaColour
  rw [utiaPlane_eq]
  simp only [utiaNp, utiaNt, m1, m2, m3, m4]
  generalize utiaCell a b c d = i at hlt
  have g : ∀ j, j < bd.length → bd[j]? = some (arr bd j) := by
    intro j hj; rw [List.getElem?_eq_getElem hj]; simp [arr, hj]
  rw [g _ (by omega), g _ (by omega), g _ (by omega)]
  simp only [List.cons_append, List.nil_append, Option.some.injEq, List.cons.injEq, and_true, stepP, stepT]
  refine ⟨by ring, by ring, by ring, by ring, by rw [zero_mul, add_zero], by rw [one_mul, add_comm], by rw [add_comm]⟩

/-- C44: the value at the abscissa of a stored sample is the stored colour. -/
theorem utia_value_get (bd : List ℝ) (hb : bd.length = 3 * utiaCount) (i : ℕ) (hi : i < utiaCount) :
    ∃ x, x.length = 4 ∧ utiaGet bd i = some (x ++ utiaColour bd i) ∧ utiaValue bd x = some (utiaColour bd i) := by
  have hpi := Real.pi_pos
  obtain ⟨a, b, c, d, h1, h2, h3, h4, rfl, _⟩ := utia_cells i hi
  refine ⟨_, rfl, utia_get bd hb a b c d h1 h2 h3 h4, ?_⟩
  have t : ∀ m : ℕ, m < 6 → 0 ≤ (m : ℝ) * (Real.pi / 12) ∧ (m : ℝ) * (Real.pi / 12) ≤ Real.pi / 2 := by
    intro m hm
    have : (m : ℝ) ≤ 5 := by exact_mod_cast (by omega : m ≤ 5)
    exact ⟨by positivity, by nlinarith⟩
  have p : ∀ m : ℕ, m < 48 → -(2 * Real.pi) ≤ (m : ℝ) * (Real.pi / 24) ∧ (m : ℝ) * (Real.pi / 24) ≤ 2 * Real.pi := by
    intro m hm
    have : (m : ℝ) ≤ 47 := by exact_mod_cast (by omega : m ≤ 47)
    have : 0 ≤ (m : ℝ) * (Real.pi / 24) := by positivity
    exact ⟨by linarith, by nlinarith⟩
  obtain ⟨ka, kb, kc, kd, ta, tb, tc, td, q1, q2, q3, q4, hv⟩ := utia_value bd hb _ _ _ _ (t a h1).1 (t a h1).2 (t c h3).1 (t c h3).2
    (p b h2).1 (p b h2).2 (p d h4).1 (p d h4).2
  rw [hv]
  have e : ∀ ch, utiaInterp bd ch ka kb kc kd ta tb tc td = utiaNode bd ch a b c d := by
    intro ch
    unfold utiaInterp
    rw [theta_node a h1 ka ta q1, theta_node c h3 kc tc q3,
      phi_node b h2 kb tb q2 (fun b => lin td (fun d => utiaNode bd ch a b c (d % 48)) kd), phi_node d h4 kd td q4]
  simp only [e, utiaNode, utiaColour, zero_mul, zero_add, one_mul]

theorem lin_bounds (t lo hi : ℝ) (f : ℕ → ℝ) (k : ℕ) (h0 : 0 ≤ t) (h1 : t ≤ 1) (hf : ∀ m, m = k ∨ m = k + 1 → lo ≤ f m ∧ f m ≤ hi) :
    lo ≤ lin t f k ∧ lin t f k ≤ hi := by
  obtain ⟨a1, a2⟩ := hf k (Or.inl rfl)
  obtain ⟨b1, b2⟩ := hf (k + 1) (Or.inr rfl)
  unfold lin
  constructor <;> nlinarith

/-- C44: for elevations up to 75° the value is between the bounds of the stored samples. -/
theorem utia_bounds (bd : List ℝ) (hb : bd.length = 3 * utiaCount) (lo hi : ℝ) (hbd : ∀ y ∈ bd, lo ≤ y ∧ y ≤ hi) (ti pi tv pv : ℝ)
    (h1 : 0 ≤ ti) (h2 : ti ≤ 5 * (Real.pi / 12)) (h3 : 0 ≤ tv) (h4 : tv ≤ 5 * (Real.pi / 12))
    (h5 : -(2 * Real.pi) ≤ pi) (h6 : pi ≤ 2 * Real.pi) (h7 : -(2 * Real.pi) ≤ pv) (h8 : pv ≤ 2 * Real.pi) :
    ∃ v, utiaValue bd [ti, pi, tv, pv] = some v ∧ v.length = 3 ∧ ∀ y ∈ v, lo ≤ y ∧ y ≤ hi := by
  have hpi := Real.pi_pos
  obtain ⟨ka, kb, kc, kd, ta, tb, tc, td, q1, q2, q3, q4, hv⟩ := utia_value bd hb ti pi tv pv h1 (by linarith) h3 (by linarith) h5 h6 h7 h8
  refine ⟨_, hv, rfl, ?_⟩
  have e : ∀ ch < 3, lo ≤ utiaInterp bd ch ka kb kc kd ta tb tc td ∧ utiaInterp bd ch ka kb kc kd ta tb tc td ≤ hi := by
    intro ch hch
    refine lin_bounds _ _ _ _ _ q1.2.1 (q1.2.2.1 h2) fun a ha => lin_bounds _ _ _ _ _ q3.2.1 (q3.2.2.1 h4) fun c hc =>
      lin_bounds _ _ _ _ _ q2.2.1 q2.2.2.1.le fun b _ => lin_bounds _ _ _ _ _ q4.2.1 q4.2.2.1.le fun d _ => ?_
    have l := utiaCell_lt a (b % 48) c (d % 48) (by have := q1.1; omega) (Nat.mod_lt _ (by norm_num)) (by have := q3.1; omega)
      (Nat.mod_lt _ (by norm_num))
    unfold utiaNode
    generalize utiaCell a (b % 48) c (d % 48) = n at l
    have hl : ch * utiaCount + n < bd.length := by rw [hb]; unfold utiaCount at *; omega
    have : arr bd (ch * utiaCount + n) = bd[ch * utiaCount + n] := by simp [arr, hl]
    rw [this]
    exact hbd _ (List.getElem_mem _)
  simp only [List.mem_cons, List.not_mem_nil, or_false]
  rintro y (rfl | rfl | rfl)
  · exact e 0 (by norm_num)
  · exact e 1 (by norm_num)
  · exact e 2 (by norm_num)

/-- C44: the value is periodic in the azimuths. -/
theorem utia_periodic (bd : List ℝ) (ti pi tv pv : ℝ) (h5 : 0 < pi) (h6 : pi ≤ 2 * Real.pi) (h7 : 0 < pv) (h8 : pv ≤ 2 * Real.pi) :
    utiaValue bd [ti, pi - 2 * Real.pi, tv, pv - 2 * Real.pi] = utiaValue bd [ti, pi, tv, pv] ∧
    utiaValue bd [ti, 2 * Real.pi, tv, pv] = utiaValue bd [ti, 0, tv, pv] ∧
    utiaValue bd [ti, pi, tv, 2 * Real.pi] = utiaValue bd [ti, pi, tv, 0] := by
  have hpi := Real.pi_pos
  have key : ∀ p p' q q' : ℝ, utiaDeg p = utiaDeg p' → utiaDeg q = utiaDeg q' →
      -(2 * Real.pi) ≤ p → p ≤ 2 * Real.pi → -(2 * Real.pi) ≤ p' → p' ≤ 2 * Real.pi →
      -(2 * Real.pi) ≤ q → q ≤ 2 * Real.pi → -(2 * Real.pi) ≤ q' → q' ≤ 2 * Real.pi →
      utiaValue bd [ti, p, tv, q] = utiaValue bd [ti, p', tv, q'] := by
    intro p p' q q' e1 e2 a1 a2 b1 b2 c1 c2 d1 d2
    have r : ∀ x : ℝ, -(2 * Real.pi) ≤ x → x ≤ 2 * Real.pi → 0 ≤ (if x < 0 then Real.pi * 2 + x else x) ∧ (if x < 0 then Real.pi * 2 + x else x) ≤ Real.pi * 2 := by
      intro x hx hx'
      split <;> constructor <;> linarith
    unfold utiaDeg at e1 e2
    have f0 : ∀ p q : ℝ, arr [ti, p, tv, q] 0 = ti := fun _ _ => rfl
    have f1 : ∀ p q : ℝ, arr [ti, p, tv, q] 1 = p := fun _ _ => rfl
    have f2 : ∀ p q : ℝ, arr [ti, p, tv, q] 2 = tv := fun _ _ => rfl
    have f3 : ∀ p q : ℝ, arr [ti, p, tv, q] 3 = q := fun _ _ => rfl
    unfold utiaValue
    simp only [f0, f1, f2, f3]
    split
    · rfl
    · rw [if_neg (not_not.2 ⟨r p a1 a2, r q c1 c2⟩), if_neg (not_not.2 ⟨r p' b1 b2, r q' d1 d2⟩), e1, e2]
  have hq : ∀ z : ℝ, z * (180 / Real.pi) ≥ 360 ↔ 2 * Real.pi ≤ z := by
    intro z
    rw [ge_iff_le, ← mul_div_assoc, le_div_iff₀ hpi]
    constructor <;> intro h <;> linarith
  have d0 : utiaDeg 0 = 0 := by unfold utiaDeg; simp
  have d1 : utiaDeg (2 * Real.pi) = 0 := by
    unfold utiaDeg
    have : ¬ 2 * Real.pi < 0 := by linarith
    simp only [this, if_false]
    rw [if_pos ((hq _).2 (le_refl _))]
  have d2 : ∀ x : ℝ, 0 < x → x ≤ 2 * Real.pi → utiaDeg (x - 2 * Real.pi) = utiaDeg x := by
    intro x hx hx'
    rcases eq_or_lt_of_le hx' with h | h
    · rw [h, sub_self, d0, d1]
    · unfold utiaDeg
      have n1 : x - 2 * Real.pi < 0 := by linarith
      have n2 : ¬ x < 0 := by linarith
      simp only [n1, n2, if_true, if_false]
      rw [show Real.pi * 2 + (x - 2 * Real.pi) = x by ring]
  refine ⟨key _ _ _ _ (d2 pi h5 h6) (d2 pv h7 h8) ?_ ?_ ?_ ?_ ?_ ?_ ?_ ?_, key _ _ _ _ (d1.trans d0.symm) rfl ?_ ?_ ?_ ?_ ?_ ?_ ?_ ?_,
    key _ _ _ _ rfl (d1.trans d0.symm) ?_ ?_ ?_ ?_ ?_ ?_ ?_ ?_⟩ <;> linarith

/-- C44: `set(i, x)` stores the colour of `x` in the sample `i` and changes no other sample. -/
theorem utia_set (bd : List ℝ) (hb : bd.length = 3 * utiaCount) (i : ℕ) (hi : i < utiaCount) (a b c d r g bl : ℝ) :
    ∃ bd', utiaSet bd i [a, b, c, d, r, g, bl] = some bd' ∧ bd'.length = 3 * utiaCount ∧ utiaColour bd' i = [r, g, bl] ∧
      ∀ j < utiaCount, j ≠ i → utiaColour bd' j = utiaColour bd j := by
  have hm : 0 < utiaCount := by unfold utiaCount; norm_num
  unfold utiaSet utiaColour
  rw [utiaPlane_eq]
  generalize utiaCount = m at *
  rw [if_pos ⟨rfl, by omega⟩]
  have e : List.drop ([a, b, c, d, r, g, bl].length - 3) [a, b, c, d, r, g, bl] = [r, g, bl] := rfl
  have e0 : arr [r, g, bl] 0 = r := rfl
  have e1 : arr [r, g, bl] 1 = g := rfl
  have e2 : arr [r, g, bl] 2 = bl := rfl
  simp only [e, e0, e1, e2, show 0 * m + i = i by omega, show 1 * m + i = i + m by omega, show 2 * m + i = i + m + m by omega]
  obtain ⟨g1, g2, g3, go⟩ := set3_get bd m i r g bl hm hb hi
  have one : ∀ (l : List ℝ) (k : ℕ) (y : ℝ), l[k]? = some y → arr l k = y := by
    intro l k y h
    simp only [arr, List.getD, h, Option.getD_some]
  refine ⟨_, rfl, by simp [hb], ?_, ?_⟩
  · rw [one _ _ _ g1, add_comm m i, one _ _ _ g2, show i + m + m = i + 2 * m by omega]
    rw [show i + 2 * m = i + m + m by omega] at g3 ⊢
    rw [one _ _ _ g3]
  · intro j hj hne
    obtain ⟨o1, o2, o3⟩ := go j hj hne
    rw [show 2 * m + j = j + 2 * m by omega, add_comm m j, arr_of_get o1, arr_of_get o2, arr_of_get o3]

/-- C44: on the domain of the data set, `vecToIndex` is the node below the configuration. -/
theorem utia_vecToIndex (a b c d : ℕ) (s t u v : ℝ) (hb : b < 48) (hd : d < 48)
    (hs : 0 ≤ s ∧ s < 1) (ht : 0 ≤ t ∧ t < 1) (hu : 0 ≤ u ∧ u < 1) (hv : 0 ≤ v ∧ v < 1) :
    utiaVecToIndex [(a + s) * (Real.pi / 12), (b + t) * (Real.pi / 24), (c + u) * (Real.pi / 12), (d + v) * (Real.pi / 24)] =
      ((a : ℤ), (b : ℤ), (c : ℤ), (d : ℤ)) := by
  have hpi := Real.pi_pos
  have fl : ∀ (k : ℕ) (x : ℝ), 0 ≤ x ∧ x < 1 → ⌊(k : ℝ) + x⌋ = (k : ℤ) := by
    intro k x h
    rw [Int.floor_eq_iff]
    push_cast
    constructor <;> linarith [h.1, h.2]
  have p : ∀ (k : ℕ) (x : ℝ), k < 48 → 0 ≤ x ∧ x < 1 →
      ⌊(if (k + x) * (Real.pi / 24) * (180 / Real.pi) ≥ 360 then 0 else (k + x) * (Real.pi / 24) * (180 / Real.pi)) / stepP⌋ = (k : ℤ) := by
    intro k x hk hx
    have e : (k + x) * (Real.pi / 24) * (180 / Real.pi) = 7.5 * (k + x) := by field_simp; ring
    have : (k : ℝ) ≤ 47 := by exact_mod_cast (by omega : k ≤ 47)
    rw [e, if_neg (by linarith [hx.2]), show 7.5 * ((k : ℝ) + x) / stepP = k + x by unfold stepP; field_simp, fl k x hx]
  have q : ∀ (k : ℕ) (x : ℝ), 0 ≤ x ∧ x < 1 → ⌊(k + x) * (Real.pi / 12) * (180 / Real.pi) / stepT⌋ = (k : ℤ) := by
    intro k x hx
    rw [show (k + x) * (Real.pi / 12) * (180 / Real.pi) / stepT = k + x by unfold stepT; field_simp; ring, fl k x hx]
  unfold utiaVecToIndex
  exact Prod.ext (q a s hs) (Prod.ext (p b t hb ht) (Prod.ext (q c u hu) (p d v hd hv)))

/-! ### Limits -/

/-- C44 (limit): a negative elevation of the light reads before the table. -/
theorem utia_negative_theta (bd : List ℝ) (ti pi tv pv : ℝ) (h1 : ti < 0) (h3 : tv ≤ Real.pi / 2)
    (h5 : 0 ≤ pi) (h6 : pi < 2 * Real.pi) (h7 : 0 ≤ pv) (h8 : pv < 2 * Real.pi) :
    utiaValue bd [ti, pi, tv, pv] = none := by
  have hpi := Real.pi_pos
  obtain ⟨kb, tb, b1, b2, _⟩ := utiaPhi pi (by linarith) h6.le
  obtain ⟨kd, td, d1, d2, _⟩ := utiaPhi pv (by linarith) h8.le
  have b2 := b2 0 (by norm_num)
  have d2 := d2 0 (by norm_num)
  have hneg : utiaThetaIndex (ti * (180 / Real.pi)) 0 ≤ -1 := by
    have hf : ⌊ti * (180 / Real.pi) / stepT⌋ < 0 := by
      rw [Int.floor_lt]
      push_cast
      unfold stepT
      have : ti * (180 / Real.pi) < 0 := mul_neg_of_neg_of_pos h1 (by positivity)
      linarith
    unfold utiaThetaIndex
    simp (config := {zeta := true, failIfUnchanged := false}) only []
    rw [if_neg (by unfold utiaNt; push_cast; omega)]
    simp only [if_true]
    omega
  have hv : utiaThetaIndex (tv * (180 / Real.pi)) 0 ≤ 4 := by
    unfold utiaThetaIndex
    simp (config := {zeta := true, failIfUnchanged := false}) only []
    split
    · simp [utiaNt]
    · rename_i h
      unfold utiaNt at h
      push_cast at h
      simp only [if_true]
      omega
  have hs : ∀ wti wtv wpi wpv : ℕ → ℝ, utiaSum bd 0 (utiaThetaIndex (ti * (180 / Real.pi))) (utiaThetaIndex (tv * (180 / Real.pi)))
      (utiaWrap (utiaPhiIndex (utiaDeg pi))) (utiaWrap (utiaPhiIndex (utiaDeg pv))) wti wtv wpi wpv = none := by
    intro wti wtv wpi wpv
    have nf : ∀ (l : List (ℕ × ℕ × ℕ × ℕ)) (f : ℕ × ℕ × ℕ × ℕ → Option ℝ) (w : ℕ × ℕ × ℕ × ℕ → ℝ → ℝ → ℝ),
        l.foldl (fun acc q => match acc, f q with | some a, some b => some (w q a b) | _, _ => none) none = none := by
      intro l f w
      induction l with
      | nil => rfl
      | cons q l ih => simpa using ih
    unfold utiaSum
    have hl : loop4 = (0, 0, 0, 0) :: loop4.tail := by decide
    rw [hl, List.foldl_cons]
    have hr : utiaRead bd (((0 : ℕ) : ℤ) * ((utiaNp : ℤ) * utiaNt) * ((utiaNp : ℤ) * utiaNt) + (utiaNp : ℤ) * utiaNt *
        (utiaNp * utiaThetaIndex (ti * (180 / Real.pi)) 0 + utiaWrap (utiaPhiIndex (utiaDeg pi)) 0) +
        utiaNp * utiaThetaIndex (tv * (180 / Real.pi)) 0 + utiaWrap (utiaPhiIndex (utiaDeg pv)) 0) = none := by
      unfold utiaRead
      rw [if_neg]
      rw [b2, d2]
      unfold utiaNp utiaNt
      have := Nat.mod_lt (kb + 0) (show 0 < 48 by norm_num)
      have := Nat.mod_lt (kd + 0) (show 0 < 48 by norm_num)
      generalize (kb + 0) % 48 = x at *
      generalize (kd + 0) % 48 = y at *
      generalize utiaThetaIndex (ti * (180 / Real.pi)) 0 = z at *
      generalize utiaThetaIndex (tv * (180 / Real.pi)) 0 = w at *
      push_cast
      omega
    simp only [hr]
    exact nf _ _ _
  have e0 : arr [ti, pi, tv, pv] 0 = ti := rfl
  have e1 : arr [ti, pi, tv, pv] 1 = pi := rfl
  have e2 : arr [ti, pi, tv, pv] 2 = tv := rfl
  have e3 : arr [ti, pi, tv, pv] 3 = pv := rfl
  unfold utiaValue
  simp only [e0, e1, e2, e3]
  unfold utiaDeg at hs
  rw [if_neg (by push Not; constructor <;> linarith), if_neg]
  · simp only [hs]
  · rw [not_not, if_neg (by linarith), if_neg (by linarith)]
    refine ⟨⟨h5, by linarith⟩, ⟨h7, by linarith⟩⟩

/-- the table that is 1 in the nodes whose theta_i is 60° and 0 elsewhere -/
def utia60 : List ℝ := (List.range (3 * utiaCount)).map fun n => if n % utiaCount / (48 * 6 * 48) = 4 then 1 else 0

theorem utia60_length : utia60.length = 3 * utiaCount := by simp [utia60]

theorem utia60_node (ch a b c d : ℕ) (hch : ch < 3) (ha : a < 6) (hb : b < 48) (hc : c < 6) (hd : d < 48) :
    utiaNode utia60 ch a b c d = if a = 4 then 1 else 0 := by
  have l := utiaCell_lt a b c d ha hb hc hd
  have e : (ch * utiaCount + utiaCell a b c d) % utiaCount / (48 * 6 * 48) = a := by
    unfold utiaCell utiaCount at *; omega
  have hl : ch * utiaCount + utiaCell a b c d < 3 * utiaCount := by unfold utiaCount at *; omega
  unfold utiaNode utia60
  simp only [arr, List.getD, List.getElem?_map, List.getElem?_range hl, Option.map_some, Option.getD_some, e]

/-- C44 (limit): beyond 75° the value is extrapolated, it leaves the range of the stored samples: at
    grazing angle it is negative for this table of non-negative samples. -/
theorem utia_extrapolates : utia60.length = 3 * utiaCount ∧ (∀ y ∈ utia60, 0 ≤ y ∧ y ≤ 1) ∧
    utiaValue utia60 [Real.pi / 2, 0, 0, 0] = some [-1, -1, -1] := by
  have hpi := Real.pi_pos
  refine ⟨utia60_length, ?_, ?_⟩
  · unfold utia60
    intro y hy
    obtain ⟨n, _, rfl⟩ := List.mem_map.1 hy
    split <;> norm_num
  · obtain ⟨ka, kb, kc, kd, ta, tb, tc, td, q1, q2, q3, q4, hv⟩ := utia_value utia60 utia60_length (Real.pi / 2) 0 0 0
      (by positivity) (le_refl _) (le_refl _) (by positivity) (by linarith) (by linarith) (by linarith) (by linarith)
    rw [hv]
    have e : ∀ ch < 3, utiaInterp utia60 ch ka kb kc kd ta tb tc td = -1 := by
      intro ch hch
      have q2' : AtPhi (((0 : ℕ) : ℝ) * (Real.pi / 24)) kb tb := by simpa using q2
      have q4' : AtPhi (((0 : ℕ) : ℝ) * (Real.pi / 24)) kd td := by simpa using q4
      have q3' : AtTheta (((0 : ℕ) : ℝ) * (Real.pi / 12)) kc tc := by simpa using q3
      have hk := q1.2.2.2.1 (by linarith)
      have ht : ta = 2 := by
        have h := q1.2.2.2.2
        rw [hk] at h
        push_cast at h
        have : (4 + ta) * (Real.pi / 12) = 6 * (Real.pi / 12) := by linarith
        have := mul_right_cancel₀ (by positivity : Real.pi / 12 ≠ 0) this
        linarith
      have hin : ∀ a < 6, lin tc (fun c => lin tb (fun b => lin td (fun d => utiaNode utia60 ch a (b % 48) c (d % 48)) kd) kb) kc =
          if a = 4 then 1 else 0 := by
        intro a ha
        rw [theta_node 0 (by norm_num) kc tc q3',
          phi_node 0 (by norm_num) kb tb q2' (fun b => lin td (fun d => utiaNode utia60 ch a b 0 (d % 48)) kd),
          phi_node 0 (by norm_num) kd td q4']
        exact utia60_node ch a 0 0 0 hch ha (by norm_num) (by norm_num) (by norm_num)
      unfold utiaInterp
      subst hk
      have hl : ∀ f : ℕ → ℝ, f 4 = 1 → f 5 = 0 → lin ta f 4 = -1 := by
        intro f h4 h5
        unfold lin
        rw [h4, show 4 + 1 = 5 from rfl, h5, ht]
        norm_num
      exact hl _ (hin 4 (by norm_num)) (hin 5 (by norm_num))
    rw [e 0 (by norm_num), e 1 (by norm_num), e 2 (by norm_num)]

/-! ### Files -/

/-- C44: a binary file that holds the numbers of a table is loaded bit for bit, whatever the memory held. -/
theorem utia_load (mem bd : List Dbl) (hb : bd.length = 3 * utiaCount) : utiaLoad mem (arrayBytes bd) = bd := by
  unfold utiaLoad
  rw [utiaPlane_eq]
  have hl : (arrayBytes bd).length = 3 * utiaCount * 8 := by rw [arrayBytes_length, hb]; ring
  rw [List.take_of_length_le (by rw [hl]), ← hb]
  exact bytesArray_arrayBytes bd _

theorem flatMap_prefix (fmt : Dbl → Str) (hf : ∀ d, fmt d ≠ []) : ∀ (n : ℕ) (l : List Dbl), n ≤ l.length → n ≤ (l.flatMap fmt).length
  | 0, _, _ => Nat.zero_le _
  | n + 1, [], h => by simp at h
  | n + 1, d :: l, h => by
    rw [List.flatMap_cons, List.length_append]
    have := flatMap_prefix fmt hf n l (by simpa using h)
    have := List.length_pos_iff.2 (hf d)
    omega

/-- C44 (limit): `save` prints the numbers in decimal while `load_data` copies bytes: no table whose
    first number has a zero low byte (0, 1, 0.5, ...) survives `save` then `load_data`, whatever the
    printing is as long as it is not empty and made of the characters 1 to 255. -/
theorem utia_save_load_limit (fmt : Dbl → Str) (hf : ∀ d, fmt d ≠ []) (hc : ∀ d, ∀ c ∈ fmt d, 0 < c.toNat ∧ c.toNat < 256)
    (mem bd : List Dbl) (hb : bd.length = 3 * utiaCount) (h0 : ∃ d r, bd = d :: r ∧ d.toNat % 256 = 0) :
    utiaLoad mem (utiaSave fmt bd) ≠ bd := by
  intro h
  obtain ⟨d, r, rfl, hd⟩ := h0
  have ht : List.take (3 * utiaCount) (d :: r) = d :: r := List.take_of_length_le (by rw [hb])
  unfold utiaLoad utiaSave at h
  rw [utiaPlane_eq, ht] at h
  obtain ⟨n, hn⟩ : ∃ n, 3 * utiaCount = n + 1 := ⟨3 * utiaCount - 1, by unfold utiaCount; norm_num⟩
  rw [hn] at h hb
  obtain ⟨c, s, hs⟩ : ∃ c s, (d :: r).flatMap fmt = c :: s := by
    cases hq : (d :: r).flatMap fmt with
    | nil =>
      have := flatMap_prefix fmt hf (d :: r).length (d :: r) (le_refl _)
      rw [hq] at this
      simp at this
    | cons c s => exact ⟨c, s, rfl⟩
  have hcc : 0 < c.toNat ∧ c.toNat < 256 := by
    have : c ∈ (d :: r).flatMap fmt := by rw [hs]; simp
    obtain ⟨e, _, he⟩ := List.mem_flatMap.1 this
    exact hc e c he
  rw [hs, show (n + 1) * 8 = (n * 8 + 7) + 1 by ring, List.take_succ_cons] at h
  simp only [List.cons_append] at h
  unfold bytesArray at h
  rw [List.cons.injEq] at h
  have h1 := h.1
  rw [← h1, show 8 = 7 + 1 from rfl, List.take_succ_cons] at hd
  unfold bytesDbl at hd
  rw [BitVec.toNat_ofNat, List.foldr_cons] at hd
  have : (256 : ℕ) ∣ 2 ^ 64 := by norm_num
  rw [Nat.mod_mod_of_dvd _ this] at hd
  omega

/-- such a table and such a printing exist -/
example : ∃ (fmt : Dbl → Str) (bd : List Dbl), (∀ d, fmt d ≠ []) ∧ (∀ d, ∀ c ∈ fmt d, 0 < c.toNat ∧ c.toNat < 256) ∧
    bd.length = 3 * utiaCount ∧ ∃ d r, bd = d :: r ∧ d.toNat % 256 = 0 := by
  refine ⟨fun _ => ['0'], List.replicate (3 * utiaCount) 0, by simp, by simp, by simp, 0, List.replicate (3 * utiaCount - 1) 0, ?_, by simp⟩
  obtain ⟨n, hn⟩ : ∃ n, 3 * utiaCount = n + 1 := ⟨3 * utiaCount - 1, by unfold utiaCount; norm_num⟩
  rw [hn, List.replicate_succ]
  rfl

end
end Alta
