import Verif.Spec.Slice
import Mathlib.Tactic.Linarith
import Mathlib.Tactic.NormNum
import Mathlib.Tactic.Positivity
import Mathlib.Tactic.FieldSimp
import Mathlib.Tactic.Ring
/-
C73: the samples of a slice of BRDF.
-/
namespace Alta
noncomputable section
open Real

theorem sliceInterval_lt (i : Input) : (sliceInterval i).1 < (sliceInterval i).2 := by
  have := pi_pos
  cases i <;> simp only [sliceInterval] <;> linarith

/-- the parametrization of a slice: two or three coordinates, three if the azimuth comes first -/
theorem slicePar_dims (args : SMap) : ((slicePar args).dimX = 2 ∨ (slicePar args).dimX = 3) ∧
    (slicePar args).dimY = 3 ∧ (AzimuthFirst (slicePar args).input → (slicePar args).dimX = 3) := by
  unfold slicePar
  by_cases h : args.isDefined "param".toList
  · simp only [h, if_true]
    generalize parseInput (String.ofList (args.get "param".toList)) = p
    by_cases h2 : inputDim p = 2
    · simp only [h2, if_true, true_or, true_and]
      intro ha
      rcases ha with h' | h' | h' <;> subst h' <;> revert h2 <;> decide +kernel
    · by_cases h3 : inputDim p = 3
      · simp [h3]
      · simp only [h2, h3, if_false, true_or, true_and]
        intro ha
        rcases ha with h' | h' | h' <;> cases h'
  · simp only [h]
    refine ⟨Or.inl (by simp), by simp, ?_⟩
    intro ha
    rcases ha with h' | h' | h' <;> simp at h'

theorem slice_bounds (p : Par) (_h : AzimuthFirst p.input → p.dimX = 3) :
    arr (sliceMin p) 0 = (sliceInterval p.input).1 ∧ arr (sliceMin p) 1 = (sliceInterval p.input).1 ∧
    arr (sliceMax p) 0 = (sliceInterval p.input).2 ∧ arr (sliceMax p) 1 = (sliceInterval p.input).2 := by
  have e1 : (-0.5 : ℝ) * π = -(π / 2) := by ring
  have e2 : (0.5 : ℝ) * π = π / 2 := by ring
  obtain ⟨dx, dy, i, o⟩ := p
  cases i <;> simp [sliceMin, sliceMax, sliceInterval, arr, e1, e2]

theorem sliceReverse_iff (i : Input) : sliceReverse i = true ↔ AzimuthFirst i := by
  cases i <;> simp [sliceReverse, AzimuthFirst]

theorem sliceOf_facts {s : Slice} {w h : ℕ} (hs : SliceOf s w h) :
    s.width = w ∧ s.height = h ∧ s.data.length = 3 * (w * h) ∧
    (s.par.dimX = 2 ∨ s.par.dimX = 3) ∧ s.par.dimY = 3 ∧ (AzimuthFirst s.par.input → s.par.dimX = 3) ∧
    (s.reverse = true ↔ AzimuthFirst s.par.input) ∧
    arr s.min 0 = (sliceInterval s.par.input).1 ∧ arr s.min 1 = (sliceInterval s.par.input).1 ∧
    arr s.max 0 = (sliceInterval s.par.input).2 ∧ arr s.max 1 = (sliceInterval s.par.input).2 := by
  obtain ⟨_, _, args, c, hc, rfl⟩ := hs
  obtain ⟨h1, h2, h3⟩ := slicePar_dims args
  obtain ⟨b1, b2, b3, b4⟩ := slice_bounds (slicePar args) h3
  exact ⟨rfl, rfl, hc, h1, h2, h3, sliceReverse_iff _, b1, b2, b3, b4⟩

theorem sample_eq {s : Slice} {w h : ℕ} (hs : SliceOf s w h) (id : ℕ) (hid : id < w * h) :
    s.sample id = some [arr s.data (3 * id), arr s.data (3 * id + 1), arr s.data (3 * id + 2)] := by
  have hl := (sliceOf_facts hs).2.2.1
  have g : ∀ n, n < s.data.length → s.data[n]? = some (arr s.data n) := by
    intro n hn
    simp [arr, List.getD, List.getElem?_eq_getElem hn]
  unfold Slice.sample
  rw [if_pos (Int.natCast_nonneg id), Int.toNat_natCast, g _ (by omega), g _ (by omega), g _ (by omega)]
  rfl

/-- The sample `id` is the pixel of column `id % width` and line `id / width`: its abscissa is the
    centre of the corresponding cell. -/
theorem slice_abscissa {s : Slice} {w h : ℕ} (hs : SliceOf s w h) (id : ℕ) (hid : id < w * h) :
    s.abscissa id = sliceAbscissa s.par.input s.par.dimX
      (cellCentre (sliceInterval s.par.input).1 (sliceInterval s.par.input).2 w (id % w))
      (cellCentre (sliceInterval s.par.input).1 (sliceInterval s.par.input).2 h (id / w)) s.phi := by
  obtain ⟨hw, hh, hl, hd, _, ha, hr, b1, b2, b3, b4⟩ := sliceOf_facts hs
  have wp : (0 : ℝ) < w := by exact_mod_cast hs.1
  have hp : (0 : ℝ) < h := by exact_mod_cast hs.2.1
  have hk : id / (w * h) = 0 := Nat.div_eq_of_lt hid
  unfold Slice.abscissa sliceAbscissa cellCentre
  rw [hw, hh, b1, b2, b3, b4]
  generalize (sliceInterval s.par.input).1 = lo
  generalize (sliceInterval s.par.input).2 = hi
  simp only [hk, Nat.zero_mul, Nat.sub_zero]
  have c : ∀ (i n : ℝ), 0 < n → (i + 0.5) * (hi - lo) / n + lo = lo + (hi - lo) * ((2 * i + 1) / (2 * n)) := by
    intro i n hn
    field_simp
    ring
  rw [c _ _ wp, c _ _ hp]
  by_cases hz : AzimuthFirst s.par.input
  · rw [if_pos (hr.2 hz), if_pos hz, ha hz]
    rfl
  · rw [if_neg (by rw [hr]; exact hz), if_neg hz]
    rcases hd with h2 | h3
    · rw [h2]; rfl
    · rw [h3]; rfl

/-- `get` gives the centre of the cell and the three stored numbers. -/
theorem slice_get {s : Slice} {w h : ℕ} (hs : SliceOf s w h) (id : ℕ) (hid : id < w * h) :
    s.get id = some (sliceAbscissa s.par.input s.par.dimX
      (cellCentre (sliceInterval s.par.input).1 (sliceInterval s.par.input).2 w (id % w))
      (cellCentre (sliceInterval s.par.input).1 (sliceInterval s.par.input).2 h (id / w)) s.phi ++
      [arr s.data (3 * id), arr s.data (3 * id + 1), arr s.data (3 * id + 2)]) := by
  unfold Slice.get
  rw [sample_eq hs id hid, slice_abscissa hs id hid]
  rfl

theorem cellCentre_mem {lo hi : ℝ} (hlt : lo < hi) {n i : ℕ} (hi' : i < n) :
    lo < cellCentre lo hi n i ∧ cellCentre lo hi n i < hi := by
  have hn : (0 : ℝ) < n := by exact_mod_cast (by omega : 0 < n)
  have h1 : (i : ℝ) + 1 ≤ n := by exact_mod_cast hi'
  have hp : (0 : ℝ) < (2 * i + 1) / (2 * n) := by positivity
  have hq : ((2 * i + 1) / (2 * n) : ℝ) < 1 := by rw [div_lt_one (by positivity)]; linarith
  unfold cellCentre
  constructor <;> nlinarith

theorem cellCentre_inj {lo hi : ℝ} (hlt : lo < hi) {n i j : ℕ} (hn : 0 < n)
    (he : cellCentre lo hi n i = cellCentre lo hi n j) : i = j := by
  have hn' : (0 : ℝ) < n := by exact_mod_cast hn
  unfold cellCentre at he
  have h1 := add_left_cancel he
  have h2 := mul_left_cancel₀ (by linarith : hi - lo ≠ 0) h1
  rw [div_left_inj' (by positivity)] at h2
  have : (i : ℝ) = j := by linarith
  exact_mod_cast this

theorem sliceAbscissa_inj {i : Input} {d : ℕ} {u v w u' v' : ℝ}
    (h : sliceAbscissa i d u v w = sliceAbscissa i d u' v' w) : u = u' ∧ v = v' := by
  unfold sliceAbscissa at h
  split_ifs at h <;> simp_all

/-- No two samples have the same abscissa. -/
theorem slice_abscissae_distinct {s : Slice} {w h : ℕ} (hs : SliceOf s w h) {a b : ℕ} (ha : a < w * h)
    (hb : b < w * h) (he : s.abscissa a = s.abscissa b) : a = b := by
  rw [slice_abscissa hs a ha, slice_abscissa hs b hb] at he
  obtain ⟨h1, h2⟩ := sliceAbscissa_inj he
  have e1 := cellCentre_inj (sliceInterval_lt _) hs.1 h1
  have e2 := cellCentre_inj (sliceInterval_lt _) hs.2.1 h2
  rw [← Nat.div_add_mod a w, ← Nat.div_add_mod b w, e1, e2]

/-- The coordinates `value` tests and divides. -/
theorem value_coords {s : Slice} {w h : ℕ} (hs : SliceOf s w h) (u v z : ℝ) :
    let x := sliceAbscissa s.par.input s.par.dimX u v z
    let y := if s.reverse then reverseHead s.par.dimX x else x
    arr y 0 = u ∧ arr y 1 = v ∧ arr x 1 = v ∧ arr x 0 = (if AzimuthFirst s.par.input then z else u) := by
  obtain ⟨_, _, _, hd, _, ha, hr, _⟩ := sliceOf_facts hs
  intro x y
  by_cases hz : AzimuthFirst s.par.input
  · have : x = [z, v, u] := if_pos hz
    have hy : y = [u, v, z] := by
      show (if s.reverse then reverseHead s.par.dimX x else x) = _
      rw [if_pos (hr.2 hz), this, ha hz]; rfl
    rw [hy, this, if_pos hz]
    exact ⟨rfl, rfl, rfl, rfl⟩
  · have hy : y = x := if_neg (by rw [hr]; exact hz)
    rw [hy, if_neg hz]
    have : x = if s.par.dimX = 3 then [u, v, z] else [u, v] := if_neg hz
    rw [this]
    rcases hd with h2 | h3
    · rw [h2]; exact ⟨rfl, rfl, rfl, rfl⟩
    · rw [h3]; exact ⟨rfl, rfl, rfl, rfl⟩

/-- `value` at an abscissa of which the coordinates are in the half-open interval: the sample of the
    cell the point is in. -/
theorem value_in_cell {s : Slice} {w h : ℕ} (hs : SliceOf s w h) {u v z : ℝ}
    (hu : (sliceInterval s.par.input).1 ≤ u) (hu' : u < (sliceInterval s.par.input).2)
    (hv : (sliceInterval s.par.input).1 ≤ v) (hv' : v < (sliceInterval s.par.input).2)
    (hz : AzimuthFirst s.par.input → -(π / 2) ≤ z) :
    ∃ i < w, ∃ j < h,
      s.value (sliceAbscissa s.par.input s.par.dimX u v z) =
        .values [arr s.data (3 * (i + j * w)), arr s.data (3 * (i + j * w) + 1),
          arr s.data (3 * (i + j * w) + 2)] ∧
      |u - cellCentre (sliceInterval s.par.input).1 (sliceInterval s.par.input).2 w i| ≤
        ((sliceInterval s.par.input).2 - (sliceInterval s.par.input).1) / (2 * w) ∧
      |v - cellCentre (sliceInterval s.par.input).1 (sliceInterval s.par.input).2 h j| ≤
        ((sliceInterval s.par.input).2 - (sliceInterval s.par.input).1) / (2 * h) ∧
      i = ⌊(u - (sliceInterval s.par.input).1) * w /
        ((sliceInterval s.par.input).2 - (sliceInterval s.par.input).1)⌋ ∧
      j = ⌊(v - (sliceInterval s.par.input).1) * h /
        ((sliceInterval s.par.input).2 - (sliceInterval s.par.input).1)⌋ := by
  obtain ⟨hw, hh, _, _, _, _, _, b1, b2, b3, b4⟩ := sliceOf_facts hs
  obtain ⟨c1, c2, c3, c4⟩ := value_coords hs u v z
  have hlo : AzimuthFirst s.par.input → (sliceInterval s.par.input).1 = -(π / 2) := by
    rintro (e | e | e) <;> rw [e] <;> rfl
  have hx0 : ¬ arr (sliceAbscissa s.par.input s.par.dimX u v z) 0 < (sliceInterval s.par.input).1 := by
    rw [c4]
    split_ifs with ha
    · rw [hlo ha]; exact not_lt.2 (hz ha)
    · exact not_lt.2 hu
  have key : ∀ lo hi t : ℝ, lo < hi → lo ≤ t → t < hi → ∀ n : ℕ, 0 < n → ∃ i < n,
      (i : ℤ) = ⌊(t - lo) * n / (hi - lo)⌋ ∧ |t - cellCentre lo hi n i| ≤ (hi - lo) / (2 * n) := by
    intro lo hi t hlt h1 h2 n hn
    have hn' : (0 : ℝ) < n := by exact_mod_cast hn
    have hd : 0 < hi - lo := by linarith
    have q0 : 0 ≤ (t - lo) * n / (hi - lo) := by
      apply div_nonneg _ hd.le
      exact mul_nonneg (by linarith) hn'.le
    have q1 : (t - lo) * n / (hi - lo) < n := by
      rw [div_lt_iff₀ hd]
      nlinarith
    obtain ⟨i, hi'⟩ := Int.eq_ofNat_of_zero_le (Int.floor_nonneg.2 q0)
    have f1 : (i : ℝ) ≤ (t - lo) * n / (hi - lo) := by
      have := Int.floor_le ((t - lo) * n / (hi - lo))
      rw [hi'] at this; exact_mod_cast this
    have f2 : (t - lo) * n / (hi - lo) < i + 1 := by
      have := Int.lt_floor_add_one ((t - lo) * n / (hi - lo))
      rw [hi'] at this; exact_mod_cast this
    refine ⟨i, ?_, hi'.symm, ?_⟩
    · have : (i : ℝ) < n := lt_of_le_of_lt f1 q1
      exact_mod_cast this
    · rw [le_div_iff₀ hd] at f1
      rw [div_lt_iff₀ hd] at f2
      rw [abs_le, cellCentre]
      have e : (hi - lo) * ((2 * (i : ℝ) + 1) / (2 * n)) = ((hi - lo) * i) / n + (hi - lo) / (2 * n) := by
        field_simp
      have g1 : (hi - lo) * i / n ≤ t - lo := by rw [div_le_iff₀ hn']; linarith
      have g2 : t - lo ≤ (hi - lo) * i / n + 2 * ((hi - lo) / (2 * n)) := by
        have : (hi - lo) * i / n + 2 * ((hi - lo) / (2 * n)) = ((hi - lo) * i + (hi - lo)) / n := by
          field_simp
        rw [this, le_div_iff₀ hn']; linarith
      rw [e]
      constructor <;> linarith
  obtain ⟨i, hi, ei, di⟩ := key _ _ u (sliceInterval_lt s.par.input) hu hu' w hs.1
  obtain ⟨j, hj, ej, dj⟩ := key _ _ v (sliceInterval_lt s.par.input) hv hv' h hs.2.1
  refine ⟨i, hi, j, hj, ?_, di, dj, ei, ej⟩
  have hid : i + j * w < w * h := by
    calc i + j * w < w + j * w := by omega
      _ = w * (j + 1) := by ring
      _ ≤ w * h := Nat.mul_le_mul_left _ hj
  unfold Slice.value
  simp only [c1, c2, c3, b1, b2, b3, b4, hw, hh]
  rw [if_neg (by
    rintro (h' | h' | h' | h')
    · linarith
    · exact hx0 h'
    · linarith
    · linarith), ← ei, ← ej]
  have : ((i : ℤ) + j * w) * 1 = ((i + j * w : ℕ) : ℤ) := by push_cast; ring
  rw [this, sample_eq hs _ hid]

/-- **The nearest sample.**  Inside the domain `value` gives the numbers of a sample that `get`
    returns, the abscissa of which is within half a cell in both coordinates. -/
theorem slice_value_nearest_partial {s : Slice} {w h : ℕ} (hs : SliceOf s w h) {u v z : ℝ}
    (hu : (sliceInterval s.par.input).1 ≤ u) (hu' : u < (sliceInterval s.par.input).2)
    (hv : (sliceInterval s.par.input).1 ≤ v) (hv' : v < (sliceInterval s.par.input).2)
    (hz : AzimuthFirst s.par.input → -(π / 2) ≤ z) :
    ∃ id < w * h, ∃ u' v' : ℝ, ∃ rgb : List ℝ,
      s.get id = some (sliceAbscissa s.par.input s.par.dimX u' v' s.phi ++ rgb) ∧
      s.value (sliceAbscissa s.par.input s.par.dimX u v z) = .values rgb ∧ rgb.length = 3 ∧
      |u - u'| ≤ ((sliceInterval s.par.input).2 - (sliceInterval s.par.input).1) / (2 * w) ∧
      |v - v'| ≤ ((sliceInterval s.par.input).2 - (sliceInterval s.par.input).1) / (2 * h) := by
  obtain ⟨i, hi, j, hj, hval, d1, d2, -, -⟩ := value_in_cell hs hu hu' hv hv' hz
  have hid : i + j * w < w * h := by
    calc i + j * w < w + j * w := by omega
      _ = w * (j + 1) := by ring
      _ ≤ w * h := Nat.mul_le_mul_left _ hj
  have hm : (i + j * w) % w = i := by rw [Nat.add_mul_mod_self_right, Nat.mod_eq_of_lt hi]
  have hq : (i + j * w) / w = j := by
    rw [Nat.add_mul_div_right _ _ hs.1, Nat.div_eq_of_lt hi, Nat.zero_add]
  refine ⟨i + j * w, hid, _, _, _, slice_get hs _ hid, hval, rfl, ?_, ?_⟩
  · rw [hm]; exact d1
  · rw [hq]; exact d2

theorem floor_centre {lo hi : ℝ} (hlt : lo < hi) {n i : ℕ} (hn : 0 < n) :
    ⌊(cellCentre lo hi n i - lo) * n / (hi - lo)⌋ = (i : ℤ) := by
  have hn' : (0 : ℝ) < n := by exact_mod_cast hn
  have hd : hi - lo ≠ 0 := by linarith
  have : (cellCentre lo hi n i - lo) * n / (hi - lo) = i + 1 / 2 := by
    unfold cellCentre
    field_simp
    ring
  rw [this, Int.floor_eq_iff]
  push_cast
  constructor <;> linarith

/-- **The value of a sample.**  `value` at the abscissa `get` returns is the value `get` returns. -/
theorem slice_value_of_sample {s : Slice} {w h : ℕ} (hs : SliceOf s w h) (id : ℕ) (hid : id < w * h)
    (hz : AzimuthFirst s.par.input → -(π / 2) ≤ s.phi) :
    s.value (s.abscissa id) = .values [arr s.data (3 * id), arr s.data (3 * id + 1), arr s.data (3 * id + 2)] := by
  have hm : id % w < w := Nat.mod_lt _ hs.1
  have hq : id / w < h := Nat.div_lt_of_lt_mul hid
  obtain ⟨a1, a2⟩ := cellCentre_mem (sliceInterval_lt s.par.input) hm
  obtain ⟨b1, b2⟩ := cellCentre_mem (sliceInterval_lt s.par.input) hq
  obtain ⟨i, hi, j, hj, hval, -, -, ei, ej⟩ := value_in_cell hs a1.le a2 b1.le b2 hz
  rw [floor_centre (sliceInterval_lt _) hs.1] at ei
  rw [floor_centre (sliceInterval_lt _) hs.2.1] at ej
  have ei' : i = id % w := by exact_mod_cast ei
  have ej' : j = id / w := by exact_mod_cast ej
  have : i + j * w = id := by rw [ei', ej', Nat.mul_comm]; exact Nat.mod_add_div id w
  rw [this] at hval
  rw [slice_abscissa hs id hid]
  exact hval

theorem sliceOf_data {s : Slice} {w h : ℕ} (hs : SliceOf s w h) (c : List ℝ)
    (hc : c.length = 3 * (w * h)) : SliceOf { s with data := c } w h := by
  obtain ⟨h1, h2, args, c0, _, rfl⟩ := hs
  exact ⟨h1, h2, args, c, hc, rfl⟩

/-- **Storing a sample.**  `set` keeps the abscissae, replaces the values of the sample by the last
    three numbers it is given, and leaves the other samples as they are. -/
theorem slice_set_get {s : Slice} {w h : ℕ} (hs : SliceOf s w h) (id : ℕ) (hid : id < w * h)
    (x rgb : List ℝ) (hx : x.length = s.par.dimX) (hrgb : rgb.length = 3) :
    ∃ t, s.set id (x ++ rgb) = some t ∧ SliceOf t w h ∧
      t.get id = some (s.abscissa id ++ rgb) ∧
      ∀ b < w * h, b ≠ id → t.get b = s.get b := by
  obtain ⟨hw, hh, hl, hd, hy, ha, hr, c1, c2, c3, c4⟩ := sliceOf_facts hs
  obtain ⟨r, g, b, rfl⟩ : ∃ r g b, rgb = [r, g, b] := by
    match rgb, hrgb with
    | [r, g, b], _ => exact ⟨r, g, b, rfl⟩
  have hn : ¬ (x ++ [r, g, b]).length ≠ s.par.dimX + s.par.dimY := by simp [hx, hy]
  have hin : ¬ s.data.length ≤ 3 * id + 2 := by omega
  have v0 : arr (x ++ [r, g, b]) (s.par.dimX + 0) = r := by simp [arr, hx.symm, List.getD]
  have v1 : arr (x ++ [r, g, b]) (s.par.dimX + 1) = g := by simp [arr, hx.symm, List.getD]
  have v2 : arr (x ++ [r, g, b]) (s.par.dimX + 2) = b := by simp [arr, hx.symm, List.getD]
  let t : Slice := { s with data := ((s.data.set (3 * id + 0) r).set (3 * id + 1) g).set (3 * id + 2) b }
  have hst : s.set id (x ++ [r, g, b]) = some t := by
    unfold Slice.set
    rw [if_neg hn, if_neg hin, v0, v1, v2]
  have ht : SliceOf t w h := sliceOf_data hs _ (by simp [hl])
  have hat : ∀ k, t.abscissa k = s.abscissa k := fun k => rfl
  refine ⟨t, hst, ht, ?_, ?_⟩
  · unfold Slice.get
    rw [sample_eq ht id hid, hat]
    have l0 : 3 * id < s.data.length := by omega
    have l1 : 3 * id + 1 < s.data.length := by omega
    have l2 : 3 * id + 2 < s.data.length := by omega
    have d0 : arr t.data (3 * id) = r := by simp [t, arr, List.getD, List.getElem?_set, l0]
    have d1 : arr t.data (3 * id + 1) = g := by simp [t, arr, List.getD, List.getElem?_set, l1]
    have d2 : arr t.data (3 * id + 2) = b := by simp [t, arr, List.getD, List.getElem?_set, l2]
    rw [d0, d1, d2]
    rfl
  · intro k hk hne
    unfold Slice.get
    rw [sample_eq ht k hk, sample_eq hs k hk, hat]
    have dd : ∀ n, n ≠ 3 * id + 0 → n ≠ 3 * id + 1 → n ≠ 3 * id + 2 → arr t.data n = arr s.data n := by
      intro n n0 n1 n2
      simp only [t, arr, List.getD, List.getElem?_set]
      rw [if_neg (Ne.symm n2), if_neg (Ne.symm n1), if_neg (Ne.symm n0)]
    rw [dd _ (by omega) (by omega) (by omega), dd _ (by omega) (by omega) (by omega),
      dd _ (by omega) (by omega) (by omega)]

/-- The component of the pixels that a plane gives. -/
theorem plane_pixels (c : ℕ) (hc : c < 3) (vals : List ℝ) (n : ℕ) (pix : ℕ → ℝ) (i : ℕ) (d : ℕ) (hd : d < 3) :
    (List.range n).foldl (fun pix i => Function.update pix (3 * i + c) (arr vals i)) pix (3 * i + d) =
      if i < n ∧ d = c then arr vals i else pix (3 * i + d) := by
  induction n with
  | zero => simp
  | succ n ih =>
    rw [List.range_succ, List.foldl_append]
    simp only [List.foldl_cons, List.foldl_nil]
    by_cases h : 3 * i + d = 3 * n + c
    · have e1 : i = n := by omega
      have e2 : d = c := by omega
      subst e1; subst e2
      simp
    · rw [Function.update_of_ne h, ih]
      have : (i < n ∧ d = c) ↔ (i < n + 1 ∧ d = c) := by
        constructor
        · rintro ⟨a, b⟩; exact ⟨by omega, b⟩
        · rintro ⟨a, b⟩; exact ⟨by omega, b⟩
      simp only [this]

theorem exrPixels_cons (w h : ℕ) (junk : ℕ → ℝ) (p : Char × List ℝ) (rest : List (Char × List ℝ)) :
    exrPixels w h junk (p :: rest) = exrPixels w h ((List.range (w * h)).foldl (fun pix i =>
      match exrChannel p.1 with
      | some c => Function.update pix (3 * i + c) (arr p.2 i)
      | none => pix) junk) rest := rfl

/-- The planes of the channel `c`. -/
theorem exrPixels_eq (w h : ℕ) (planes : List (Char × List ℝ)) : ∀ (junk : ℕ → ℝ) (i : ℕ), i < w * h →
    ∀ c < 3, exrPixels w h junk planes (3 * i + c) =
      ((planes.filter fun p => exrChannel p.1 = some c).getLast?.map fun p => arr p.2 i).getD
        (junk (3 * i + c)) := by
  induction planes with
  | nil => intro junk i _ c _; rfl
  | cons p rest ih =>
    intro junk i hi c hc
    rw [exrPixels_cons, ih _ i hi c hc]
    cases hch : exrChannel p.1 with
    | none =>
      have hz : ∀ (l : List ℕ) (pix : ℕ → ℝ), l.foldl (fun pix _ => pix) pix = pix := by
        intro l; induction l with
        | nil => intro _; rfl
        | cons _ _ ih => intro pix; exact ih pix
      simp only [hz]
      rw [List.filter_cons_of_neg (by simp [hch])]
    | some d =>
      have hd : d < 3 := by
        unfold exrChannel at hch
        split_ifs at hch <;> simp at hch <;> omega
      simp only
      rw [plane_pixels d hd p.2 (w * h) junk i c hc]
      by_cases hcd : c = d
      · subst hcd
        rw [List.filter_cons_of_pos (by simp [hch]), List.getLast?_cons, if_pos ⟨hi, rfl⟩]
        cases (rest.filter fun p => exrChannel p.1 = some c).getLast? <;> simp
      · rw [List.filter_cons_of_neg (by simp [hch, Ne.symm hcd]), if_neg (by tauto)]

/-- **Writing an image and reading it.**  Whatever the storage held before, and in whatever order the
    three planes of the image come back, the slice that is loaded with the same arguments has the same
    size and abscissae, and the values of its samples are those of the samples of the slice that was
    saved, in single precision. -/
theorem slice_save_load (single : ℝ → ℝ) (args : SMap) (w h : ℕ) (hw : 0 < w) (hh : 0 < h)
    (content : List ℝ) (hc : content.length = 3 * (w * h)) (junk : ℕ → ℝ)
    (planes : List (Char × List ℝ))
    (hp : planes.Perm ((mkSlice args w h 1 content).save single).2.2) :
    let s := mkSlice args w h 1 content
    let t := sliceLoad args junk ((s.save single).1, (s.save single).2.1, planes)
    SliceOf t w h ∧ t.par = s.par ∧
    ∀ id < w * h, ∃ r g b : ℝ, s.get id = some (s.abscissa id ++ [r, g, b]) ∧
      t.get id = some (s.abscissa id ++ [single r, single g, single b]) := by
  intro s t
  have hs : SliceOf s w h := ⟨hw, hh, args, content, hc, rfl⟩
  have e1 : (s.save single).1 = w := rfl
  have e2 : (s.save single).2.1 = h := by show 1 * h = h; omega
  have et : t = mkSlice args w h 1 ((List.range (w * h * 3)).map (exrPixels w h junk planes)) := by
    show sliceLoad args junk ((s.save single).1, (s.save single).2.1, planes) = _
    rw [e1, e2]; rfl
  have ht : SliceOf t w h := ⟨hw, hh, args, _, by simp; ring, et⟩
  refine ⟨ht, by rw [et]; rfl, ?_⟩
  intro id hid
  have hpl : (s.save single).2.2 = exrPlanes single w h (arr content) := by
    show exrPlanes single w (1 * h) (arr content) = _
    rw [Nat.one_mul]
  have pl : ∀ c < 3, ∀ i < w * h, exrPixels w h junk planes (3 * i + c) = single (arr content (3 * i + c)) := by
    intro c hc3 i hi
    rw [exrPixels_eq w h planes junk i hi c hc3]
    have hperm := hp.filter fun p => exrChannel p.1 = some c
    have h3 : ((s.save single).2.2.filter fun p => exrChannel p.1 = some c).map (fun p => arr p.2 i) =
        [single (arr content (3 * i + c))] ∧
        ((s.save single).2.2.filter fun p => exrChannel p.1 = some c).length = 1 := by
      rw [hpl]
      have hg : ∀ c' : ℕ, arr ((List.range (w * h)).map fun i => single (arr content (3 * i + c'))) i =
          single (arr content (3 * i + c')) := by
        intro c'
        simp [arr, List.getD, hi]
      rcases (by omega : c = 0 ∨ c = 1 ∨ c = 2) with rfl | rfl | rfl
      · have h0 := hg 0
        simp only [Nat.add_zero] at h0
        simp [exrPlanes, exrChannel, h0]
      · simp only [exrPlanes, exrChannel, List.filter, List.map, hg]; simp [hg]
      · simp only [exrPlanes, exrChannel, List.filter, List.map, hg]; simp [hg]
    have hlen := hperm.length_eq
    obtain ⟨q, hq⟩ := List.length_eq_one_iff.1 (hlen.trans h3.2)
    have hm := (hperm.map (fun p => arr p.2 i)).trans (List.Perm.of_eq h3.1)
    rw [hq] at hm
    have : arr q.2 i = single (arr content (3 * i + c)) := by
      have := List.perm_singleton.1 hm
      simpa using this
    rw [hq]
    simpa using this
  refine ⟨arr content (3 * id), arr content (3 * id + 1), arr content (3 * id + 2), ?_, ?_⟩
  · unfold Slice.get
    rw [sample_eq hs id hid]; rfl
  · unfold Slice.get
    rw [sample_eq ht id hid]
    have ha : t.abscissa id = s.abscissa id := by rw [et]; rfl
    rw [ha]
    have g : ∀ c < 3, arr t.data (3 * id + c) = single (arr content (3 * id + c)) := by
      intro c hc3
      rw [← pl c hc3 id hid, et]
      have : 3 * id + c < w * h * 3 := by omega
      show arr ((List.range (w * h * 3)).map (exrPixels w h junk planes)) (3 * id + c) = _
      simp [arr, List.getD, this]
    have g0 := g 0 (by omega)
    rw [Nat.add_zero] at g0
    rw [g0, g 1 (by omega), g 2 (by omega)]
    rfl

/-- A channel that the image lacks leaves the numbers that the storage held before. -/
theorem slice_missing_channel (args : SMap) (w h : ℕ) (junk : ℕ → ℝ) (planes : List (Char × List ℝ))
    (c : ℕ) (hc : c < 3) (hm : ∀ p ∈ planes, exrChannel p.1 ≠ some c) (id : ℕ) (hid : id < w * h) :
    arr (sliceLoad args junk (w, h, planes)).data (3 * id + c) = junk (3 * id + c) := by
  have : 3 * id + c < w * h * 3 := by omega
  show arr ((List.range (w * h * 3)).map (exrPixels w h junk planes)) (3 * id + c) = _
  have e : arr ((List.range (w * h * 3)).map (exrPixels w h junk planes)) (3 * id + c) =
      exrPixels w h junk planes (3 * id + c) := by simp [arr, List.getD, this]
  rw [e, exrPixels_eq w h planes junk id hid c hc]
  have : planes.filter (fun p => exrChannel p.1 = some c) = [] := by
    rw [List.filter_eq_nil_iff]
    intro p hp
    simpa using hm p hp
  rw [this]
  rfl

end
end Alta
