import Verif.Model.Segment
import Mathlib.Data.List.Forall2
import Mathlib.Tactic.Linarith
import Mathlib.Tactic.Ring
import Mathlib.Tactic.NormNum
/-
Properties C24 (reported intervals), C25 (get and set), C26 (bounds), C27 (equality).
-/
namespace Alta

variable {α : Type}

/-- The buffer has one row of `columns` values for each sample. -/
def Store.WF (s : Store α) : Prop := s.raw.length = s.size * s.columns

theorem row_lt {i j c k : ℕ} (h : j < i) (hk : k < c) : j * c + k < i * c := by
  have : (j + 1) * c ≤ i * c := Nat.mul_le_mul_right c h
  rw [Nat.add_mul, one_mul] at this; omega

/-- reading inside a buffer where `x` was written at the start of row `i` -/
theorem getElem?_write (raw x : List α) (i j c k : ℕ) (hx : x.length ≤ c) (hlen : i * c ≤ raw.length)
    (hk : k < c) :
    (raw.take (i * c) ++ (x ++ raw.drop (i * c + x.length)))[j * c + k]?
      = if j = i ∧ k < x.length then x[k]? else raw[j * c + k]? := by
  have htake : (raw.take (i * c)).length = i * c := by rw [List.length_take]; omega
  rcases Nat.lt_trichotomy j i with h | h | h
  · have := row_lt h hk
    rw [List.getElem?_append_left (by omega), List.getElem?_take_of_lt this, if_neg (by omega)]
  · subst h
    rw [List.getElem?_append_right (by omega), htake, Nat.add_sub_cancel_left]
    by_cases hkx : k < x.length
    · rw [List.getElem?_append_left hkx, if_pos ⟨rfl, hkx⟩]
    · rw [List.getElem?_append_right (by omega), List.getElem?_drop, if_neg (by omega)]
      congr 1; omega
  · have := row_lt (k := 0) h (by omega : 0 < c)
    have h2 : (i + 1) * c ≤ j * c := Nat.mul_le_mul_right c h
    rw [Nat.add_mul, one_mul] at h2
    rw [List.getElem?_append_right (by omega), htake, List.getElem?_append_right (by omega),
      List.getElem?_drop, if_neg (by omega)]
    congr 1; omega

theorem getElem?_row (s : Store α) (i k : ℕ) :
    (s.row i)[k]? = if k < s.columns then s.raw[i * s.columns + k]? else Option.none := by
  unfold Store.row
  split
  · rename_i h; rw [List.getElem?_take_of_lt h, List.getElem?_drop]
  · rename_i h; rw [List.getElem?_take_eq_none (by omega)]

theorem Store.get_eq (s : Store α) (i : ℕ) :
    s.get i = if i < s.size then some ((s.row i).take (s.dimX + s.dimY)) else Option.none := by
  unfold Store.get Store.row
  rw [List.take_take, Nat.min_eq_left (by unfold Store.columns; omega)]

/-- C25: writing the sample `i` and reading it again gives the value written; no other
    sample changes, interval included; dimensions, parametrizations, number of samples
    and kind of interval are kept. -/
theorem set_get (s : Store α) (hs : s.WF) (i : ℕ) (hi : i < s.size) (x : List α)
    (hx : x.length = s.columns ∨ x.length = s.dimX + s.dimY) :
    ∃ s', s.set i x = some s' ∧ s'.WF ∧
      s'.get i = some (x.take (s.dimX + s.dimY)) ∧
      (∀ j, j ≠ i → s'.get j = s.get j ∧ s'.row j = s.row j) ∧
      -- the part of the row that is not written keeps its content
      s'.row i = x ++ (s.row i).drop x.length ∧
      s'.dimX = s.dimX ∧ s'.dimY = s.dimY ∧ s'.input = s.input ∧ s'.output = s.output ∧
      s'.size = s.size ∧ s'.kind = s.kind := by
  have hxc : x.length ≤ s.columns := by unfold Store.columns at *; omega
  have hxv : s.dimX + s.dimY ≤ x.length := by unfold Store.columns at *; omega
  have hrow : i * s.columns + s.columns ≤ s.raw.length := by
    rw [hs]
    have : (i + 1) * s.columns ≤ s.size * s.columns := Nat.mul_le_mul_right _ hi
    rwa [Nat.add_mul, one_mul] at this
  let s' : Store α := { s with raw := s.raw.take (i * s.columns) ++ (x ++ s.raw.drop (i * s.columns + x.length)) }
  have hc : s'.columns = s.columns := rfl
  have hget : ∀ j k, k < s.columns → s'.raw[j * s.columns + k]?
      = if j = i ∧ k < x.length then x[k]? else s.raw[j * s.columns + k]? := fun j k hk =>
    getElem?_write s.raw x i j s.columns k hxc (by omega) hk
  have hother : ∀ j, j ≠ i → s'.row j = s.row j := by
    intro j hj
    apply List.ext_getElem?
    intro k
    rw [getElem?_row, getElem?_row, hc]
    split
    · rename_i hk; rw [hget j k hk, if_neg (by omega)]
    · rfl
  have hsame : s'.row i = x ++ (s.row i).drop x.length := by
    apply List.ext_getElem?
    intro k
    rw [getElem?_row, hc]
    by_cases hkx : k < x.length
    · rw [if_pos (by omega), hget i k (by omega), if_pos ⟨rfl, hkx⟩, List.getElem?_append_left hkx]
    · rw [List.getElem?_append_right (l₁ := x) (by omega), List.getElem?_drop, getElem?_row]
      have e : x.length + (k - x.length) = k := by omega
      rw [e]
      split
      · rename_i hk; rw [hget i k hk, if_neg (by omega)]
      · rfl
  refine ⟨s', ?_, ?_, ?_, ?_, hsame, rfl, rfl, rfl, rfl, rfl, rfl⟩
  · unfold Store.set; rw [if_pos hx, if_pos hi]
  · show (s.raw.take (i * s.columns) ++ (x ++ s.raw.drop (i * s.columns + x.length))).length = _
    rw [List.length_append, List.length_append, List.length_take, List.length_drop]
    have h1 : s'.size * s'.columns = s.raw.length := hs.symm
    rw [h1]; omega
  · rw [Store.get_eq]
    have h1 : i < s'.size := hi
    have h2 : s'.dimX + s'.dimY = s.dimX + s.dimY := rfl
    rw [if_pos h1, hsame, h2, List.take_append_of_le_length hxv]
  · intro j hj
    refine ⟨?_, hother j hj⟩
    rw [Store.get_eq, Store.get_eq, hother j hj]

/-- C25: a vector of any other length is refused. -/
theorem set_refused (s : Store α) (i : ℕ) (x : List α) (h1 : x.length ≠ s.columns)
    (h2 : x.length ≠ s.dimX + s.dimY) : s.set i x = Option.none := by
  unfold Store.set; rw [if_neg (by tauto)]

/-- C25: no sample is read outside the data set, every one inside can be read and has
    `dimX + dimY` entries. -/
theorem get_isSome (s : Store α) (hs : s.WF) (i : ℕ) :
    (i < s.size → ∃ v, s.get i = some v ∧ v.length = s.dimX + s.dimY) ∧
    (s.size ≤ i → s.get i = Option.none) := by
  constructor
  · intro hi
    refine ⟨_, by rw [Store.get, if_pos hi], ?_⟩
    have : (i + 1) * s.columns ≤ s.size * s.columns := Nat.mul_le_mul_right _ hi
    rw [Nat.add_mul, one_mul, ← hs] at this
    rw [List.length_take, List.length_drop]
    unfold Store.columns at *
    omega
  · intro hi; rw [Store.get, if_neg (by omega)]

/-- three samples of a function from ℝ² to ℝ with asymmetrical intervals -/
def exampleStore : Store ℕ :=
  { dimX := 2, dimY := 1, input := .RUSIN_TH_TD, output := .INV_STERADIAN, size := 3,
    raw := [0, 0, 5, 4, 6, 0, 1, 7, 6, 8, 1, 1, 9, 8, 10], kind := .asymmetrical }

example : exampleStore.WF ∧ 1 < exampleStore.size ∧ [3, 3, 3].length = exampleStore.dimX + exampleStore.dimY := by
  refine ⟨rfl, by decide, rfl⟩

/-! C24: intervals -/

/-- Specification: component-wise order of vectors of the same length. -/
def VecLe (a b : List ℝ) : Prop := List.Forall₂ (· ≤ ·) a b

theorem forall₂_map_left (f : ℝ → ℝ) (y : List ℝ) (h : ∀ v, f v ≤ v) : VecLe (y.map f) y := by
  induction y with
  | nil => exact .nil
  | cons a y ih => exact .cons (h a) ih

theorem forall₂_map_right (f : ℝ → ℝ) (y : List ℝ) (h : ∀ v, v ≤ f v) : VecLe y (y.map f) := by
  induction y with
  | nil => exact .nil
  | cons a y ih => exact .cons (h a) ih

/-- C24: without interval data the reported segment is the value ± 0.1, in particular
    it contains the value. -/
theorem getSegment_none (s : Store ℝ) (hk : s.kind = .none) (i : ℕ) (hi : i < s.size) :
    ∃ v lo hi, s.get i = some v ∧ s.getSegment i = some (v.take s.dimX, lo, hi) ∧
      lo = (v.drop s.dimX).map (· - 1 / 10) ∧ hi = (v.drop s.dimX).map (· + 1 / 10) ∧
      VecLe lo (v.drop s.dimX) ∧ VecLe (v.drop s.dimX) hi := by
  have hc : s.columns = s.dimX + s.dimY := by simp [Store.columns, ciColumns, hk]
  have hy : segment (s.row i) s.dimX s.dimY = ((s.row i).take (s.dimX + s.dimY)).drop s.dimX := by
    unfold segment; rw [List.drop_take, Nat.add_sub_cancel_left]
  refine ⟨(s.row i).take (s.dimX + s.dimY), _, _, by rw [Store.get_eq, if_pos hi], ?_, rfl, rfl, ?_, ?_⟩
  · rw [Store.getSegment, if_pos hi]
    simp only [hk, hy]
    unfold defaultDt
    congr 1
    unfold segment
    rw [List.drop_zero, List.take_take, Nat.min_eq_left (by omega)]
  · exact forall₂_map_left _ _ (fun v => by norm_num)
  · exact forall₂_map_right _ _ (fun v => by norm_num)

example : ∃ s : Store ℝ, s.kind = .none ∧ 0 < s.size ∧ s.WF :=
  ⟨{ dimX := 1, dimY := 1, input := .COS_TH, output := .ENERGY, size := 1, raw := [0, 1], kind := .none },
    rfl, by decide, rfl⟩

/-- C24: with asymmetrical interval data the reported bounds are the stored ones: the
    segment contains the value when the row stores lower ≤ value ≤ upper. -/
theorem getSegment_asymmetrical (s : Store ℝ) (hk : s.kind = .asymmetrical) (i : ℕ) (hi : i < s.size)
    (x y lo up : List ℝ) (hx : x.length = s.dimX) (hy : y.length = s.dimY) (hlo : lo.length = s.dimY)
    (hup : up.length = s.dimY) (hrow : s.row i = x ++ (y ++ (lo ++ up))) :
    s.get i = some (x ++ y) ∧ s.getSegment i = some (x, lo, up) := by
  constructor
  · rw [Store.get_eq, if_pos hi, hrow, ← List.append_assoc, List.take_left' (by simp [hx, hy])]
  · rw [Store.getSegment, if_pos hi]
    simp only [hk, hrow, segment, List.drop_zero]
    rw [List.take_left' hx]
    have h1 : (x ++ (y ++ (lo ++ up))).drop (s.dimX + s.dimY) = lo ++ up := by
      rw [← List.append_assoc, List.drop_left' (by simp [hx, hy])]
    have h2 : (x ++ (y ++ (lo ++ up))).drop (s.dimX + 2 * s.dimY) = up := by
      rw [← List.append_assoc, ← List.append_assoc, List.drop_left' (by simp [hx, hy, hlo]; omega)]
    rw [h1, h2, List.take_left' hlo, List.take_of_length_le (by omega)]

/-- C24, fault of the code: with symmetrical interval data both reported bounds are
    `value - half width`: the value is inside the segment only when the half width is
    zero. -/
theorem getSegment_symmetrical (s : Store ℝ) (hk : s.kind = .symmetrical) (i : ℕ) (hi : i < s.size)
    (x y c : List ℝ) (hx : x.length = s.dimX) (hy : y.length = s.dimY) (hc : c.length = s.dimY)
    (hrow : s.row i = x ++ (y ++ c)) :
    ∃ b, s.getSegment i = some (x, b, b) ∧ b = List.zipWith (· - ·) y c ∧
      (VecLe b y ∧ VecLe y b ↔ ∀ w ∈ c, w = 0) := by
  refine ⟨List.zipWith (· - ·) y c, ?_, rfl, ?_⟩
  · rw [Store.getSegment, if_pos hi]
    simp only [hk, hrow, segment, List.drop_zero]
    have h1 : (x ++ (y ++ c)).drop (s.dimX + s.dimY) = c := by
      rw [← List.append_assoc, List.drop_left' (by simp [hx, hy])]
    rw [List.take_left' hx, h1, List.drop_left' hx, List.take_left' hy, List.take_of_length_le (by omega)]
  · have hyc : y.length = c.length := by omega
    clear hrow hx hy hc
    induction y generalizing c with
    | nil =>
      cases c with
      | nil => simp [VecLe]
      | cons a c => simp at hyc
    | cons a y ih =>
      cases c with
      | nil => simp at hyc
      | cons w c =>
        have := ih c (by simpa using hyc)
        simp only [VecLe, List.zipWith_cons_cons, List.forall₂_cons, List.mem_cons, forall_eq_or_imp] at this ⊢
        constructor
        · rintro ⟨⟨h1, h2⟩, h3, h4⟩
          exact ⟨by linarith, this.1 ⟨h2, h4⟩⟩
        · rintro ⟨rfl, h⟩
          have := this.2 h
          exact ⟨⟨by simp, this.1⟩, by simp, this.2⟩

/-- C24, limit of the code: writing only the value part of a sample keeps the old
    interval, so that the value can leave its interval. -/
theorem set_value_leaves_interval :
    ∃ (s s' : Store ℝ) (v lo up : ℝ), s.WF ∧ s.getSegment 0 = some ([0], [4], [6]) ∧ s.get 0 = some [0, 5] ∧
      s.set 0 [0, v] = some s' ∧ s'.get 0 = some [0, v] ∧ s'.getSegment 0 = some ([0], [lo], [up]) ∧ up < v := by
  refine ⟨{ dimX := 1, dimY := 1, input := .COS_TH, output := .ENERGY, size := 1, raw := [0, 5, 4, 6],
            kind := .asymmetrical }, _, 100, 4, 6, rfl, ?_, ?_, rfl, ?_, ?_, by norm_num⟩
  · simp [Store.getSegment, Store.row, Store.columns, ciColumns, segment]
  · simp [Store.get, Store.columns, ciColumns]
  · simp [Store.get, Store.columns, ciColumns]
  · simp [Store.getSegment, Store.row, Store.columns, ciColumns, segment]

/-- C24: the segment made for a sample: abscissa and value are kept, and the bounds are
    `value ± dt`, or `value (1 ± dt)` for a relative `dt`. -/
theorem makeSegment_spec (x y : List ℝ) (dt : ℝ) :
    makeSegment x.length y.length true dt (x ++ y) = x ++ y ++ y.map (· - dt) ++ y.map (· + dt) ∧
    makeSegment x.length y.length false dt (x ++ y) = x ++ y ++ y.map (· * (1 - dt)) ++ y.map (· * (1 + dt)) := by
  have h : segment (x ++ y) x.length y.length = y := by
    unfold segment; rw [List.drop_left, List.take_length]
  have h2 : (x ++ y).take (x.length + y.length) = x ++ y := List.take_of_length_le (by simp)
  constructor <;> simp [makeSegment, h, h2]

/-- C24: for `dt ≥ 0` (and non negative values when it is relative) the bounds
    enclose the value. -/
theorem makeSegment_encloses (y : List ℝ) (dt : ℝ) (hdt : 0 ≤ dt) :
    VecLe (y.map (· - dt)) y ∧ VecLe y (y.map (· + dt)) ∧
    ((∀ v ∈ y, 0 ≤ v) → VecLe (y.map (· * (1 - dt))) y ∧ VecLe y (y.map (· * (1 + dt)))) := by
  refine ⟨forall₂_map_left _ _ (fun v => by linarith), forall₂_map_right _ _ (fun v => by linarith), ?_⟩
  intro h
  induction y with
  | nil => exact ⟨.nil, .nil⟩
  | cons a y ih =>
    have ha := h a (by simp)
    have := ih (fun v hv => h v (by simp [hv]))
    have hp := mul_nonneg ha hdt
    exact ⟨.cons (by nlinarith) this.1, .cons (by nlinarith) this.2⟩

/-- C24, limit: a relative interval of a negative value is turned upside down. -/
theorem makeSegment_relative_negative (v dt : ℝ) (hv : v < 0) (hdt : 0 < dt) :
    v < v * (1 - dt) ∧ v * (1 + dt) < v := by
  constructor <;> nlinarith

/-! C26: bounds -/

theorem foldl_zipWith_bound (op : ℝ → ℝ → ℝ) (le : ℝ → ℝ → Prop) (h1 : ∀ a b, le (op a b) a)
    (h2 : ∀ a b, le (op a b) b) (hsel : ∀ a b, op a b = a ∨ op a b = b)
    (tr : ∀ a b c, le a b → le b c → le a c) (rf : ∀ a, le a a)
    (cols : List (List ℝ)) (init : List ℝ) (hc : ∀ c ∈ cols, c.length = init.length) (k : ℕ) (hk : k < init.length) :
    ∃ m, (cols.foldl (fun m col => List.zipWith op m col) init)[k]? = some m ∧
      (∀ a, init[k]? = some a → le m a) ∧
      (∀ c ∈ cols, ∀ a, c[k]? = some a → le m a) ∧
      (init[k]? = some m ∨ ∃ c ∈ cols, c[k]? = some m) := by
  induction cols generalizing init with
  | nil =>
    refine ⟨init[k], by simp, ?_, by simp, Or.inl (by simp)⟩
    intro a ha
    rw [List.getElem?_eq_getElem hk] at ha
    rw [Option.some.inj ha]; exact rf _
  | cons c cols ih =>
    have hcl := hc c (by simp)
    have hlen : (List.zipWith op init c).length = init.length := by rw [List.length_zipWith, hcl]; omega
    obtain ⟨m, e1, e2, e3, e4⟩ := ih (List.zipWith op init c)
      (fun d hd => by rw [hlen]; exact hc d (by simp [hd])) (by omega)
    have hz : (List.zipWith op init c)[k]? = some (op init[k] c[k]) := by
      rw [List.getElem?_eq_getElem (by omega), List.getElem_zipWith]
    have hm := e2 _ hz
    refine ⟨m, e1, ?_, ?_, ?_⟩
    · intro a ha
      rw [List.getElem?_eq_getElem hk] at ha
      rw [← Option.some.inj ha]; exact tr _ _ _ hm (h1 _ _)
    · intro d hd a ha
      rcases List.mem_cons.1 hd with rfl | hd
      · rw [List.getElem?_eq_getElem (by omega)] at ha
        rw [← Option.some.inj ha]; exact tr _ _ _ hm (h2 _ _)
      · exact e3 d hd a ha
    · rcases e4 with e4 | ⟨d, hd, e4⟩
      · rw [hz] at e4
        have e5 := Option.some.inj e4
        rcases hsel init[k] c[k] with h | h
        · left; rw [List.getElem?_eq_getElem hk, ← e5, h]
        · right; refine ⟨c, by simp, ?_⟩
          rw [List.getElem?_eq_getElem (by omega), ← e5, h]
      · exact Or.inr ⟨d, by simp [hd], e4⟩

theorem mem_xView (dimX stride : ℕ) (n : ℕ) (raw : List ℝ) (c : List ℝ) :
    c ∈ xView dimX stride n raw ↔ ∃ i < n, c = (raw.drop (i * stride)).take dimX := by
  induction n generalizing raw with
  | zero => simp [xView]
  | succ n ih =>
    simp only [xView, List.mem_cons, ih, List.drop_drop]
    constructor
    · rintro (rfl | ⟨i, hi, rfl⟩)
      · exact ⟨0, by omega, by simp⟩
      · exact ⟨i + 1, by omega, by rw [Nat.add_mul, one_mul]; congr 2; omega⟩
    · rintro ⟨i, hi, rfl⟩
      cases i with
      | zero => left; simp
      | succ i => right; exact ⟨i, by omega, by rw [Nat.add_mul, one_mul]; congr 2; omega⟩

/-- Specification: the `k`-th abscissa of the sample `i`. -/
def Store.abscissa (s : Store ℝ) (i k : ℕ) : Option ℝ := (s.get i).bind (·[k]?)

theorem abscissa_eq (s : Store ℝ) (i k : ℕ) (hi : i < s.size) (hk : k < s.dimX) :
    s.abscissa i k = ((s.raw.drop (i * s.columns)).take s.dimX)[k]? := by
  unfold Store.abscissa Store.get
  rw [if_pos hi, Option.bind_some, List.getElem?_take_of_lt (by omega), List.getElem?_take_of_lt hk]

theorem xView_length (s : Store ℝ) (hs : s.WF) (c : List ℝ)
    (hc : c ∈ xView s.dimX s.columns s.size s.raw) : c.length = s.dimX := by
  obtain ⟨i, hi, rfl⟩ := (mem_xView _ _ _ _ _).1 hc
  have : (i + 1) * s.columns ≤ s.size * s.columns := Nat.mul_le_mul_right _ hi
  rw [Nat.add_mul, one_mul, ← hs] at this
  rw [List.length_take, List.length_drop]
  unfold Store.columns at *; omega

/-- C26: the bounds of a data set, when it is built, are the exact component-wise
    bounds of its abscissae: each abscissa lies between them and each of them is the
    abscissa of a sample (for finite abscissae, i.e. not larger than the largest
    double). -/
theorem bounds_exact (s : Store ℝ) (hs : s.WF) (hsize : 0 < s.size)
    (hfin : ∀ i k a, s.abscissa i k = some a → -dblMax ≤ a ∧ a ≤ dblMax) (k : ℕ) (hk : k < s.dimX) :
    ∃ lo up, (Segments.make s).min[k]? = some lo ∧ (Segments.make s).max[k]? = some up ∧
      (∀ i < s.size, ∃ a, s.abscissa i k = some a ∧ lo ≤ a ∧ a ≤ up) ∧
      (∃ i < s.size, s.abscissa i k = some lo) ∧ (∃ i < s.size, s.abscissa i k = some up) := by
  have hl := xView_length s hs
  obtain ⟨lo, a1, a2, a3, a4⟩ := foldl_zipWith_bound min (· ≤ ·) min_le_left min_le_right
    (fun a b => min_choice a b) (fun _ _ _ => le_trans) (fun _ => le_rfl)
    (xView s.dimX s.columns s.size s.raw) (List.replicate s.dimX dblMax)
    (fun c hc => by rw [List.length_replicate]; exact hl c hc) k (by simpa using hk)
  obtain ⟨up, b1, b2, b3, b4⟩ := foldl_zipWith_bound max (· ≥ ·) le_max_left le_max_right
    (fun a b => max_choice a b) (fun _ _ _ h1 h2 => le_trans h2 h1) (fun _ => le_rfl)
    (xView s.dimX s.columns s.size s.raw) (List.replicate s.dimX (-dblMax))
    (fun c hc => by rw [List.length_replicate]; exact hl c hc) k (by simpa using hk)
  have hmem : ∀ i < s.size, (s.raw.drop (i * s.columns)).take s.dimX ∈ xView s.dimX s.columns s.size s.raw :=
    fun i hi => (mem_xView _ _ _ _ _).2 ⟨i, hi, rfl⟩
  have hab : ∀ i < s.size, ∃ a, s.abscissa i k = some a ∧ lo ≤ a ∧ a ≤ up := by
    intro i hi
    have hlen := hl _ (hmem i hi)
    have e : s.abscissa i k = some ((s.raw.drop (i * s.columns)).take s.dimX)[k] := by
      rw [abscissa_eq s i k hi hk, List.getElem?_eq_getElem]
    refine ⟨_, e, ?_, ?_⟩
    · exact a3 _ (hmem i hi) _ (by rw [List.getElem?_eq_getElem])
    · exact b3 _ (hmem i hi) _ (by rw [List.getElem?_eq_getElem])
  have hrep : ∀ v : ℝ, (List.replicate s.dimX v)[k]? = some v := by
    intro v; rw [List.getElem?_replicate, if_pos hk]
  obtain ⟨a0, ha0, hlo0, hup0⟩ := hab 0 hsize
  refine ⟨lo, up, a1, b1, hab, ?_, ?_⟩
  · rcases a4 with h | ⟨c, hc, h⟩
    · rw [hrep] at h
      have h := Option.some.inj h
      refine ⟨0, hsize, ?_⟩
      rw [ha0]; congr 1
      have := (hfin 0 k a0 ha0).2
      linarith
    · obtain ⟨i, hi, rfl⟩ := (mem_xView _ _ _ _ _).1 hc
      exact ⟨i, hi, by rw [abscissa_eq s i k hi hk, h]⟩
  · rcases b4 with h | ⟨c, hc, h⟩
    · rw [hrep] at h
      have h := Option.some.inj h
      refine ⟨0, hsize, ?_⟩
      rw [ha0]; congr 1
      have := (hfin 0 k a0 ha0).1
      linarith
    · obtain ⟨i, hi, rfl⟩ := (mem_xView _ _ _ _ _).1 hc
      exact ⟨i, hi, by rw [abscissa_eq s i k hi hk, h]⟩

theorem one_le_dblMax : 1 ≤ dblMax := by
  unfold dblMax
  have h1 : (2 : ℝ) ^ (-52 : ℤ) ≤ 1 := by
    rw [zpow_neg]; exact inv_le_one_of_one_le₀ (by norm_num)
  have h2 : (1 : ℝ) ≤ 2 ^ (1023 : ℕ) := one_le_pow₀ (by norm_num)
  generalize (2 : ℝ) ^ (1023 : ℕ) = p at *
  generalize (2 : ℝ) ^ (-52 : ℤ) = q at *
  nlinarith

example : ∃ s : Store ℝ, s.WF ∧ 0 < s.size ∧ (∀ i k a, s.abscissa i k = some a → -dblMax ≤ a ∧ a ≤ dblMax) := by
  refine ⟨{ dimX := 1, dimY := 1, input := .COS_TH, output := .ENERGY, size := 2, raw := [0, 1, 1, 1],
            kind := .none }, rfl, by decide, ?_⟩
  have hd := one_le_dblMax
  intro i k a h
  unfold Store.abscissa Store.get at h
  split at h
  · rename_i hi
    rcases i with _ | _ | i
    · rcases k with _ | _ | k <;> simp [Store.columns, ciColumns] at h <;> subst h <;> constructor <;> linarith
    · rcases k with _ | _ | k <;> simp [Store.columns, ciColumns] at h <;> subst h <;> constructor <;> linarith
    · simp only at hi; omega
  · simp at h

/-- C26, limit of the code: writing a sample does not update the bounds; the data set
    can hold an abscissa outside its own bounds. -/
theorem set_leaves_bounds :
    ∃ (d d' : Segments), d = Segments.zeroed 1 1 .COS_TH .ENERGY 1 ∧ d.set 0 [7, 1] = some d' ∧
      d'.store.abscissa 0 0 = some 7 ∧ d'.max = [0] := by
  refine ⟨_, _, rfl, rfl, ?_, ?_⟩
  · simp [Store.abscissa, Store.get, Store.columns, ciColumns, Segments.zeroed, Segments.make]
  · have : -dblMax ≤ 0 := by have := one_le_dblMax; linarith
    simp [Segments.zeroed, Segments.make, dataMax, xView, this]

/-! C27: equality -/

theorem rowEquals_iff (eps : ℝ) (a b : List ℝ) :
    rowEquals eps a b = true ↔ List.Forall₂ (fun u v => |u - v| ≤ eps) a b := by
  unfold rowEquals
  rw [decide_eq_true_iff]
  induction a generalizing b with
  | nil => cases b <;> simp
  | cons u a ih =>
    cases b with
    | nil => simp
    | cons v b =>
      rw [List.forall₂_cons, ← ih b]
      simp only [List.length_cons, List.zip_cons_cons, List.all_cons, Bool.and_eq_true, decide_eq_true_iff,
        not_lt, gt_iff_lt, Nat.add_right_cancel_iff]
      tauto

theorem zip_all_iff (eps : ℝ) (a b : List (List ℝ)) (h : a.length = b.length) :
    ((List.zip a b).all fun p => rowEquals eps p.1 p.2) = true ↔
      List.Forall₂ (List.Forall₂ (fun u v => |u - v| ≤ eps)) a b := by
  induction a generalizing b with
  | nil => cases b <;> simp at h ⊢
  | cons u a ih =>
    cases b with
    | nil => simp at h
    | cons v b =>
      rw [List.forall₂_cons, ← ih b (by simpa using h), ← rowEquals_iff]
      simp [List.all_cons]

/-- C27: `equals` decides: same dimensions, same parametrizations, same number of
    samples, and all the corresponding values within epsilon. -/
theorem equals_iff (a b : Data) (eps : ℝ) :
    a.equals b eps = true ↔ a.dimX = b.dimX ∧ a.dimY = b.dimY ∧ a.input = b.input ∧ a.output = b.output ∧
      List.Forall₂ (List.Forall₂ (fun u v => |u - v| ≤ eps)) a.rows b.rows := by
  unfold Data.equals
  split
  · rename_i h
    constructor
    · intro h'; cases h'
    · rintro ⟨h1, h2, h3, h4, h5⟩
      have := h5.length_eq
      tauto
  · rename_i h
    push Not at h
    rw [zip_all_iff eps _ _ h.1]
    tauto

/-- C27: reflexive, symmetric; for exact comparison, transitive and equivalent to
    equality. -/
theorem equals_refl (a : Data) (eps : ℝ) (h : 0 ≤ eps) : a.equals a eps = true := by
  rw [equals_iff]
  refine ⟨rfl, rfl, rfl, rfl, ?_⟩
  exact List.forall₂_same.2 fun r _ => List.forall₂_same.2 fun v _ => by simpa using h

theorem equals_symm (a b : Data) (eps : ℝ) : a.equals b eps = b.equals a eps := by
  have key : ∀ a b : Data, a.equals b eps = true → b.equals a eps = true := by
    intro a b h
    rw [equals_iff] at h ⊢
    obtain ⟨h1, h2, h3, h4, h5⟩ := h
    refine ⟨h1.symm, h2.symm, h3.symm, h4.symm, ?_⟩
    have h6 := h5.flip
    refine h6.imp ?_
    intro x y hxy
    have h7 := List.Forall₂.flip hxy
    refine h7.imp ?_
    intro u v huv
    rw [abs_sub_comm]; exact huv
  cases ha : a.equals b eps
  · cases hb : b.equals a eps
    · rfl
    · rw [key b a hb] at ha; cases ha
  · rw [key a b ha]

theorem equals_zero (a b : Data) : a.equals b 0 = true ↔ a = b := by
  rw [equals_iff]
  have e : (fun u v : ℝ => |u - v| ≤ 0) = Eq := by
    funext u v; simp [abs_nonpos_iff, sub_eq_zero]
  rw [e]
  constructor
  · rintro ⟨h1, h2, h3, h4, h5⟩
    obtain ⟨_, _, _, _, _⟩ := a
    obtain ⟨_, _, _, _, _⟩ := b
    simp only at h1 h2 h3 h4 h5
    rw [List.forall₂_eq_eq_eq, List.forall₂_eq_eq_eq] at h5
    have h6 := h5
    subst h1 h2 h3 h4 h6
    rfl
  · rintro rfl
    exact ⟨rfl, rfl, rfl, rfl, List.forall₂_same.2 fun r _ => List.forall₂_same.2 fun v _ => rfl⟩

/-- C27, fault of the code: the default epsilon is 1 (`pow(1.0, -14)`), so that data
    sets which differ by 1 are reported equal. -/
theorem equals_default : defaultEpsilon = 1 ∧
    ∃ a b : Data, a ≠ b ∧ a.equals b defaultEpsilon = true := by
  have h : defaultEpsilon = 1 := by simp [defaultEpsilon]
  refine ⟨h, ⟨1, 1, .COS_TH, .ENERGY, [[0, 0]]⟩, ⟨1, 1, .COS_TH, .ENERGY, [[0, 1]]⟩, by simp, ?_⟩
  rw [h, equals_iff]
  refine ⟨rfl, rfl, rfl, rfl, ?_⟩
  simp

end Alta
