import Verif.Spec.Metrics
import Mathlib.Tactic.Linarith
import Mathlib.Tactic.Positivity
import Mathlib.Tactic.Ring
/-
Property C42: the error metrics.
-/
namespace Alta
noncomputable section

/-! ### The norms of a list -/

theorem abs_le_norm1 (d : List ℝ) (x : ℝ) (h : x ∈ d) : |x| ≤ norm1 d := by
  unfold norm1
  exact List.single_le_sum (fun y hy => by obtain ⟨z, _, rfl⟩ := List.mem_map.1 hy; exact abs_nonneg z) _
    (List.mem_map.2 ⟨x, h, rfl⟩)

theorem norm1_nonneg (d : List ℝ) : 0 ≤ norm1 d := by
  unfold norm1
  exact List.sum_nonneg fun y hy => by obtain ⟨z, _, rfl⟩ := List.mem_map.1 hy; exact abs_nonneg z

theorem sumPow_nonneg (d : List ℝ) (n : ℕ) : 0 ≤ (d.map fun x => |x| ^ n).sum :=
  List.sum_nonneg fun y hy => by obtain ⟨z, _, rfl⟩ := List.mem_map.1 hy; positivity

theorem pow_le_sumPow (d : List ℝ) (n : ℕ) (x : ℝ) (h : x ∈ d) : |x| ^ n ≤ (d.map fun x => |x| ^ n).sum :=
  List.single_le_sum (fun y hy => by obtain ⟨z, _, rfl⟩ := List.mem_map.1 hy; positivity) _
    (List.mem_map.2 ⟨x, h, rfl⟩)

theorem sumPow_succ_le (d : List ℝ) (n : ℕ) (B : ℝ) (h : ∀ x ∈ d, |x| ≤ B) :
    (d.map fun x => |x| ^ (n + 1)).sum ≤ B * (d.map fun x => |x| ^ n).sum := by
  induction d with
  | nil => simp
  | cons a d ih =>
    simp only [List.map_cons, List.sum_cons]
    have h1 := ih fun x hx => h x (by simp [hx])
    have h2 := h a (by simp)
    have h3 : |a| ^ (n + 1) ≤ B * |a| ^ n := by
      rw [pow_succ, mul_comm]; exact mul_le_mul_of_nonneg_right h2 (by positivity)
    linarith [mul_add B (|a| ^ n) (d.map fun x => |x| ^ n).sum]

theorem norm2_sq (d : List ℝ) : norm2 d ^ 2 = (d.map fun x => |x| ^ 2).sum :=
  Real.sq_sqrt (sumPow_nonneg d 2)

theorem norm3_cube (d : List ℝ) : norm3 d ^ 3 = (d.map fun x => |x| ^ 3).sum := by
  unfold norm3
  rw [← Real.rpow_natCast, ← Real.rpow_mul (sumPow_nonneg d 3)]
  norm_num

theorem norm2_nonneg (d : List ℝ) : 0 ≤ norm2 d := Real.sqrt_nonneg _

theorem norm3_nonneg (d : List ℝ) : 0 ≤ norm3 d := Real.rpow_nonneg (sumPow_nonneg d 3) _

theorem foldl_max (d : List ℝ) : ∀ m : ℝ, m ≤ d.foldl (fun m x => max m |x|) m ∧
    (∀ x ∈ d, |x| ≤ d.foldl (fun m x => max m |x|) m) ∧
    (d.foldl (fun m x => max m |x|) m = m ∨ ∃ x ∈ d, d.foldl (fun m x => max m |x|) m = |x|) := by
  induction d with
  | nil => intro m; simp
  | cons a d ih =>
    intro m
    obtain ⟨h1, h2, h3⟩ := ih (max m |a|)
    simp only [List.foldl_cons]
    refine ⟨le_trans (le_max_left _ _) h1, ?_, ?_⟩
    · intro x hx
      rcases List.mem_cons.1 hx with rfl | hx
      · exact le_trans (le_max_right _ _) h1
      · exact h2 x hx
    · rcases h3 with h3 | ⟨x, hx, h3⟩
      · rcases max_choice m |a| with h | h
        · left; rw [h3, h]
        · right; exact ⟨a, by simp, by rw [h3, h]⟩
      · right; exact ⟨x, by simp [hx], h3⟩

theorem normInf_nonneg (d : List ℝ) : 0 ≤ normInf d := (foldl_max d 0).1

theorem abs_le_normInf (d : List ℝ) (x : ℝ) (h : x ∈ d) : |x| ≤ normInf d := (foldl_max d 0).2.1 x h

theorem normInf_attained (d : List ℝ) (h : d ≠ []) : ∃ x ∈ d, normInf d = |x| := by
  obtain ⟨_, h2, h3⟩ := foldl_max d 0
  rcases h3 with h3 | h3
  · cases d with
    | nil => exact absurd rfl h
    | cons a d =>
      refine ⟨a, by simp, ?_⟩
      have := h2 a (by simp)
      rw [h3] at this
      rw [normInf, h3]
      exact le_antisymm (abs_nonneg a) this
  · exact h3

theorem abs_le_norm2 (d : List ℝ) (x : ℝ) (h : x ∈ d) : |x| ≤ norm2 d := by
  apply le_of_pow_le_pow_left₀ (n := 2) (by norm_num) (norm2_nonneg d)
  rw [norm2_sq]
  exact pow_le_sumPow d 2 x h

theorem abs_le_norm3 (d : List ℝ) (x : ℝ) (h : x ∈ d) : |x| ≤ norm3 d := by
  apply le_of_pow_le_pow_left₀ (n := 3) (by norm_num) (norm3_nonneg d)
  rw [norm3_cube]
  exact pow_le_sumPow d 3 x h

/-- C42: order of the norms. -/
theorem norms_ordered (d : List ℝ) : normInf d ≤ norm3 d ∧ norm3 d ≤ norm2 d ∧ norm2 d ≤ norm1 d := by
  refine ⟨?_, ?_, ?_⟩
  · by_cases hd : d = []
    · rw [hd]; simp only [normInf, List.foldl_nil]; exact norm3_nonneg []
    · obtain ⟨x, hx, h⟩ := normInf_attained d hd
      rw [h]; exact abs_le_norm3 d x hx
  · apply le_of_pow_le_pow_left₀ (n := 3) (by norm_num) (norm2_nonneg d)
    rw [norm3_cube]
    have := sumPow_succ_le d 2 (norm2 d) (abs_le_norm2 d)
    rw [← norm2_sq] at this
    calc _ ≤ norm2 d * norm2 d ^ 2 := this
      _ = norm2 d ^ 3 := by ring
  · apply le_of_pow_le_pow_left₀ (n := 2) (by norm_num) (norm1_nonneg d)
    rw [norm2_sq]
    have := sumPow_succ_le d 1 (norm1 d) (abs_le_norm1 d)
    simp only [pow_one] at this
    calc _ ≤ norm1 d * norm1 d := this
      _ = norm1 d ^ 2 := by ring

/-- C42: each norm vanishes exactly when all the differences do. -/
theorem norms_zero (d : List ℝ) : (norm1 d = 0 ↔ ∀ x ∈ d, x = 0) ∧ (norm2 d = 0 ↔ ∀ x ∈ d, x = 0) ∧
    (norm3 d = 0 ↔ ∀ x ∈ d, x = 0) ∧ (normInf d = 0 ↔ ∀ x ∈ d, x = 0) := by
  have back : (∀ x ∈ d, x = 0) → norm1 d = 0 := by
    intro h
    unfold norm1
    apply List.sum_eq_zero
    intro y hy
    obtain ⟨z, hz, rfl⟩ := List.mem_map.1 hy
    rw [h z hz, abs_zero]
  obtain ⟨o1, o2, o3⟩ := norms_ordered d
  have n0 := normInf_nonneg d
  have fwd : normInf d = 0 → ∀ x ∈ d, x = 0 := by
    intro h x hx
    have := abs_le_normInf d x hx
    rw [h] at this
    exact abs_eq_zero.1 (le_antisymm this (abs_nonneg x))
  refine ⟨⟨fun h => fwd (by linarith), back⟩, ⟨fun h => fwd (by linarith), fun h => ?_⟩,
    ⟨fun h => fwd (by linarith), fun h => ?_⟩, ⟨fwd, fun h => ?_⟩⟩
  all_goals
    have := back h
    linarith

/-! ### The metrics of two matrices -/

theorem arr_range_map (n : ℕ) (f : ℕ → ℝ) (c : ℕ) (h : c < n) : arr ((List.range n).map f) c = f c := by
  simp [arr, h]

theorem sumSq_abs (d : List ℝ) : (d.map fun x => |x| ^ 2).sum = (d.map fun x => x ^ 2).sum := by
  simp only [sq_abs]

theorem diffCol_length (A B : Mat) (h : A.length = B.length) (c : ℕ) : (diffCol A B c).length = A.length := by
  simp [diffCol, h]

/-- C42: relations between the metrics of a channel. -/
theorem metrics_consistent (cols : ℕ) (A B : Mat) (h : A.length = B.length) (c : ℕ) (hc : c < cols) :
    arr (fastNorms cols A B).LInf c ≤ arr (fastNorms cols A B).L3 c ∧
    arr (fastNorms cols A B).L3 c ≤ arr (fastNorms cols A B).L2 c ∧
    arr (fastNorms cols A B).L2 c ≤ arr (fastNorms cols A B).L1 c ∧
    arr (fastNorms cols A B).rmse c ^ 2 = arr (fastNorms cols A B).mse c ∧
    arr (fastNorms cols A B).L2 c ^ 2 = A.length * arr (fastNorms cols A B).mse c ∧
    arr (fastNorms cols A B).rmse c ≤ arr (fastNorms cols A B).LInf c := by
  have e1 : arr (fastNorms cols A B).LInf c = normInf (diffCol A B c) := arr_range_map _ _ c hc
  have e2 : arr (fastNorms cols A B).L3 c = norm3 (diffCol A B c) := arr_range_map _ _ c hc
  have e3 : arr (fastNorms cols A B).L2 c = norm2 (diffCol A B c) := arr_range_map _ _ c hc
  have e4 : arr (fastNorms cols A B).L1 c = norm1 (diffCol A B c) := arr_range_map _ _ c hc
  have e5 : arr (fastNorms cols A B).mse c = ((diffCol A B c).map fun x : ℝ => x ^ 2).sum / (A.length : ℝ) :=
    arr_range_map _ _ c hc
  have e6 : arr (fastNorms cols A B).rmse c = √ (arr (fastNorms cols A B).mse c) := by
    rw [e5]
    unfold fastNorms
    simp only [List.map_map]
    exact arr_range_map _ _ c hc
  obtain ⟨o1, o2, o3⟩ := norms_ordered (diffCol A B c)
  have hlen := diffCol_length A B h c
  have sq : norm2 (diffCol A B c) ^ 2 = A.length * arr (fastNorms cols A B).mse c := by
    rw [norm2_sq, sumSq_abs, e5]
    rcases Nat.eq_zero_or_pos A.length with h0 | h0
    · have : diffCol A B c = [] := List.length_eq_zero_iff.1 (hlen.trans h0)
      rw [this, h0]; simp
    · rw [mul_div_cancel₀]; positivity
  have mnn : 0 ≤ arr (fastNorms cols A B).mse c := by
    rw [e5, ← sumSq_abs]
    exact div_nonneg (sumPow_nonneg _ 2) (by positivity)
  rw [e1, e2, e3, e4]
  refine ⟨o1, o2, o3, by rw [e6]; exact Real.sq_sqrt mnn, sq, ?_⟩
  rw [e6]
  apply Real.sqrt_le_iff.2 ⟨normInf_nonneg _, ?_⟩
  rw [e5, ← sumSq_abs]
  rcases Nat.eq_zero_or_pos A.length with h0 | h0
  · rw [h0]; simp only [Nat.cast_zero, div_zero]; positivity
  · rw [div_le_iff₀ (by positivity), ← hlen]
    have gen : ∀ d : List ℝ, ∀ M : ℝ, (∀ x ∈ d, |x| ≤ M) → (d.map fun x => |x| ^ 2).sum ≤ M ^ 2 * d.length := by
      intro d M
      induction d with
      | nil => intro _; simp
      | cons a d ih =>
        intro hM
        simp only [List.map_cons, List.sum_cons, List.length_cons]
        have h1 := ih fun x hx => hM x (by simp [hx])
        have h2 : |a| ^ 2 ≤ M ^ 2 := pow_le_pow_left₀ (abs_nonneg a) (hM a (by simp)) 2
        push_cast
        linarith [mul_add (M ^ 2) (d.length : ℝ) 1, mul_one (M ^ 2)]
    exact gen _ _ (abs_le_normInf _)

theorem diffCol_neg (A : Mat) : ∀ (B : Mat) (c : ℕ), diffCol B A c = (diffCol A B c).map (fun x => -x) := by
  induction A with
  | nil => intro B c; cases B <;> rfl
  | cons a A ih =>
    intro B c
    cases B with
    | nil => rfl
    | cons b B =>
      have := ih B c
      unfold diffCol at this ⊢
      simp only [List.zipWith_cons_cons, List.map_cons, this]
      congr 1
      ring

/-- C42: the metrics are symmetric. -/
theorem metrics_symmetric (cols : ℕ) (A B : Mat) (h : A.length = B.length) : fastNorms cols A B = fastNorms cols B A := by
  unfold fastNorms
  simp only [diffCol_neg A B, norm1, norm2, norm3, normInf, List.map_map, Function.comp_def, abs_neg, h, even_two,
    Even.neg_pow, List.foldl_map]

/-- C42: each metric of a channel vanishes exactly when both columns are equal. -/
theorem metrics_zero (cols : ℕ) (A B : Mat) (h : A.length = B.length) (c : ℕ) (hc : c < cols) :
    let same := ∀ i < A.length, arr (A.getD i []) c = arr (B.getD i []) c
    (arr (fastNorms cols A B).L1 c = 0 ↔ same) ∧ (arr (fastNorms cols A B).L2 c = 0 ↔ same) ∧
    (arr (fastNorms cols A B).L3 c = 0 ↔ same) ∧ (arr (fastNorms cols A B).LInf c = 0 ↔ same) ∧
    (arr (fastNorms cols A B).mse c = 0 ↔ same) ∧ (arr (fastNorms cols A B).rmse c = 0 ↔ same) := by
  intro same
  have e1 : arr (fastNorms cols A B).LInf c = normInf (diffCol A B c) := arr_range_map _ _ c hc
  have e2 : arr (fastNorms cols A B).L3 c = norm3 (diffCol A B c) := arr_range_map _ _ c hc
  have e3 : arr (fastNorms cols A B).L2 c = norm2 (diffCol A B c) := arr_range_map _ _ c hc
  have e4 : arr (fastNorms cols A B).L1 c = norm1 (diffCol A B c) := arr_range_map _ _ c hc
  obtain ⟨z1, z2, z3, z4⟩ := norms_zero (diffCol A B c)
  have key : (∀ x ∈ diffCol A B c, x = 0) ↔ same := by
    constructor
    · intro H i hi
      have hi' : i < (diffCol A B c).length := by rw [diffCol_length A B h]; exact hi
      have := H _ (List.getElem_mem hi')
      simp only [diffCol, List.getElem_zipWith] at this
      have hB : i < B.length := by omega
      simp only [List.getD, List.getElem?_eq_getElem hi, List.getElem?_eq_getElem hB, Option.getD_some]
      linarith
    · intro H x hx
      obtain ⟨i, hi, rfl⟩ := List.mem_iff_getElem.1 hx
      rw [diffCol_length A B h] at hi
      have hB : i < B.length := by omega
      have := H i hi
      simp only [List.getD, List.getElem?_eq_getElem hi, List.getElem?_eq_getElem hB, Option.getD_some] at this
      simp only [diffCol, List.getElem_zipWith]
      linarith
  obtain ⟨_, _, _, m1, m2, m3⟩ := metrics_consistent cols A B h c hc
  have e5 : arr (fastNorms cols A B).mse c = 0 ↔ same := by
    rw [← key, ← z2, ← e3]
    constructor
    · intro h0
      rw [h0, mul_zero] at m2
      exact pow_eq_zero_iff (two_ne_zero) |>.1 m2
    · intro h0
      rw [h0] at m2
      rcases Nat.eq_zero_or_pos A.length with hl | hl
      · have : arr (fastNorms cols A B).mse c = ((diffCol A B c).map fun x : ℝ => x ^ 2).sum / (A.length : ℝ) :=
          arr_range_map _ _ c hc
        rw [this, hl]; simp
      · have hl' : (A.length : ℝ) ≠ 0 := by positivity
        have : (A.length : ℝ) * arr (fastNorms cols A B).mse c = 0 := by rw [← m2]; ring
        exact (mul_eq_zero.1 this).resolve_left hl'
  refine ⟨by rw [e4, z1, key], by rw [e3, z2, key], by rw [e2, z3, key], by rw [e1, z4, key], e5, ?_⟩
  rw [← e5, ← m1]
  exact ⟨fun h0 => by rw [h0]; ring, fun h0 => pow_eq_zero_iff two_ne_zero |>.1 h0⟩

/-! ### The evaluation -/

/-- the row of `inp_y` for a sample -/
def inpRow (inp : InpData) (ref : RefData) (row : List ℝ) : List ℝ :=
  let cart := (convertInput (arr (row.take ref.nX)) ref.input .CARTESIAN).getD []
  if arr cart 2 < 0 ∧ arr cart 5 < 0 then List.replicate ref.nY 0
  else inp.value ((convertInput (arr cart) .CARTESIAN inp.input).getD [])

/-- the row of `ref_y` for a sample -/
def refRow (ref : RefData) (row : List ℝ) : List ℝ :=
  let cart := (convertInput (arr (row.take ref.nX)) ref.input .CARTESIAN).getD []
  if arr cart 2 < 0 ∧ arr cart 5 < 0 then List.replicate ref.nY 0 else row.drop ref.nX

theorem evaluateRow_eq (inp : InpData) (ref : RefData) (h : Comparable inp ref) (mask : Option (List ℝ)) (i : ℕ)
    (row : List ℝ) (hr : row ∈ ref.rows) (P R : Mat) (hs : ¬ skipped mask i) :
    evaluateRow inp ref mask i row (P, R) =
      if i < P.length ∧ i < R.length then some (P.set i (inpRow inp ref row), R.set i (refRow ref row)) else none := by
  obtain ⟨cart, hc⟩ := Option.isSome_iff_exists.1 (h.toCart row hr)
  have hl := h.size row hr
  unfold evaluateRow inpRow refRow
  rw [if_neg hs, hc]
  simp only [Option.getD_some]
  by_cases hb : arr cart 2 < 0 ∧ arr cart 5 < 0
  · rw [if_neg (by simpa only [not_or, not_le, ge_iff_le] using hb), if_pos hb, if_pos hb]
    simp only [setRow, List.length_replicate, and_true]
    by_cases h1 : i < R.length <;> by_cases h2 : i < P.length <;> simp [h1, h2]
  · obtain ⟨x, hx, hv⟩ := h.answers row hr cart hc hb
    simp only [hx, Option.getD_some]
    rw [if_pos (by simpa only [not_and_or, not_lt, ge_iff_le] using hb), if_neg hb, if_neg hb]
    have e : row.length - ref.nY = ref.nX := by omega
    have e2 : (row.drop ref.nX).length = ref.nY := by simp [hl]
    simp only [setRow, e, e2, hv, and_true]
    by_cases h1 : i < R.length <;> by_cases h2 : i < P.length <;> simp [h1, h2]

theorem evaluateLoop_eq (inp : InpData) (ref : RefData) (h : Comparable inp ref) : ∀ (rows : List (List ℝ)) (i : ℕ) (P R : Mat),
    (∀ row ∈ rows, row ∈ ref.rows) → P.length = i + rows.length → R.length = i + rows.length →
    evaluateLoop inp ref none i rows (P, R) =
      some (P.take i ++ rows.map (inpRow inp ref), R.take i ++ rows.map (refRow ref)) := by
  intro rows
  induction rows with
  | nil =>
    intro i P R _ hP hR
    simp only [List.length_nil, Nat.add_zero] at hP hR
    have h1 : P.take i = P := by rw [← hP]; exact List.take_length
    have h2 : R.take i = R := by rw [← hR]; exact List.take_length
    simp [evaluateLoop, h1, h2]
  | cons row rows ih =>
    intro i P R hrows hP hR
    rw [List.length_cons] at hP hR
    rw [evaluateLoop, evaluateRow_eq inp ref h none i row (hrows row (by simp)) P R (by simp [skipped]),
      if_pos ⟨by omega, by omega⟩]
    simp only
    rw [ih (i + 1) _ _ (fun r hr => hrows r (by simp [hr])) (by rw [List.length_set]; omega)
      (by rw [List.length_set]; omega)]
    have tk : ∀ (M : Mat) (v : List ℝ), i < M.length → (M.set i v).take (i + 1) = M.take i ++ [v] := by
      intro M v hi
      rw [List.take_succ_eq_append_getElem (by simpa using hi), List.getElem_set_self]
      congr 1
      exact List.take_set_of_le (le_refl i)
    rw [tk P _ (by omega), tk R _ (by omega)]
    simp [List.append_assoc]

theorem errorAt_row (inp : InpData) (ref : RefData) (row : List ℝ) (c : ℕ) :
    arr (inpRow inp ref row) c - arr (refRow ref row) c = errorAt inp ref row c := by
  unfold inpRow refRow errorAt
  simp only
  split
  · simp
  · congr 1
    simp [arr]

/-- C42: without mask, the metrics are the norms of the errors of the samples, channel by
    channel. -/
theorem metrics_value (inp : InpData) (ref : RefData) (h : Comparable inp ref) :
    ∃ m, computeMetrics inp ref none = some m ∧
      m.L1 = (List.range ref.nY).map (fun c => ((errorsOf inp ref c).map fun e => |e|).sum) ∧
      m.L2 = (List.range ref.nY).map (fun c => √ ((errorsOf inp ref c).map fun e : ℝ => e ^ 2).sum) ∧
      m.L3 = (List.range ref.nY).map (fun c => ((errorsOf inp ref c).map fun e => |e| ^ 3).sum ^ ((1 : ℝ) / 3)) ∧
      m.LInf = (List.range ref.nY).map (fun c => normInf (errorsOf inp ref c)) ∧
      m.mse = (List.range ref.nY).map (fun c => ((errorsOf inp ref c).map fun e : ℝ => e ^ 2).sum / (ref.rows.length : ℝ)) ∧
      m.rmse = m.mse.map fun x => √ x := by
  have hev := evaluateLoop_eq inp ref h ref.rows 0 (List.replicate ref.rows.length (List.replicate ref.nY (0 : ℝ)))
    (List.replicate ref.rows.length (List.replicate ref.nY (0 : ℝ))) (fun _ hr => hr) (by simp) (by simp)
  simp only [List.take_zero, List.nil_append] at hev
  have hd : ∀ c ∈ List.range ref.nY, diffCol (ref.rows.map (inpRow inp ref)) (ref.rows.map (refRow ref)) c = errorsOf inp ref c := by
    intro c _
    unfold diffCol errorsOf
    rw [List.zipWith_map, List.zipWith_self]
    apply List.map_congr_left
    intro row _
    exact errorAt_row inp ref row c
  refine ⟨fastNorms ref.nY (ref.rows.map (inpRow inp ref)) (ref.rows.map (refRow ref)), ?_, ?_, ?_, ?_, ?_, ?_, rfl⟩
  · unfold computeMetrics checkMaskSize
    simp only [hev, Option.map_some]
  · apply List.map_congr_left
    intro c hc
    rw [hd c hc]; rfl
  · apply List.map_congr_left
    intro c hc
    simp only [hd c hc, norm2, sumSq_abs]
  · apply List.map_congr_left
    intro c hc
    rw [hd c hc]; rfl
  · apply List.map_congr_left
    intro c hc
    rw [hd c hc]
  · apply List.map_congr_left
    intro c hc
    simp only [hd c hc, List.length_map]

/-! ### Masks -/

theorem maskCount (m : List ℝ) : ∀ (n nb : ℕ), (List.range n).foldl (fun nb i => if arr m i = 0 then nb + 1 else nb) nb =
    nb + ((List.range n).filter fun i => decide (arr m i = 0)).length := by
  intro n
  induction n with
  | zero => intro nb; rfl
  | succ n ih =>
    intro nb
    rw [List.range_succ, List.foldl_append, ih, List.filter_append, List.length_append]
    simp only [List.foldl_cons, List.foldl_nil]
    by_cases h : arr m n = 0 <;> simp [h]
    omega

theorem evaluateLoop_lengths (inp : InpData) (ref : RefData) (h : Comparable inp ref) (mask : Option (List ℝ)) (i : ℕ)
    (row : List ℝ) (hr : row ∈ ref.rows) (P R P' R' : Mat)
    (he : evaluateRow inp ref mask i row (P, R) = some (P', R')) : P'.length = P.length ∧ R'.length = R.length := by
  by_cases hs : skipped mask i
  · unfold evaluateRow at he
    rw [if_pos hs] at he
    cases he; exact ⟨rfl, rfl⟩
  · rw [evaluateRow_eq inp ref h mask i row hr P R hs] at he
    split at he
    · cases he; simp
    · cases he

/-- Limit of C42: the matrices have as many rows as the mask has zeros, and the row of a sample that
    is kept has the index of the sample: if a sample that is kept has an index greater or equal to
    the number of samples that are left out, it is written out of the matrices. -/
theorem metrics_mask_undefined (inp : InpData) (ref : RefData) (h : Comparable inp ref) (m : List ℝ) (k : ℕ)
    (hk : k < ref.rows.length) (hm : arr m k ≠ 0)
    (hz : ((List.range ref.rows.length).filter fun i => decide (arr m i = 0)).length ≤ k) :
    computeMetrics inp ref (some m) = none := by
  have key : ∀ (rows : List (List ℝ)) (i : ℕ) (P R : Mat), (∀ row ∈ rows, row ∈ ref.rows) → P.length = R.length →
      P.length ≤ k → i ≤ k → k < i + rows.length → evaluateLoop inp ref (some m) i rows (P, R) = none := by
    intro rows
    induction rows with
    | nil => intro i P R _ _ _ h1 h2; simp at h2; omega
    | cons row rows ih =>
      intro i P R hrows hl hP h1 h2
      rw [evaluateLoop]
      rcases Nat.eq_or_lt_of_le h1 with heq | hlt
      · subst heq
        rw [evaluateRow_eq inp ref h (some m) i row (hrows row (by simp)) P R (by simpa [skipped] using hm),
          if_neg (by omega)]
      · cases he : evaluateRow inp ref (some m) i row (P, R) with
        | none => rfl
        | some M' =>
          obtain ⟨P', R'⟩ := M'
          obtain ⟨l1, l2⟩ := evaluateLoop_lengths inp ref h _ i row (hrows row (by simp)) P R P' R' he
          simp only
          exact ih (i + 1) P' R' (fun r hr => hrows r (by simp [hr])) (by omega) (by omega) (by omega)
            (by simp only [List.length_cons] at h2; omega)
  unfold computeMetrics checkMaskSize
  simp only
  rw [maskCount, Nat.zero_add, key ref.rows 0 _ _ (fun _ hr => hr) (by simp) (by simpa using hz) (by omega) (by omega)]
  rfl

/-- In particular a mask that keeps everything. -/
theorem metrics_mask_all (inp : InpData) (ref : RefData) (h : Comparable inp ref) (m : List ℝ)
    (hn : ref.rows ≠ []) (hm : ∀ i < ref.rows.length, arr m i ≠ 0) : computeMetrics inp ref (some m) = none := by
  have hp : 0 < ref.rows.length := List.length_pos_iff.2 hn
  apply metrics_mask_undefined inp ref h m 0 hp (hm 0 hp)
  have : (List.range ref.rows.length).filter (fun i => decide (arr m i = 0)) = [] := by
    rw [List.filter_eq_nil_iff]
    intro i hi
    simpa using hm i (by simpa using hi)
  rw [this]; rfl

/-- two samples in Cartesian coordinates and one channel; the errors are 1 and -2 -/
example : Comparable ⟨.CARTESIAN, fun _ => [3]⟩ ⟨6, 1, .CARTESIAN, [[0, 0, 1, 0, 0, 1, 2], [0, 1, 0, 0, 0, 1, 5]]⟩ ∧
    errorsOf ⟨.CARTESIAN, fun _ => [3]⟩ ⟨6, 1, .CARTESIAN, [[0, 0, 1, 0, 0, 1, 2], [0, 1, 0, 0, 0, 1, 5]]⟩ 0 = [1, -2] := by
  refine ⟨⟨?_, ?_, ?_⟩, ?_⟩
  · intro row hr
    simp at hr
    rcases hr with rfl | rfl <;> rfl
  · intro row _; simp [convertInput]
  · intro row _ cart _ _; exact ⟨_, rfl, rfl⟩
  · have hd : (inputDim .CARTESIAN).toNat = 6 := by decide
    simp [errorsOf, errorAt, convertInput, hd, arr]
    norm_num

end
end Alta
