import Verif.Props.MomentsIntegral
/-
Property C66: invariance of the moments, default options, and when there are none.
-/
namespace Alta
noncomputable section

/-- C66: the options that are not given: 100 samples per dimension, the first two dimensions. -/
theorem data2moments_defaults (d : Interpolant) :
    data2moments d none none = data2moments d (some (List.replicate d.dimX 100)) (some [0, 1]) := rfl

/-- The moments are determined by the sums. -/
theorem MomentsOf.unique {m m' : Moments} {S : (List ℝ → ℝ) → ℝ} {w : List ℝ → ℝ} {a b : ℕ}
    (h : MomentsOf m S w a b) (h' : MomentsOf m' S w a b) : m = m' := by
  cases m
  cases m'
  obtain ⟨h1, h2, h3, h4, h5, h6, h7, h8, h9, h10⟩ := h
  obtain ⟨g1, g2, g3, g4, g5, g6, g7, g8, g9, g10⟩ := h'
  simp only at h1 h2 h3 h4 h5 h6 h7 h8 h9 h10 g1 g2 g3 g4 g5 g6 g7 g8 g9 g10
  simp only [h1, h2, h3, h4, h5, h6, h7, h8, h9, h10, g1, g2, g3, g4, g5, g6, g7, g8, g9, g10]

/-- The same data with the values `α v + β`. -/
def Interpolant.affine (d : Interpolant) (α β : ℝ) : Interpolant :=
  { d with
    rows := d.rows.map fun row => row.take d.dimX ++ (row.drop d.dimX).map fun v => α * v + β
    value := fun x => (d.value x).map fun y => y.map fun v => α * v + β }

theorem affine_ready (d : Interpolant) (samples : List ℕ) (a b : ℕ) (α β : ℝ) (h : MomentsReady d samples a b) :
    MomentsReady (d.affine α β) samples a b := by
  refine ⟨by simpa [Interpolant.affine] using h.nonempty, ?_, h.lo, h.hi, h.perDimension, h.positive, h.int, h.dims, ?_⟩
  · intro row hr
    obtain ⟨r, hr', rfl⟩ := List.mem_map.1 hr
    have := h.rows r hr'
    simp only [Interpolant.affine, List.length_append, List.length_take, List.length_map, List.length_drop]
    omega
  · intro x hx
    obtain ⟨y, hy, hyl⟩ := h.values x hx
    exact ⟨y.map fun v => α * v + β, by simp only [Interpolant.affine, hy, Option.map_some], by simpa [Interpolant.affine] using hyl⟩

theorem affine_lowest (d : Interpolant) (α β : ℝ) (hα : 0 < α) (hr : ∀ row ∈ d.rows, d.dimX + d.dimY ≤ row.length) (k : ℕ)
    (hk : k < d.dimY) (low low' : ℝ) (h : d.Lowest k low) (h' : (d.affine α β).Lowest k low') : low' = α * low + β := by
  have e : ∀ row ∈ d.rows, arr (row.take d.dimX ++ (row.drop d.dimX).map fun v => α * v + β) (d.dimX + k) =
      α * arr row (d.dimX + k) + β := by
    intro row hrow
    have := hr row hrow
    simp [arr, List.getD, List.getElem?_append, Nat.min_eq_left (show d.dimX ≤ row.length by omega),
      show d.dimX + k < row.length by omega]
  have h2 : (d.affine α β).Lowest k (α * low + β) := by
    obtain ⟨⟨row, hrow, hl⟩, hlb⟩ := h
    refine ⟨⟨_, List.mem_map.2 ⟨row, hrow, rfl⟩, ?_⟩, ?_⟩
    · show _ = arr _ (d.dimX + k)
      rw [e row hrow, hl]
    · rintro v ⟨row', hrow', rfl⟩
      obtain ⟨r, hr', rfl⟩ := List.mem_map.1 hrow'
      show _ ≤ arr _ (d.dimX + k)
      rw [e r hr']
      have := hlb ⟨r, hr', rfl⟩
      nlinarith
  exact h'.unique h2

/-- C66: adding a constant to the data changes no moment, and multiplying it by a positive number only multiplies the
    moment of order 0. -/
theorem moments_affine (d : Interpolant) (samples : List ℕ) (a b : ℕ) (α β : ℝ) (hα : 0 < α)
    (h : MomentsReady d samples a b) :
    ∃ ms, data2moments d (some samples) (some [a, b]) = some ms ∧
      data2moments (d.affine α β) (some samples) (some [a, b]) = some (ms.map fun m => { m with m0 := α * m.m0 }) := by
  obtain ⟨ms, h1, h2, h3⟩ := data2moments_spec d samples a b h
  obtain ⟨ms', g1, g2, g3⟩ := data2moments_spec (d.affine α β) samples a b (affine_ready d samples a b α β h)
  refine ⟨ms, h1, ?_⟩
  rw [g1]
  congr 1
  apply List.ext_getElem
  · rw [g2, List.length_map, h2]; rfl
  · intro k q1 q2
    have hk : k < d.dimY := g2 ▸ q1
    obtain ⟨low, hl, hm⟩ := h3 k hk
    obtain ⟨low', hl', hm'⟩ := g3 k hk
    have hlow := affine_lowest d α β hα h.rows k hk low low' hl hl'
    simp only [List.getElem_map]
    have e1 : ms.getD k Moments.zero = ms[k]'(by rw [h2]; exact hk) := by simp [List.getD, h2, hk]
    have e2 : ms'.getD k Moments.zero = ms'[k] := by simp [List.getD, q1]
    rw [e1] at hm
    rw [e2] at hm'
    have hw : ∀ F : List ℝ → ℝ, (d.affine α β).cells samples (fun x => (d.affine α β).weight k low' x * F x) =
        α * d.cells samples (fun x => d.weight k low x * F x) := by
      intro F
      rw [← cells_smul]
      show (gridSum (d.counts samples) fun j => (d.affine α β).weight k low' (d.node (d.counts samples) j) *
        F (d.node (d.counts samples) j) * (d.volume / (d.counts samples).prod)) = _
      unfold Interpolant.cells
      congr 1
      funext j
      have : (d.affine α β).weight k low' (d.node (d.counts samples) j) =
          α * d.weight k low (d.node (d.counts samples) j) := by
        obtain ⟨y, hy, hyl⟩ := h.values (d.node (d.counts samples) j) (node_length _ _ _)
        unfold Interpolant.weight Interpolant.affine
        simp only [hy, Option.map_some, Option.getD_some]
        rw [hlow]
        simp only [arr, List.getD, List.getElem?_map, List.getElem?_eq_getElem (show k < y.length by omega), Option.map_some,
          Option.getD_some]
        ring
      rw [this]
      ring
    have hw0 : (d.affine α β).cells samples ((d.affine α β).weight k low') = α * d.cells samples (d.weight k low) := by
      have := hw fun _ => 1
      simpa using this
    apply hm'.unique
    constructor
    · rw [hw0]; simp only; rw [hm.m0]
    all_goals rw [hw, hw0, mul_div_mul_left _ _ hα.ne']
    · exact hm.mx
    · exact hm.my
    · exact hm.mxx
    · exact hm.mxy
    · exact hm.myy
    · exact hm.mxxx
    · exact hm.mxxy
    · exact hm.mxyy
    · exact hm.myyy

/-- C66: data with one value have the moment 0 of order 0: the other moments are divisions by zero. -/
theorem moments_constant (d : Interpolant) (samples : List ℕ) (a b : ℕ) (h : MomentsReady d samples a b) (k : ℕ)
    (hk : k < d.dimY) (c : ℝ) (hrows : ∀ row ∈ d.rows, arr row (d.dimX + k) = c)
    (hval : ∀ x y, d.value x = some y → arr y k = c) :
    ∃ ms, data2moments d (some samples) (some [a, b]) = some ms ∧ (ms.getD k Moments.zero).m0 = 0 := by
  obtain ⟨ms, h1, -, h3⟩ := data2moments_spec d samples a b h
  refine ⟨ms, h1, ?_⟩
  obtain ⟨low, hl, hm⟩ := h3 k hk
  obtain ⟨⟨row, hrow, hlow⟩, -⟩ := hl
  rw [hrows row hrow] at hlow
  rw [hm.m0]
  unfold Interpolant.cells
  rw [gridSum_pi]
  apply Finset.sum_eq_zero
  intro j _
  obtain ⟨y, hy, -⟩ := h.values (d.node (d.counts samples) (List.ofFn j)) (node_length _ _ _)
  unfold Interpolant.weight
  rw [hy, Option.getD_some, hval _ y hy, hlow]
  ring

/-- The number of samples never reaches the size of an `int`. -/
theorem stepVolume_bounded (d : Interpolant) (samples : List ℕ) : ∀ n ≤ d.dimX, ∀ v,
    (List.range n).foldlM (stepVolume d) (1, 1, samples) = some v →
    v.2.1 = (∏ k ∈ Finset.range n, if arr d.lo k < arr d.hi k then samples.getD k 0 else 1) ∧ v.2.1 < 2 ^ 31 ∧
      ∀ k, n ≤ k → v.2.2.getD k 0 = samples.getD k 0 := by
  intro n
  induction n with
  | zero =>
    intro _ v hv
    simp only [List.range_zero, List.foldlM_nil, Option.pure_def, Option.some.injEq] at hv
    subst hv
    simp
  | succ n ih =>
    intro hn v hv
    rw [List.range_succ, List.foldlM_append] at hv
    cases ho : (List.range n).foldlM (stepVolume d) (1, 1, samples) with
    | none => rw [ho] at hv; exact absurd hv (by simp)
    | some u =>
      obtain ⟨h1, h2, h3⟩ := ih (by omega) u ho
      rw [ho] at hv
      simp only [Option.bind_eq_bind, Option.bind_some, List.foldlM_cons, List.foldlM_nil] at hv
      unfold stepVolume at hv
      simp only at hv
      rw [h3 n le_rfl] at hv
      rw [Finset.prod_range_succ]
      by_cases hl : arr d.lo n < arr d.hi n
      · rw [if_pos (by linarith)] at hv
        split_ifs at hv with hb
        · simp only [Option.bind_some, Option.pure_def, Option.some.injEq] at hv
          subst hv
          refine ⟨by rw [if_pos hl]; simp only [h1], hb, fun k hk => h3 k (by omega)⟩
        · simp at hv
      · rw [if_neg (by intro h; exact hl (by linarith))] at hv
        simp only [Option.bind_some, Option.pure_def, Option.some.injEq] at hv
        subst hv
        refine ⟨by rw [if_neg hl, mul_one]; exact h1, h2, fun k hk => ?_⟩
        rw [← h3 k (by omega)]
        simp only [List.getD]
        rw [List.getElem?_set_ne (by omega)]

/-- C66: a grid with too many samples for an `int` gives no moments. -/
theorem data2moments_overflow (d : Interpolant) (samples : List ℕ) (dim : Option (List ℕ))
    (hint : 2 ^ 31 ≤ (d.counts samples).prod) : data2moments d (some samples) dim = none := by
  unfold data2moments
  rw [Option.map_eq_none_iff]
  unfold data2momentsSums
  simp only [Option.getD_some]
  by_cases h1 : samples.length ≠ d.dimX ∨ (dim.getD [0, 1]).length ≠ 2 ∨ d.lo.length < d.dimX ∨ d.hi.length < d.dimX
  · rw [if_pos h1]
  · rw [if_neg h1]
    cases lowestRow d with
    | none => rfl
    | some low =>
      simp only [Option.bind_some]
      by_cases h2 : ∃ row ∈ d.rows, row.length < d.dimX + d.dimY
      · rw [if_pos h2]
      · rw [if_neg h2]
        cases ho : (List.range d.dimX).foldlM (stepVolume d) (1, 1, samples) with
        | none => rfl
        | some v =>
          exfalso
          obtain ⟨g1, g2, -⟩ := stepVolume_bounded d samples d.dimX le_rfl v ho
          rw [counts_prod, ← g1] at hint
          omega

/-- C66: with the default number of samples, data with five dimensions or more have no moments. -/
theorem data2moments_five_dimensions (d : Interpolant) (h5 : 5 ≤ d.dimX) (hlt : ∀ k < d.dimX, arr d.lo k < arr d.hi k)
    (dim : Option (List ℕ)) : data2moments d none dim = none := by
  show data2moments d (some (List.replicate d.dimX 100)) dim = none
  apply data2moments_overflow
  have : (d.counts (List.replicate d.dimX 100)).prod = 100 ^ d.dimX := by
    rw [counts_prod, Finset.prod_congr rfl (g := fun _ => 100), Finset.prod_const, Finset.card_range]
    intro k hk
    have hk' := Finset.mem_range.1 hk
    rw [if_pos (hlt k hk')]
    simp [List.getD, hk']
  rw [this]
  calc 2 ^ 31 ≤ 100 ^ 5 := by norm_num
    _ ≤ 100 ^ d.dimX := Nat.pow_le_pow_right (by norm_num) h5

/-- C66: data with one dimension have no moments without the option `dim`. -/
theorem data2moments_one_dimension (d : Interpolant) (samples : List ℕ) (h1 : d.dimX = 1) (hy : 0 < d.dimY)
    (hs : samples.length = d.dimX) (hp : ∀ n ∈ samples, 1 ≤ n) : data2moments d (some samples) none = none := by
  by_cases hint : (d.counts samples).prod < 2 ^ 31
  · unfold data2moments
    rw [Option.map_eq_none_iff]
    unfold data2momentsSums
    simp only [Option.getD_some, Option.getD_none]
    by_cases h1' : samples.length ≠ d.dimX ∨ [0, 1].length ≠ 2 ∨ d.lo.length < d.dimX ∨ d.hi.length < d.dimX
    · rw [if_pos h1']
    · rw [if_neg h1']
      cases lowestRow d with
      | none => rfl
      | some low =>
        simp only [Option.bind_some]
        by_cases h2 : ∃ row ∈ d.rows, row.length < d.dimX + d.dimY
        · rw [if_pos h2]
        · rw [if_neg h2, stepVolume_fold d samples hs hp hint, Option.bind_some, if_pos]
          refine ⟨?_, hy, by simp [h1]⟩
          show 0 < (d.counts samples).prod
          rw [counts_prod]
          apply Finset.prod_pos
          intro k hk
          split_ifs
          · have hk' : k < samples.length := by rw [hs]; exact Finset.mem_range.1 hk
            simp only [List.getD, List.getElem?_eq_getElem hk', Option.getD_some]
            exact hp _ (List.getElem_mem _)
          · exact Nat.one_pos
  · exact data2moments_overflow d samples none (by omega)

/-- A plane over [0, 1] × [0, 2]. -/
def planeData : Interpolant :=
  ⟨2, 1, [[0, 0, 5], [1, 2, 8]], [0, 0], [1, 2], fun x => some [5 + arr x 0 + arr x 1]⟩

theorem planeData_ready : MomentsReady planeData [2, 2] 0 1 where
  nonempty := by simp [planeData]
  rows := by
    intro row hr
    simp only [planeData, List.mem_cons, List.mem_nil_iff, or_false] at hr
    rcases hr with rfl | rfl <;> exact le_rfl
  lo := le_rfl
  hi := le_rfl
  perDimension := rfl
  positive := by simp
  int := by
    rw [counts_prod]
    simp [planeData, Finset.prod_range_succ, arr]
  dims := by decide
  values := fun x _ => ⟨_, rfl, le_rfl⟩

/-- Its grid has the nodes (0, 0), (1/2, 0), (0, 1), (1/2, 1): the moment of order 0 is 3/2, the mean of the first
    coordinate 1/3. -/
example : ∃ ms, data2moments planeData (some [2, 2]) (some [0, 1]) = some ms ∧ (ms.getD 0 Moments.zero).m0 = 3 / 2 ∧
    (ms.getD 0 Moments.zero).mx = 1 / 3 := by
  obtain ⟨ms, h1, -, h3⟩ := data2moments_spec _ _ _ _ planeData_ready
  obtain ⟨low, ⟨⟨row, hrow, hl⟩, hlb⟩, hm⟩ := h3 0 (by decide)
  have hlow : low = 5 := by
    have := hlb ⟨[0, 0, 5], by simp [planeData], rfl⟩
    simp only [planeData, List.mem_cons, List.mem_nil_iff, or_false] at hrow
    rcases hrow with rfl | rfl
    · rw [hl]; simp [arr, planeData]
    · rw [hl] at this; simp [arr, planeData] at this; norm_num at this
  subst hlow
  refine ⟨ms, h1, ?_, ?_⟩
  · rw [hm.m0]
    simp [Interpolant.cells, Interpolant.counts, Interpolant.volume, Interpolant.node, Interpolant.weight, planeData, arr,
      gridSum, Finset.sum_range_succ, Finset.prod_range_succ, List.range_succ]
    norm_num
  · rw [hm.mx]
    simp [Interpolant.cells, Interpolant.counts, Interpolant.volume, Interpolant.node, Interpolant.weight, planeData, arr,
      gridSum, Finset.sum_range_succ, Finset.prod_range_succ, List.range_succ]
    norm_num

end
end Alta
