import Verif.Props.RationalFit
/-
C71: the fit of rational functions by least squares.
-/
namespace Alta
noncomputable section
open Finset

theorem rowDot_eq (c x : List ℝ) : rowDot c x = ∑ j ∈ range c.length, arr c j * arr x j := by
  unfold rowDot
  induction c generalizing x with
  | nil => simp
  | cons v c ih =>
    cases x with
    | nil =>
      simp only [List.zipWith_nil_right, List.sum_nil]
      symm
      refine sum_eq_zero fun j _ => ?_
      have : arr [] j = 0 := by simp [arr]
      rw [this, mul_zero]
    | cons w x =>
      rw [List.zipWith_cons_cons, List.sum_cons, ih, List.length_cons, sum_range_succ']
      have e : ∀ (u : ℝ) (l : List ℝ) (j : ℕ), arr (u :: l) (j + 1) = arr l j := by intro u l j; simp [arr]
      simp only [e]
      rw [add_comm]
      rfl

theorem rowDot_scale (k : ℝ) (c x : List ℝ) : rowDot (c.map (k * ·)) x = k * rowDot c x := by
  unfold rowDot
  induction c generalizing x with
  | nil => simp
  | cons v c ih =>
    cases x with
    | nil => simp
    | cons w x => simp only [List.map_cons, List.zipWith_cons_cons, List.sum_cons, ih]; ring

theorem rowDot_div (k : ℝ) (c x : List ℝ) : rowDot (c.map (· / k)) x = rowDot c x / k := by
  have : c.map (· / k) = c.map (k⁻¹ * ·) := List.map_congr_left fun v _ => by rw [div_eq_inv_mul]
  rw [this, rowDot_scale, div_eq_inv_mul]

theorem rowDot_basis (dd : ℕ) (lo hi z : List ℝ) (n : ℕ) (x : List ℝ) (hx : x.length = n) :
    rowDot ((List.range n).map fun j => basisFn dd lo hi j z) x = polynomial dd lo hi x z := by
  rw [rowDot_eq, List.length_map, List.length_range]
  unfold polynomial
  rw [hx]
  refine sum_congr rfl fun j hj => ?_
  rw [arr_range_map_lt _ _ _ (by simpa using hj), mul_comm]

theorem standard_pAt (r : Rat1) (h : r.Standard) (v : List ℝ) (j : ℕ) :
    (j < r.p.length → r.pAt v j = some (basisFn r.dimX r.lo r.hi j v)) ∧
    (j < r.q.length → r.qAt v j = some (basisFn r.dimX r.lo r.hi j v)) := by
  constructor
  · intro hj
    have hget : r.p[j]? = some r.p[j] := List.getElem?_eq_getElem hj
    rw [Rat1.pAt, hget, Option.bind_some, basis_of_standard r _ v j h.1 (h.2.1 j _ hget)]
  · intro hj
    have hget : r.q[j]? = some r.q[j] := List.getElem?_eq_getElem hj
    rw [Rat1.qAt, hget, Option.bind_some, basis_of_standard r _ v j h.1 (h.2.2 j _ hget)]

/-- the rows of the matrices -/
def leastRows (d : Store ℝ) (r : Rat1) (np nq ny : ℕ) : List (List ℝ × List ℝ × ℝ) :=
  (List.range d.size).map fun i => ((List.range np).map (fun j => basisFn r.dimX r.lo r.hi j (d.point i)),
    (List.range nq).map (fun j => basisFn r.dimX r.lo r.hi j (d.point i)), d.ordinate i ny)

theorem leastRows_eq (d : Store ℝ) (r : Rat1) (h : r.Standard) (np nq ny : ℕ) (hp : r.p.length = np)
    (hq : r.q.length = nq) :
    ((List.range d.size).mapM fun i => (d.get i).bind (leastRow r d.dimX np nq ny)) =
      some (leastRows d r np nq ny) := by
  refine mapM_total _ _ _ fun i hi => ?_
  rw [point_of_lt d i (by simpa using hi), Option.bind_some]
  unfold leastRow
  rw [mapM_total _ _ (fun j => basisFn r.dimX r.lo r.hi j (d.point i)) (fun j hj =>
    (standard_pAt r h _ j).1 (by rw [hp]; simpa using hj)),
    mapM_total _ _ (fun j => basisFn r.dimX r.lo r.hi j (d.point i)) (fun j hj =>
    (standard_pAt r h _ j).2 (by rw [hq]; simpa using hj))]
  rfl

theorem getD_range_map {β : Type} (n i : ℕ) (g : ℕ → β) (b : β) (h : i < n) : ((List.range n).map g).getD i b = g i := by
  simp [List.getD, h]

/-- Step 2: the numerator has the smallest squared error for its denominator. -/
theorem leastNumerator_spec (solve : LeastSquares) (hs : solve.Sound) (d : Store ℝ) (r : Rat1) (hd : r.dimX = d.dimX)
    (np nq ny : ℕ) (b : List ℝ) (hb : b.length = nq) :
    (∀ a, leastNumerator solve np (leastRows d r np nq ny) b = some a → a.length = np ∧
      (∀ i < d.size, polynomial d.dimX r.lo r.hi b (d.point i) ≠ 0) ∧
      ∀ a' : List ℝ, a'.length = np → squaredError d r.lo r.hi ny a b ≤ squaredError d r.lo r.hi ny a' b) ∧
    ((∀ i < d.size, polynomial d.dimX r.lo r.hi b (d.point i) ≠ 0) →
      ∃ a, leastNumerator solve np (leastRows d r np nq ny) b = some a) := by
  have hden : (∀ s ∈ leastRows d r np nq ny, rowDot s.2.1 b ≠ 0) ↔
      ∀ i < d.size, polynomial d.dimX r.lo r.hi b (d.point i) ≠ 0 := by
    unfold leastRows
    rw [List.forall_mem_map]
    simp only [List.mem_range]
    refine forall_congr' fun i => forall_congr' fun _ => ?_
    rw [rowDot_basis _ _ _ _ _ _ hb, hd]
  constructor
  · intro a ha
    unfold leastNumerator at ha
    split at ha
    · rename_i hne
      cases ha
      obtain ⟨s1, s2⟩ := hs np ((leastRows d r np nq ny).map fun s => s.1.map (· / rowDot s.2.1 b))
        ((leastRows d r np nq ny).map fun s => s.2.2) (by
          intro c hc
          unfold leastRows at hc
          simp only [List.map_map, List.mem_map] at hc
          obtain ⟨i, -, rfl⟩ := hc
          simp) (by simp)
      refine ⟨s1, hden.1 hne, fun a' ha' => ?_⟩
      have key : ∀ z : List ℝ, z.length = np →
          ∑ i ∈ range ((leastRows d r np nq ny).map fun s => s.1.map (· / rowDot s.2.1 b)).length,
            (rowDot (((leastRows d r np nq ny).map fun s => s.1.map (· / rowDot s.2.1 b)).getD i []) z -
              arr ((leastRows d r np nq ny).map fun s => s.2.2) i) ^ 2 = squaredError d r.lo r.hi ny z b := by
        intro z hz
        unfold leastRows squaredError
        rw [List.map_map, List.map_map, List.length_map, List.length_range]
        refine sum_congr rfl fun i hi => ?_
        rw [getD_range_map _ _ _ _ (mem_range.1 hi), arr_range_map_lt _ _ _ (mem_range.1 hi)]
        simp only [Function.comp]
        rw [rowDot_div, rowDot_basis _ _ _ _ _ _ hz, rowDot_basis _ _ _ _ _ _ hb, hd]
      have := s2 a' ha'
      rw [key _ ha', key _ s1] at this
      exact this
    · cases ha
  · intro h
    unfold leastNumerator
    rw [if_pos (hden.2 h)]
    exact ⟨_, rfl⟩

/-- Step 1: the denominator has the smallest sum of `(y² q(x) - y p(x))²` for its numerator. -/
theorem leastDenominator_spec (solve : LeastSquares) (hs : solve.Sound) (d : Store ℝ) (r : Rat1) (hd : r.dimX = d.dimX)
    (np nq ny : ℕ) (a : List ℝ) (ha : a.length = np) :
    (leastDenominator solve nq (leastRows d r np nq ny) a).length = nq ∧ ∀ b' : List ℝ, b'.length = nq →
      weightedError d r.lo r.hi ny a (leastDenominator solve nq (leastRows d r np nq ny) a) ≤
        weightedError d r.lo r.hi ny a b' := by
  unfold leastDenominator
  obtain ⟨s1, s2⟩ := hs nq ((leastRows d r np nq ny).map fun s => s.2.1.map (s.2.2 ^ 2 * ·))
    ((leastRows d r np nq ny).map fun s => s.2.2 * rowDot s.1 a) (by
      intro c hc
      unfold leastRows at hc
      simp only [List.map_map, List.mem_map] at hc
      obtain ⟨i, -, rfl⟩ := hc
      simp) (by simp)
  refine ⟨s1, fun b' hb' => ?_⟩
  have key : ∀ z : List ℝ, z.length = nq →
      ∑ i ∈ range ((leastRows d r np nq ny).map fun s => s.2.1.map (s.2.2 ^ 2 * ·)).length,
        (rowDot (((leastRows d r np nq ny).map fun s => s.2.1.map (s.2.2 ^ 2 * ·)).getD i []) z -
          arr ((leastRows d r np nq ny).map fun s => s.2.2 * rowDot s.1 a) i) ^ 2 = weightedError d r.lo r.hi ny a z := by
    intro z hz
    unfold leastRows weightedError
    rw [List.map_map, List.map_map, List.length_map, List.length_range]
    refine sum_congr rfl fun i hi => ?_
    rw [getD_range_map _ _ _ _ (mem_range.1 hi), arr_range_map_lt _ _ _ (mem_range.1 hi)]
    simp only [Function.comp]
    rw [rowDot_scale, rowDot_basis _ _ _ _ _ _ hz, rowDot_basis _ _ _ _ _ _ ha, hd]
  have := s2 b' hb'
  rw [key _ hb', key _ s1] at this
  exact this

/-- The iterations: the last step 1 and the last step 2. -/
theorem leastIterations_spec (solve : LeastSquares) (hs : solve.Sound) (d : Store ℝ) (r : Rat1) (hd : r.dimX = d.dimX)
    (np nq ny : ℕ) : ∀ (n : ℕ) (p q : List ℝ), p.length = np → ∀ a b,
    leastIterations solve np nq (leastRows d r np nq ny) (n + 1) (p, q) = some (a, b) →
    a.length = np ∧ b.length = nq ∧ (∀ i < d.size, polynomial d.dimX r.lo r.hi b (d.point i) ≠ 0) ∧
    (∀ a' : List ℝ, a'.length = np → squaredError d r.lo r.hi ny a b ≤ squaredError d r.lo r.hi ny a' b) ∧
    ∃ p' : List ℝ, p'.length = np ∧ (n = 0 → p' = p) ∧ ∀ b' : List ℝ, b'.length = nq →
      weightedError d r.lo r.hi ny p' b ≤ weightedError d r.lo r.hi ny p' b' := by
  intro n
  induction n with
  | zero =>
    intro p q hp a b h
    rw [leastIterations] at h
    obtain ⟨a1, h1, h⟩ := Option.bind_eq_some_iff.1 h
    rw [leastIterations] at h
    cases h
    obtain ⟨k1, k2⟩ := leastDenominator_spec solve hs d r hd np nq ny p hp
    obtain ⟨j1, j2, j3⟩ := (leastNumerator_spec solve hs d r hd np nq ny _ k1).1 a h1
    exact ⟨j1, k1, j2, j3, p, hp, fun _ => rfl, k2⟩
  | succ n ih =>
    intro p q hp a b h
    rw [leastIterations] at h
    obtain ⟨a1, h1, h⟩ := Option.bind_eq_some_iff.1 h
    obtain ⟨k1, -⟩ := leastDenominator_spec solve hs d r hd np nq ny p hp
    obtain ⟨j1, -⟩ := (leastNumerator_spec solve hs d r hd np nq ny _ k1).1 a1 h1
    obtain ⟨g1, g2, g3, g4, p', g5, -, g6⟩ := ih a1 _ j1 a b h
    exact ⟨g1, g2, g3, g4, p', g5, fun h => absurd h (by omega), g6⟩

/-- the first numerator -/
def constantOne (np : ℕ) : List ℝ := (List.range np).map fun j => if j = 0 then 1 else 0

theorem constantOne_polynomial (dd : ℕ) (hdd : 1 ≤ dd) (lo hi : List ℝ) (np : ℕ) (hnp : 1 ≤ np) (x : List ℝ) :
    polynomial dd lo hi (constantOne np) x = 1 := by
  unfold polynomial constantOne
  rw [List.length_map, List.length_range, sum_eq_single 0]
  · rw [arr_range_map_lt _ _ _ (by omega), basisFn_zero]; simp
  · intro j hj hj0
    rw [arr_range_map_lt _ _ _ (mem_range.1 hj)]
    simp [hj0]
  · intro h; exact absurd (mem_range.2 (by omega)) h

/-- One channel. -/
theorem leastChannel_spec (solve : LeastSquares) (hs : solve.Sound) (junk : ℝ) (d : Store ℝ) (np nq maxIter ny : ℕ)
    (r : Rat1) (h : r.Standard) (hd : r.dimX = d.dimX) (hp : r.p.length = np) (hq : r.q.length = nq)
    (hm : 1 ≤ maxIter) (ok : Bool) (r' : Rat1) (hr : leastChannel solve junk d np nq maxIter ny r = some (ok, r')) :
    ok = true ∧ ∃ a b : List ℝ, a.length = np ∧ b.length = nq ∧
      (∃ c, c ≠ 0 ∧ ∀ x, r'.parts x =
        some (polynomial r.dimX r.lo r.hi a x / c, polynomial r.dimX r.lo r.hi b x / c)) ∧
      (∀ i < d.size, polynomial d.dimX r.lo r.hi b (d.point i) ≠ 0) ∧
      (∀ a' : List ℝ, a'.length = np → squaredError d r.lo r.hi ny a b ≤ squaredError d r.lo r.hi ny a' b) ∧
      ∃ p' : List ℝ, p'.length = np ∧ (maxIter = 1 → p' = constantOne np) ∧ ∀ b' : List ℝ, b'.length = nq →
        weightedError d r.lo r.hi ny p' b ≤ weightedError d r.lo r.hi ny p' b' := by
  unfold leastChannel at hr
  split at hr
  · cases hr
  · rename_i hn
    rw [leastRows_eq d r h np nq ny hp hq, Option.bind_some] at hr
    obtain ⟨⟨a, b⟩, h1, hr⟩ := Option.bind_eq_some_iff.1 hr
    obtain ⟨r1, h2, hr⟩ := Option.map_eq_some_iff.1 hr
    rw [Prod.mk.injEq] at hr
    obtain ⟨rfl, rfl⟩ := hr
    refine ⟨rfl, ?_⟩
    obtain ⟨n, rfl⟩ : ∃ n, maxIter = n + 1 := ⟨maxIter - 1, by omega⟩
    obtain ⟨g1, g2, g3, g4, p', g5, g6, g7⟩ := leastIterations_spec solve hs d r hd np nq ny n (constantOne np) _
      (by simp [constantOne]) a b h1
    obtain ⟨r2, u1, u2, u3, u4, u5, -, c, hc, uP, uQ, -⟩ := update_value junk r h a b (by
      intro hb; rw [hb] at g2; simp at g2; omega) (by rw [g1, hp]) (by rw [g2, hq])
    simp only [] at h2
    rw [u1] at h2
    cases h2
    refine ⟨a, b, g1, g2, ⟨c, hc, fun x => ?_⟩, g3, g4, p', g5, fun h => g6 (by omega), g7⟩
    rw [rational_parts _ u2 x, uP, uQ, u3, u4, u5, polynomial_div, polynomial_div]

/-! ### The function -/

/-- C71: with at least one iteration, each channel of the function found is the quotient of polynomials of the sizes
    asked for; its denominator is null at no sample; no other numerator of this size has a smaller sum of squared
    differences to the data, with this denominator; and the denominator has the smallest sum of `(y² q(x) - y p(x))²`
    for some numerator `p`, that is the constant 1 when there is one iteration. -/
theorem least_square_optimal (solve : LeastSquares) (hs : solve.Sound) (junk : ℝ) (d : Segments) (np nq maxIter : ℕ)
    (hit : 1 ≤ maxIter) (f f' : RatFn) (hf : RationalReady d f)
    (h : leastSquareFit solve junk d np nq maxIter f = some (true, f')) :
    f'.dimX = f.dimX ∧ f'.dimY = f.dimY ∧
    ∀ m < d.store.dimY, ∃ a b : List ℝ, a.length = np ∧ b.length = nq ∧
      f'.IsQuotient (inflate d.min d.max).1 (inflate d.min d.max).2 m a b ∧
      (∀ i < d.store.size, polynomial d.store.dimX (inflate d.min d.max).1 (inflate d.min d.max).2 b (d.store.point i) ≠ 0) ∧
      (∀ a' : List ℝ, a'.length = np →
        squaredError d.store (inflate d.min d.max).1 (inflate d.min d.max).2 m a b ≤
          squaredError d.store (inflate d.min d.max).1 (inflate d.min d.max).2 m a' b) ∧
      ∃ p' : List ℝ, p'.length = np ∧ (maxIter = 1 → p' = constantOne np) ∧ ∀ b' : List ℝ, b'.length = nq →
        weightedError d.store (inflate d.min d.max).1 (inflate d.min d.max).2 m p' b ≤
          weightedError d.store (inflate d.min d.max).1 (inflate d.min d.max).2 m p' b' := by
  unfold leastSquareFit at h
  split at h
  · simp at h
  · obtain ⟨g1, g2, -, g4⟩ := (fitEach_spec (fun ny => leastChannel solve junk d.store np nq maxIter ny) junk d.store.dimY
      d.store.dimY 0 (RatFn.setSize { f with lo := d.min, hi := d.max } np nq) (by omega) hf.output
      (by simp [RatFn.setSize, hf.output]) (by
        intro m _ hm
        have : m < f.dimY := by rw [hf.output]; exact hm
        simp [RatFn.setSize, this])).1 f' h
    refine ⟨g1, g2.trans hf.output.symm, fun m hm => ?_⟩
    obtain ⟨r', c1, c2⟩ := g4 m (Nat.zero_le _) hm
    have hdom := resize_dom junk ⟨f.dimX, [], [], (inflate d.min d.max).1, (inflate d.min d.max).2⟩ np nq
    obtain ⟨s1, s2, s3⟩ := mkRat1_standard junk f.dimX np nq (inflate d.min d.max).1 (inflate d.min d.max).2
      (by rw [hf.input]; exact hf.dims)
    obtain ⟨-, a, b, k1, k2, ⟨c, hc, k4⟩, k5, k6, p', k7, k8, k9⟩ := leastChannel_spec solve hs junk d.store np nq maxIter
      m _ s1 (hdom.1.trans hf.input) s2 s3 hit _ r' c1
    have e2 : (mkRat1 junk f.dimX np nq (inflate d.min d.max).1 (inflate d.min d.max).2).lo = (inflate d.min d.max).1 := hdom.2.1
    have e3 : (mkRat1 junk f.dimX np nq (inflate d.min d.max).1 (inflate d.min d.max).2).hi = (inflate d.min d.max).2 := hdom.2.2
    have e1 : (mkRat1 junk f.dimX np nq (inflate d.min d.max).1 (inflate d.min d.max).2).dimX = f.dimX := hdom.1
    rw [e2, e3] at k4 k5 k6 k9
    refine ⟨a, b, k1, k2, ⟨r', c, c2, hc, fun x => ?_⟩, k5, k6, p', k7, k8, k9⟩
    rw [k4 x, e1, show f'.dimX = f.dimX from g1]

/-- C71: a fit that ends says that it succeeded when the data have asymmetrical intervals. -/
theorem least_square_reports (solve : LeastSquares) (junk : ℝ) (d : Segments) (np nq maxIter : ℕ)
    (f f' : RatFn) (ok : Bool) (h : leastSquareFit solve junk d np nq maxIter f = some (ok, f')) :
    ok = decide (d.store.kind = .asymmetrical) := by
  unfold leastSquareFit at h
  split at h
  · rename_i hk
    cases h
    simp [hk]
  · rename_i hk
    have : ∀ k j f f' ok, fitEach (fun ny => leastChannel solve junk d.store np nq maxIter ny) junk k j f = some (ok, f') →
        ok = true := by
      intro k
      induction k with
      | zero => intro j f f' ok h; cases h; rfl
      | succ k ih =>
        intro j f f' ok h
        rw [fitEach] at h
        split at h
        · cases h
        · split at h
          · cases h
          · rename_i ok' rs' hfit
            split at h
            · exact ih _ _ _ _ h
            · rename_i hok
              unfold leastChannel at hfit
              split at hfit
              · cases hfit
              · obtain ⟨_, _, hfit⟩ := Option.bind_eq_some_iff.1 hfit
                obtain ⟨_, _, hfit⟩ := Option.bind_eq_some_iff.1 hfit
                obtain ⟨_, _, hfit⟩ := Option.map_eq_some_iff.1 hfit
                rw [Prod.mk.injEq] at hfit
                exact absurd hfit.1.symm hok
    rw [this _ _ _ _ _ h]
    simpa using hk

theorem polynomial_pad (dd : ℕ) (lo hi b : List ℝ) (k : ℝ) (np : ℕ) (h : b.length ≤ np) (x : List ℝ) :
    polynomial dd lo hi ((List.range np).map fun j => k * arr b j) x = k * polynomial dd lo hi b x := by
  unfold polynomial
  rw [List.length_map, List.length_range, mul_sum]
  obtain ⟨m, rfl⟩ : ∃ m, np = b.length + m := ⟨np - b.length, by omega⟩
  rw [sum_range_add]
  have : ∑ j ∈ range m, arr ((List.range (b.length + m)).map fun j => k * arr b j) (b.length + j) *
      basisFn dd lo hi (b.length + j) x = 0 := by
    refine sum_eq_zero fun j hj => ?_
    rw [arr_range_map_lt _ _ _ (by have := mem_range.1 hj; omega), arr_beyond _ _ (by omega)]
    simp
  rw [this, add_zero]
  refine sum_congr rfl fun j hj => ?_
  rw [arr_range_map_lt _ _ _ (by have := mem_range.1 hj; omega), mul_assoc]

/-- C71: when the denominator is not larger than the numerator, the function found is not farther from the data than
    any constant. -/
theorem least_square_constant (solve : LeastSquares) (hs : solve.Sound) (junk : ℝ) (d : Segments) (np nq maxIter : ℕ)
    (hit : 1 ≤ maxIter) (hn : nq ≤ np) (f f' : RatFn) (hf : RationalReady d f)
    (h : leastSquareFit solve junk d np nq maxIter f = some (true, f')) (m : ℕ) (hm : m < d.store.dimY) (k : ℝ) :
    ∃ y : ℕ → ℝ, (∀ i < d.store.size, ((f'.rs[m]?).join).bind (fun r => r.value (d.store.point i)) = some (y i)) ∧
      ∑ i ∈ range d.store.size, (y i - d.store.ordinate i m) ^ 2 ≤ ∑ i ∈ range d.store.size, (k - d.store.ordinate i m) ^ 2 := by
  obtain ⟨e1, -, h3⟩ := least_square_optimal solve hs junk d np nq maxIter hit f f' hf h
  obtain ⟨a, b, k1, k2, k3, k4, k5, -⟩ := h3 m hm
  refine ⟨fun i => polynomial d.store.dimX (inflate d.min d.max).1 (inflate d.min d.max).2 a (d.store.point i) /
    polynomial d.store.dimX (inflate d.min d.max).1 (inflate d.min d.max).2 b (d.store.point i), fun i _ => ?_, ?_⟩
  · rw [IsQuotient.channel k3, e1, hf.input]
  · have := k5 ((List.range np).map fun j => k * arr b j) (by simp)
    unfold squaredError at this
    refine this.trans (le_of_eq (sum_congr rfl fun i hi => ?_))
    rw [polynomial_pad _ _ _ _ _ _ (by omega), mul_div_cancel_right₀ _ (k4 i (mem_range.1 hi))]

/-- C71: when the data are the inverses of the values of a polynomial of the size of the denominator, one iteration
    gives these values at all the samples. -/
theorem least_square_inverse (solve : LeastSquares) (hs : solve.Sound) (junk : ℝ) (d : Segments) (np nq : ℕ)
    (hnp : 1 ≤ np) (f f' : RatFn) (hf : RationalReady d f)
    (h : leastSquareFit solve junk d np nq 1 f = some (true, f')) (m : ℕ) (hm : m < d.store.dimY) (b' : List ℝ)
    (hb' : b'.length = nq)
    (hdata : ∀ i < d.store.size, d.store.ordinate i m *
      polynomial d.store.dimX (inflate d.min d.max).1 (inflate d.min d.max).2 b' (d.store.point i) = 1) :
    ∀ i < d.store.size,
      ((f'.rs[m]?).join).bind (fun r => r.value (d.store.point i)) = some (d.store.ordinate i m) := by
  obtain ⟨e1, -, h3⟩ := least_square_optimal solve hs junk d np nq 1 le_rfl f f' hf h
  obtain ⟨a, b, k1, k2, k3, k4, k5, p', k6, k7, k8⟩ := h3 m hm
  rw [k7 rfl] at k8
  have hone := constantOne_polynomial d.store.dimX hf.dims (inflate d.min d.max).1 (inflate d.min d.max).2 np hnp
  have w0 : weightedError d.store (inflate d.min d.max).1 (inflate d.min d.max).2 m (constantOne np) b' = 0 := by
    unfold weightedError
    refine sum_eq_zero fun i hi => ?_
    rw [hone, sq (d.store.ordinate i m), mul_assoc, hdata i (mem_range.1 hi)]
    ring
  have w1 : weightedError d.store (inflate d.min d.max).1 (inflate d.min d.max).2 m (constantOne np) b = 0 :=
    le_antisymm (w0 ▸ k8 b' hb') (sum_nonneg fun _ _ => sq_nonneg _)
  have hy : ∀ i < d.store.size, d.store.ordinate i m *
      polynomial d.store.dimX (inflate d.min d.max).1 (inflate d.min d.max).2 b (d.store.point i) = 1 := by
    intro i hi
    have hz := (sum_eq_zero_iff_of_nonneg (fun _ _ => sq_nonneg _)).1 w1 i (mem_range.2 hi)
    have hz := (pow_eq_zero_iff two_ne_zero).1 hz
    rw [hone] at hz
    have hne : d.store.ordinate i m ≠ 0 := by
      intro hc
      have := hdata i hi
      rw [hc, zero_mul] at this
      exact zero_ne_one this
    have : d.store.ordinate i m * (d.store.ordinate i m *
      polynomial d.store.dimX (inflate d.min d.max).1 (inflate d.min d.max).2 b (d.store.point i) - 1) = 0 := by linarith
    rcases mul_eq_zero.1 this with h | h
    · exact absurd h hne
    · linarith
  have s0 : squaredError d.store (inflate d.min d.max).1 (inflate d.min d.max).2 m (constantOne np) b = 0 := by
    unfold squaredError
    refine sum_eq_zero fun i hi => ?_
    rw [hone, one_div, inv_eq_of_mul_eq_one_left (hy i (mem_range.1 hi)), sub_self]
    norm_num
  have s1 : squaredError d.store (inflate d.min d.max).1 (inflate d.min d.max).2 m a b = 0 :=
    le_antisymm (s0 ▸ k5 (constantOne np) (by simp [constantOne])) (sum_nonneg fun _ _ => sq_nonneg _)
  intro i hi
  have hz := (sum_eq_zero_iff_of_nonneg (fun _ _ => sq_nonneg _)).1 s1 i (mem_range.2 hi)
  have hz := (pow_eq_zero_iff two_ne_zero).1 hz
  rw [IsQuotient.channel k3, e1, hf.input]
  congr 1
  linarith

/-- C71: with a denominator of size 1, the data that are the values of a polynomial of the size of the numerator are
    given back at all the samples. -/
theorem least_square_polynomial (solve : LeastSquares) (hs : solve.Sound) (junk : ℝ) (d : Segments) (np maxIter : ℕ)
    (hit : 1 ≤ maxIter) (f f' : RatFn) (hf : RationalReady d f)
    (h : leastSquareFit solve junk d np 1 maxIter f = some (true, f')) (m : ℕ) (hm : m < d.store.dimY) (a' : List ℝ)
    (ha' : a'.length = np) (hdata : ∀ i < d.store.size, d.store.ordinate i m =
      polynomial d.store.dimX (inflate d.min d.max).1 (inflate d.min d.max).2 a' (d.store.point i)) :
    ∀ i < d.store.size,
      ((f'.rs[m]?).join).bind (fun r => r.value (d.store.point i)) = some (d.store.ordinate i m) := by
  obtain ⟨e1, -, h3⟩ := least_square_optimal solve hs junk d np 1 maxIter hit f f' hf h
  obtain ⟨a, b, k1, k2, k3, k4, k5, -⟩ := h3 m hm
  have hb : ∀ x, polynomial d.store.dimX (inflate d.min d.max).1 (inflate d.min d.max).2 b x = arr b 0 := by
    intro x
    unfold polynomial
    rw [k2, sum_range_one, basisFn_zero, mul_one]
  intro i hi
  have hb0 : arr b 0 ≠ 0 := by have := k4 i hi; rwa [hb] at this
  have s0 : squaredError d.store (inflate d.min d.max).1 (inflate d.min d.max).2 m
      ((List.range np).map fun j => arr b 0 * arr a' j) b = 0 := by
    unfold squaredError
    refine sum_eq_zero fun i hi => ?_
    rw [polynomial_pad _ _ _ _ _ _ (by omega), hb, mul_div_cancel_left₀ _ hb0, hdata i (mem_range.1 hi), sub_self]
    norm_num
  have s1 : squaredError d.store (inflate d.min d.max).1 (inflate d.min d.max).2 m a b = 0 :=
    le_antisymm (s0 ▸ k5 _ (by simp)) (sum_nonneg fun _ _ => sq_nonneg _)
  have hz := (sum_eq_zero_iff_of_nonneg (fun _ _ => sq_nonneg _)).1 s1 i (mem_range.2 hi)
  have hz := (pow_eq_zero_iff two_ne_zero).1 hz
  rw [IsQuotient.channel k3, e1, hf.input]
  congr 1
  linarith

end
end Alta
