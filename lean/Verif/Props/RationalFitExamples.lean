import Verif.Proofs.IdealSolvers
import Verif.Props.Bounds
/-
C70, C71: the fits of rational functions by linear algebra succeed, and their limits.
-/
namespace Alta
noncomputable section
open Finset

/-! ### Success of the least squares -/

theorem least_one (y : ℕ → ℝ) (n : ℕ) (h : ∑ i ∈ range n, y i ^ 3 ≠ 0) (b : ℝ)
    (hmin : ∀ b', ∑ i ∈ range n, (y i ^ 2 * b - y i) ^ 2 ≤ ∑ i ∈ range n, (y i ^ 2 * b' - y i) ^ 2) : b ≠ 0 := by
  have e : ∀ c : ℝ, ∑ i ∈ range n, (y i ^ 2 * c - y i) ^ 2 =
      c ^ 2 * ∑ i ∈ range n, y i ^ 4 - 2 * c * ∑ i ∈ range n, y i ^ 3 + ∑ i ∈ range n, y i ^ 2 := by
    intro c
    rw [mul_sum, mul_sum, ← sum_sub_distrib, ← sum_add_distrib]
    exact sum_congr rfl fun i _ => by ring
  rintro rfl
  have h4 : 0 ≤ ∑ i ∈ range n, y i ^ 4 := sum_nonneg fun i _ => by positivity
  set S3 := ∑ i ∈ range n, y i ^ 3
  set S4 := ∑ i ∈ range n, y i ^ 4
  have := hmin (S3 / (S4 + 1))
  rw [e, e] at this
  have h5 : 0 < S4 + 1 := by linarith
  have h6 : (S3 / (S4 + 1)) ^ 2 * S4 - 2 * (S3 / (S4 + 1)) * S3 = -(S3 ^ 2 * (S4 + 2)) / (S4 + 1) ^ 2 := by
    field_simp; ring
  have h7 : 0 < S3 ^ 2 * (S4 + 2) / (S4 + 1) ^ 2 := by
    have : 0 < S3 ^ 2 := by positivity
    positivity
  rw [neg_div] at h6
  linarith

/-- C71: with a denominator of size 1 and one iteration, the fit ends and succeeds when the sum of the cubes of the
    values is not null in any channel (for instance when the values are not negative and not all null). -/
theorem least_square_succeeds (solve : LeastSquares) (hs : solve.Sound) (junk : ℝ) (d : Segments) (np : ℕ)
    (f : RatFn) (hf : RationalReady d f) (hk : d.store.kind = .asymmetrical) (hnp : 1 ≤ np)
    (hy : ∀ m < d.store.dimY, ∑ i ∈ range d.store.size, d.store.ordinate i m ^ 3 ≠ 0) :
    ∃ f', leastSquareFit solve junk d np 1 1 f = some (true, f') := by
  unfold leastSquareFit
  rw [if_neg (by simp [hk])]
  refine (fitEach_spec (fun ny => leastChannel solve junk d.store np 1 1 ny) junk d.store.dimY
      d.store.dimY 0 (RatFn.setSize { f with lo := d.min, hi := d.max } np 1) (by omega) hf.output
      (by simp [RatFn.setSize, hf.output]) (by
        intro m _ hm
        have : m < f.dimY := by rw [hf.output]; exact hm
        simp [RatFn.setSize, this])).2 fun m _ hm => ?_
  have hdom := resize_dom junk ⟨f.dimX, [], [], (inflate d.min d.max).1, (inflate d.min d.max).2⟩ np 1
  obtain ⟨s1, s2, s3⟩ := mkRat1_standard junk f.dimX np 1 (inflate d.min d.max).1 (inflate d.min d.max).2
      (by rw [hf.input]; exact hf.dims)
  obtain ⟨r, hr⟩ : ∃ r, r = mkRat1 junk f.dimX np 1 (inflate d.min d.max).1 (inflate d.min d.max).2 := ⟨_, rfl⟩
  have hd : r.dimX = d.store.dimX := by rw [hr]; exact hdom.1.trans hf.input
  rw [← hr] at s1 s2 s3
  show ∃ r', leastChannel solve junk d.store np 1 1 m
    (mkRat1 junk f.dimX np 1 (inflate d.min d.max).1 (inflate d.min d.max).2) = some (true, r')
  rw [← hr]
  obtain ⟨k1, k2⟩ := leastDenominator_spec solve hs d.store r hd np 1 m (constantOne np) (by simp [constantOne])
  set b := leastDenominator solve 1 (leastRows d.store r np 1 m) (constantOne np) with hb
  have hpoly : ∀ (b : List ℝ), b.length = 1 → ∀ x, polynomial d.store.dimX r.lo r.hi b x = arr b 0 := by
    intro b hb x
    unfold polynomial
    rw [hb, sum_range_one, basisFn_zero, mul_one]
  have hw : ∀ b : List ℝ, b.length = 1 → weightedError d.store r.lo r.hi m (constantOne np) b =
      ∑ i ∈ range d.store.size, (d.store.ordinate i m ^ 2 * arr b 0 - d.store.ordinate i m) ^ 2 := by
    intro b hb
    unfold weightedError
    refine sum_congr rfl fun i _ => ?_
    rw [hpoly b hb, constantOne_polynomial _ hf.dims _ _ _ hnp, mul_one]
  have hb0 : arr b 0 ≠ 0 := by
    refine least_one (fun i => d.store.ordinate i m) d.store.size (hy m hm) _ fun b' => ?_
    have := k2 [b'] rfl
    rw [hw b k1, hw [b'] rfl] at this
    exact this
  obtain ⟨a, ha⟩ := (leastNumerator_spec solve hs d.store r hd np 1 m b k1).2 fun i _ => by
    rw [hpoly b k1]; exact hb0
  obtain ⟨a1, -⟩ := (leastNumerator_spec solve hs d.store r hd np 1 m b k1).1 a ha
  obtain ⟨r2, u1, -⟩ := update_value junk r s1 a b (by
      intro hb; rw [hb] at k1; simp at k1) (by rw [a1, s2]) (by rw [k1, s3])
  refine ⟨r2, ?_⟩
  unfold leastChannel
  rw [if_neg (by omega), leastRows_eq d.store r s1 np 1 m s2 s3, Option.bind_some]
  have hit : leastIterations solve np 1 (leastRows d.store r np 1 m) 1 (constantOne np, List.replicate 1 junk) =
      some (a, b) := by
    rw [leastIterations]
    simp only []
    rw [← hb, ha]
    rfl
  have hit' : leastIterations solve np 1 (leastRows d.store r np 1 m) 1
      ((List.range np).map (fun j => if j = 0 then 1 else 0), List.replicate 1 junk) = some (a, b) := hit
  rw [hit', Option.bind_some, u1]
  rfl

/-- C71, limit: with a solver that gives the null vector for the null matrix (as Eigen does), a channel whose values
    are all null makes the code divide by zero (the function 0 would be exact). -/
theorem least_square_zero_data (solve : LeastSquares)
    (hz : ∀ n rows rhs, (∀ c ∈ rows, ∀ v ∈ c, v = (0 : ℝ)) → solve n rows rhs = List.replicate n 0) (junk : ℝ)
    (d : Segments) (np nq maxIter : ℕ) (hit : 1 ≤ maxIter) (f : RatFn) (hf : RationalReady d f)
    (hk : d.store.kind = .asymmetrical) (hY : 1 ≤ d.store.dimY) (hsize : 1 ≤ d.store.size)
    (h0 : ∀ i < d.store.size, d.store.ordinate i 0 = 0) : leastSquareFit solve junk d np nq maxIter f = none := by
  unfold leastSquareFit
  rw [if_neg (by simp [hk])]
  obtain ⟨Y, hYe⟩ : ∃ Y, d.store.dimY = Y + 1 := ⟨d.store.dimY - 1, by omega⟩
  have hfY : 0 < f.dimY := by rw [hf.output]; omega
  have hget : (RatFn.setSize { f with lo := d.min, hi := d.max } np nq).get junk 0 =
      some (mkRat1 junk f.dimX np nq (inflate d.min d.max).1 (inflate d.min d.max).2,
        { RatFn.setSize { f with lo := d.min, hi := d.max } np nq with
          rs := (RatFn.setSize { f with lo := d.min, hi := d.max } np nq).rs.set 0
            (some (mkRat1 junk f.dimX np nq (inflate d.min d.max).1 (inflate d.min d.max).2)) }) := by
    unfold RatFn.get
    rw [if_pos (show 0 < (RatFn.setSize { f with lo := d.min, hi := d.max } np nq).dimY from hfY)]
    have : (RatFn.setSize { f with lo := d.min, hi := d.max } np nq).rs[0]? = some none := by
      simp [RatFn.setSize, hfY]
    rw [this]
    rfl
  rw [hYe, fitEach, hget]
  simp only []
  have hnone : leastChannel solve junk d.store np nq maxIter 0
      (mkRat1 junk f.dimX np nq (inflate d.min d.max).1 (inflate d.min d.max).2) = none := by
    unfold leastChannel
    split
    · rfl
    · rename_i hn
      have hdom := resize_dom junk ⟨f.dimX, [], [], (inflate d.min d.max).1, (inflate d.min d.max).2⟩ np nq
      obtain ⟨s1, s2, s3⟩ := mkRat1_standard junk f.dimX np nq (inflate d.min d.max).1 (inflate d.min d.max).2
        (by rw [hf.input]; exact hf.dims)
      obtain ⟨r, hr⟩ : ∃ r, r = mkRat1 junk f.dimX np nq (inflate d.min d.max).1 (inflate d.min d.max).2 := ⟨_, rfl⟩
      rw [← hr] at s1 s2 s3 ⊢
      rw [leastRows_eq d.store r s1 np nq 0 s2 s3, Option.bind_some]
      obtain ⟨n, rfl⟩ : ∃ n, maxIter = n + 1 := ⟨maxIter - 1, by omega⟩
      rw [leastIterations]
      have hd0 : ∀ p, leastDenominator solve nq (leastRows d.store r np nq 0) p = List.replicate nq 0 := by
        intro p
        unfold leastDenominator
        refine hz _ _ _ ?_
        unfold leastRows
        rw [List.map_map]
        intro c hc v hv
        obtain ⟨i, hi, rfl⟩ := List.mem_map.1 hc
        simp only [Function.comp, List.mem_map] at hv
        obtain ⟨w, -, rfl⟩ := hv
        rw [h0 i (by simpa using hi)]
        simp
      rw [hd0]
      unfold leastNumerator
      rw [if_neg]
      · rfl
      · intro h
        have := h _ (List.mem_map.2 ⟨0, List.mem_range.2 (by omega), rfl⟩)
        apply this
        rw [rowDot_basis _ _ _ _ _ _ (by simp)]
        unfold polynomial
        refine sum_eq_zero fun j hj => ?_
        have : arr (List.replicate nq (0 : ℝ)) j = 0 := by
          unfold arr
          rw [List.getD_eq_getElem?_getD, List.getElem?_replicate]
          split <;> rfl
        rw [this, zero_mul]
  rw [hnone]

/-! ### Two samples -/

theorem dblMax_large : 1000 < dblMax := by
  have h1 : (2 : ℝ) ^ (10 : ℕ) ≤ 2 ^ (1023 : ℕ) := pow_le_pow_right₀ (by norm_num) (by norm_num)
  have h2 : (2 : ℝ) ^ (-52 : ℤ) ≤ 1 := zpow_le_one_of_nonpos₀ (by norm_num) (by norm_num)
  unfold dblMax
  generalize (2 : ℝ) ^ (1023 : ℕ) = u at *
  generalize (2 : ℝ) ^ (-52 : ℤ) = v at *
  norm_num at h1
  nlinarith

theorem twoPoints_bounds : inflate twoPoints.min twoPoints.max = ([0], [1]) := by
  have h1 : twoPoints.min = [0] := by
    simp [twoPoints, Segments.make, dataMin, xView, Store.columns, ciColumns]
    linarith [dblMax_large]
  have h2 : twoPoints.max = [1] := by
    simp [twoPoints, Segments.make, dataMax, xView, Store.columns, ciColumns]
    linarith [dblMax_large]
  rw [h1, h2]
  simp [inflate]

theorem twoPoints_samples : twoPoints.store.point 0 = [0, 2] ∧ twoPoints.store.point 1 = [1, 3] ∧
    twoPoints.store.ordinate 0 0 = 2 ∧ twoPoints.store.ordinate 1 0 = 3 := by
  simp [Store.ordinate, Store.point, twoPoints, Segments.make, Store.get, Store.columns, ciColumns, arr]

theorem linear_polynomial (lo hi : List ℝ) (u v : ℝ) (x : List ℝ) :
    polynomial 1 lo hi [u, v] x = u + v * unitCoord lo hi x 0 := by
  have h1 : index2degree 1 1 = some [1] := by decide +kernel
  unfold polynomial
  simp only [List.length_cons, List.length_nil, zero_add]
  rw [sum_range_succ, sum_range_succ, sum_range_zero, basisFn_zero]
  unfold basisFn monomial
  rw [h1]
  simp [arr]

theorem twoPoints_ready : RationalReady twoPoints ⟨1, 1, 0, 0, [], [], [none]⟩ :=
  ⟨by simp [twoPoints, Segments.make], rfl, rfl⟩

/-- The hypotheses of the theorems on the eigenvectors are met: with two coefficients in the numerator and one in the
    denominator, the fit succeeds and the function has the values of the two samples. -/
theorem twoPoints_eigen : ∃ f' r, eigenRationalFit idealEigen 0 twoPoints 2 1 ⟨1, 1, 0, 0, [], [], [none]⟩ = some (true, f') ∧
    f'.rs[0]? = some (some r) ∧ r.value (twoPoints.store.point 0) = some 2 ∧ r.value (twoPoints.store.point 1) = some 3 := by
  obtain ⟨p0, p1, y0, y1⟩ := twoPoints_samples
  have hb := twoPoints_bounds
  have hsz : twoPoints.store.size = 2 := rfl
  have hdx : twoPoints.store.dimX = 1 := rfl
  have hc : ∀ (c : ℝ) (x : List ℝ), polynomial 1 [0] [1] [c] x = c := by
    intro c x
    unfold polynomial
    simp [basisFn_zero, arr]
  have u0 : unitCoord [0] [1] [0, 2] 0 = -1 := by simp [unitCoord, arr]
  have u1 : unitCoord [0] [1] [1, 3] 0 = 1 := by simp [unitCoord, arr]; norm_num
  obtain ⟨f', hf'⟩ := eigen_rational_succeeds idealEigen idealEigen_sound 0 twoPoints 2 1 ⟨1, 1, 0, 0, [], [], [none]⟩
    twoPoints_ready rfl (by norm_num) (by norm_num) (fun M hM => idealEigen_total _ M hM) (by
      intro m hm
      have hm0 : m = 0 := by
        have : m < 1 := hm
        omega
      subst hm0
      refine ⟨[0, 0], [1], rfl, rfl, ?_, ?_⟩
      · simp [coefficientNorm, arr, sum_range_succ]
      · unfold linearError
        rw [hb, hsz, hdx, sum_range_succ, sum_range_one, p0, p1, y0, y1]
        simp only [linear_polynomial, hc]
        have : 1000 < maxDouble := dblMax_large
        norm_num
        linarith)
  obtain ⟨a, b, k1, k2, k3, k4, k5⟩ := eigen_rational_exact idealEigen idealEigen_sound 0 twoPoints 2 1 _ f' twoPoints_ready hf'
    0 (by decide) [5 / 2, 1 / 2] [1] rfl rfl (by norm_num [coefficientNorm, arr, sum_range_succ]) (by
      intro i hi
      have : i = 0 ∨ i = 1 := by
        have : i < 2 := hi
        omega
      rw [hb, hdx]
      rcases this with rfl | rfl
      · rw [p0, y0, linear_polynomial, hc, u0]; norm_num
      · rw [p1, y1, linear_polynomial, hc, u1]; norm_num)
  obtain ⟨r, c, r1, -, -⟩ := k4
  have hbne : ∀ x, polynomial twoPoints.store.dimX (inflate twoPoints.min twoPoints.max).1
      (inflate twoPoints.min twoPoints.max).2 b x ≠ 0 := by
    obtain ⟨q0, rfl⟩ : ∃ q0, b = [q0] := by
      match b, k2 with
      | [q0], _ => exact ⟨q0, rfl⟩
    obtain ⟨v0, v1, rfl⟩ : ∃ v0 v1, a = [v0, v1] := by
      match a, k1 with
      | [v0, v1], _ => exact ⟨v0, v1, rfl⟩
    have g0 := (k5 0 (by decide)).1
    have g1 := (k5 1 (by decide)).1
    rw [hb, hdx] at g0 g1 ⊢
    rw [p0, y0, linear_polynomial, hc, u0] at g0
    rw [p1, y1, linear_polynomial, hc, u1] at g1
    intro x
    rw [hc]
    rintro rfl
    have z1 : v1 = 0 := by linarith
    have z0 : v0 = 0 := by linarith
    rw [z0, z1] at k3
    simp [coefficientNorm, arr, sum_range_succ] at k3
  refine ⟨f', r, hf', r1, ?_, ?_⟩
  · have := (k5 0 (by decide)).2 (hbne _)
    rw [r1, y0] at this
    exact this
  · have := (k5 1 (by decide)).2 (hbne _)
    rw [r1, y1] at this
    exact this

/-- The hypotheses of the theorems on the least squares are met: the fit of the same samples succeeds, and the function
    has their values. -/
theorem twoPoints_least : ∃ f', leastSquareFit idealLeast 0 twoPoints 2 1 1 ⟨1, 1, 0, 0, [], [], [none]⟩ = some (true, f') ∧
    ((f'.rs[0]?).join).bind (fun r => r.value (twoPoints.store.point 0)) = some 2 ∧
    ((f'.rs[0]?).join).bind (fun r => r.value (twoPoints.store.point 1)) = some 3 := by
  obtain ⟨p0, p1, y0, y1⟩ := twoPoints_samples
  have hb := twoPoints_bounds
  have hsz : twoPoints.store.size = 2 := rfl
  have hdx : twoPoints.store.dimX = 1 := rfl
  have u0 : unitCoord [0] [1] [0, 2] 0 = -1 := by simp [unitCoord, arr]
  have u1 : unitCoord [0] [1] [1, 3] 0 = 1 := by simp [unitCoord, arr]; norm_num
  obtain ⟨f', hf'⟩ := least_square_succeeds idealLeast idealLeast_sound 0 twoPoints 2 ⟨1, 1, 0, 0, [], [], [none]⟩
    twoPoints_ready rfl (by norm_num) (by
      intro m hm
      have hm0 : m = 0 := by
        have : m < 1 := hm
        omega
      subst hm0
      rw [hsz, sum_range_succ, sum_range_one, y0, y1]
      norm_num)
  have h := least_square_polynomial idealLeast idealLeast_sound 0 twoPoints 2 1 le_rfl _ f' twoPoints_ready hf' 0 (by decide)
    [5 / 2, 1 / 2] rfl (by
      intro i hi
      have : i = 0 ∨ i = 1 := by
        have : i < 2 := hi
        omega
      rw [hb, hdx]
      rcases this with rfl | rfl
      · rw [p0, y0, linear_polynomial, u0]; norm_num
      · rw [p1, y1, linear_polynomial, u1]; norm_num)
  refine ⟨f', hf', ?_, ?_⟩
  · rw [h 0 (by decide), y0]
  · rw [h 1 (by decide), y1]

/-! ### One sample -/

/-- one point: the value 1 at 0 -/
def onePoint : Segments := Segments.make ⟨1, 1, .UNKNOWN_INPUT, .UNKNOWN_OUTPUT, 1, [0, 1, 1, 1], .asymmetrical⟩

/-- the columns of the matrix of this sample, for one coefficient in the numerator and two in the denominator -/
def onePointColumns : List (List ℝ) := [[1, -1, 0]]

/-- its eigenvectors -/
def onePointVectors : List (ℝ × List ℝ) :=
  [(0, [0, 0, 1]), (0, [(√2)⁻¹, (√2)⁻¹, 0]), (2, [(√2)⁻¹, -(√2)⁻¹, 0])]

open Classical in
/-- a decomposition that gives these eigenvectors for this matrix -/
def onePointEigen : EigenSystem := fun n M => if n = 3 ∧ M = gram onePointColumns then some onePointVectors else idealEigen n M

theorem onePointEigen_sound : onePointEigen.Sound := by
  intro n M l hM h
  unfold onePointEigen at h
  split at h
  · rename_i hc
    obtain ⟨rfl, rfl⟩ := hc
    cases h
    have hs : (√2)⁻¹ * (√2)⁻¹ = (1 : ℝ) / 2 := by
      rw [← mul_inv, Real.mul_self_sqrt (by norm_num)]; norm_num
    refine ⟨rfl, ?_, ?_⟩
    · intro e he
      simp only [onePointVectors, List.mem_cons, List.not_mem_nil, or_false] at he
      rcases he with rfl | rfl | rfl <;> refine ⟨rfl, fun i hi => ?_⟩ <;> interval_cases i <;>
        simp [sum_range_succ, gram, onePointColumns, arr] <;> ring
    · intro k k' e e' hk hk'
      obtain ⟨h1, rfl⟩ := List.getElem?_eq_some_iff.1 hk
      obtain ⟨h2, rfl⟩ := List.getElem?_eq_some_iff.1 hk'
      simp only [onePointVectors, List.length_cons, List.length_nil] at h1 h2
      interval_cases k <;> interval_cases k' <;> simp [onePointVectors, sum_range_succ, arr, hs] <;> norm_num
  · exact idealEigen_sound n M l hM h

theorem onePoint_sample : onePoint.store.point 0 = [0, 1] ∧ onePoint.store.ordinate 0 0 = 1 := by
  simp [Store.ordinate, Store.point, onePoint, Segments.make, Store.get, Store.columns, ciColumns, arr]

theorem onePoint_coord : unitCoord (inflate onePoint.min onePoint.max).1 (inflate onePoint.min onePoint.max).2 [0, 1] 0 = 0 := by
  have h1 : onePoint.min = [0] := by
    simp [onePoint, Segments.make, dataMin, xView, Store.columns, ciColumns]
    linarith [dblMax_large]
  have h2 : onePoint.max = [0] := by
    simp [onePoint, Segments.make, dataMax, xView, Store.columns, ciColumns]
    linarith [dblMax_large]
  rw [h1, h2]
  simp [inflate, unitCoord, arr]
  norm_num

theorem onePoint_ready : RationalReady onePoint ⟨1, 1, 0, 0, [], [], [none]⟩ :=
  ⟨by simp [onePoint, Segments.make], rfl, rfl⟩

/-- C70, limit: with several eigenvectors for the smallest eigenvalue, the fit may choose one whose denominator is null
    at a sample; the fit says that it succeeds, and both polynomials are null at the sample (the program divides zero by
    zero), although the constant 1 is exact. -/
theorem eigen_rational_undefined : ∃ (solve : EigenSystem) (f' : RatFn) (r : Rat1), solve.Sound ∧
    eigenRationalFit solve 0 onePoint 1 2 ⟨1, 1, 0, 0, [], [], [none]⟩ = some (true, f') ∧
    f'.rs[0]? = some (some r) ∧ r.parts (onePoint.store.point 0) = some (0, 0) := by
  obtain ⟨p0, y0⟩ := onePoint_sample
  have hu := onePoint_coord
  obtain ⟨lo, hlo⟩ : ∃ lo, lo = (inflate onePoint.min onePoint.max).1 := ⟨_, rfl⟩
  obtain ⟨hi, hhi⟩ : ∃ hi, hi = (inflate onePoint.min onePoint.max).2 := ⟨_, rfl⟩
  have hdom := resize_dom 0 ⟨1, [], [], lo, hi⟩ 1 2
  obtain ⟨s1, s2, s3⟩ := mkRat1_standard 0 1 1 2 lo hi le_rfl
  obtain ⟨r0, hr0⟩ : ∃ r0, r0 = mkRat1 0 1 1 2 lo hi := ⟨_, rfl⟩
  have e1 : r0.dimX = 1 := by rw [hr0]; exact hdom.1
  have e2 : r0.lo = lo := by rw [hr0]; exact hdom.2.1
  have e3 : r0.hi = hi := by rw [hr0]; exact hdom.2.2
  rw [← hr0] at s1 s2 s3
  rw [← hlo, ← hhi] at hu
  have b1 : basisFn 1 lo hi 1 [0, 1] = 0 := by
    have h1 : index2degree 1 1 = some [1] := by decide +kernel
    unfold basisFn monomial
    rw [h1]
    simp [hu]
  have hcols : eigenColumns onePoint.store r0 1 2 0 = onePointColumns := by
    unfold eigenColumns onePointColumns
    rw [show onePoint.store.size = 1 from rfl]
    simp only [List.range_one, List.map_cons, List.map_nil]
    rw [p0, y0, e1, e2, e3]
    have : List.range (1 + 2) = [0, 1, 2] := by decide
    rw [this]
    simp [upperElement, basisFn_zero, b1]
  have hsm : smallestEigen onePointVectors = (0, [0, 0, 1]) := by
    have : 0 < maxDouble := maxDouble_pos
    simp [smallestEigen, onePointVectors, this]
  obtain ⟨r, u1, u2, u3, u4, u5, -, c, hc, uP, uQ, -⟩ := update_value 0 r0 s1 [0] [0, 1] (by simp) (by rw [s2]; rfl)
    (by rw [s3]; rfl)
  have hch : eigenChannel onePointEigen 0 onePoint.store 1 2 0 r0 = some (true, r) := by
    unfold eigenChannel
    rw [eigenColumns_eq onePoint.store r0 s1 1 2 0 s2 s3, Option.bind_some, hcols]
    have : onePointEigen (1 + 2) (gram onePointColumns) = some onePointVectors := by
      unfold onePointEigen
      rw [if_pos ⟨rfl, rfl⟩]
    rw [this]
    simp only [hsm]
    rw [if_neg maxDouble_pos.ne, if_neg (by decide)]
    have h1 : List.take 1 [(0 : ℝ), 0, 1] = [0] := rfl
    have h2 : List.drop 1 [(0 : ℝ), 0, 1] = [0, 1] := rfl
    rw [h1, h2, u1]
    rfl
  refine ⟨onePointEigen, ⟨1, 1, 1, 2, onePoint.min, onePoint.max, [some r]⟩, r, onePointEigen_sound, ?_, rfl, ?_⟩
  · unfold eigenRationalFit
    rw [if_neg (by decide), show onePoint.store.dimY = 0 + 1 from rfl, fitEach]
    have hget : (RatFn.setSize ⟨1, 1, 0, 0, onePoint.min, onePoint.max, [none]⟩ 1 2).get 0 0 =
        some (r0, ⟨1, 1, 1, 2, onePoint.min, onePoint.max, [some r0]⟩) := by
      rw [hr0, hlo, hhi]
      rfl
    rw [hget]
    simp only [hch]
    rfl
  · rw [rational_parts r u2, uP, uQ, u3, u4, u5, polynomial_div, polynomial_div, p0, e1, e2, e3, linear_polynomial, hu]
    have : polynomial 1 lo hi [0] [0, 1] = 0 := by
      unfold polynomial
      simp [arr]
    rw [this]
    simp

end
end Alta
