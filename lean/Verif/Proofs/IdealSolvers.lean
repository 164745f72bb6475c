import Verif.Props.RationalFitLeast
import Mathlib.Analysis.Matrix.Spectrum
import Mathlib.Analysis.InnerProductSpace.Projection.Minimal
/-
Solvers that keep the promises of Eigen exist.
-/
namespace Alta
noncomputable section
open Finset

/-- a list of the values of a function -/
def ofFin (n : ℕ) (v : Fin n → ℝ) : List ℝ := List.ofFn v

theorem ofFin_length (n : ℕ) (v : Fin n → ℝ) : (ofFin n v).length = n := by simp [ofFin]

theorem ofFin_arr (n : ℕ) (v : Fin n → ℝ) (i : Fin n) : arr (ofFin n v) i = v i := by
  simp [arr, ofFin]

theorem symmetric_diagonal (n : ℕ) (M : ℕ → ℕ → ℝ) (h : ∀ i j, M i j = M j i) : ∃ l : List (ℝ × List ℝ),
    l.length = n ∧ (∀ e ∈ l, e.2.length = n ∧ ∀ i < n, ∑ j ∈ range n, M i j * arr e.2 j = e.1 * arr e.2 i) ∧
    ∀ (k k' : ℕ) (e e' : ℝ × List ℝ), l[k]? = some e → l[k']? = some e' →
      ∑ j ∈ range n, arr e.2 j * arr e'.2 j = if k = k' then 1 else 0 := by
  let A : Matrix (Fin n) (Fin n) ℝ := Matrix.of fun i j => M i j
  have hA : A.IsHermitian := by
    ext i j
    simp [A, Matrix.conjTranspose, h j i]
  refine ⟨List.ofFn fun k => (hA.eigenvalues k, ofFin n fun j => hA.eigenvectorBasis k j), by simp, ?_, ?_⟩
  · intro e he
    obtain ⟨k, rfl⟩ := (List.mem_ofFn' _ _).1 he
    refine ⟨ofFin_length _ _, fun i hi => ?_⟩
    have := congrFun (hA.mulVec_eigenvectorBasis k) ⟨i, hi⟩
    simp only [Matrix.mulVec, dotProduct, Pi.smul_apply, smul_eq_mul] at this
    rw [sum_range]
    have e1 : arr (ofFin n fun j => hA.eigenvectorBasis k j) i = hA.eigenvectorBasis k ⟨i, hi⟩ :=
      ofFin_arr n (fun j => hA.eigenvectorBasis k j) ⟨i, hi⟩
    rw [e1]
    simp only [ofFin_arr]
    exact this
  · intro k k' e e' hk hk'
    obtain ⟨hkn, rfl⟩ := List.getElem?_eq_some_iff.1 hk
    obtain ⟨hkn', rfl⟩ := List.getElem?_eq_some_iff.1 hk'
    simp only [List.length_ofFn] at hkn hkn'
    simp only [List.getElem_ofFn]
    rw [sum_range]
    simp only [ofFin_arr]
    have := orthonormal_iff_ite.1 hA.eigenvectorBasis.orthonormal ⟨k, hkn⟩ ⟨k', hkn'⟩
    rw [PiLp.inner_apply] at this
    simp only [RCLike.inner_apply, conj_trivial, Fin.mk.injEq] at this
    rw [← this]
    exact sum_congr rfl fun _ _ => mul_comm _ _

theorem least_squares_exists (n : ℕ) (rows : List (List ℝ)) (rhs : List ℝ) (hrow : ∀ c ∈ rows, c.length = n) :
    ∃ x : List ℝ, x.length = n ∧ ∀ z : List ℝ, z.length = n →
      ∑ i ∈ range rows.length, (rowDot (rows.getD i []) x - arr rhs i) ^ 2 ≤
        ∑ i ∈ range rows.length, (rowDot (rows.getD i []) z - arr rhs i) ^ 2 := by
  let m := rows.length
  let A : Matrix (Fin m) (Fin n) ℝ := Matrix.of fun i j => arr (rows.getD i []) j
  let L : (Fin n → ℝ) →ₗ[ℝ] EuclideanSpace ℝ (Fin m) :=
    (WithLp.linearEquiv 2 ℝ (Fin m → ℝ)).symm.toLinearMap ∘ₗ A.mulVecLin
  let y : EuclideanSpace ℝ (Fin m) := WithLp.toLp 2 fun i => arr rhs i
  have key : ∀ v : Fin n → ℝ, ‖y - L v‖ ^ 2 =
      ∑ i ∈ range rows.length, (rowDot (rows.getD i []) (ofFin n v) - arr rhs i) ^ 2 := by
    intro v
    rw [EuclideanSpace.norm_sq_eq, sum_range]
    refine sum_congr rfl fun i _ => ?_
    have hl : (rows.getD i []).length = n := by
      refine hrow _ ?_
      have : (i : ℕ) < rows.length := i.2
      simp [List.getD, this]
    have e1 : rowDot (rows.getD i []) (ofFin n v) = ∑ j : Fin n, A i j * v j := by
      rw [rowDot_eq, hl, sum_range]
      refine sum_congr rfl fun j _ => ?_
      rw [ofFin_arr]
      rfl
    have e2 : (y - L v) i = arr rhs i - ∑ j : Fin n, A i j * v j := rfl
    rw [e1, e2, Real.norm_eq_abs, sq_abs]
    ring
  obtain ⟨w, hw, hmin⟩ := (LinearMap.range L).exists_norm_eq_iInf_of_complete_subspace
    (Submodule.complete_of_finiteDimensional _) y
  obtain ⟨v, rfl⟩ := hw
  refine ⟨ofFin n v, ofFin_length _ _, fun z hz => ?_⟩
  have hzv : ofFin n (fun j => arr z j) = z := by
    refine List.ext_getElem (by rw [ofFin_length, hz]) fun i h1 h2 => ?_
    simp [ofFin, arr]
    rw [List.getElem?_eq_getElem h2]; rfl
  rw [← key v, ← hzv, ← key]
  refine pow_le_pow_left₀ (norm_nonneg _) ?_ 2
  rw [hmin]
  exact ciInf_le ⟨0, by rintro _ ⟨u, rfl⟩; exact norm_nonneg _⟩ (⟨L fun j => arr z j, ⟨_, rfl⟩⟩ : LinearMap.range L)

open Classical in
/-- a decomposition that succeeds for every symmetric matrix -/
def idealEigen : EigenSystem := fun n M => if h : ∀ i j, M i j = M j i then some (symmetric_diagonal n M h).choose else none

theorem idealEigen_sound : idealEigen.Sound := by
  intro n M l hM h
  unfold idealEigen at h
  rw [dif_pos hM] at h
  cases h
  exact (symmetric_diagonal n M hM).choose_spec

theorem idealEigen_total (n : ℕ) (M : ℕ → ℕ → ℝ) (hM : ∀ i j, M i j = M j i) : (idealEigen n M).isSome := by
  unfold idealEigen
  rw [dif_pos hM]
  rfl

open Classical in
/-- a solver of least squares problems -/
def idealLeast : LeastSquares := fun n rows rhs =>
  if h : ∀ c ∈ rows, c.length = n then (least_squares_exists n rows rhs h).choose else []

theorem idealLeast_sound : idealLeast.Sound := by
  intro n rows rhs h _
  unfold idealLeast
  rw [dif_pos h]
  exact (least_squares_exists n rows rhs h).choose_spec

end
end Alta
