import Verif.Spec.RationalFit
import Mathlib.LinearAlgebra.Matrix.NonsingularInverse
import Mathlib.Data.Matrix.Mul
import Mathlib.Algebra.Order.BigOperators.Group.Finset
import Mathlib.Tactic.Ring
import Mathlib.Tactic.Linarith
/-
Quadratic forms in an orthonormal basis of eigenvectors.
-/
namespace Alta
noncomputable section
open Finset

theorem gram_symm (cols : List (List ℝ)) (a b : ℕ) : gram cols a b = gram cols b a := by
  unfold gram
  congr 1
  exact List.map_congr_left fun c _ => mul_comm _ _

theorem gram_quadratic (cols : List (List ℝ)) (n : ℕ) (w : ℕ → ℝ) :
    ∑ a ∈ range n, ∑ b ∈ range n, w a * gram cols a b * w b =
      (cols.map fun c => (∑ j ∈ range n, arr c j * w j) ^ 2).sum := by
  induction cols with
  | nil => simp [gram]
  | cons c cols ih =>
    have e : ∀ a b, gram (c :: cols) a b = arr c a * arr c b + gram cols a b := by
      intro a b; simp [gram]
    simp only [e, mul_add, add_mul, sum_add_distrib, List.map_cons, List.sum_cons]
    rw [ih]
    congr 1
    rw [sq, sum_mul_sum]
    exact sum_congr rfl fun a _ => sum_congr rfl fun b _ => by ring

/-- In an orthonormal basis of eigenvectors, a quadratic form is a weighted sum of squares. -/
theorem spectral_form (n : ℕ) (M : ℕ → ℕ → ℝ) (lam : ℕ → ℝ) (v : ℕ → ℕ → ℝ)
    (he : ∀ k < n, ∀ i < n, ∑ j ∈ range n, M i j * v k j = lam k * v k i)
    (ho : ∀ k < n, ∀ k' < n, ∑ j ∈ range n, v k j * v k' j = if k = k' then 1 else 0) (w : ℕ → ℝ) :
    ∑ a ∈ range n, ∑ b ∈ range n, w a * M a b * w b =
      ∑ k ∈ range n, lam k * (∑ j ∈ range n, v k j * w j) ^ 2 ∧
    ∑ a ∈ range n, w a ^ 2 = ∑ k ∈ range n, (∑ j ∈ range n, v k j * w j) ^ 2 := by
  have hU : (Matrix.of fun (k j : Fin n) => v k j) * (Matrix.of fun (k j : Fin n) => v k j).transpose = 1 := by
    ext k k'
    rw [Matrix.mul_apply, Matrix.one_apply]
    have := ho k k.isLt k' k'.isLt
    rw [← Fin.sum_univ_eq_sum_range (fun j => v k j * v k' j)] at this
    simp only [Matrix.transpose_apply, Matrix.of_apply]
    rw [this]
    simp [Fin.ext_iff]
  have hU' : (Matrix.of fun (k j : Fin n) => v k j).transpose * (Matrix.of fun (k j : Fin n) => v k j) = 1 :=
    mul_eq_one_comm.1 hU
  have hcomp : ∀ a < n, ∀ b < n, ∑ k ∈ range n, v k a * v k b = if a = b then 1 else 0 := by
    intro a ha b hb
    have := congrFun (congrFun hU' ⟨a, ha⟩) ⟨b, hb⟩
    rw [Matrix.mul_apply, Matrix.one_apply] at this
    simp only [Matrix.transpose_apply, Matrix.of_apply, Fin.ext_iff] at this
    rw [← Fin.sum_univ_eq_sum_range (fun k => v k a * v k b)]
    exact this
  -- expansion of `w`
  have hw : ∀ a < n, w a = ∑ k ∈ range n, v k a * ∑ j ∈ range n, v k j * w j := by
    intro a ha
    have : ∑ k ∈ range n, v k a * ∑ j ∈ range n, v k j * w j =
        ∑ j ∈ range n, (∑ k ∈ range n, v k a * v k j) * w j := by
      simp only [mul_sum, sum_mul]
      rw [sum_comm]
      exact sum_congr rfl fun _ _ => sum_congr rfl fun _ _ => by ring
    rw [this]
    rw [sum_congr rfl fun j hj => by rw [hcomp a ha j (mem_range.1 hj)]]
    simp [ha]
  have hMw : ∀ a < n, ∑ b ∈ range n, M a b * w b =
      ∑ k ∈ range n, lam k * v k a * ∑ j ∈ range n, v k j * w j := by
    intro a ha
    have : ∀ b ∈ range n, M a b * w b = ∑ k ∈ range n, M a b * v k b * ∑ j ∈ range n, v k j * w j := by
      intro b hb
      rw [hw b (mem_range.1 hb), mul_sum]
      refine sum_congr rfl fun k _ => ?_
      ring
    rw [sum_congr rfl this, sum_comm]
    refine sum_congr rfl fun k hk => ?_
    rw [← sum_mul, he k (mem_range.1 hk) a ha]
  constructor
  · have h1 : ∀ a ∈ range n, ∑ b ∈ range n, w a * M a b * w b =
        ∑ k ∈ range n, lam k * (∑ j ∈ range n, v k j * w j) * (v k a * w a) := by
      intro a ha
      have : ∑ b ∈ range n, w a * M a b * w b = w a * ∑ b ∈ range n, M a b * w b := by
        rw [mul_sum]; exact sum_congr rfl fun _ _ => by ring
      rw [this, hMw a (mem_range.1 ha), mul_sum]
      exact sum_congr rfl fun _ _ => by ring
    rw [sum_congr rfl h1, sum_comm]
    refine sum_congr rfl fun k _ => ?_
    rw [← mul_sum]
    ring
  · have h1 : ∀ a ∈ range n, w a ^ 2 = ∑ k ∈ range n, (∑ j ∈ range n, v k j * w j) * (v k a * w a) := by
      intro a ha
      have : w a ^ 2 = w a * ∑ k ∈ range n, v k a * ∑ j ∈ range n, v k j * w j := by
        rw [← hw a (mem_range.1 ha)]; ring
      rw [this, mul_sum]
      exact sum_congr rfl fun _ _ => by ring
    rw [sum_congr rfl h1, sum_comm]
    refine sum_congr rfl fun k _ => ?_
    rw [← mul_sum]
    ring

/-- The eigenvalues of a sum of squares are sums of squares. -/
theorem gram_eigenvalue (cols : List (List ℝ)) (n : ℕ) (lam : ℝ) (v : ℕ → ℝ)
    (he : ∀ i < n, ∑ j ∈ range n, gram cols i j * v j = lam * v i) (h1 : ∑ j ∈ range n, v j * v j = 1) :
    lam = (cols.map fun c => (∑ j ∈ range n, arr c j * v j) ^ 2).sum := by
  rw [← gram_quadratic]
  have : ∀ a ∈ range n, ∑ b ∈ range n, v a * gram cols a b * v b = lam * (v a * v a) := by
    intro a ha
    have : ∑ b ∈ range n, v a * gram cols a b * v b = v a * ∑ b ∈ range n, gram cols a b * v b := by
      rw [mul_sum]; exact sum_congr rfl fun _ _ => by ring
    rw [this, he a (mem_range.1 ha)]
    ring
  rw [sum_congr rfl this, ← mul_sum, h1, mul_one]

/-- What the loop on the eigenvalues finds. -/
theorem smallestEigen_spec (l : List (ℝ × List ℝ)) (h0 : ∀ e ∈ l, 0 ≤ e.1) :
    ((smallestEigen l).1 = maxDouble ∧ ∀ e ∈ l, maxDouble ≤ e.1) ∨
    (smallestEigen l ∈ l ∧ (smallestEigen l).1 < maxDouble ∧ ∀ e ∈ l, (smallestEigen l).1 ≤ e.1) := by
  have key : ∀ (l : List (ℝ × List ℝ)), (∀ e ∈ l, 0 ≤ e.1) → ∀ s : ℝ × List ℝ,
      let r := l.foldl (fun s e => if 0 ≤ e.1 ∧ e.1 < s.1 then e else s) s
      (r = s ∧ ∀ e ∈ l, s.1 ≤ e.1) ∨ (r ∈ l ∧ r.1 < s.1 ∧ ∀ e ∈ l, r.1 ≤ e.1) := by
    intro l
    induction l with
    | nil => intro _ s; left; exact ⟨rfl, by simp⟩
    | cons e l ih =>
      intro h0 s
      simp only [List.foldl_cons]
      by_cases hs : e.1 < s.1
      · rw [if_pos ⟨h0 e List.mem_cons_self, hs⟩]
        rcases ih (fun e he => h0 e (List.mem_cons_of_mem _ he)) e with ⟨h1, h2⟩ | ⟨h1, h2, h3⟩
        · right
          rw [h1]
          refine ⟨List.mem_cons_self, hs, ?_⟩
          intro e' he'
          rcases List.mem_cons.1 he' with rfl | he'
          · exact le_rfl
          · exact h2 e' he'
        · right
          refine ⟨List.mem_cons_of_mem _ h1, h2.trans hs, ?_⟩
          intro e' he'
          rcases List.mem_cons.1 he' with rfl | he'
          · exact h2.le
          · exact h3 e' he'
      · rw [if_neg (fun h => hs h.2)]
        rcases ih (fun e he => h0 e (List.mem_cons_of_mem _ he)) s with ⟨h1, h2⟩ | ⟨h1, h2, h3⟩
        · left
          refine ⟨h1, ?_⟩
          intro e' he'
          rcases List.mem_cons.1 he' with rfl | he'
          · exact not_lt.1 hs
          · exact h2 e' he'
        · right
          refine ⟨List.mem_cons_of_mem _ h1, h2, ?_⟩
          intro e' he'
          rcases List.mem_cons.1 he' with rfl | he'
          · exact h2.le.trans (not_lt.1 hs)
          · exact h3 e' he'
  rcases key l h0 (maxDouble, []) with ⟨h1, h2⟩ | ⟨h1, h2, h3⟩
  · left
    exact ⟨by unfold smallestEigen; rw [h1], h2⟩
  · right
    exact ⟨h1, h2, h3⟩

end
end Alta
