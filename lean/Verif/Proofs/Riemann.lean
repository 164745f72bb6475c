import Mathlib.MeasureTheory.Integral.Bochner.Set
import Mathlib.MeasureTheory.Measure.Lebesgue.Basic
import Mathlib.Tactic.Positivity
import Mathlib.Tactic.FieldSimp
import Mathlib.Tactic.Linarith
/-
Error of a sum over the cells of a regular grid of a box, against the integral.
-/
namespace Alta
open MeasureTheory Set
noncomputable section

variable {m : ℕ}

/-- A cell of the grid. -/
def gridCell (lo hi : Fin m → ℝ) (n j : Fin m → ℕ) : Set (Fin m → ℝ) :=
  Set.pi univ fun k => Ico (lo k + (hi k - lo k) * ((j k : ℝ) / n k)) (lo k + (hi k - lo k) * (((j k : ℝ) + 1) / n k))

/-- Its lowest corner. -/
def cellCorner (lo hi : Fin m → ℝ) (n j : Fin m → ℕ) : Fin m → ℝ :=
  fun k => lo k + (hi k - lo k) * ((j k : ℝ) / n k)

theorem mem_gridCell_iff (lo hi : Fin m → ℝ) (n j : Fin m → ℕ) (hlt : ∀ k, lo k < hi k) (hn : ∀ k, 1 ≤ n k)
    (u : Fin m → ℝ) : u ∈ gridCell lo hi n j ↔
      ∀ k, (j k : ℝ) ≤ (u k - lo k) / (hi k - lo k) * n k ∧ (u k - lo k) / (hi k - lo k) * n k < (j k : ℝ) + 1 := by
  simp only [gridCell, mem_pi, mem_univ, true_implies, mem_Ico]
  refine forall_congr' fun k => ?_
  have h1 : 0 < hi k - lo k := by linarith [hlt k]
  have h2 : (0:ℝ) < n k := by exact_mod_cast hn k
  have e : ∀ t : ℝ, lo k + (hi k - lo k) * (t / n k) ≤ u k ↔ t ≤ (u k - lo k) / (hi k - lo k) * n k := by
    intro t
    rw [div_mul_eq_mul_div, le_div_iff₀ h1, ← sub_nonneg, ← sub_nonneg (b := t * _)]
    have : (u k - lo k) * n k - t * (hi k - lo k) = (u k - (lo k + (hi k - lo k) * (t / n k))) * n k := by
      field_simp
      ring
    rw [this]
    constructor
    · intro h; exact mul_nonneg h h2.le
    · intro h; exact nonneg_of_mul_nonneg_left h h2
  rw [e, ← not_le, e, not_le]

theorem gridCell_disjoint (lo hi : Fin m → ℝ) (n : Fin m → ℕ) (hlt : ∀ k, lo k < hi k) (hn : ∀ k, 1 ≤ n k)
    (j j' : Fin m → ℕ) (h : j ≠ j') : Disjoint (gridCell lo hi n j) (gridCell lo hi n j') := by
  rw [Set.disjoint_left]
  intro u hu hu'
  rw [mem_gridCell_iff lo hi n _ hlt hn] at hu hu'
  apply h
  funext k
  have a1 : (j k : ℝ) < j' k + 1 := lt_of_le_of_lt (hu k).1 (hu' k).2
  have a2 : (j' k : ℝ) < j k + 1 := lt_of_le_of_lt (hu' k).1 (hu k).2
  have b1 : j k < j' k + 1 := by exact_mod_cast a1
  have b2 : j' k < j k + 1 := by exact_mod_cast a2
  omega

theorem gridCell_union (lo hi : Fin m → ℝ) (n : Fin m → ℕ) (hlt : ∀ k, lo k < hi k) (hn : ∀ k, 1 ≤ n k) :
    ⋃ j ∈ Fintype.piFinset (fun k => Finset.range (n k)), gridCell lo hi n j =
      Set.pi univ fun k => Ico (lo k) (hi k) := by
  ext u
  simp only [mem_iUnion, Fintype.mem_piFinset, Finset.mem_range, exists_prop, mem_pi, mem_univ, true_implies, mem_Ico]
  have h1 : ∀ k, 0 < hi k - lo k := fun k => by linarith [hlt k]
  have h2 : ∀ k, (0:ℝ) < n k := fun k => by exact_mod_cast hn k
  constructor
  · rintro ⟨j, hj, hu⟩ k
    rw [mem_gridCell_iff lo hi n _ hlt hn] at hu
    have hj' : (j k : ℝ) + 1 ≤ n k := by exact_mod_cast hj k
    obtain ⟨a, b⟩ := hu k
    have a' : 0 ≤ (u k - lo k) / (hi k - lo k) := by
      have : 0 ≤ (u k - lo k) / (hi k - lo k) * n k := le_trans (Nat.cast_nonneg _) a
      exact nonneg_of_mul_nonneg_left this (h2 k)
    have b' : (u k - lo k) / (hi k - lo k) < 1 := by
      have : (u k - lo k) / (hi k - lo k) * n k < 1 * n k := by linarith
      exact lt_of_mul_lt_mul_right this (h2 k).le
    rw [div_lt_one (h1 k)] at b'
    have : 0 ≤ u k - lo k := by
      have := mul_nonneg a' (h1 k).le
      rwa [div_mul_cancel₀ _ (h1 k).ne'] at this
    exact ⟨by linarith, by linarith⟩
  · intro hu
    refine ⟨fun k => ⌊(u k - lo k) / (hi k - lo k) * n k⌋₊, fun k => ?_, ?_⟩
    · have p : 0 ≤ (u k - lo k) / (hi k - lo k) := div_nonneg (by linarith [(hu k).1]) (h1 k).le
      rw [Nat.floor_lt (mul_nonneg p (h2 k).le)]
      have : (u k - lo k) / (hi k - lo k) < 1 := by rw [div_lt_one (h1 k)]; linarith [(hu k).2]
      calc _ < 1 * (n k : ℝ) := mul_lt_mul_of_pos_right this (h2 k)
        _ = _ := one_mul _
    · rw [mem_gridCell_iff lo hi n _ hlt hn]
      intro k
      have p : 0 ≤ (u k - lo k) / (hi k - lo k) := div_nonneg (by linarith [(hu k).1]) (h1 k).le
      exact ⟨Nat.floor_le (mul_nonneg p (h2 k).le), Nat.lt_floor_add_one _⟩

theorem gridCell_volume (lo hi : Fin m → ℝ) (n j : Fin m → ℕ) (hlt : ∀ k, lo k < hi k) (hn : ∀ k, 1 ≤ n k) :
    volume.real (gridCell lo hi n j) = (∏ k, (hi k - lo k)) / (∏ k, (n k : ℝ)) := by
  have h1 : ∀ k, 0 < hi k - lo k := fun k => by linarith [hlt k]
  have h2 : ∀ k, (0:ℝ) < n k := fun k => by exact_mod_cast hn k
  unfold gridCell
  rw [measureReal_def, Real.volume_pi_Ico_toReal, ← Finset.prod_div_distrib]
  · apply Finset.prod_congr rfl
    intro k _
    field_simp
    ring
  · intro k
    have : (j k : ℝ) / n k ≤ ((j k : ℝ) + 1) / n k := div_le_div_of_nonneg_right (by linarith) (h2 k).le
    have := mul_le_mul_of_nonneg_left this (h1 k).le
    simp only
    linarith

/-- The sum of `F` over the corners of the cells, times the volume of a cell, is the integral of `F` up to its
    variation in the cells. -/
theorem riemann_error (lo hi : Fin m → ℝ) (n : Fin m → ℕ) (hlt : ∀ k, lo k < hi k) (hn : ∀ k, 1 ≤ n k)
    (F : (Fin m → ℝ) → ℝ) (hF : IntegrableOn F (Set.pi univ fun k => Ico (lo k) (hi k))) (ε : ℝ)
    (hε : ∀ u v, u ∈ (Set.pi univ fun k => Ico (lo k) (hi k)) → v ∈ (Set.pi univ fun k => Ico (lo k) (hi k)) →
      (∀ k, |u k - v k| ≤ (hi k - lo k) / n k) → |F u - F v| ≤ ε) :
    |∑ j ∈ Fintype.piFinset (fun k => Finset.range (n k)), F (cellCorner lo hi n j) *
        ((∏ k, (hi k - lo k)) / (∏ k, (n k : ℝ))) - ∫ u in Set.pi univ fun k => Ico (lo k) (hi k), F u|
      ≤ ε * ∏ k, (hi k - lo k) := by
  have h1 : ∀ k, 0 < hi k - lo k := fun k => by linarith [hlt k]
  have h2 : ∀ k, (0:ℝ) < n k := fun k => by exact_mod_cast hn k
  set J := Fintype.piFinset (fun k => Finset.range (n k)) with hJ
  set B := Set.pi univ fun k => Ico (lo k) (hi k) with hB
  have hcell : ∀ j ∈ J, gridCell lo hi n j ⊆ B := by
    intro j hj
    rw [hB, ← gridCell_union lo hi n hlt hn]
    exact subset_biUnion_of_mem (u := fun j => gridCell lo hi n j) hj
  have hmeas : ∀ j, MeasurableSet (gridCell lo hi n j) := fun j => MeasurableSet.univ_pi fun _ => measurableSet_Ico
  have hint : ∫ u in B, F u = ∑ j ∈ J, ∫ u in gridCell lo hi n j, F u := by
    rw [hB, ← gridCell_union lo hi n hlt hn]
    apply integral_biUnion_finset
    · intro j _; exact hmeas j
    · intro j _ j' _ hne; exact gridCell_disjoint lo hi n hlt hn j j' hne
    · intro j hj; exact hF.mono_set (hcell j hj)
  rw [hint, ← Finset.sum_sub_distrib]
  have hvol : ∀ j, volume (gridCell lo hi n j) < ⊤ := by
    intro j
    unfold gridCell
    rw [Real.volume_pi_Ico]
    exact ENNReal.prod_lt_top fun k _ => ENNReal.ofReal_lt_top
  have hone : ∀ j ∈ J, |F (cellCorner lo hi n j) * ((∏ k, (hi k - lo k)) / (∏ k, (n k : ℝ))) -
      ∫ u in gridCell lo hi n j, F u| ≤ ε * ((∏ k, (hi k - lo k)) / (∏ k, (n k : ℝ))) := by
    intro j hj
    have hcorner : cellCorner lo hi n j ∈ gridCell lo hi n j := by
      rw [mem_gridCell_iff lo hi n _ hlt hn]
      intro k
      have : (cellCorner lo hi n j k - lo k) / (hi k - lo k) * n k = j k := by
        unfold cellCorner
        have := (h1 k).ne'
        have := (h2 k).ne'
        field_simp
        ring
      rw [this]
      exact ⟨le_rfl, by linarith⟩
    have hconst : F (cellCorner lo hi n j) * ((∏ k, (hi k - lo k)) / (∏ k, (n k : ℝ))) =
        ∫ _ in gridCell lo hi n j, F (cellCorner lo hi n j) := by
      rw [setIntegral_const, gridCell_volume lo hi n j hlt hn, smul_eq_mul, mul_comm]
    have hcint : IntegrableOn (fun _ => F (cellCorner lo hi n j)) (gridCell lo hi n j) volume :=
      integrableOn_const (hvol j).ne
    have hFint : IntegrableOn F (gridCell lo hi n j) volume := hF.mono_set (hcell j hj)
    rw [hconst, ← integral_sub hcint hFint,
      ← gridCell_volume lo hi n j hlt hn]
    have hb : ∀ u ∈ gridCell lo hi n j, ‖F (cellCorner lo hi n j) - F u‖ ≤ ε := ?_
    · exact norm_setIntegral_le_of_norm_le_const (f := fun u => F (cellCorner lo hi n j) - F u) (hvol j) hb
    intro u hu
    apply hε _ _ (hcell j hj hcorner) (hcell j hj hu)
    intro k
    simp only [gridCell, mem_pi, mem_univ, true_implies, mem_Ico] at hu
    obtain ⟨a, b⟩ := hu k
    have e : (hi k - lo k) * (((j k : ℝ) + 1) / n k) = (hi k - lo k) * ((j k : ℝ) / n k) + (hi k - lo k) / n k := by
      field_simp
    rw [e] at b
    unfold cellCorner
    rw [abs_le]
    have : 0 ≤ (hi k - lo k) / n k := div_nonneg (h1 k).le (h2 k).le
    constructor <;> linarith
  have hcard : (J.card : ℝ) = ∏ k, (n k : ℝ) := by
    rw [hJ, Fintype.card_piFinset]
    simp
  calc _ ≤ ∑ j ∈ J, |F (cellCorner lo hi n j) * ((∏ k, (hi k - lo k)) / (∏ k, (n k : ℝ))) -
        ∫ u in gridCell lo hi n j, F u| := Finset.abs_sum_le_sum_abs _ _
    _ ≤ ∑ _j ∈ J, ε * ((∏ k, (hi k - lo k)) / (∏ k, (n k : ℝ))) := Finset.sum_le_sum hone
    _ = ε * ∏ k, (hi k - lo k) := by
      rw [Finset.sum_const, nsmul_eq_mul, hcard]
      have : (∏ k, (n k : ℝ)) ≠ 0 := Finset.prod_ne_zero_iff.2 fun k _ => (h2 k).ne'
      field_simp

end
end Alta
