import Verif.Model.Rbf
import Mathlib.Tactic.Linarith
import Mathlib.Tactic.Ring
import Mathlib.Tactic.FieldSimp
import Mathlib.Tactic.Positivity
import Mathlib.Algebra.Order.BigOperators.Group.List
/-
Property C46: the RBF interpolant.
-/
namespace Alta
noncomputable section

/-- The sum of the weights of the neighbours. -/
def kernelSum (nb : List (ℕ × ℝ)) : ℝ := (nb.map fun q => 1 / (1e-10 + q.2)).sum

/-- The ordinate `c` of a sample, after its `dimX` abscissae. -/
def sampleY (dimX : ℕ) (get : ℕ → List ℝ) (c i : ℕ) : ℝ := arr (get i) (dimX + c)

/-- The kernel average of the neighbours' ordinates. -/
def kernelAverage (dimX : ℕ) (get : ℕ → List ℝ) (nb : List (ℕ × ℝ)) (c : ℕ) : ℝ :=
  (nb.map fun q => 1 / (1e-10 + q.2) * sampleY dimX get c q.1).sum / kernelSum nb

theorem rbf_foldl (dimX dimY : ℕ) (get : ℕ → List ℝ) (hget : ∀ i, (get i).length = dimX + dimY) :
    ∀ (nb : List (ℕ × ℝ)) (st : List ℝ × ℝ), st.1.length = dimY →
    nb.foldl (rbfStep dimY get) st =
      ((List.range dimY).map fun c => arr st.1 c + (nb.map fun q => 1 / (1e-10 + q.2) * sampleY dimX get c q.1).sum,
        st.2 + kernelSum nb)
  | [], st, h => by
    simp only [List.foldl_nil, kernelSum, List.map_nil, List.sum_nil, add_zero]
    refine Prod.ext ?_ rfl
    apply List.ext_getElem (by simp [h])
    intro n h1 h2
    simp [arr, h1]
  | q :: nb, st, h => by
    rw [List.foldl_cons, rbf_foldl dimX dimY get hget nb _ (by simp [rbfStep])]
    refine Prod.ext ?_ ?_
    · apply List.map_congr_left
      intro c hc
      have hc := List.mem_range.1 hc
      have e : arr ((List.range dimY).map fun c => arr st.1 c + rbfKernel q.2 * arr ((get q.1).drop ((get q.1).length - dimY)) c) c =
          arr st.1 c + rbfKernel q.2 * arr ((get q.1).drop ((get q.1).length - dimY)) c := by
        rw [arr, List.getD, List.getElem?_map, List.getElem?_range hc]
        rfl
      have e2 : arr ((get q.1).drop ((get q.1).length - dimY)) c = sampleY dimX get c q.1 := by
        unfold sampleY arr List.getD
        rw [List.getElem?_drop, hget, Nat.add_sub_cancel]
      simp only [rbfStep, List.map_cons, List.sum_cons]
      rw [e, e2, rbfKernel]
      ring
    · simp only [rbfStep, kernelSum, List.map_cons, List.sum_cons, rbfKernel]
      ring

theorem kernelSum_pos (nb : List (ℕ × ℝ)) (hne : nb ≠ []) (hd : ∀ q ∈ nb, 0 ≤ q.2) : 0 < kernelSum nb := by
  induction nb with
  | nil => exact absurd rfl hne
  | cons q nb ih =>
    have hq : 0 < 1 / (1e-10 + q.2) := by have := hd q (List.mem_cons_self ..); positivity
    unfold kernelSum at *
    rw [List.map_cons, List.sum_cons]
    by_cases h : nb = []
    · subst h; simpa using hq
    · have := ih h (fun e he => hd e (List.mem_cons_of_mem _ he))
      linarith

/-- C46: the value is the average of the ordinates of the neighbours with the weights
    `1 / (1e-10 + squared distance)`. -/
theorem rbf_value (dimX dimY : ℕ) (get : ℕ → List ℝ) (hget : ∀ i, (get i).length = dimX + dimY) (nb : List (ℕ × ℝ))
    (hne : nb ≠ []) (hd : ∀ q ∈ nb, 0 ≤ q.2) :
    rbfValue dimY get nb = (List.range dimY).map (kernelAverage dimX get nb) := by
  have hp := kernelSum_pos nb hne hd
  unfold rbfValue
  rw [rbf_foldl dimX dimY get hget nb _ (by simp)]
  simp only [zero_add]
  rw [if_pos hp, List.map_map]
  apply List.map_congr_left
  intro c hc
  have hc := List.mem_range.1 hc
  have e : arr (List.replicate dimY (0 : ℝ)) c = 0 := by simp [arr, hc]
  simp only [Function.comp, e, zero_add, kernelAverage]

theorem average_bounds (lo hi : ℝ) (w y : ℕ × ℝ → ℝ) : ∀ (nb : List (ℕ × ℝ)), (∀ q ∈ nb, 0 ≤ w q) → (∀ q ∈ nb, lo ≤ y q ∧ y q ≤ hi) →
    lo * (nb.map w).sum ≤ (nb.map fun q => w q * y q).sum ∧ (nb.map fun q => w q * y q).sum ≤ hi * (nb.map w).sum
  | [], _, _ => by simp
  | q :: nb, hw, hy => by
    obtain ⟨i1, i2⟩ := average_bounds lo hi w y nb (fun e he => hw e (List.mem_cons_of_mem _ he)) (fun e he => hy e (List.mem_cons_of_mem _ he))
    have h1 := hw q (List.mem_cons_self ..)
    obtain ⟨h2, h3⟩ := hy q (List.mem_cons_self ..)
    simp only [List.map_cons, List.sum_cons]
    constructor <;> nlinarith

/-- C46: hence it is within the range of the ordinates of the neighbours. -/
theorem rbf_bounds (dimX dimY : ℕ) (get : ℕ → List ℝ) (hget : ∀ i, (get i).length = dimX + dimY) (nb : List (ℕ × ℝ))
    (hne : nb ≠ []) (hd : ∀ q ∈ nb, 0 ≤ q.2) :
    ∃ v : ℕ → ℝ, rbfValue dimY get nb = (List.range dimY).map v ∧ ∀ c < dimY, ∀ lo hi : ℝ,
      (∀ q ∈ nb, lo ≤ sampleY dimX get c q.1 ∧ sampleY dimX get c q.1 ≤ hi) → lo ≤ v c ∧ v c ≤ hi := by
  refine ⟨_, rbf_value dimX dimY get hget nb hne hd, ?_⟩
  intro c _ lo hi h
  have hp := kernelSum_pos nb hne hd
  obtain ⟨h1, h2⟩ := average_bounds lo hi (fun q => 1 / (1e-10 + q.2)) (fun q => sampleY dimX get c q.1) nb
    (fun q hq => by have := hd q hq; positivity) h
  unfold kernelAverage
  rw [le_div_iff₀ hp, div_le_iff₀ hp]
  exact ⟨h1, h2⟩

/-- C46: in particular, neighbours that agree give their common value. -/
theorem rbf_constant (dimX dimY : ℕ) (get : ℕ → List ℝ) (hget : ∀ i, (get i).length = dimX + dimY) (nb : List (ℕ × ℝ))
    (hne : nb ≠ []) (hd : ∀ q ∈ nb, 0 ≤ q.2) (y : ℕ → ℝ) (hy : ∀ q ∈ nb, ∀ c < dimY, sampleY dimX get c q.1 = y c) :
    rbfValue dimY get nb = (List.range dimY).map y := by
  obtain ⟨v, h1, h2⟩ := rbf_bounds dimX dimY get hget nb hne hd
  rw [h1]
  apply List.map_congr_left
  intro c hc
  have hc := List.mem_range.1 hc
  obtain ⟨a, b⟩ := h2 c hc (y c) (y c) (fun q hq => by rw [hy q hq c hc]; exact ⟨le_refl _, le_refl _⟩)
  exact le_antisymm b a

/-- C46: without a neighbour the value is zero. -/
theorem rbf_empty (dimY : ℕ) (get : ℕ → List ℝ) : rbfValue dimY get [] = List.replicate dimY 0 := by
  simp [rbfValue]

/-- C46: at the abscissa of a sample the value is close to the ordinate of the sample: the error is at
    most 1e-10 times the sum over the other neighbours of their deviation divided by their squared
    distance. -/
theorem rbf_near (dimX dimY : ℕ) (get : ℕ → List ℝ) (hget : ∀ i, (get i).length = dimX + dimY) (i : ℕ) (nb : List (ℕ × ℝ))
    (hd : ∀ q ∈ nb, 0 < q.2) :
    ∃ v : ℕ → ℝ, rbfValue dimY get ((i, 0) :: nb) = (List.range dimY).map v ∧ ∀ c < dimY,
      |v c - sampleY dimX get c i| ≤ 1e-10 * (nb.map fun q => |sampleY dimX get c q.1 - sampleY dimX get c i| / q.2).sum := by
  have hd' : ∀ q ∈ (i, (0 : ℝ)) :: nb, 0 ≤ q.2 := by
    intro q hq
    rcases List.mem_cons.1 hq with rfl | hq
    · exact le_refl _
    · exact (hd q hq).le
  refine ⟨_, rbf_value dimX dimY get hget _ (by simp) hd', ?_⟩
  intro c _
  have hp := kernelSum_pos _ (by simp) hd'
  generalize hy : sampleY dimX get c i = y
  have split : ∀ l : List (ℕ × ℝ), (l.map fun q => 1 / (1e-10 + q.2) * sampleY dimX get c q.1).sum - y * kernelSum l =
      (l.map fun q => 1 / (1e-10 + q.2) * (sampleY dimX get c q.1 - y)).sum := by
    intro l
    induction l with
    | nil => simp [kernelSum]
    | cons q l ih =>
      unfold kernelSum at ih ⊢
      simp only [List.map_cons, List.sum_cons] at ih ⊢
      linarith
  have bound : ∀ l : List (ℕ × ℝ), (∀ q ∈ l, 0 < q.2) → |(l.map fun q => 1 / (1e-10 + q.2) * (sampleY dimX get c q.1 - y)).sum| ≤
      (l.map fun q => |sampleY dimX get c q.1 - y| / q.2).sum := by
    intro l hl
    induction l with
    | nil => simp
    | cons q l ih =>
      simp only [List.map_cons, List.sum_cons]
      have hq := hl q (List.mem_cons_self ..)
      refine le_trans (abs_add_le _ _) (add_le_add ?_ (ih fun e he => hl e (List.mem_cons_of_mem _ he)))
      rw [abs_mul, abs_of_pos (by positivity : 0 < 1 / (1e-10 + q.2)), div_eq_mul_one_div |_| q.2, mul_comm]
      refine mul_le_mul_of_nonneg_left ?_ (abs_nonneg _)
      exact one_div_le_one_div_of_le hq (by linarith [show (0 : ℝ) < 1e-10 by norm_num])
  have hk : 1e10 ≤ kernelSum ((i, 0) :: nb) := by
    have h0 : kernelSum ((i, 0) :: nb) = 1 / (1e-10 + 0) + kernelSum nb := by simp [kernelSum]
    have h1 : 0 ≤ kernelSum nb := by
      by_cases h : nb = []
      · subst h; simp [kernelSum]
      · exact (kernelSum_pos nb h fun q hq => (hd q hq).le).le
    rw [h0]
    have : (1 : ℝ) / (1e-10 + 0) = 1e10 := by norm_num
    linarith
  have e : kernelAverage dimX get ((i, 0) :: nb) c - y = (nb.map fun q => 1 / (1e-10 + q.2) * (sampleY dimX get c q.1 - y)).sum / kernelSum ((i, 0) :: nb) := by
    have h := split ((i, 0) :: nb)
    rw [List.map_cons, List.map_cons, List.sum_cons, List.sum_cons, hy, sub_self, mul_zero, zero_add] at h
    unfold kernelAverage
    rw [← h, List.map_cons, List.sum_cons, hy, sub_div, mul_div_assoc, div_self hp.ne', mul_one]
  rw [e, abs_div, abs_of_pos hp, div_le_iff₀ hp]
  refine le_trans (bound nb hd) ?_
  have hs : 0 ≤ (nb.map fun q => |sampleY dimX get c q.1 - y| / q.2).sum := le_trans (abs_nonneg _) (bound nb hd)
  nlinarith [show (1e-10 : ℝ) * 1e10 = 1 by norm_num]

/-- the samples (0, 0) and (1, 1) -/
def twoSamples : ℕ → List ℝ := fun i => if i = 0 then [0, 0] else [1, 1]

/-- C46 (limit): it is an approximation, not an interpolation: the value at the abscissa of a sample is not
    its ordinate if another neighbour differs. -/
theorem rbf_not_exact : (∀ i, (twoSamples i).length = 1 + 1) ∧ sampleY 1 twoSamples 0 0 = 0 ∧
    ∃ e > 0, rbfValue 1 twoSamples [(0, 0), (1, 1)] = [e] := by
  have hg : ∀ i, (twoSamples i).length = 1 + 1 := by intro i; unfold twoSamples; split <;> rfl
  refine ⟨hg, by simp [sampleY, twoSamples, arr], _, ?_, rbf_value 1 1 twoSamples hg _ (by simp) (by simp)⟩
  simp [kernelAverage, kernelSum, sampleY, twoSamples, arr]
  norm_num

end
end Alta
