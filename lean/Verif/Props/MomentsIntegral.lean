import Verif.Props.Moments
import Verif.Proofs.Riemann
/-
Property C66: the sums of `data2moments` and the integrals they stand for; what the moments are to each other.
-/
namespace Alta
open MeasureTheory
noncomputable section

/-- The sum over the grid, with indices as functions. -/
theorem gridSum_pi (ns : List ℕ) (F : List ℕ → ℝ) :
    gridSum ns F = ∑ j ∈ Fintype.piFinset (fun k : Fin ns.length => Finset.range ns[k]), F (List.ofFn j) := by
  induction ns generalizing F with
  | nil =>
    simp only [gridSum]
    rw [show Fintype.piFinset (fun k : Fin ([] : List ℕ).length => Finset.range ([] : List ℕ)[k]) =
      {fun k => k.elim0} from ?_]
    · simp
    · ext j
      simp only [Fintype.mem_piFinset, Finset.mem_singleton]
      constructor
      · intro _; funext k; exact k.elim0
      · intro _ k; exact k.elim0
  | cons n t ih =>
    rw [gridSum, Finset.sum_congr rfl fun a _ => ih fun j => F (a :: j), ← Finset.sum_product']
    apply Finset.sum_nbij' (i := fun p : ℕ × (Fin t.length → ℕ) => (Fin.cons p.1 p.2 : Fin (t.length + 1) → ℕ))
      (j := fun j => (j 0, Fin.tail j))
    · rintro ⟨a, j⟩ hp
      simp only [Finset.mem_product, Finset.mem_range, Fintype.mem_piFinset] at hp ⊢
      intro k
      refine Fin.cases ?_ (fun k => ?_) k
      · simpa using hp.1
      · simpa using hp.2 k
    · intro j hj
      simp only [Finset.mem_product, Finset.mem_range, Fintype.mem_piFinset] at hj ⊢
      exact ⟨by simpa using hj 0, fun k => by simpa [Fin.tail] using hj k.succ⟩
    · rintro ⟨a, j⟩ _
      simp
    · intro j _
      exact Fin.cons_self_tail j
    · rintro ⟨a, j⟩ _
      simp [List.ofFn_succ]

/-- The domain of the data, for the integrals. -/
def Interpolant.domain (d : Interpolant) : Set (Fin d.dimX → ℝ) :=
  Set.pi Set.univ fun k => Set.Ico (arr d.lo k) (arr d.hi k)

/-- C66: when the domain has an extent in every dimension, the sum over the cells is the integral over the domain, up to
    the variation of the function in the cells, for any function (in particular all those of `MomentsOf`). -/
theorem cells_integral (d : Interpolant) (samples : List ℕ) (hs : samples.length = d.dimX) (hp : ∀ n ∈ samples, 1 ≤ n)
    (hlt : ∀ k < d.dimX, arr d.lo k < arr d.hi k) (F : List ℝ → ℝ)
    (hF : IntegrableOn (fun u : Fin d.dimX → ℝ => F (List.ofFn u)) d.domain) (ε : ℝ)
    (hε : ∀ u ∈ d.domain, ∀ v ∈ d.domain,
      (∀ k, |u k - v k| ≤ (arr d.hi k - arr d.lo k) / (samples.getD k 0 : ℝ)) → |F (List.ofFn u) - F (List.ofFn v)| ≤ ε) :
    |d.cells samples F - ∫ u in d.domain, F (List.ofFn u)| ≤ ε * d.volume := by
  have hc : d.counts samples = samples := by
    unfold Interpolant.counts
    apply List.ext_getElem
    · simp [hs]
    · intro i q1 q2
      simp only [List.length_map, List.length_range] at q1
      simp [hlt i q1, List.getD, q2]
  have hn : ∀ k : Fin d.dimX, 1 ≤ samples.getD k 0 := by
    intro k
    have hk : (k : ℕ) < samples.length := lt_of_lt_of_eq k.2 hs.symm
    simp only [List.getD, List.getElem?_eq_getElem hk, Option.getD_some]
    exact hp _ (List.getElem_mem _)
  have key := riemann_error (fun k : Fin d.dimX => arr d.lo k) (fun k => arr d.hi k) (fun k => samples.getD k 0)
    (fun k => hlt k k.2) hn (fun u => F (List.ofFn u)) hF ε (fun u v hu hv h => hε u hu v hv h)
  have hvol : d.volume = ∏ k : Fin d.dimX, (arr d.hi k - arr d.lo k) := by
    unfold Interpolant.volume
    rw [Finset.prod_range]
    exact Finset.prod_congr rfl fun k _ => if_pos (hlt k k.2)
  have hprod : ((samples.prod : ℕ) : ℝ) = ∏ k : Fin d.dimX, ((samples.getD k 0 : ℕ) : ℝ) := by
    have : samples = (List.range d.dimX).map fun k => samples.getD k 0 := by
      apply List.ext_getElem
      · simp [hs]
      · intro i q1 q2
        simp [List.getD, q1]
    conv_lhs => rw [this]
    rw [range_prod, Finset.prod_range]
    push_cast
    rfl
  have hsum : d.cells samples F = ∑ j ∈ Fintype.piFinset (fun k : Fin d.dimX => Finset.range (samples.getD k 0)),
      F (List.ofFn (cellCorner (fun k : Fin d.dimX => arr d.lo k) (fun k => arr d.hi k) (fun k => samples.getD k 0) j)) *
        ((∏ k : Fin d.dimX, (arr d.hi k - arr d.lo k)) / ∏ k : Fin d.dimX, ((samples.getD k 0 : ℕ) : ℝ)) := by
    unfold Interpolant.cells
    rw [hc, gridSum_pi, hvol, hprod]
    have hfin : ∀ k : Fin samples.length, (Fin.cast hs k : ℕ) = k := fun k => rfl
    apply Finset.sum_nbij' (i := fun j => fun k => j (Fin.cast hs.symm k)) (j := fun j => fun k => j (Fin.cast hs k))
    · intro j hj
      simp only [Fintype.mem_piFinset, Finset.mem_range] at hj ⊢
      intro k
      have := hj (Fin.cast hs.symm k)
      have hk : (k : ℕ) < samples.length := lt_of_lt_of_eq k.2 hs.symm
      simpa [List.getD, hk] using this
    · intro j hj
      simp only [Fintype.mem_piFinset, Finset.mem_range] at hj ⊢
      intro k
      have := hj (Fin.cast hs k)
      simpa [List.getD] using this
    · intro j _; funext k; rfl
    · intro j _; funext k; rfl
    · intro j _
      congr 2
      unfold Interpolant.node
      apply List.ext_getElem
      · simp
      · intro i q1 q2
        simp only [List.length_map, List.length_range] at q1
        have hi : i < samples.length := by omega
        have e : (List.ofFn j).getD i 0 = j ⟨i, hi⟩ := by simp [List.getD, hi]
        simp only [List.getElem_map, List.getElem_range, List.getElem_ofFn, cellCorner, e]
        rfl
  rw [hsum, hvol]
  exact key

theorem gridSum_add (ns : List ℕ) (F G : List ℕ → ℝ) : gridSum ns (fun j => F j + G j) = gridSum ns F + gridSum ns G := by
  rw [gridSum_pi, gridSum_pi, gridSum_pi, Finset.sum_add_distrib]

theorem gridSum_smul (ns : List ℕ) (c : ℝ) (F : List ℕ → ℝ) : gridSum ns (fun j => c * F j) = c * gridSum ns F := by
  rw [gridSum_pi, gridSum_pi, Finset.mul_sum]

theorem cells_smul (d : Interpolant) (samples : List ℕ) (c : ℝ) (F : List ℝ → ℝ) :
    d.cells samples (fun x => c * F x) = c * d.cells samples F := by
  unfold Interpolant.cells
  rw [← gridSum_smul]
  congr 1
  funext j
  ring

theorem cells_add (d : Interpolant) (samples : List ℕ) (F G : List ℝ → ℝ) :
    d.cells samples (fun x => F x + G x) = d.cells samples F + d.cells samples G := by
  unfold Interpolant.cells
  rw [← gridSum_add]
  congr 1
  funext j
  ring

theorem volume_pos (d : Interpolant) : 0 < d.volume := by
  unfold Interpolant.volume
  apply Finset.prod_pos
  intro k _
  split_ifs with h
  · linarith
  · norm_num

/-- The domain, with its upper boundary. -/
def Interpolant.Inside (d : Interpolant) (x : List ℝ) : Prop :=
  x.length = d.dimX ∧ ∀ k < d.dimX, min (arr d.lo k) (arr d.hi k) ≤ arr x k ∧ arr x k ≤ max (arr d.lo k) (arr d.hi k)

/-- The sum over the cells only reads nodes of the domain. -/
theorem cells_mono (d : Interpolant) (samples : List ℕ) (F G : List ℝ → ℝ) (h : ∀ x, d.Inside x → F x ≤ G x) :
    d.cells samples F ≤ d.cells samples G := by
  unfold Interpolant.cells
  rw [gridSum_pi, gridSum_pi]
  apply Finset.sum_le_sum
  intro j hj
  apply mul_le_mul_of_nonneg_right _ (div_nonneg (volume_pos d).le (Nat.cast_nonneg _))
  apply h
  refine ⟨node_length _ _ _, fun k hk => ?_⟩
  simp only [Fintype.mem_piFinset, Finset.mem_range] at hj
  have hk' : k < (d.counts samples).length := by simp [Interpolant.counts, hk]
  have e : arr (d.node (d.counts samples) (List.ofFn j)) k = arr d.lo k + (arr d.hi k - arr d.lo k) *
      ((j ⟨k, hk'⟩ : ℝ) / ((d.counts samples)[k] : ℝ)) := by
    unfold Interpolant.node
    rw [arr_range_map _ _ k hk]
    simp [List.getD, hk']
  rw [e]
  have hjk : j ⟨k, hk'⟩ < (d.counts samples)[k] := hj ⟨k, hk'⟩
  have t0 : 0 ≤ (j ⟨k, hk'⟩ : ℝ) / ((d.counts samples)[k] : ℝ) := by positivity
  have t1 : (j ⟨k, hk'⟩ : ℝ) / ((d.counts samples)[k] : ℝ) ≤ 1 := by
    apply div_le_one_of_le₀ _ (Nat.cast_nonneg _)
    exact_mod_cast hjk.le
  generalize (j ⟨k, hk'⟩ : ℝ) / ((d.counts samples)[k] : ℝ) = t at t0 t1
  rcases le_total (arr d.lo k) (arr d.hi k) with h1 | h1
  · rw [min_eq_left h1, max_eq_right h1]
    constructor <;> nlinarith
  · rw [min_eq_right h1, max_eq_left h1]
    constructor <;> nlinarith

/-- C66: for values above the smallest one everywhere, the first moments are positions of the domain, the second ones are
    consistent with them (no negative variance), and the mixed one with the pure ones. -/
theorem moments_consistent (d : Interpolant) (samples : List ℕ) (a b : ℕ) (m : Moments) (w : List ℝ → ℝ)
    (h : MomentsOf m (d.cells samples) w a b) (ha : a < d.dimX) (hw : ∀ x, d.Inside x → 0 ≤ w x)
    (h0 : 0 < m.m0) :
    (min (arr d.lo a) (arr d.hi a) ≤ m.mx ∧ m.mx ≤ max (arr d.lo a) (arr d.hi a)) ∧
    m.mx ^ 2 ≤ m.mxx ∧ m.my ^ 2 ≤ m.myy ∧
    (m.mxy - m.mx * m.my) ^ 2 ≤ (m.mxx - m.mx ^ 2) * (m.myy - m.my ^ 2) := by
  have hS : 0 < d.cells samples w := h.m0 ▸ h0
  have quad : ∀ p q r : ℝ, 0 ≤ p ^ 2 * m.mxx + q ^ 2 * m.myy + r ^ 2 + 2 * p * q * m.mxy + 2 * p * r * m.mx +
      2 * q * r * m.my := by
    intro p q r
    have hpos : 0 ≤ d.cells samples fun x => w x * (p * arr x a + q * arr x b + r) ^ 2 := by
      have := cells_mono d samples (fun _ => 0 * (0:ℝ)) (fun x => w x * (p * arr x a + q * arr x b + r) ^ 2)
        (fun x hx => by
          have := mul_nonneg (hw x hx) (sq_nonneg (p * arr x a + q * arr x b + r))
          linarith)
      rw [cells_smul] at this
      linarith
    have e : (d.cells samples fun x => w x * (p * arr x a + q * arr x b + r) ^ 2) =
        p ^ 2 * d.cells samples (fun x => w x * arr x a ^ 2) + (q ^ 2 * d.cells samples (fun x => w x * arr x b ^ 2) +
        (r ^ 2 * d.cells samples w + ((2 * p * q) * d.cells samples (fun x => w x * (arr x a * arr x b)) +
        ((2 * p * r) * d.cells samples (fun x => w x * arr x a) + (2 * q * r) * d.cells samples fun x => w x * arr x b)))) := by
      rw [← cells_smul, ← cells_smul, ← cells_smul, ← cells_smul, ← cells_smul, ← cells_smul, ← cells_add, ← cells_add,
        ← cells_add, ← cells_add, ← cells_add]
      congr 1
      funext x
      ring
    rw [e] at hpos
    have := div_nonneg hpos hS.le
    rw [h.mxx, h.myy, h.mxy, h.mx, h.my]
    have hS' := hS.ne'
    generalize d.cells samples w = S at *
    generalize (d.cells samples fun x => w x * arr x a ^ 2) = c1 at *
    generalize (d.cells samples fun x => w x * arr x b ^ 2) = c2 at *
    generalize (d.cells samples fun x => w x * (arr x a * arr x b)) = c3 at *
    generalize (d.cells samples fun x => w x * arr x a) = c4 at *
    generalize (d.cells samples fun x => w x * arr x b) = c5 at *
    have e2 : p ^ 2 * (c1 / S) + q ^ 2 * (c2 / S) + r ^ 2 + 2 * p * q * (c3 / S) + 2 * p * r * (c4 / S) +
        2 * q * r * (c5 / S) = (p ^ 2 * c1 + (q ^ 2 * c2 + (r ^ 2 * S + (2 * p * q * c3 +
          (2 * p * r * c4 + 2 * q * r * c5))))) / S := by
      field_simp
      ring
    rw [e2]
    exact this
  refine ⟨⟨?_, ?_⟩, ?_, ?_, ?_⟩
  · rw [h.mx, le_div_iff₀ hS, ← cells_smul]
    apply cells_mono
    intro x hx
    rw [mul_comm]
    exact mul_le_mul_of_nonneg_left (hx.2 a ha).1 (hw x hx)
  · rw [h.mx, div_le_iff₀ hS, ← cells_smul]
    apply cells_mono
    intro x hx
    rw [mul_comm (max _ _)]
    exact mul_le_mul_of_nonneg_left (hx.2 a ha).2 (hw x hx)
  · have := quad 1 0 (-m.mx)
    nlinarith
  · have := quad 0 1 (-m.my)
    nlinarith
  · -- central quadratic form
    have cq : ∀ p q : ℝ, 0 ≤ p ^ 2 * (m.mxx - m.mx ^ 2) + q ^ 2 * (m.myy - m.my ^ 2) + 2 * p * q * (m.mxy - m.mx * m.my) := by
      intro p q
      have := quad p q (-(p * m.mx + q * m.my))
      nlinarith
    have A := cq 1 0
    have hA : 0 ≤ m.mxx - m.mx ^ 2 := by nlinarith
    have hB : 0 ≤ m.myy - m.my ^ 2 := by nlinarith [cq 0 1]
    generalize m.mxx - m.mx ^ 2 = X at *
    generalize m.myy - m.my ^ 2 = Y at *
    generalize m.mxy - m.mx * m.my = Z at *
    rcases hA.lt_or_eq with hX | hX
    · have := cq (-Z) X
      have h2 : 0 ≤ X * (X * Y - Z ^ 2) := by nlinarith
      have := nonneg_of_mul_nonneg_right h2 hX
      linarith
    · subst hX
      have h3 : ∀ t : ℝ, 0 ≤ Y + 2 * t * Z := fun t => by have := cq t 1; nlinarith
      have : Z = 0 := by
        by_contra hz
        have := h3 (-(Y + 1) / (2 * Z))
        have e : 2 * (-(Y + 1) / (2 * Z)) * Z = -(Y + 1) := by field_simp
        rw [e] at this
        linarith
      rw [this]
      simp

end
end Alta
