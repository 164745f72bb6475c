import Verif.Proofs.Trig
/-
Lemmas on the half vector and the half-angle frame.
-/
namespace Alta
open Real

/-- the sum of the two directions -/
def Cart.sumX (c : Cart) : ℝ := c.v.x + c.l.x
def Cart.sumY (c : Cart) : ℝ := c.v.y + c.l.y
def Cart.sumZ (c : Cart) : ℝ := c.v.z + c.l.z

/-- length of `V + L` -/
noncomputable def Cart.sumNorm (c : Cart) : ℝ := √(c.sumX ^ 2 + c.sumY ^ 2 + c.sumZ ^ 2)

theorem Cart.sumNorm_nonneg (c : Cart) : 0 ≤ c.sumNorm := sqrt_nonneg _

theorem Cart.sumNorm_sq (c : Cart) : c.sumNorm ^ 2 = c.sumX ^ 2 + c.sumY ^ 2 + c.sumZ ^ 2 := by
  unfold Cart.sumNorm; rw [sq_sqrt]; positivity

theorem Cart.sumNorm_eq_zero (c : Cart) (h : c.sumNorm = 0) :
    c.sumX = 0 ∧ c.sumY = 0 ∧ c.sumZ = 0 := by
  have := c.sumNorm_sq
  rw [h] at this
  refine ⟨?_, ?_, ?_⟩ <;> nlinarith [sq_nonneg c.sumX, sq_nonneg c.sumY, sq_nonneg c.sumZ]

theorem halfVector_zero (c : Cart) (h : c.sumNorm = 0) : halfVector c = ⟨0, 0, 1⟩ := by
  have := c.sumNorm_sq
  rw [h] at this
  unfold halfVector
  rw [if_pos]
  simp only [Cart.sumX, Cart.sumY, Cart.sumZ] at this
  nlinarith

theorem halfVector_pos (c : Cart) (h : 0 < c.sumNorm) :
    halfVector c = ⟨c.sumX / c.sumNorm, c.sumY / c.sumNorm, c.sumZ / c.sumNorm⟩ := by
  have h2 := c.sumNorm_sq
  have h3 : 0 < c.sumNorm ^ 2 := by positivity
  have e : (c.v.x + c.l.x) * (c.v.x + c.l.x) + (c.v.y + c.l.y) * (c.v.y + c.l.y) +
      (c.v.z + c.l.z) * (c.v.z + c.l.z) = c.sumX ^ 2 + c.sumY ^ 2 + c.sumZ ^ 2 := by
    simp only [Cart.sumX, Cart.sumY, Cart.sumZ]; ring
  unfold halfVector
  simp only [e]
  rw [if_neg (by linarith)]
  rfl

/-- the half vector always has norm one -/
theorem halfVector_unit (c : Cart) : (halfVector c).IsUnit := by
  unfold V3.IsUnit
  rcases eq_or_lt_of_le c.sumNorm_nonneg with h | h
  · rw [halfVector_zero c h.symm]; norm_num
  · rw [halfVector_pos c h]
    have := c.sumNorm_sq
    field_simp
    linarith

/-- the assertions of the half vector computation hold exactly when `V + L`
    does not point below the surface -/
theorem halfAsserts_iff (c : Cart) : halfAsserts c ↔ 0 ≤ c.v.z + c.l.z := by
  have hu := halfVector_unit c
  unfold V3.IsUnit at hu
  unfold halfAsserts
  constructor
  · rintro ⟨-, h⟩
    rcases eq_or_lt_of_le c.sumNorm_nonneg with h0 | h0
    · exact (c.sumNorm_eq_zero h0.symm).2.2.ge
    · rw [halfVector_pos c h0] at h
      have h' : 0 ≤ c.sumZ / c.sumNorm := h
      rw [div_nonneg_iff] at h'
      rcases h' with h' | h'
      · exact h'.1
      · linarith [h'.2]
  · intro h
    refine ⟨by nlinarith [sq_nonneg (halfVector c).x, sq_nonneg (halfVector c).y, sq_nonneg ((halfVector c).z - 1)], ?_⟩
    rcases eq_or_lt_of_le c.sumNorm_nonneg with h0 | h0
    · rw [halfVector_zero c h0.symm]; norm_num
    · rw [halfVector_pos c h0]
      exact div_nonneg h h0.le

theorem fromCartesian_eq (c : Cart) (p : Input) (h : 0 ≤ c.v.z + c.l.z) :
    fromCartesian c p = fromCartesianSwitch c p := by
  unfold fromCartesian; rw [if_pos ((halfAsserts_iff c).2 h)]

/-- the half vector is symmetric in both directions -/
theorem halfVector_swap (c : Cart) : halfVector c.swap = halfVector c := by
  unfold halfVector Cart.swap
  simp only [add_comm]

end Alta
