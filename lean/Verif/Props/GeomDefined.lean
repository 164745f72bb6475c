import Verif.Model.GeomChecked
import Verif.Props.GeomRotation
import Verif.Props.GeomConvert
/-
Properties C13 (the conversions stay inside the domains of the functions they
call) and C14 (hemisphere test).
-/
namespace Alta
open Real

theorem acos?_eq {x : ℝ} (h1 : -1 ≤ x) (h2 : x ≤ 1) : acos? x = some (arccos x) := by
  unfold acos?; rw [if_pos ⟨h1, h2⟩]
theorem sqrt?_eq {x : ℝ} (h : 0 ≤ x) : sqrt? x = some (√x) := by
  unfold sqrt?; rw [if_pos h]
theorem sqrt?_eq2 (a b : ℝ) : sqrt? (a * a + b * b) = some (√(a * a + b * b)) :=
  sqrt?_eq (add_nonneg (mul_self_nonneg _) (mul_self_nonneg _))
theorem sqrt?_eq3 (a b c : ℝ) : sqrt? (a * a + b * b + c * c) = some (√(a * a + b * b + c * c)) :=
  sqrt?_eq (add_nonneg (add_nonneg (mul_self_nonneg _) (mul_self_nonneg _)) (mul_self_nonneg _))
theorem div?_eq {x y : ℝ} (h : y ≠ 0) : div? x y = some (x / y) := by
  unfold div?; rw [if_pos h]

theorem halfVector?_eq (c : Cart) (h : 0 ≤ c.v.z + c.l.z) : halfVector? c = some (halfVector c) := by
  have ha : (halfVector c).z ≤ 1 ∧ (halfVector c).z ≥ 0 := (halfAsserts_iff c).2 h
  unfold halfVector?
  by_cases h0 : (c.v.x + c.l.x) * (c.v.x + c.l.x) + (c.v.y + c.l.y) * (c.v.y + c.l.y) +
      (c.v.z + c.l.z) * (c.v.z + c.l.z) ≤ 0
  · have e : halfVector c = ⟨0, 0, 1⟩ := by unfold halfVector; simp only [if_pos h0]
    rw [e] at ha ⊢
    simp only [if_pos h0]
    exact if_pos ha
  · push Not at h0
    have e : halfVector c = ⟨(c.v.x + c.l.x) / √((c.v.x + c.l.x) * (c.v.x + c.l.x) + (c.v.y + c.l.y) * (c.v.y + c.l.y) +
      (c.v.z + c.l.z) * (c.v.z + c.l.z)), (c.v.y + c.l.y) / √((c.v.x + c.l.x) * (c.v.x + c.l.x) + (c.v.y + c.l.y) * (c.v.y + c.l.y) +
      (c.v.z + c.l.z) * (c.v.z + c.l.z)), (c.v.z + c.l.z) / √((c.v.x + c.l.x) * (c.v.x + c.l.x) + (c.v.y + c.l.y) * (c.v.y + c.l.y) +
      (c.v.z + c.l.z) * (c.v.z + c.l.z))⟩ := by
      unfold halfVector; simp only [if_neg (not_le.2 h0)]
    rw [e] at ha ⊢
    simp only [if_neg (not_le.2 h0), sqrt?_eq h0.le, div?_eq (sqrt_pos.2 h0).ne', Option.bind_eq_bind,
      Option.bind_some]
    exact if_pos ha

/-- `K = (V - L)_xy + (V + L)_z` is zero only when view and light are the same
    grazing direction -/
theorem kv_pos (c : Cart) (hv : 0 ≤ c.v.z) (hl : 0 ≤ c.l.z) (h : ¬ (c.v = c.l ∧ c.v.z = 0)) :
    0 < (c.v.x - c.l.x) * (c.v.x - c.l.x) + (c.v.y - c.l.y) * (c.v.y - c.l.y) +
      (c.v.z + c.l.z) * (c.v.z + c.l.z) := by
  by_contra hn
  push Not at hn
  have e1 : c.v.x - c.l.x = 0 := by nlinarith [sq_nonneg (c.v.x - c.l.x), sq_nonneg (c.v.y - c.l.y), sq_nonneg (c.v.z + c.l.z)]
  have e2 : c.v.y - c.l.y = 0 := by nlinarith [sq_nonneg (c.v.x - c.l.x), sq_nonneg (c.v.y - c.l.y), sq_nonneg (c.v.z + c.l.z)]
  have e3 : c.v.z + c.l.z = 0 := by nlinarith [sq_nonneg (c.v.x - c.l.x), sq_nonneg (c.v.y - c.l.y), sq_nonneg (c.v.z + c.l.z)]
  apply h
  refine ⟨V3.ext (by linarith) (by linarith) (by linarith), by linarith⟩

theorem dot_unit_bound {a b : V3} (ha : a.IsUnit) (hb : b.IsUnit) : -1 ≤ a.dot b ∧ a.dot b ≤ 1 := by
  unfold V3.IsUnit at ha hb
  simp only [V3.dot]
  constructor
  · nlinarith [sq_nonneg (a.x + b.x), sq_nonneg (a.y + b.y), sq_nonneg (a.z + b.z)]
  · nlinarith [sq_nonneg (a.x - b.x), sq_nonneg (a.y - b.y), sq_nonneg (a.z - b.z)]

/-- the checked evaluation agrees with the exact one -/
theorem checked_eq (c : Cart) (hc : c.IsUnit) (hv : 0 ≤ c.v.z) (hl : 0 ≤ c.l.z) (p : Input)
    (hk : p = .COS_TK ∨ p = .SCHLICK_TL_TK_PROJ_DPHI → ¬ (c.v = c.l ∧ c.v.z = 0)) :
    fromCartesian? c p = fromCartesian c p := by
  have hh := halfVector_unit c
  have hhz := acos?_eq hh.neg_le_z hh.z_le
  have hvz := acos?_eq hc.1.neg_le_z hc.1.z_le
  have hlz := acos?_eq hc.2.neg_le_z hc.2.z_le
  have hhv := dot_unit_bound hh hc.1
  have hvl := dot_unit_bound hc.1 hc.2
  simp only [V3.dot] at hhv hvl
  rw [fromCartesian_eq _ _ (by linarith)]
  unfold fromCartesian?
  rw [halfVector?_eq c (by linarith)]
  cases p <;> simp only [Option.bind_eq_bind, Option.bind_some]
  all_goals try rfl
  case COS_TK =>
    have h := kv_pos c hv hl (hk (Or.inl rfl))
    rw [sqrt?_eq h.le, Option.bind_some, div?_eq (sqrt_pos.2 h).ne']; rfl
  case RUSIN_TH_TD =>
    rw [hhz, Option.bind_some]
    unfold clampR
    rw [acos?_eq (le_max_right _ _) (max_le (min_le_right _ _) (by norm_num))]; rfl
  case ISOTROPIC_TV_PROJ_DPHI => rw [hvz]; rfl
  case STARK_2D => rw [sqrt?_eq2, Option.bind_some, sqrt?_eq3]; rfl
  case NEUMANN_2D => rw [sqrt?_eq2, Option.bind_some, sqrt?_eq2]; rfl
  case RUSIN_TH_PH_TD => rw [hhz, Option.bind_some, acos?_eq hhv.1 hhv.2]; rfl
  case RUSIN_TH_TD_PD =>
    have hr := rotate_isUnit c.v (-atan2 (halfVector c).y (halfVector c).x) (-arccos (halfVector c).z) hc.1
    rw [hhz, Option.bind_some, acos?_eq hr.neg_le_z hr.z_le]; rfl
  case ISOTROPIC_TV_TL_DPHI => rw [hvz, Option.bind_some, hlz]; rfl
  case SCHLICK_VK =>
    rw [sqrt?_eq3, Option.bind_some]
    simp only [fromCartesianSwitch]
    split
    · rename_i h
      have h' : √((c.l.x - c.v.x) * (c.l.x - c.v.x) + (c.l.y - c.v.y) * (c.l.y - c.v.y) +
          (c.l.z + c.v.z) * (c.l.z + c.v.z)) ≠ 0 := (lt_trans (by norm_num) h).ne'
      rw [div?_eq h', Option.bind_some, div?_eq h', Option.bind_some, div?_eq h', Option.bind_some]
    · rfl
  case ISOTROPIC_TL_TV_PROJ_DPHI => rw [hvz, hlz]; rfl
  case RETRO_TL_TVL_PROJ_DPHI =>
    have h1 := hc.1.neg_le_z; have h2 := hc.1.z_le
    have h3 := hc.2.neg_le_z; have h4 := hc.2.z_le
    rw [sqrt?_eq (by nlinarith), Option.bind_some, sqrt?_eq (by nlinarith), Option.bind_some,
      sqrt?_eq (by nlinarith), Option.bind_some]
    simp only [fromCartesianSwitch]
    split
    · rename_i h
      rw [div?_eq (mul_ne_zero h.2 h.1), Option.bind_some, div?_eq h.1, Option.bind_some,
        acos?_eq hvl.1 hvl.2, Option.bind_some, hlz, Option.bind_some]
    · rw [hlz, Option.bind_some, hvz, Option.bind_some]
  case SCHLICK_TL_TK_PROJ_DPHI =>
    have h := kv_pos c hv hl (hk (Or.inr rfl))
    have hs := sqrt_pos.2 h
    have hsq := sq_sqrt h.le
    rw [sqrt?_eq h.le, Option.bind_some, div?_eq hs.ne', Option.bind_some]
    have hb : (c.v.z + c.l.z) ≤ √((c.v.x - c.l.x) * (c.v.x - c.l.x) + (c.v.y - c.l.y) * (c.v.y - c.l.y) +
      (c.v.z + c.l.z) * (c.v.z + c.l.z)) := by
      apply le_sqrt_of_sq_le
      nlinarith [sq_nonneg (c.v.x - c.l.x), sq_nonneg (c.v.y - c.l.y)]
    rw [acos?_eq (le_trans (by norm_num) (div_nonneg (by linarith) hs.le)) ((div_le_one hs).2 hb),
      Option.bind_some, div?_eq hs.ne', Option.bind_some, div?_eq hs.ne', Option.bind_some, hlz]
    rfl
  case STARK_3D => rw [sqrt?_eq2, Option.bind_some, sqrt?_eq3]; rfl
  case NEUMANN_3D => rw [sqrt?_eq2, Option.bind_some, sqrt?_eq2]; rfl
  case RUSIN_TH_PH_TD_PD =>
    have hr := rotate_isUnit c.v (-atan2 (halfVector c).y (halfVector c).x) (-arccos (halfVector c).z) hc.1
    rw [hhz, Option.bind_some, acos?_eq hr.neg_le_z hr.z_le]; rfl
  case SPHERICAL_TL_PL_TV_PV => rw [hlz, hvz]; rfl
  case STEREOGRAPHIC =>
    rw [div?_eq (by linarith), div?_eq (by linarith), div?_eq (by linarith), div?_eq (by linarith)]; rfl

/-- C13: for unit view and light vectors in the upper hemisphere the conversion
    to any named parametrization passes every assertion and evaluates every
    `acos`, `sqrt` and division inside its domain; it writes `dimension(p)` values.
    The one exception is stated by the hypothesis `hk`. -/
theorem fromCartesian_defined (c : Cart) (hc : c.IsUnit) (hv : 0 ≤ c.v.z) (hl : 0 ≤ c.l.z)
    (p : Input) (hp : p.Named)
    (hk : p = .COS_TK ∨ p = .SCHLICK_TL_TK_PROJ_DPHI → ¬ (c.v = c.l ∧ c.v.z = 0)) :
    ∃ o, fromCartesian? c p = some o ∧ fromCartesian c p = some o ∧ (o.length : ℤ) = inputDim p := by
  rw [checked_eq c hc hv hl p hk]
  obtain ⟨o, ho⟩ : ∃ o, fromCartesian c p = some o := by
    rw [fromCartesian_eq _ _ (by linarith)]
    revert hp
    cases p <;> simp only [Input.Named, fromCartesianSwitch] <;> intro hp <;>
      first
      | exact ⟨_, rfl⟩
      | (split <;> exact ⟨_, rfl⟩)
      | simp at hp
  exact ⟨o, ho, ho, fromCartesian_length c p hp o ho⟩

example : (⟨⟨0.6, 0, 0.8⟩, ⟨0, 1, 0⟩⟩ : Cart).IsUnit ∧ Input.Named .RUSIN_TH_TD_PD := by
  refine ⟨by simp only [Cart.IsUnit, V3.IsUnit]; norm_num, by simp [Input.Named]⟩

/-- C13, limit of the code: when view and light are the same grazing direction,
    the conversions to `COS_TK` and `SCHLICK_TL_TK_PROJ_DPHI` divide zero by zero. -/
theorem grazing_undefined (c : Cart) (h : c.v = c.l) (h0 : c.v.z = 0) :
    fromCartesian? c .COS_TK = none ∧ fromCartesian? c .SCHLICK_TL_TK_PROJ_DPHI = none := by
  have hz : c.l.z = 0 := h ▸ h0
  have e : (c.v.x - c.l.x) * (c.v.x - c.l.x) + (c.v.y - c.l.y) * (c.v.y - c.l.y) +
      (c.v.z + c.l.z) * (c.v.z + c.l.z) = 0 := by rw [h, hz]; ring
  unfold fromCartesian?
  rw [halfVector?_eq c (by rw [h0, hz]; norm_num)]
  have hd : ∀ x, div? x 0 = none := fun x => by unfold div?; rw [if_neg (by simp)]
  constructor <;>
  · simp only [Option.bind_eq_bind, Option.bind_some, e, sqrt?_eq (le_refl 0), sqrt_zero, hd,
      Option.bind_none]

example : (⟨⟨1, 0, 0⟩, ⟨1, 0, 0⟩⟩ : Cart).IsUnit := by
  simp only [Cart.IsUnit, V3.IsUnit]; norm_num

/-- C14: the hemisphere test answers for every named parametrization, and says
    "above" exactly when both directions encoded by the coordinates have a non
    negative z. -/
theorem isAboveHemisphere_iff (p : Input) (x : ℕ → ℝ) (c : Cart)
    (h : toCartesian p x = some c) :
    ∃ q, isAboveHemisphere x p = some q ∧ (q ↔ 0 ≤ c.v.z ∧ 0 ≤ c.l.z) := by
  by_cases hp : p = .CARTESIAN
  · subst hp
    simp only [toCartesian, Option.some.injEq] at h
    subst h
    have hd : (inputDim .CARTESIAN).toNat = 6 := by decide +kernel
    refine ⟨_, rfl, ?_⟩
    rw [hd]
    rfl
  · refine ⟨c.v.z ≥ 0 ∧ c.l.z ≥ 0, ?_, Iff.rfl⟩
    unfold isAboveHemisphere convertInput
    rw [if_neg hp, if_neg hp, if_pos rfl, h]
    rfl

example : toCartesian .COS_TLV (arr [-0.5]) = some ⟨⟨√(1 - -0.5 * -0.5), 0, -0.5⟩, ⟨0, 0, 1⟩⟩ := by
  simp [toCartesian, arr]

/-- C14: coordinates whose projection leaves the unit disc are reported as being
    below the surface (`STARK_2D`, `NEUMANN_3D`). -/
theorem isAboveHemisphere_outside (x : ℕ → ℝ) :
    (x 0 * x 0 + x 1 * x 1 > 1 → isAboveHemisphere x .STARK_2D = some False) ∧
    ((x 0 + cos (x 2) * x 1) ^ 2 + (sin (x 2) * x 1) ^ 2 > 1 →
      isAboveHemisphere x .NEUMANN_3D = some False) := by
  constructor
  · intro h
    have ht : ∃ c, toCartesian .STARK_2D x = some c ∧ c.v.z = -1 := by
      refine ⟨_, rfl, ?_⟩
      simp only [if_neg (not_le.2 h)]; norm_num
    obtain ⟨c, hc, hz⟩ := ht
    obtain ⟨q, hq, hiff⟩ := isAboveHemisphere_iff _ x c hc
    rw [hq]
    have : q ↔ False := by rw [hiff, hz]; norm_num
    rw [eq_iff_iff.2 this]
  · intro h
    have ht : toCartesian .NEUMANN_3D x = some ⟨⟨0, 0, -1⟩, ⟨0, 0, -1⟩⟩ := by
      simp only [toCartesian]
      rw [if_pos (Or.inl (by nlinarith))]
    obtain ⟨q, hq, hiff⟩ := isAboveHemisphere_iff _ x _ ht
    rw [hq]
    have : q ↔ False := by rw [hiff]; norm_num
    rw [eq_iff_iff.2 this]

end Alta
