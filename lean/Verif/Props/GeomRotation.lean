import Verif.Props.GeomRetro
import Mathlib.Analysis.Real.Pi.Bounds
/-
Property C12: rotating both directions about the surface normal.
-/
namespace Alta
open Real

/-- the half vector turns with the configuration -/
theorem halfVector_rotZ (c : Cart) (t : ℝ) : halfVector (c.rotZ t) = (halfVector c).rotZ t := by
  have e := sin_sq_add_cos_sq t
  have hsx : (c.rotZ t).sumX = cos t * c.sumX - sin t * c.sumY := by
    simp only [Cart.sumX, Cart.sumY, Cart.rotZ, V3.rotZ]; ring
  have hsy : (c.rotZ t).sumY = sin t * c.sumX + cos t * c.sumY := by
    simp only [Cart.sumX, Cart.sumY, Cart.rotZ, V3.rotZ]; ring
  have hsz : (c.rotZ t).sumZ = c.sumZ := by simp only [Cart.sumZ, Cart.rotZ, V3.rotZ]
  have hn : (c.rotZ t).sumNorm = c.sumNorm := by
    unfold Cart.sumNorm; congr 1; rw [hsx, hsy, hsz]
    linear_combination (c.sumX ^ 2 + c.sumY ^ 2) * e
  rcases eq_or_lt_of_le c.sumNorm_nonneg with h | h
  · rw [halfVector_zero c h.symm, halfVector_zero _ (hn.trans h.symm)]
    simp [V3.rotZ]
  · rw [halfVector_pos c h, halfVector_pos _ (hn ▸ h), hn, hsx, hsy, hsz]
    ext <;> simp only [V3.rotZ] <;> ring

theorem halfAsserts_rotZ (c : Cart) (t : ℝ) : halfAsserts (c.rotZ t) ↔ halfAsserts c := by
  rw [halfAsserts_iff, halfAsserts_iff]; simp only [Cart.rotZ, V3.rotZ]

theorem dot_rotZ (a b : V3) (t : ℝ) : (a.rotZ t).dot (b.rotZ t) = a.dot b := by
  have e := sin_sq_add_cos_sq t
  simp only [V3.dot, V3.rotZ]
  linear_combination (a.x * b.x + a.y * b.y) * e

/-- it is enough to compare the switch -/
theorem fromCartesian_rotZ (c : Cart) (t : ℝ) (p : Input)
    (h : fromCartesianSwitch (c.rotZ t) p = fromCartesianSwitch c p) :
    fromCartesian (c.rotZ t) p = fromCartesian c p := by
  unfold fromCartesian
  by_cases h1 : halfAsserts c
  · rw [if_pos h1, if_pos ((halfAsserts_rotZ c t).2 h1), h]
  · rw [if_neg h1, if_neg (fun h2 => h1 ((halfAsserts_rotZ c t).1 h2))]

/-- Specification of C12: the coordinates that contain no azimuth. -/
def NoAzimuth (p : Input) : Prop :=
  p = .COS_TH ∨ p = .COS_TK ∨ p = .COS_TLV ∨ p = .COS_TH_TD ∨ p = .RUSIN_TH_TD ∨
  p = .STARK_2D ∨ p = .NEUMANN_2D

/-- C12: coordinates without azimuth are the same for every rotation of the
    configuration about the normal, whatever the two vectors. -/
theorem rotation_invariant (p : Input) (hp : NoAzimuth p) (c : Cart) (t : ℝ) :
    fromCartesian (c.rotZ t) p = fromCartesian c p := by
  apply fromCartesian_rotZ
  have e := sin_sq_add_cos_sq t
  have hh := halfVector_rotZ c t
  have hd : ((halfVector c).rotZ t).dot (c.v.rotZ t) = (halfVector c).dot c.v := dot_rotZ _ _ _
  have hd2 : (c.v.rotZ t).dot (c.l.rotZ t) = c.v.dot c.l := dot_rotZ _ _ _
  simp only [V3.dot] at hd hd2
  rcases hp with rfl | rfl | rfl | rfl | rfl | rfl | rfl
  · simp only [fromCartesianSwitch, hh]; rfl
  · simp only [fromCartesianSwitch, Cart.rotZ, V3.rotZ]
    congr 4
    linear_combination ((c.v.x - c.l.x) ^ 2 + (c.v.y - c.l.y) ^ 2) * e
  · simp only [fromCartesianSwitch, Cart.rotZ, hd2]
  · simp only [fromCartesianSwitch, hh]
    simp only [Cart.rotZ, hd]; rfl
  · simp only [fromCartesianSwitch, hh]
    simp only [Cart.rotZ, hd]; rfl
  · simp only [fromCartesianSwitch, Cart.rotZ, V3.rotZ]
    congr 2
    · congr 1; linear_combination (1/4 * (c.v.x + c.l.x) ^ 2 + 1/4 * (c.v.y + c.l.y) ^ 2) * e
    · congr 2; linear_combination (1/4 * (c.l.x - c.v.x) ^ 2 + 1/4 * (c.l.y - c.v.y) ^ 2) * e
  · simp only [fromCartesianSwitch, Cart.rotZ, V3.rotZ]
    congr 2
    · congr 1; linear_combination (1/4 * (c.v.x + c.l.x) ^ 2 + 1/4 * (c.v.y + c.l.y) ^ 2) * e
    · congr 2; linear_combination (1/4 * (c.l.x - c.v.x) ^ 2 + 1/4 * (c.l.y - c.v.y) ^ 2) * e

example : NoAzimuth .RUSIN_TH_TD ∧
    fromCartesian ⟨⟨0.6, 0, 0.8⟩, ⟨0, 1, 0⟩⟩ .COS_TLV = some [0] := by
  refine ⟨by simp [NoAzimuth], ?_⟩
  rw [fromCartesian_eq _ _ (by norm_num)]; simp [fromCartesianSwitch]

/-- C12, limit of the code: `COS_TLR` is not isotropic (its formula negates the
    `y` product): turning `V = L = (3/5, 0, 4/5)` by a quarter turn changes it. -/
theorem COS_TLR_not_isotropic :
    fromCartesian ⟨⟨3/5, 0, 4/5⟩, ⟨3/5, 0, 4/5⟩⟩ .COS_TLR = some [-7/25] ∧
    fromCartesian (Cart.rotZ ⟨⟨3/5, 0, 4/5⟩, ⟨3/5, 0, 4/5⟩⟩ (π / 2)) .COS_TLR = some [-1] := by
  constructor
  · rw [fromCartesian_eq _ _ (by norm_num)]; simp only [fromCartesianSwitch]; norm_num
  · rw [fromCartesian_eq _ _ (by norm_num [Cart.rotZ, V3.rotZ])]
    simp only [fromCartesianSwitch, Cart.rotZ, V3.rotZ, cos_pi_div_two, sin_pi_div_two]; norm_num

/-! Coordinates built on a difference of azimuths -/

theorem az_sub_rotZ {a b : V3} (t : ℝ) (ha : 0 < a.rad) (hb : 0 < b.rad) :
    SameAngle ((a.rotZ t).az - (b.rotZ t).az) (a.az - b.az) := by
  have := (a.rotZ_az t ha).sub (b.rotZ_az t hb)
  rwa [add_sub_add_right_eq_sub] at this

/-- half of the sum of the two directions -/
noncomputable def Cart.hv (c : Cart) : V3 :=
  ⟨1/2 * (c.v.x + c.l.x), 1/2 * (c.v.y + c.l.y), 1/2 * (c.v.z + c.l.z)⟩
/-- half of the difference of the two directions -/
noncomputable def Cart.bv (c : Cart) : V3 :=
  ⟨1/2 * (c.l.x - c.v.x), 1/2 * (c.l.y - c.v.y), 1/2 * (c.l.z - c.v.z)⟩
/-- direction of the microfacet that reflects the mirrored light to the view -/
noncomputable def Cart.kv (c : Cart) : V3 := ⟨c.v.x - c.l.x, c.v.y - c.l.y, c.v.z + c.l.z⟩

theorem hv_rotZ (c : Cart) (t : ℝ) : (c.rotZ t).hv = c.hv.rotZ t := by
  ext <;> simp only [Cart.hv, Cart.rotZ, V3.rotZ] <;> ring
theorem bv_rotZ (c : Cart) (t : ℝ) : (c.rotZ t).bv = c.bv.rotZ t := by
  ext <;> simp only [Cart.bv, Cart.rotZ, V3.rotZ] <;> ring
theorem kv_rotZ (c : Cart) (t : ℝ) : (c.rotZ t).kv = c.kv.rotZ t := by
  ext <;> simp only [Cart.kv, Cart.rotZ, V3.rotZ] <;> ring

/-- The projection of a vector on the surface is not zero (its azimuth exists). -/
def V3.HasAzimuth (a : V3) : Prop := ¬ (a.x = 0 ∧ a.y = 0)

/-- Specification of C12: the azimuths a parametrization measures exist. -/
def AzimuthsExist (p : Input) (c : Cart) : Prop :=
  match p with
  | .ISOTROPIC_TV_PROJ_DPHI | .ISOTROPIC_TL_TV_PROJ_DPHI =>
      c.l.HasAzimuth ∧ (c.v.HasAzimuth ∨ c.v.z = 1)
  | .RETRO_TL_TVL_PROJ_DPHI | .ISOTROPIC_TV_TL_DPHI => c.v.HasAzimuth ∧ c.l.HasAzimuth
  | .SCHLICK_TL_TK_PROJ_DPHI => V3.HasAzimuth ⟨c.v.x - c.l.x, c.v.y - c.l.y, 0⟩ ∧ c.l.HasAzimuth
  | .STARK_3D | .NEUMANN_3D => V3.HasAzimuth ⟨c.v.x + c.l.x, c.v.y + c.l.y, 0⟩ ∧
      V3.HasAzimuth ⟨c.v.x - c.l.x, c.v.y - c.l.y, 0⟩
  | .RUSIN_TH_TD_PD => V3.HasAzimuth ⟨c.v.x + c.l.x, c.v.y + c.l.y, 0⟩
  | _ => True

theorem V3.HasAzimuth.rad {a : V3} (h : a.HasAzimuth) : 0 < a.rad := V3.rad_pos h

/-- an angle times the cosine or sine of a difference of azimuths -/
theorem proj_rotZ {a b : V3} (t th : ℝ) (hb : b.HasAzimuth) (ha : a.HasAzimuth ∨ th = 0) :
    th * cos ((a.rotZ t).az - (b.rotZ t).az) = th * cos (a.az - b.az) ∧
    th * sin ((a.rotZ t).az - (b.rotZ t).az) = th * sin (a.az - b.az) := by
  rcases ha with ha | rfl
  · rw [(az_sub_rotZ t ha.rad hb.rad).cos, (az_sub_rotZ t ha.rad hb.rad).sin]; exact ⟨rfl, rfl⟩
  · simp

theorem proj_rotZ' {a b : V3} (t th : ℝ) (hb : b.HasAzimuth) (ha : a.HasAzimuth ∨ th = 0) :
    th * cos ((b.rotZ t).az - (a.rotZ t).az) = th * cos (b.az - a.az) ∧
    th * sin ((b.rotZ t).az - (a.rotZ t).az) = th * sin (b.az - a.az) := by
  rcases ha with ha | rfl
  · rw [(az_sub_rotZ t hb.rad ha.rad).cos, (az_sub_rotZ t hb.rad ha.rad).sin]; exact ⟨rfl, rfl⟩
  · simp

theorem rotateNormal_congr (v : V3) {a b : ℝ} (h : SameAngle a b) :
    rotateNormal v a = rotateNormal v b := by
  unfold rotateNormal; rw [h.cos, h.sin]

theorem rotateNormal_rotZ (v : V3) (a t : ℝ) :
    rotateNormal (v.rotZ t) (-(a + t)) = rotateNormal v (-a) := by
  have e := sin_sq_add_cos_sq t
  ext <;> simp only [rotateNormal, V3.rotZ, cos_neg, sin_neg, cos_add, sin_add]
  · linear_combination (cos a * v.x + sin a * v.y) * e
  · linear_combination (cos a * v.y - sin a * v.x) * e

theorem SameAngle.neg {a b : ℝ} (h : SameAngle a b) : SameAngle (-a) (-b) := by
  obtain ⟨k, rfl⟩ := h
  exact ⟨-k, by push_cast; ring⟩

theorem HasAzimuth_half {c : Cart} (h : V3.HasAzimuth ⟨c.v.x + c.l.x, c.v.y + c.l.y, 0⟩) :
    (halfVector c).HasAzimuth := by
  rcases eq_or_lt_of_le c.sumNorm_nonneg with h0 | h0
  · obtain ⟨a, b, -⟩ := c.sumNorm_eq_zero h0.symm
    exact absurd ⟨a, b⟩ h
  · rw [halfVector_pos c h0]
    rintro ⟨a, b⟩
    apply h
    simp only [div_eq_zero_iff, h0.ne', or_false] at a b
    exact ⟨a, b⟩

/-- normalising a difference in `(-2π, 2π)` into `[0, 2π)` depends only on the angle -/
theorem norm2pi_eq {a b : ℝ} (ha : -(2 * π) < a ∧ a < 2 * π) (hb : -(2 * π) < b ∧ b < 2 * π)
    (h : SameAngle a b) :
    (if a < 0 then 2 * π + a else a) = (if b < 0 then 2 * π + b else b) := by
  obtain ⟨k, hk⟩ := h
  have hp := pi_pos
  have key : ∀ j : ℤ, (-1 : ℝ) < j → (j : ℝ) < 1 → j = 0 := by
    intro j h1 h2
    have a1 : -1 < j := by exact_mod_cast h1
    have a2 : j < 1 := by exact_mod_cast h2
    omega
  split <;> split
  · have : k = 0 := key k (by nlinarith) (by nlinarith)
    subst this; simp at hk; rw [hk]
  · have : k + 1 = 0 := key (k + 1) (by push_cast; nlinarith) (by push_cast; nlinarith)
    have : (k : ℝ) = -1 := by exact_mod_cast (by omega : k = -1)
    rw [hk, this]; ring
  · have : k - 1 = 0 := key (k - 1) (by push_cast; nlinarith) (by push_cast; nlinarith)
    have : (k : ℝ) = 1 := by exact_mod_cast (by omega : k = 1)
    rw [hk, this]; ring
  · have : k = 0 := key k (by nlinarith) (by nlinarith)
    subst this; simp at hk; rw [hk]

theorem az_sub_range (a b : V3) : -(2 * π) < a.az - b.az ∧ a.az - b.az < 2 * π := by
  have h1 := atan2_mem a.x a.y
  have h2 := atan2_mem b.x b.y
  simp only [Set.mem_Ioc, V3.az] at *
  constructor <;> linarith

/-- Specification of C12: isotropic coordinates whose azimuth enters through a
    sine and a cosine, or is reduced to one turn. -/
def AzimuthReduced (p : Input) : Prop :=
  p = .ISOTROPIC_TV_PROJ_DPHI ∨ p = .ISOTROPIC_TL_TV_PROJ_DPHI ∨ p = .RETRO_TL_TVL_PROJ_DPHI ∨
  p = .SCHLICK_TL_TK_PROJ_DPHI ∨ p = .RUSIN_TH_TD_PD ∨ p = .STARK_3D

/-- C12: these coordinates are the same for every rotation of the configuration
    about the normal, as long as the azimuths they measure exist. -/
theorem rotation_invariant_azimuth (p : Input) (hp : AzimuthReduced p) (c : Cart)
    (ha : AzimuthsExist p c) (t : ℝ) : fromCartesian (c.rotZ t) p = fromCartesian c p := by
  apply fromCartesian_rotZ
  have e := sin_sq_add_cos_sq t
  rcases hp with rfl | rfl | rfl | rfl | rfl | rfl
  · obtain ⟨h1, h2⟩ := ha
    have h2' : c.v.HasAzimuth ∨ arccos c.v.z = 0 := h2.imp id fun h => by rw [h, arccos_one]
    obtain ⟨q1, q2⟩ := proj_rotZ t (arccos c.v.z) h1 h2'
    simp only [V3.az] at q1 q2
    show some [_, _] = some [_, _]
    simp only [Cart.rotZ]
    exact congrArg some (congrArg₂ (fun a b => [a, b]) q1 q2)
  · obtain ⟨h1, h2⟩ := ha
    have h2' : c.v.HasAzimuth ∨ arccos c.v.z = 0 := h2.imp id fun h => by rw [h, arccos_one]
    obtain ⟨q1, q2⟩ := proj_rotZ' t (arccos c.v.z) h1 h2'
    simp only [V3.az] at q1 q2
    show some [_, _, _] = some [_, _, _]
    simp only [Cart.rotZ]
    exact congrArg some (congrArg₂ (fun a b => [arccos c.l.z, a, b]) q1 q2)
  · obtain ⟨h1, h2⟩ := ha
    have q2 := (az_sub_rotZ t h2.rad h1.rad).sin
    simp only [V3.az] at q2
    have hd2 : (c.v.rotZ t).dot (c.l.rotZ t) = c.v.dot c.l := dot_rotZ _ _ _
    simp only [V3.dot] at hd2
    simp only [fromCartesianSwitch, Cart.rotZ, hd2, q2]
    rfl
  · obtain ⟨h1, h2⟩ := ha
    have hn : (c.kv.rotZ t).x * (c.kv.rotZ t).x + (c.kv.rotZ t).y * (c.kv.rotZ t).y
        + (c.kv.rotZ t).z * (c.kv.rotZ t).z = c.kv.x * c.kv.x + c.kv.y * c.kv.y + c.kv.z * c.kv.z := by
      simp only [V3.rotZ]
      linear_combination (c.kv.x ^ 2 + c.kv.y ^ 2) * e
    have hk : c.kv.HasAzimuth := h1
    have hpos : 0 < √(c.kv.x * c.kv.x + c.kv.y * c.kv.y + c.kv.z * c.kv.z) := by
      apply sqrt_pos.2
      have h3 := c.kv.rad_sq
      have h4 := hk.rad
      nlinarith [sq_nonneg c.kv.z]
    have hs : ∀ a : V3, ∀ n : ℝ, 0 < n → atan2 (a.y / n) (a.x / n) = a.az := by
      intro a n h
      rw [div_eq_inv_mul, div_eq_inv_mul]; exact atan2_scale _ _ (inv_pos.2 h)
    have hF : ∀ d : Cart, 0 < √(d.kv.x * d.kv.x + d.kv.y * d.kv.y + d.kv.z * d.kv.z) →
        fromCartesianSwitch d .SCHLICK_TL_TK_PROJ_DPHI =
        some [arccos d.l.z,
          arccos (d.kv.z / √(d.kv.x * d.kv.x + d.kv.y * d.kv.y + d.kv.z * d.kv.z)) * cos (d.l.az - d.kv.az),
          arccos (d.kv.z / √(d.kv.x * d.kv.x + d.kv.y * d.kv.y + d.kv.z * d.kv.z)) * sin (d.l.az - d.kv.az)] := by
      intro d hd
      rw [← hs d.kv _ hd]; rfl
    rw [hF c hpos, hF (c.rotZ t) (by rw [kv_rotZ, hn]; exact hpos), kv_rotZ, hn]
    have hz : (c.kv.rotZ t).z = c.kv.z := rfl
    have hl : (c.rotZ t).l = c.l.rotZ t := rfl
    rw [hl, hz, (az_sub_rotZ t h2.rad hk.rad).cos, (az_sub_rotZ t h2.rad hk.rad).sin]
    rfl
  · have h1 : (halfVector c).HasAzimuth := HasAzimuth_half ha
    have hh := halfVector_rotZ c t
    have q := (halfVector c).rotZ_az t h1.rad
    have hrot : rotate (c.v.rotZ t) (-((halfVector c).rotZ t).az) (-arccos (halfVector c).z)
        = rotate c.v (-(halfVector c).az) (-arccos (halfVector c).z) := by
      unfold rotate
      rw [rotateNormal_congr _ q.neg, rotateNormal_rotZ]
    have hF : ∀ d : Cart, fromCartesianSwitch d .RUSIN_TH_TD_PD =
        (fun diff => some [arccos (halfVector d).z, arccos diff.z,
          @ite _ (alongsideZ diff) (Classical.propDecidable _) 0 (atan2 diff.y diff.x)])
          (rotate d.v (-(halfVector d).az) (-arccos (halfVector d).z)) := by
      intro d; rfl
    have hz : ((halfVector c).rotZ t).z = (halfVector c).z := rfl
    have hv : (c.rotZ t).v = c.v.rotZ t := rfl
    rw [hF, hF, hh, hz, hv, hrot]
  · obtain ⟨h1, h2⟩ := ha
    have hh : c.hv.HasAzimuth := by
      rintro ⟨a, b⟩
      apply h1
      simp only [Cart.hv] at a b
      exact ⟨by simp only; linarith, by simp only; linarith⟩
    have hb : c.bv.HasAzimuth := by
      rintro ⟨a, b⟩
      apply h2
      simp only [Cart.bv] at a b
      exact ⟨by simp only; linarith, by simp only; linarith⟩
    have q := az_sub_rotZ t hb.rad hh.rad
    have hF : ∀ d : Cart, fromCartesianSwitch d .STARK_3D =
        some [√(d.hv.x * d.hv.x + d.hv.y * d.hv.y),
          √(d.bv.x * d.bv.x + d.bv.y * d.bv.y + d.bv.z * d.bv.z),
          @ite _ (d.bv.az - d.hv.az < 0) (Classical.propDecidable _)
            (2 * π + (d.bv.az - d.hv.az)) (d.bv.az - d.hv.az)] := by
      intro d; rfl
    rw [hF, hF, hv_rotZ, bv_rotZ]
    have h3 := norm2pi_eq (az_sub_range _ _) (az_sub_range _ _) q
    have n1 : (c.hv.rotZ t).x * (c.hv.rotZ t).x + (c.hv.rotZ t).y * (c.hv.rotZ t).y
        = c.hv.x * c.hv.x + c.hv.y * c.hv.y := by
      simp only [V3.rotZ]; linear_combination (c.hv.x ^ 2 + c.hv.y ^ 2) * e
    have n2 : (c.bv.rotZ t).x * (c.bv.rotZ t).x + (c.bv.rotZ t).y * (c.bv.rotZ t).y
        + (c.bv.rotZ t).z * (c.bv.rotZ t).z = c.bv.x * c.bv.x + c.bv.y * c.bv.y + c.bv.z * c.bv.z := by
      simp only [V3.rotZ]; linear_combination (c.bv.x ^ 2 + c.bv.y ^ 2) * e
    rw [n1, n2]
    congr 4

example : AzimuthReduced .STARK_3D ∧ AzimuthsExist .STARK_3D ⟨⟨0.6, 0, 0.8⟩, ⟨0, 1, 0⟩⟩ := by
  refine ⟨by simp [AzimuthReduced], ?_⟩
  simp [AzimuthsExist, V3.HasAzimuth]

/-- C12: for the coordinates that return a difference of azimuths, a rotation
    about the normal changes at most the third coordinate, by full turns. -/
theorem rotation_invariant_mod (p : Input) (hp : p = .ISOTROPIC_TV_TL_DPHI ∨ p = .NEUMANN_3D)
    (c : Cart) (ha : AzimuthsExist p c) (h0 : 0 ≤ c.v.z + c.l.z) (t : ℝ) :
    ∃ a b d d', fromCartesian c p = some [a, b, d] ∧
      fromCartesian (c.rotZ t) p = some [a, b, d'] ∧ SameAngle d' d := by
  have e := sin_sq_add_cos_sq t
  have h0' : 0 ≤ (c.rotZ t).v.z + (c.rotZ t).l.z := h0
  rw [fromCartesian_eq _ _ h0, fromCartesian_eq _ _ h0']
  rcases hp with rfl | rfl
  · obtain ⟨h1, h2⟩ := ha
    exact ⟨_, _, _, _, rfl, rfl, az_sub_rotZ t h2.rad h1.rad⟩
  · obtain ⟨h1, h2⟩ := ha
    have hh : c.hv.HasAzimuth := by
      rintro ⟨a, b⟩
      apply h1
      simp only [Cart.hv] at a b
      exact ⟨by simp only; linarith, by simp only; linarith⟩
    have hb : c.bv.HasAzimuth := by
      rintro ⟨a, b⟩
      apply h2
      simp only [Cart.bv] at a b
      exact ⟨by simp only; linarith, by simp only; linarith⟩
    have hF : ∀ d : Cart, fromCartesianSwitch d .NEUMANN_3D =
        some [√(d.hv.x * d.hv.x + d.hv.y * d.hv.y),
          √(d.bv.x * d.bv.x + d.bv.y * d.bv.y), d.bv.az - d.hv.az] := by
      intro d; rfl
    rw [hF, hF, hv_rotZ, bv_rotZ]
    have n1 : (c.hv.rotZ t).x * (c.hv.rotZ t).x + (c.hv.rotZ t).y * (c.hv.rotZ t).y
        = c.hv.x * c.hv.x + c.hv.y * c.hv.y := by
      simp only [V3.rotZ]; linear_combination (c.hv.x ^ 2 + c.hv.y ^ 2) * e
    have n2 : (c.bv.rotZ t).x * (c.bv.rotZ t).x + (c.bv.rotZ t).y * (c.bv.rotZ t).y
        = c.bv.x * c.bv.x + c.bv.y * c.bv.y := by
      simp only [V3.rotZ]; linear_combination (c.bv.x ^ 2 + c.bv.y ^ 2) * e
    rw [n1, n2]
    exact ⟨_, _, _, _, rfl, rfl, az_sub_rotZ t hb.rad hh.rad⟩

example : AzimuthsExist .NEUMANN_3D ⟨⟨0.6, 0, 0.8⟩, ⟨0, 1, 0⟩⟩ ∧ (0 : ℝ) ≤ 0.8 + 0 := by
  simp [AzimuthsExist, V3.HasAzimuth]; norm_num

/-- C12, limit of the code: with the light along the normal the azimuth of the
    light is reported as 0, and `ISOTROPIC_TL_TV_PROJ_DPHI` is not isotropic: the
    view `(1, 0, 0)` turned by a quarter turn has other coordinates. -/
theorem ISOTROPIC_TL_TV_PROJ_DPHI_normal_light :
    fromCartesian ⟨⟨1, 0, 0⟩, ⟨0, 0, 1⟩⟩ .ISOTROPIC_TL_TV_PROJ_DPHI = some [0, π / 2, 0] ∧
    fromCartesian (Cart.rotZ ⟨⟨1, 0, 0⟩, ⟨0, 0, 1⟩⟩ (π / 2)) .ISOTROPIC_TL_TV_PROJ_DPHI
      = some [0, 0, -(π / 2)] := by
  have e1 : atan2 0 1 = 0 := by
    have := atan2_polar (r := 1) (t := 0) one_pos ⟨by linarith [pi_pos], pi_pos.le⟩
    simpa using this
  have e2 : atan2 1 0 = π / 2 := by
    have := atan2_polar (r := 1) (t := π / 2) one_pos ⟨by linarith [pi_pos], by linarith [pi_pos]⟩
    simpa using this
  constructor
  · rw [fromCartesian_eq _ _ (by norm_num)]
    simp [fromCartesianSwitch, e1, atan2_zero_zero]
  · rw [fromCartesian_eq _ _ (by norm_num [Cart.rotZ, V3.rotZ])]
    simp [fromCartesianSwitch, Cart.rotZ, V3.rotZ, e2, atan2_zero_zero]

end Alta
