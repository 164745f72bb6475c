import Verif.Props.LobesLawful
import Mathlib.Analysis.SpecialFunctions.Pow.Deriv
import Mathlib.Analysis.SpecialFunctions.ExpDeriv
import Mathlib.Tactic.Linarith
import Mathlib.Tactic.FieldSimp
/-
C37, C38, C39, C40: value and Jacobian of the plugins whose Jacobian is right.
-/
namespace Alta
noncomputable section
open Real

/-! ### Blinn -/

/-- C37 (value). -/
theorem blinn_value (s : BlinnS) (x : List ℝ) :
    ∃ v, blinnCls.value s x = some v ∧ v.length = s.par.dimY ∧
      ∀ y < s.par.dimY, arr v y = if 0 < arr x 0 then s.ks y * arr x 0 ^ s.N y else 0 := by
  refine ⟨_, rfl, by simp, fun y hy => ?_⟩
  rw [arr_map_range _ _ _ hy]

theorem blinn_set_value (s : BlinnS) (x p : List ℝ) :
    ∃ v, blinnCls.value (blinnCls.set s p) x = some v ∧
      ∀ y < s.par.dimY, arr v y =
        if arr x 0 > 0 then arr p (y * 2 + 0) * arr x 0 ^ arr p (y * 2 + 1) else 0 := by
  refine ⟨_, rfl, fun y hy => (arr_map_range s.par.dimY _ y hy).trans ?_⟩
  simp only [blinnCls, readInto, if_pos hy]

/-- C37 (Jacobian). -/
theorem blinn_jacobian (s : BlinnS) (x : List ℝ) : (Fn.leaf blinnCls s).IsJacobianAt x := by
  refine diag_jacobian blinnCls blinn_lawful s x 2 (by norm_num) rfl
    (fun q => if arr x 0 > 0 then q 0 * arr x 0 ^ q 1 else 0)
    (fun q r h => by simp only [h 0 (by norm_num), h 1 (by norm_num)])
    (fun p _ => blinn_set_value s x p)
    (fun j => if arr x 0 ≤ 0 then [0, 0] else [arr x 0 ^ s.N j, s.ks j * log (arr x 0) * arr x 0 ^ s.N j])
    [0, 0] rfl rfl (fun i _ => by split <;> rfl) ?_
  intro y hy a ha
  have g0 : arr (blinnCls.get s) (y * 2 + 0) = s.ks y := arr_blocks _ 2 _ (fun _ _ => rfl) y 0 hy (by norm_num)
  have g1 : arr (blinnCls.get s) (y * 2 + 1) = s.N y := arr_blocks _ 2 _ (fun _ _ => rfl) y 1 hy (by norm_num)
  by_cases hx : arr x 0 > 0
  · have hx' : ¬ arr x 0 ≤ 0 := not_le.mpr hx
    simp only [if_pos hx, if_neg hx']
    interval_cases a
    · simp only [Function.update_self, ne_eq, one_ne_zero, not_false_eq_true, Function.update_of_ne, g1]
      simpa [arr] using (hasDerivAt_id (arr (blinnCls.get s) (y * 2 + 0))).mul_const (arr x 0 ^ s.N y)
    · simp only [Function.update_self, ne_eq, zero_ne_one, not_false_eq_true, Function.update_of_ne, g0, g1]
      have := ((hasDerivAt_id (s.N y)).const_rpow hx).const_mul (s.ks y)
      simpa [arr, mul_comm, mul_assoc, mul_left_comm] using this
  · have hx' : arr x 0 ≤ 0 := not_lt.mp hx
    simp only [if_neg hx, if_pos hx']
    interval_cases a <;> simpa [arr] using hasDerivAt_const _ _

/-- a lobe with three channels -/
example : (Fn.leaf blinnCls (mkBlinn ⟨0, 3, .COS_TH, .RGB_COLOR⟩ (fun i => i + 1) (fun i => 10 * i))).IsJacobianAt
    [1 / 2] := blinn_jacobian _ _

/-! ### Retro Blinn -/

theorem retroblinn_set_value (s : BlinnS) (x p : List ℝ) :
    ∃ v, retroblinnCls.value (retroblinnCls.set s p) x = some v ∧
      ∀ y < s.par.dimY, arr v y =
        if arr x 0 ≥ 0 then arr p (y * 2 + 0) * arr x 0 ^ arr p (y * 2 + 1) else 0 := by
  refine ⟨_, rfl, fun y hy => (arr_map_range s.par.dimY _ y hy).trans ?_⟩
  simp only [retroblinnCls, readInto, if_pos hy]

/-- C37 (retro lobe, Jacobian): right for a positive cosine. -/
theorem retroblinn_jacobian_partial (s : BlinnS) (x : List ℝ) (hx : 0 < arr x 0) :
    (Fn.leaf retroblinnCls s).IsJacobianAt x := by
  have hx0 : arr x 0 ≥ 0 := hx.le
  have hx' : ¬ arr x 0 ≤ 0 := not_le.mpr hx
  refine diag_jacobian retroblinnCls retroblinn_lawful s x 2 (by norm_num) rfl
    (fun q => if arr x 0 ≥ 0 then q 0 * arr x 0 ^ q 1 else 0)
    (fun q r h => by simp only [h 0 (by norm_num), h 1 (by norm_num)])
    (fun p _ => retroblinn_set_value s x p)
    (fun j => [arr x 0 ^ s.N j, if arr x 0 ≤ 0 then 0 else s.ks j * log (arr x 0) * arr x 0 ^ s.N j])
    [0, 0] rfl rfl (fun i _ => rfl) ?_
  intro y hy a ha
  have g0 : arr (retroblinnCls.get s) (y * 2 + 0) = s.ks y :=
    arr_blocks _ 2 _ (fun _ _ => rfl) y 0 hy (by norm_num)
  have g1 : arr (retroblinnCls.get s) (y * 2 + 1) = s.N y :=
    arr_blocks _ 2 _ (fun _ _ => rfl) y 1 hy (by norm_num)
  simp only [if_pos hx0, if_neg hx']
  interval_cases a
  · simp only [Function.update_self, ne_eq, one_ne_zero, not_false_eq_true, Function.update_of_ne, g1]
    simpa [arr] using (hasDerivAt_id (arr (retroblinnCls.get s) (y * 2 + 0))).mul_const (arr x 0 ^ s.N y)
  · simp only [Function.update_self, ne_eq, zero_ne_one, not_false_eq_true, Function.update_of_ne, g0, g1]
    have := ((hasDerivAt_id (s.N y)).const_rpow hx).const_mul (s.ks y)
    simpa [arr, mul_comm, mul_assoc, mul_left_comm] using this

/-- C37 (retro lobe, limit).  On the other side of the hemisphere the value is zero whatever the
    parameters, but the Jacobian is not: with `N = 2` its first entry is `x²`. -/
theorem retroblinn_jacobian_behind (s : BlinnS) (x : List ℝ) (hx : arr x 0 < 0) (hy : 0 < s.par.dimY)
    (hN : s.N 0 = 2) : ¬ (Fn.leaf retroblinnCls s).IsJacobianAt x := by
  have hd := blocks_derivative retroblinnCls retroblinn_lawful s x 2 s.par.dimY (mul_comm _ _) (fun y => {y})
    (fun y hy b hb => by
      have : b = y := by simpa using hb
      rw [this]; exact hy)
    (fun q => if arr x 0 ≥ 0 then q 0 * arr x 0 ^ q 1 else 0) (fun _ => 0)
    (fun q r h => by simp only [h 0 (by norm_num), h 1 (by norm_num)])
    (fun p _ => by
      obtain ⟨v, h1, h2⟩ := retroblinn_set_value s x p
      exact ⟨v, h1, fun y hy => by simp [h2 y hy]⟩) 0 hy 0 hy 0 (by norm_num) 0
    (fun _ => by
      have : ¬ arr x 0 ≥ 0 := not_le.mpr hx
      simp only [if_neg this]
      exact hasDerivAt_const _ _)
  simp only [zero_mul, zero_add, ite_self] at hd
  refine not_jacobian _ x _ rfl 0 0 hy (by simp [Fn.nb, retroblinnCls]; omega) 0 hd ?_
  have hrow : ∀ i < s.par.dimY, (blocks s.par.dimY fun j => if i = j then
      [arr x 0 ^ s.N j, if arr x 0 ≤ 0 then 0 else s.ks j * log (arr x 0) * arr x 0 ^ s.N j]
      else [0, 0]).length = s.par.dimY * 2 := by
    intro i _; exact blocks_length _ 2 _ (fun j _ => by split <;> rfl)
  have e := arr_blocks s.par.dimY _ _ hrow 0 0 hy (by omega)
  have e2 := arr_blocks s.par.dimY 2 (fun j => if 0 = j then
      [arr x 0 ^ s.N j, if arr x 0 ≤ 0 then 0 else s.ks j * log (arr x 0) * arr x 0 ^ s.N j]
      else [0, 0]) (fun j _ => by split <;> rfl) 0 0 hy (by norm_num)
  simp only [zero_mul, zero_add] at e e2 ⊢
  rw [e, e2]
  simp only [if_true, hN]
  have : arr x 0 ^ (2 : ℝ) = arr x 0 ^ 2 := by exact_mod_cast Real.rpow_natCast (arr x 0) 2
  simp only [arr, List.getD_cons_zero]
  unfold arr at this hx
  rw [this]
  exact pow_ne_zero 2 hx.ne

/-! ### ABC -/

theorem abc_set_value (s : AbcS) (x p : List ℝ) :
    ∃ v, abcCls.value (abcCls.set s p) x = some v ∧
      ∀ y < s.par.dimY, arr v y =
        if 1 - arr x 0 ≥ 0 ∧ 1 - arr x 0 ≤ 1 then
          arr p (y * 3 + 0) / (1 + arr p (y * 3 + 1) * (1 - arr x 0)) ^ arr p (y * 3 + 2) else 0 := by
  refine ⟨_, rfl, fun y hy => (arr_map_range s.par.dimY _ y hy).trans ?_⟩
  simp only [abcCls, readInto, if_pos hy]

/-- C40 (ABC).  The Jacobian is right for a cosine in [0, 1] as long as the base of the power is
    positive, which is so for non negative `b` (the lower bound given by the plugin). -/
theorem abc_jacobian_partial (s : AbcS) (x : List ℝ) (h0 : 0 ≤ arr x 0) (h1 : arr x 0 ≤ 1)
    (hf : ∀ y < s.par.dimY, 0 < 1 + s.b y * (1 - arr x 0)) : (Fn.leaf abcCls s).IsJacobianAt x := by
  have hx : 1 - arr x 0 ≥ 0 ∧ 1 - arr x 0 ≤ 1 := ⟨by linarith, by linarith⟩
  refine diag_jacobian abcCls abc_lawful s x 3 (by norm_num) rfl
    (fun q => if 1 - arr x 0 ≥ 0 ∧ 1 - arr x 0 ≤ 1 then q 0 / (1 + q 1 * (1 - arr x 0)) ^ q 2 else 0)
    (fun q r h => by simp only [h 0 (by norm_num), h 1 (by norm_num), h 2 (by norm_num)])
    (fun p _ => abc_set_value s x p)
    (fun j =>
      let hn := 1 - arr x 0
      let f := 1 + s.b j * hn
      let fact := 1 / f ^ s.c j
      let fact2 := fact * fact
      [fact, -s.a j * hn * s.c j * f ^ (s.c j - 1) * fact2, if f > 0 then -s.a j * log f * fact else 0])
    [0, 0, 0] rfl ?_ (fun i _ => rfl) ?_
  · simp only [abcCls, Option.some.injEq]
    refine blocks_congr _ _ _ fun i _ => blocks_congr _ _ _ fun j _ => ?_
    by_cases h : i = j
    · subst h; rfl
    · simp only [if_neg h]
  intro y hy a ha
  have g0 : arr (abcCls.get s) (y * 3 + 0) = s.a y := arr_blocks _ 3 _ (fun _ _ => rfl) y 0 hy (by norm_num)
  have g1 : arr (abcCls.get s) (y * 3 + 1) = s.b y := arr_blocks _ 3 _ (fun _ _ => rfl) y 1 hy (by norm_num)
  have g2 : arr (abcCls.get s) (y * 3 + 2) = s.c y := arr_blocks _ 3 _ (fun _ _ => rfl) y 2 hy (by norm_num)
  have hfy := hf y hy
  simp only [if_pos hx, if_pos hfy]
  set hn := 1 - arr x 0 with hhn
  set f := 1 + s.b y * hn with hff
  have hpos : (0:ℝ) < f ^ s.c y := rpow_pos_of_pos hfy _
  interval_cases a
  · simp only [Function.update_self, ne_eq, one_ne_zero, not_false_eq_true, Function.update_of_ne, g1, g2,
      OfNat.ofNat_ne_zero, g0]
    simpa [arr, div_eq_mul_inv] using (hasDerivAt_id (s.a y)).mul_const ((f ^ s.c y)⁻¹)
  · simp only [Function.update_self, ne_eq, zero_ne_one, OfNat.ofNat_ne_one, not_false_eq_true,
      Function.update_of_ne, g0, g1, g2]
    have hlin : HasDerivAt (fun t : ℝ => 1 + t * hn) hn (s.b y) := by
      simpa using ((hasDerivAt_id (s.b y)).mul_const hn).const_add 1
    have hp := (hlin.rpow_const (p := s.c y) (Or.inl (ne_of_gt hfy)))
    have := (hasDerivAt_const (s.b y) (s.a y)).fun_div hp (ne_of_gt hpos)
    refine this.congr_deriv ?_
    simp only [arr, List.getD_cons_succ, List.getD_cons_zero]
    rw [← hff]
    field_simp
    ring
  · simp only [Function.update_self, ne_eq, OfNat.zero_ne_ofNat, OfNat.one_ne_ofNat, not_false_eq_true,
      Function.update_of_ne, g0, g1, g2]
    have hp := (hasDerivAt_id (s.c y)).const_rpow hfy
    have := (hasDerivAt_const (s.c y) (s.a y)).fun_div hp (ne_of_gt hpos)
    refine this.congr_deriv ?_
    simp only [arr, List.getD_cons_succ, List.getD_cons_zero, id]
    field_simp
    ring

/-! ### Spherical Gaussian -/

theorem sg_set_value (s : SgS) (ht : s.type ≠ .Moment) (x : List ℝ) (d : ℝ)
    (hd : sgDot s.type s.a x = some d) (p : List ℝ) :
    ∃ v, sgCls.value (sgCls.set s p) x = some v ∧
      ∀ y < s.par.dimY, arr v y = arr p (y * 2 + 0) * exp (arr p (y * 2 + 1) * (d - 1)) := by
  have e : sgDot (sgCls.set s p).type (sgCls.set s p).a x = some d := by
    simpa [sgCls, if_neg ht] using hd
  refine ⟨_, by simp only [sgCls] at e ⊢; rw [e]; rfl, fun y hy => (arr_map_range s.par.dimY _ y hy).trans ?_⟩
  simp only [readInto, if_pos hy]

/-- C40 (spherical Gaussian, all types but `Moment`).  `hd` says that the cosine of the lobe is
    defined at `x`. -/
theorem sg_jacobian_partial (s : SgS) (ht : s.type ≠ .Moment) (x : List ℝ) (d : ℝ)
    (hd : sgDot s.type s.a x = some d) : (Fn.leaf sgCls s).IsJacobianAt x := by
  refine diag_jacobian sgCls sg_lawful s x 2 (by norm_num) (by simp [sgCls, ht])
    (fun q => q 0 * exp (q 1 * (d - 1)))
    (fun q r h => by simp only [h 0 (by norm_num), h 1 (by norm_num)])
    (fun p _ => sg_set_value s ht x d hd p)
    (fun j => [exp (s.n j * (d - 1)), s.ks j * (d - 1) * exp (s.n j * (d - 1))])
    [0, 0] rfl (by simp [sgCls, hd, ht]) (fun i _ => rfl) ?_
  intro y hy a ha
  have hget : sgCls.get s = blocks s.par.dimY fun i => [s.ks i, s.n i] := by simp [sgCls, ht]
  have g0 : arr (sgCls.get s) (y * 2 + 0) = s.ks y := by
    rw [hget]; exact arr_blocks _ 2 _ (fun _ _ => rfl) y 0 hy (by norm_num)
  have g1 : arr (sgCls.get s) (y * 2 + 1) = s.n y := by
    rw [hget]; exact arr_blocks _ 2 _ (fun _ _ => rfl) y 1 hy (by norm_num)
  interval_cases a
  · simp only [Function.update_self, ne_eq, one_ne_zero, not_false_eq_true, Function.update_of_ne, g0, g1]
    simpa [arr] using (hasDerivAt_id (s.ks y)).mul_const (exp (s.n y * (d - 1)))
  · simp only [Function.update_self, ne_eq, zero_ne_one, not_false_eq_true, Function.update_of_ne, g0, g1]
    have := (((hasDerivAt_id (s.n y)).mul_const (d - 1)).exp).const_mul (s.ks y)
    refine this.congr_deriv ?_
    simp [arr]; ring

/-! ### Lafortune -/

theorem foldl_sum (n : ℕ) (g : ℕ → ℝ) (P : ℕ → Prop) [DecidablePred P] (r : ℝ) :
    (List.range n).foldl (fun res k => if P k then res + g k else res) r =
      r + ∑ k ∈ Finset.range n, if P k then g k else 0 := by
  induction n with
  | zero => simp
  | succ n ih =>
    rw [List.range_succ, List.foldl_append, ih, Finset.sum_range_succ]
    simp only [List.foldl_cons, List.foldl_nil]
    split <;> ring

/-- The blocks of channel `y`. -/
def lobesOf (n d y : ℕ) : Finset ℕ := (Finset.range n).image fun k => k * d + y

theorem lobesOf_lt {n d y b : ℕ} (hy : y < d) (hb : b ∈ lobesOf n d y) : b < n * d := by
  obtain ⟨k, hk, rfl⟩ := Finset.mem_image.mp hb
  have hk' : k < n := Finset.mem_range.mp hk
  calc k * d + y < (k + 1) * d := by rw [Nat.add_mul]; omega
    _ ≤ n * d := Nat.mul_le_mul_right d hk'

theorem sum_lobesOf {n d y : ℕ} (hy : y < d) (g : ℕ → ℝ) :
    ∑ b ∈ lobesOf n d y, g b = ∑ k ∈ Finset.range n, g (k * d + y) := by
  unfold lobesOf
  rw [Finset.sum_image]
  intro a _ b _ h
  exact (index_inj hy hy h).1

theorem mem_lobesOf {n d y b : ℕ} (hy : y < d) (hb : b < n * d) : b ∈ lobesOf n d y ↔ y = b % d := by
  unfold lobesOf
  constructor
  · intro h
    obtain ⟨k, _, rfl⟩ := Finset.mem_image.mp h
    rw [Nat.mul_add_mod_self_right, Nat.mod_eq_of_lt hy]
  · intro h
    refine Finset.mem_image.mpr ⟨b / d, Finset.mem_range.mpr (block_lt hb), ?_⟩
    rw [h, Nat.div_add_mod']

theorem isoLafortune_set_value (s : IsoLafortuneS) (x p : List ℝ) :
    ∃ v, isoLafortuneCls.value (isoLafortuneCls.set s p) x = some v ∧
      ∀ y < s.par.dimY, arr v y = 0 + ∑ b ∈ lobesOf s.n s.par.dimY y,
        if arr p (b * 3 + 0) * (arr x 0 * arr x 3 + arr x 1 * arr x 4) + arr p (b * 3 + 1) * (arr x 2 * arr x 5) > 0
        then (arr p (b * 3 + 0) * (arr x 0 * arr x 3 + arr x 1 * arr x 4) +
          arr p (b * 3 + 1) * (arr x 2 * arr x 5)) ^ arr p (b * 3 + 2) else 0 := by
  refine ⟨_, rfl, fun y hy => (arr_map_range s.par.dimY _ y hy).trans ?_⟩
  rw [foldl_sum, sum_lobesOf hy]
  congr 1
  refine Finset.sum_congr rfl fun n hn => ?_
  have hk : n * s.par.dimY + y < s.n * s.par.dimY := by
    have hn' : n < s.n := Finset.mem_range.mp hn
    calc n * s.par.dimY + y < (n + 1) * s.par.dimY := by rw [Nat.add_mul]; omega
      _ ≤ s.n * s.par.dimY := Nat.mul_le_mul_right _ hn'
  have e1 : ∀ c < 2, (n * s.par.dimY + y) * 2 + c < s.n * s.par.dimY * 2 := by intro c hc; omega
  have e2 : ∀ c < 2, ((n * s.par.dimY + y) * 2 + c) / 2 * 3 + ((n * s.par.dimY + y) * 2 + c) % 2 =
      (n * s.par.dimY + y) * 3 + c := by intro c hc; omega
  have h0 : (isoLafortuneCls.set s p).C ((n * s.par.dimY + y) * 2 + 0) = arr p ((n * s.par.dimY + y) * 3 + 0) := by
    simp only [isoLafortuneCls, isoLafC, if_pos (e1 0 (by norm_num)), e2 0 (by norm_num)]
  have h1 : (isoLafortuneCls.set s p).C ((n * s.par.dimY + y) * 2 + 1) = arr p ((n * s.par.dimY + y) * 3 + 1) := by
    simp only [isoLafortuneCls, isoLafC, if_pos (e1 1 (by norm_num)), e2 1 (by norm_num)]
  have h2 : (isoLafortuneCls.set s p).N (n * s.par.dimY + y) = arr p ((n * s.par.dimY + y) * 3 + 2) := by
    simp only [isoLafortuneCls, readInto, if_pos hk]
  show (if (isoLafortuneCls.set s p).C ((n * s.par.dimY + y) * 2 + 0) * _ +
    (isoLafortuneCls.set s p).C ((n * s.par.dimY + y) * 2 + 1) * _ > 0 then _ else _) = _
  rw [h0, h1]
  congr 1
  show (_ : ℝ) ^ (isoLafortuneCls.set s p).N (n * s.par.dimY + y) = _
  rw [h2]
  show ((isoLafortuneCls.set s p).C ((n * s.par.dimY + y) * 2 + 0) * _ +
    (isoLafortuneCls.set s p).C ((n * s.par.dimY + y) * 2 + 1) * _) ^ _ = _
  rw [h0, h1]

theorem power_lobe_deriv (u : ℝ → ℝ) (c t0 N : ℝ) (hu : HasDerivAt u c t0) (h : u t0 ≠ 0) :
    HasDerivAt (fun t => if u t > 0 then u t ^ N else 0) (if u t0 > 0 then c * N * u t0 ^ (N - 1) else 0) t0 := by
  rcases lt_or_gt_of_ne h with h1 | h1
  · rw [if_neg (not_lt.mpr h1.le)]
    have he : (fun t => if u t > 0 then u t ^ N else 0) =ᶠ[nhds t0] fun _ => 0 := by
      filter_upwards [hu.continuousAt.eventually_lt continuousAt_const h1] with t ht
      rw [if_neg (not_lt.mpr ht.le)]
    exact (hasDerivAt_const t0 (0 : ℝ)).congr_of_eventuallyEq he
  · rw [if_pos h1]
    have he : (fun t => if u t > 0 then u t ^ N else 0) =ᶠ[nhds t0] fun t => u t ^ N := by
      filter_upwards [continuousAt_const.eventually_lt hu.continuousAt h1] with t ht
      rw [if_pos ht]
    exact (hu.rpow_const (Or.inl h)).congr_of_eventuallyEq he

theorem exponent_lobe_deriv (d N : ℝ) :
    HasDerivAt (fun t => if d > 0 then d ^ t else 0) (if d > 0 then (if d ≤ 0 then 0 else log d * d ^ N) else 0) N := by
  by_cases h : d > 0
  · simp only [if_pos h, if_neg (not_le.mpr h)]
    simpa using (hasDerivAt_id N).const_rpow h
  · simp only [if_neg h]
    exact hasDerivAt_const _ _

/-- C40 (isotropic Lafortune).  The Jacobian is right wherever no lobe is exactly at the border
    (where its value has no derivative for exponents up to 1). -/
theorem isoLafortune_jacobian_partial (s : IsoLafortuneS) (x : List ℝ)
    (h : ∀ k < s.n * s.par.dimY, s.C (k * 2 + 0) * (arr x 0 * arr x 3 + arr x 1 * arr x 4) +
      s.C (k * 2 + 1) * (arr x 2 * arr x 5) ≠ 0) : (Fn.leaf isoLafortuneCls s).IsJacobianAt x := by
  set dxy := arr x 0 * arr x 3 + arr x 1 * arr x 4 with hdxy
  set dz := arr x 2 * arr x 5 with hdz
  set dd : ℕ → ℝ := fun k => s.C (k * 2 + 0) * dxy + s.C (k * 2 + 1) * dz with hdd
  set D : ℕ → List ℝ := fun k => if dd k > 0 then
    [dxy * s.N k * dd k ^ (s.N k - 1), dz * s.N k * dd k ^ (s.N k - 1),
      if dd k ≤ 0 then 0 else log (dd k) * dd k ^ s.N k] else [0, 0, 0] with hD
  have hJ : isoLafortuneCls.jac s x = some (blocks s.par.dimY fun i => blocks (s.n * s.par.dimY) fun k =>
      if i = k % s.par.dimY then D k else [0, 0, 0]) := by
    simp only [isoLafortuneCls, Option.some.injEq]
    refine blocks_congr _ _ _ fun i hi => ?_
    rw [← blocks_blocks]
    refine blocks_congr _ _ _ fun n _ => blocks_congr _ _ _ fun j hj => ?_
    rw [Nat.mul_add_mod_self_right, Nat.mod_eq_of_lt hj]
    by_cases hij : i = j
    · simp only [hij, true_and, if_true, hD, hdd]; rfl
    · simp only [hij, false_and, if_false]
  have hl : ∀ i, ∀ k < s.n * s.par.dimY, (if i = k % s.par.dimY then D k else [0, 0, 0]).length = 3 := by
    intro i k _
    simp only [hD]
    split
    · split <;> rfl
    · rfl
  have hrow : ∀ i < s.par.dimY, (blocks (s.n * s.par.dimY) fun k =>
      if i = k % s.par.dimY then D k else [0, 0, 0]).length = s.n * s.par.dimY * 3 :=
    fun i _ => blocks_length _ 3 _ (hl i)
  have hget := isoLafortune_get s
  refine blocks_jacobian isoLafortuneCls isoLafortune_lawful s x 3 (s.n * s.par.dimY) (by norm_num)
    (by simp only [isoLafortuneCls]; ring) (fun y => lobesOf s.n s.par.dimY y)
    (fun y hy b hb => lobesOf_lt hy hb)
    (fun q => if q 0 * dxy + q 1 * dz > 0 then (q 0 * dxy + q 1 * dz) ^ q 2 else 0)
    (fun b a => arr (D b) a) (fun _ => 0)
    (fun q r h => by simp only [h 0 (by norm_num), h 1 (by norm_num), h 2 (by norm_num)])
    (fun p _ => isoLafortune_set_value s x p) _ hJ (blocks_length _ _ _ hrow) ?_ ?_
  · intro y hy b hb a ha
    have hy' : y < s.par.dimY := hy
    have hlt : b * 3 + a < s.n * s.par.dimY * 3 := by omega
    rw [arr_blocks _ _ _ hrow y _ hy hlt, arr_blocks _ 3 _ (hl y) b a hb ha]
    by_cases hm : y = b % s.par.dimY
    · rw [if_pos ((mem_lobesOf hy' hb).mpr hm), if_pos hm]
    · rw [if_neg (fun e => hm ((mem_lobesOf hy' hb).mp e)), if_neg hm]
      interval_cases a <;> rfl
  · intro y hy b hb a ha
    have hbM := lobesOf_lt hy hb
    have g0 : arr (isoLafortuneCls.get s) (b * 3 + 0) = s.C (b * 2 + 0) := by
      rw [hget]; exact arr_blocks _ 3 _ (fun _ _ => rfl) b 0 hbM (by norm_num)
    have g1 : arr (isoLafortuneCls.get s) (b * 3 + 1) = s.C (b * 2 + 1) := by
      rw [hget]; exact arr_blocks _ 3 _ (fun _ _ => rfl) b 1 hbM (by norm_num)
    have g2 : arr (isoLafortuneCls.get s) (b * 3 + 2) = s.N b := by
      rw [hget]; exact arr_blocks _ 3 _ (fun _ _ => rfl) b 2 hbM (by norm_num)
    have hb0 : dd b ≠ 0 := h b hbM
    interval_cases a
    · simp only [Function.update_self, ne_eq, one_ne_zero, not_false_eq_true, Function.update_of_ne, g1, g2,
        OfNat.ofNat_ne_zero, g0]
      have hu : HasDerivAt (fun t => t * dxy + s.C (b * 2 + 1) * dz) dxy (s.C (b * 2 + 0)) := by
        simpa using ((hasDerivAt_id (s.C (b * 2 + 0))).mul_const dxy).add_const (s.C (b * 2 + 1) * dz)
      refine (power_lobe_deriv _ _ _ (s.N b) hu hb0).congr_deriv ?_
      simp only [hD, hdd]; split <;> simp [arr]
    · simp only [Function.update_self, ne_eq, zero_ne_one, OfNat.ofNat_ne_one, not_false_eq_true,
        Function.update_of_ne, g0, g1, g2]
      have hu : HasDerivAt (fun t => s.C (b * 2 + 0) * dxy + t * dz) dz (s.C (b * 2 + 1)) := by
        simpa using ((hasDerivAt_id (s.C (b * 2 + 1))).mul_const dz).const_add (s.C (b * 2 + 0) * dxy)
      refine (power_lobe_deriv _ _ _ (s.N b) hu hb0).congr_deriv ?_
      simp only [hD, hdd]; split <;> simp [arr]
    · simp only [Function.update_self, ne_eq, OfNat.zero_ne_ofNat, OfNat.one_ne_ofNat, not_false_eq_true,
        Function.update_of_ne, g0, g1, g2]
      refine (exponent_lobe_deriv _ _).congr_deriv ?_
      simp only [hD, hdd]; split <;> simp [arr]

theorem lafortune_set_value (s : LafortuneS) (x p : List ℝ) :
    ∃ v, lafortuneCls.value (lafortuneCls.set s p) x = some v ∧
      ∀ y < s.par.dimY, arr v y = s.kd y + ∑ b ∈ lobesOf s.n s.par.dimY y,
        if arr p (b * 4 + 0) * (arr x 0 * arr x 3) + arr p (b * 4 + 1) * (arr x 1 * arr x 4) +
          arr p (b * 4 + 2) * (arr x 2 * arr x 5) > 0
        then (arr p (b * 4 + 0) * (arr x 0 * arr x 3) + arr p (b * 4 + 1) * (arr x 1 * arr x 4) +
          arr p (b * 4 + 2) * (arr x 2 * arr x 5)) ^ arr p (b * 4 + 3) else 0 := by
  refine ⟨_, rfl, fun y hy => (arr_map_range s.par.dimY _ y hy).trans ?_⟩
  rw [foldl_sum, sum_lobesOf hy]
  congr 1
  refine Finset.sum_congr rfl fun n hn => ?_
  have hk : n * s.par.dimY + y < s.n * s.par.dimY := by
    have hn' : n < s.n := Finset.mem_range.mp hn
    calc n * s.par.dimY + y < (n + 1) * s.par.dimY := by rw [Nat.add_mul]; omega
      _ ≤ s.n * s.par.dimY := Nat.mul_le_mul_right _ hn'
  have e1 : ∀ c < 3, (n * s.par.dimY + y) * 3 + c < s.n * s.par.dimY * 3 := by intro c hc; omega
  have e2 : ∀ c < 3, ((n * s.par.dimY + y) * 3 + c) / 3 * 4 + ((n * s.par.dimY + y) * 3 + c) % 3 =
      (n * s.par.dimY + y) * 4 + c := by intro c hc; omega
  have hc : ∀ c < 3, (lafortuneCls.set s p).C ((n * s.par.dimY + y) * 3 + c) =
      arr p ((n * s.par.dimY + y) * 4 + c) := by
    intro c h
    simp only [lafortuneCls, lafC, if_pos (e1 c h), e2 c h]
  have h0 := hc 0 (by norm_num)
  have h1 := hc 1 (by norm_num)
  have h2 := hc 2 (by norm_num)
  have h3 : (lafortuneCls.set s p).N (n * s.par.dimY + y) = arr p ((n * s.par.dimY + y) * 4 + 3) := by
    simp only [lafortuneCls, readInto, if_pos hk]
  show (if (lafortuneCls.set s p).C ((n * s.par.dimY + y) * 3 + 0) * _ +
    (lafortuneCls.set s p).C ((n * s.par.dimY + y) * 3 + 1) * _ +
    (lafortuneCls.set s p).C ((n * s.par.dimY + y) * 3 + 2) * _ > 0 then _ else _) = _
  rw [h0, h1, h2]
  congr 1
  show (_ : ℝ) ^ (lafortuneCls.set s p).N (n * s.par.dimY + y) = _
  rw [h3]
  show ((lafortuneCls.set s p).C ((n * s.par.dimY + y) * 3 + 0) * _ +
    (lafortuneCls.set s p).C ((n * s.par.dimY + y) * 3 + 1) * _ +
    (lafortuneCls.set s p).C ((n * s.par.dimY + y) * 3 + 2) * _) ^ _ = _
  rw [h0, h1, h2]

/-- C40 (Lafortune).  The same for the anisotropic plugin. -/
theorem lafortune_jacobian_partial (s : LafortuneS) (x : List ℝ)
    (h : ∀ k < s.n * s.par.dimY, s.C (k * 3 + 0) * (arr x 0 * arr x 3) + s.C (k * 3 + 1) * (arr x 1 * arr x 4) +
      s.C (k * 3 + 2) * (arr x 2 * arr x 5) ≠ 0) : (Fn.leaf lafortuneCls s).IsJacobianAt x := by
  set dx := arr x 0 * arr x 3 with hdx
  set dy := arr x 1 * arr x 4 with hdy
  set dz := arr x 2 * arr x 5 with hdz
  set dd : ℕ → ℝ := fun k => s.C (k * 3 + 0) * dx + s.C (k * 3 + 1) * dy + s.C (k * 3 + 2) * dz with hdd
  set D : ℕ → List ℝ := fun k => if dd k > 0 then
    [dx * s.N k * dd k ^ (s.N k - 1), dy * s.N k * dd k ^ (s.N k - 1), dz * s.N k * dd k ^ (s.N k - 1),
      if dd k ≤ 0 then 0 else log (dd k) * dd k ^ s.N k] else [0, 0, 0, 0] with hD
  have hJ : lafortuneCls.jac s x = some (blocks s.par.dimY fun i => blocks (s.n * s.par.dimY) fun k =>
      if i = k % s.par.dimY then D k else [0, 0, 0, 0]) := by
    simp only [lafortuneCls, Option.some.injEq]
    refine blocks_congr _ _ _ fun i hi => ?_
    rw [← blocks_blocks]
    refine blocks_congr _ _ _ fun n _ => blocks_congr _ _ _ fun j hj => ?_
    rw [Nat.mul_add_mod_self_right, Nat.mod_eq_of_lt hj]
    by_cases hij : i = j
    · simp only [hij, true_and, if_true, hD, hdd]; rfl
    · simp only [hij, false_and, if_false]
  have hl : ∀ i, ∀ k < s.n * s.par.dimY, (if i = k % s.par.dimY then D k else [0, 0, 0, 0]).length = 4 := by
    intro i k _
    simp only [hD]
    split
    · split <;> rfl
    · rfl
  have hrow : ∀ i < s.par.dimY, (blocks (s.n * s.par.dimY) fun k =>
      if i = k % s.par.dimY then D k else [0, 0, 0, 0]).length = s.n * s.par.dimY * 4 :=
    fun i _ => blocks_length _ 4 _ (hl i)
  have hget := lafortune_get s
  refine blocks_jacobian lafortuneCls lafortune_lawful s x 4 (s.n * s.par.dimY) (by norm_num)
    (by simp only [lafortuneCls]; ring) (fun y => lobesOf s.n s.par.dimY y)
    (fun y hy b hb => lobesOf_lt hy hb)
    (fun q => if q 0 * dx + q 1 * dy + q 2 * dz > 0 then (q 0 * dx + q 1 * dy + q 2 * dz) ^ q 3 else 0)
    (fun b a => arr (D b) a) s.kd
    (fun q r h => by simp only [h 0 (by norm_num), h 1 (by norm_num), h 2 (by norm_num), h 3 (by norm_num)])
    (fun p _ => lafortune_set_value s x p) _ hJ (blocks_length _ _ _ hrow) ?_ ?_
  · intro y hy b hb a ha
    have hy' : y < s.par.dimY := hy
    have hlt : b * 4 + a < s.n * s.par.dimY * 4 := by omega
    rw [arr_blocks _ _ _ hrow y _ hy hlt, arr_blocks _ 4 _ (hl y) b a hb ha]
    by_cases hm : y = b % s.par.dimY
    · rw [if_pos ((mem_lobesOf hy' hb).mpr hm), if_pos hm]
    · rw [if_neg (fun e => hm ((mem_lobesOf hy' hb).mp e)), if_neg hm]
      interval_cases a <;> rfl
  · intro y hy b hb a ha
    have hbM := lobesOf_lt hy hb
    have g0 : arr (lafortuneCls.get s) (b * 4 + 0) = s.C (b * 3 + 0) := by
      rw [hget]; exact arr_blocks _ 4 _ (fun _ _ => rfl) b 0 hbM (by norm_num)
    have g1 : arr (lafortuneCls.get s) (b * 4 + 1) = s.C (b * 3 + 1) := by
      rw [hget]; exact arr_blocks _ 4 _ (fun _ _ => rfl) b 1 hbM (by norm_num)
    have g2 : arr (lafortuneCls.get s) (b * 4 + 2) = s.C (b * 3 + 2) := by
      rw [hget]; exact arr_blocks _ 4 _ (fun _ _ => rfl) b 2 hbM (by norm_num)
    have g3 : arr (lafortuneCls.get s) (b * 4 + 3) = s.N b := by
      rw [hget]; exact arr_blocks _ 4 _ (fun _ _ => rfl) b 3 hbM (by norm_num)
    have hb0 : dd b ≠ 0 := h b hbM
    have up : ∀ (q : ℕ → ℝ) (i j : ℕ) (t : ℝ), i ≠ j → Function.update q i t j = q j :=
      fun q i j t hij => Function.update_of_ne (fun e => hij e.symm) _ _
    interval_cases a
    · simp only [Function.update_self, up _ 0 1 _ (by norm_num), up _ 0 2 _ (by norm_num),
        up _ 0 3 _ (by norm_num), g0, g1, g2, g3]
      have hu : HasDerivAt (fun t => t * dx + s.C (b * 3 + 1) * dy + s.C (b * 3 + 2) * dz) dx (s.C (b * 3 + 0)) := by
        simpa using (((hasDerivAt_id (s.C (b * 3 + 0))).mul_const dx).add_const (s.C (b * 3 + 1) * dy)).add_const
          (s.C (b * 3 + 2) * dz)
      refine (power_lobe_deriv _ _ _ (s.N b) hu hb0).congr_deriv ?_
      simp only [hD, hdd]; split <;> simp [arr]
    · simp only [Function.update_self, up _ 1 0 _ (by norm_num), up _ 1 2 _ (by norm_num),
        up _ 1 3 _ (by norm_num), g0, g1, g2, g3]
      have hu : HasDerivAt (fun t => s.C (b * 3 + 0) * dx + t * dy + s.C (b * 3 + 2) * dz) dy (s.C (b * 3 + 1)) := by
        simpa using (((hasDerivAt_id (s.C (b * 3 + 1))).mul_const dy).const_add (s.C (b * 3 + 0) * dx)).add_const
          (s.C (b * 3 + 2) * dz)
      refine (power_lobe_deriv _ _ _ (s.N b) hu hb0).congr_deriv ?_
      simp only [hD, hdd]; split <;> simp [arr]
    · simp only [Function.update_self, up _ 2 0 _ (by norm_num), up _ 2 1 _ (by norm_num),
        up _ 2 3 _ (by norm_num), g0, g1, g2, g3]
      have hu : HasDerivAt (fun t => s.C (b * 3 + 0) * dx + s.C (b * 3 + 1) * dy + t * dz) dz (s.C (b * 3 + 2)) := by
        simpa using ((hasDerivAt_id (s.C (b * 3 + 2))).mul_const dz).const_add
          (s.C (b * 3 + 0) * dx + s.C (b * 3 + 1) * dy)
      refine (power_lobe_deriv _ _ _ (s.N b) hu hb0).congr_deriv ?_
      simp only [hD, hdd]; split <;> simp [arr]
    · simp only [Function.update_self, up _ 3 0 _ (by norm_num), up _ 3 1 _ (by norm_num),
        up _ 3 2 _ (by norm_num), g0, g1, g2, g3]
      refine (exponent_lobe_deriv _ _).congr_deriv ?_
      simp only [hD, hdd]; split <;> simp [arr]

/-- two lobes, three channels, a configuration with positive cosines -/
example : (Fn.leaf lafortuneCls ⟨⟨6, 3, .CARTESIAN, .RGB_COLOR⟩, 2, fun _ => 1, fun _ => 10, fun _ => 0⟩).IsJacobianAt
    [0, 0, 1, 0, 0, 1] := lafortune_jacobian_partial _ _ (fun k _ => by simp [arr])

end
end Alta
