import Verif.Props.LobesJac
import Verif.Proofs.Half
import Verif.Proofs.Trig
import Mathlib.Tactic.Positivity
import Mathlib.Tactic.NormNum
/-
C40: the plugins whose Jacobian is not the derivative of the value: what is right in it, what the
derivative is, and counterexamples.
-/
namespace Alta
noncomputable section
open Real

/-! ### Beckmann -/

/-- the derivative of a Beckmann lobe with respect to the roughness -/
def beckmannDa (ks a d : ℝ) : ℝ :=
  -(ks * exp ((d * d - 1) / ((a * a) * (d * d))) / (2 * π * a ^ 3 * d ^ 4)) * (1 + (d * d - 1) / (a * a * (d * d)))

theorem beckmannLobe_ks (ks a d : ℝ) :
    HasDerivAt (fun t => beckmannLobe t a d) (arr (beckmannDeriv ks a d) 0) ks := by
  unfold beckmannLobe beckmannDeriv
  have := ((hasDerivAt_id ks).div_const (4 * π * (a * a) * (d * d) * (d * d))).mul_const
    (exp ((d * d - 1) / ((a * a) * (d * d))))
  refine this.congr_deriv ?_
  simp only [arr, List.getD_cons_zero]
  ring

theorem beckmannLobe_a (ks a d : ℝ) (ha : a ≠ 0) (hd : d ≠ 0) :
    HasDerivAt (fun t => beckmannLobe ks t d) (beckmannDa ks a d) a := by
  unfold beckmannLobe beckmannDa
  have hpi : π ≠ 0 := pi_ne_zero
  have h2 : HasDerivAt (fun t : ℝ => t * t) (2 * a) a := by
    refine ((hasDerivAt_id a).fun_mul (hasDerivAt_id a)).congr_deriv ?_
    simp only [id]; ring
  have h3 := ((h2.const_mul (4 * π)).mul_const (d * d)).mul_const (d * d)
  have h4 := (hasDerivAt_const a ks).fun_div h3 (by positivity)
  have h5 := ((hasDerivAt_const a (d * d - 1)).fun_div (h2.mul_const (d * d)) (by positivity)).exp
  refine (h4.fun_mul h5).congr_deriv ?_
  generalize exp ((d * d - 1) / (a * a * (d * d))) = E
  field_simp
  ring

/-- The column of the roughness in the plugin is `d³` times the derivative. -/
theorem beckmannDeriv_a (ks a d : ℝ) (ha : a ≠ 0) (hd : d ≠ 0) :
    arr (beckmannDeriv ks a d) 1 = d ^ 3 * beckmannDa ks a d := by
  have hpi : π ≠ 0 := pi_ne_zero
  simp only [beckmannDeriv, beckmannDa, arr, List.getD_cons_succ, List.getD_cons_zero]
  generalize exp ((d * d - 1) / (a * a * (d * d))) = E
  field_simp
  ring

theorem beckmann_set_value (s : BeckmannS) (x h : List ℝ) (hh : vhOf x = some h) (p : List ℝ) :
    ∃ v, beckmannCls.value (beckmannCls.set s p) x = some v ∧
      ∀ y < s.par.dimY, arr v y =
        if arr h 2 > 0 ∧ arr x 2 * arr x 5 > 0 then
          beckmannLobe (arr p (y * 2 + 0)) (arr p (y * 2 + 1)) (arr h 2) else 0 := by
  refine ⟨_, by simp only [beckmannCls]; rw [hh]; rfl, fun y hy => (arr_map_range s.par.dimY _ y hy).trans ?_⟩
  simp only [readInto, if_pos hy]

theorem beckmann_jac_eq (s : BeckmannS) (x h : List ℝ) (hh : vhOf x = some h) :
    beckmannCls.jac s x = some (blocks s.par.dimY fun i => blocks s.par.dimY fun j =>
      if i = j then (if arr h 2 > 0 ∧ arr x 2 * arr x 5 > 0 then
        beckmannDeriv (s.ks j) (s.a j) (arr h 2) else [0, 0]) else [0, 0]) := by
  simp only [beckmannCls, hh, Option.map_some, Option.some.injEq]
  refine blocks_congr _ _ _ fun i _ => blocks_congr _ _ _ fun j _ => ?_
  by_cases hij : i = j
  · subst hij; simp
  · simp [hij]

/-- C40 (Beckmann).  Each entry of the Jacobian of the plugin: the columns of `ks` are the
    derivatives of the value; the columns of the roughness are the derivatives multiplied by the
    cube of the cosine of the half vector. -/
theorem beckmann_jacobian_columns (s : BeckmannS) (x h : List ℝ) (hh : vhOf x = some h)
    (ha : ∀ y < s.par.dimY, s.a y ≠ 0) :
    ∃ j, beckmannCls.jac s x = some j ∧ j.length = s.par.dimY * beckmannCls.nb s ∧
      ∀ y < s.par.dimY, ∀ z < s.par.dimY, ∀ a < 2, ∃ D,
        HasDerivAt (fun t => ((Fn.leaf beckmannCls s).set
          ((Fn.leaf beckmannCls s).params.set (z * 2 + a) t)).valueAt x y) D
          (arr (Fn.leaf beckmannCls s).params (z * 2 + a)) ∧
        arr j (y * beckmannCls.nb s + (z * 2 + a)) = (if a = 1 then arr h 2 ^ 3 else 1) * D := by
  have hDl : ∀ i < s.par.dimY, (if arr h 2 > 0 ∧ arr x 2 * arr x 5 > 0 then
      beckmannDeriv (s.ks i) (s.a i) (arr h 2) else [0, 0]).length = 2 := by
    intro i _; split <;> rfl
  refine ⟨_, beckmann_jac_eq s x h hh, ?_, ?_⟩
  · rw [blocks_length _ (s.par.dimY * 2) _ fun i _ => blocks_length _ 2 _ fun j hj => by
      split
      · exact hDl j hj
      · rfl]
    simp only [beckmannCls]; ring
  intro y hy z hz a ha2
  have g0 : arr (beckmannCls.get s) (z * 2 + 0) = s.ks z := arr_blocks _ 2 _ (fun _ _ => rfl) z 0 hz (by norm_num)
  have g1 : arr (beckmannCls.get s) (z * 2 + 1) = s.a z := arr_blocks _ 2 _ (fun _ _ => rfl) z 1 hz (by norm_num)
  have hD := diag_derivative_all beckmannCls beckmann_lawful s x 2 rfl
    (fun q => if arr h 2 > 0 ∧ arr x 2 * arr x 5 > 0 then beckmannLobe (q 0) (q 1) (arr h 2) else 0)
    (fun q r h => by simp only [h 0 (by norm_num), h 1 (by norm_num)])
    (fun p _ => beckmann_set_value s x h hh p) y hy z hz a ha2
  have hE := diag_entry s.par.dimY 2 (fun i => if arr h 2 > 0 ∧ arr x 2 * arr x 5 > 0 then
      beckmannDeriv (s.ks i) (s.a i) (arr h 2) else [0, 0]) [0, 0] rfl hDl y z a hy hz ha2
  rw [show beckmannCls.nb s = 2 * s.par.dimY from rfl, hE]
  by_cases hg : arr h 2 > 0 ∧ arr x 2 * arr x 5 > 0
  · simp only [if_pos hg] at hD ⊢
    interval_cases a
    · refine ⟨_, hD (arr (beckmannDeriv (s.ks z) (s.a z) (arr h 2)) 0) ?_, by simp⟩
      simp only [Function.update_self, ne_eq, one_ne_zero, not_false_eq_true, Function.update_of_ne, g0, g1]
      exact beckmannLobe_ks _ _ _
    · refine ⟨_, hD (beckmannDa (s.ks z) (s.a z) (arr h 2)) ?_, ?_⟩
      · simp only [Function.update_self, ne_eq, zero_ne_one, not_false_eq_true, Function.update_of_ne, g0, g1]
        exact beckmannLobe_a _ _ _ (ha z hz) hg.1.ne'
      · rw [beckmannDeriv_a _ _ _ (ha z hz) hg.1.ne']
        split <;> simp
  · simp only [if_neg hg] at hD ⊢
    refine ⟨_, hD 0 (hasDerivAt_const _ _), ?_⟩
    interval_cases a <;> simp [arr]

/-- C40 (Beckmann, right for a half vector along the normal or outside the hemisphere). -/
theorem beckmann_jacobian_partial (s : BeckmannS) (x h : List ℝ) (hh : vhOf x = some h)
    (ha : ∀ y < s.par.dimY, s.a y ≠ 0)
    (h1 : arr h 2 = 1 ∨ arr h 2 ≤ 0 ∨ arr x 2 * arr x 5 ≤ 0) : (Fn.leaf beckmannCls s).IsJacobianAt x := by
  obtain ⟨j, hj, hl, he⟩ := beckmann_jacobian_columns s x h hh ha
  refine ⟨j, hj, fun _ => hl, fun y hy i hi => ?_⟩
  obtain ⟨e, hm⟩ := split_index (K := 2) (i := i) (by norm_num)
  have hz : i / 2 < s.par.dimY := block_lt (by
    have : i < 2 * s.par.dimY := hi
    omega)
  obtain ⟨D, hD, hE⟩ := he y hy _ hz _ hm
  rw [← e] at hD hE
  have : arr j (y * beckmannCls.nb s + i) = D := by
    rw [hE]
    rcases h1 with h1 | h1
    · simp [h1]
    · have hg : ¬ (arr h 2 > 0 ∧ arr x 2 * arr x 5 > 0) := by
        rintro ⟨u, v⟩; rcases h1 with h1 | h1 <;> linarith
      have h0 : arr j (y * beckmannCls.nb s + i) = 0 := by
        rw [beckmann_jac_eq s x h hh] at hj
        cases hj
        simp only [if_neg hg, ite_self]
        have hE := diag_entry s.par.dimY 2 (fun i => [0, 0]) [0, 0] rfl (fun _ _ => rfl) y (i / 2) (i % 2) hy hz hm
        rw [← e] at hE
        simp only [ite_self] at hE
        rw [show beckmannCls.nb s = 2 * s.par.dimY from rfl, hE]
        have : arr [(0:ℝ), 0] (i % 2) = 0 := by
          have : i % 2 = 0 ∨ i % 2 = 1 := by omega
          rcases this with h | h <;> simp [arr, h]
        rw [this, ite_self]
      have hv : (fun t => ((Fn.leaf beckmannCls s).set
          ((Fn.leaf beckmannCls s).params.set i t)).valueAt x y) = fun _ => 0 := by
        funext t
        obtain ⟨v, e1, e2⟩ := beckmann_set_value s x h hh ((Fn.leaf beckmannCls s).params.set i t)
        rw [Fn.valueAt_eq ((Fn.leaf beckmannCls s).set ((Fn.leaf beckmannCls s).params.set i t)) x v e1,
          e2 y hy, if_neg hg]
      rw [hv] at hD
      have hD0 : D = 0 := hD.unique (hasDerivAt_const _ _)
      rw [← hE, h0, hD0]
  have hnb : (Fn.leaf beckmannCls s).nb = beckmannCls.nb s := rfl
  rw [hnb, this]
  exact hD

/-- C40 (Beckmann, limit).  Anywhere else the Jacobian is wrong, unless the derivative is zero. -/
theorem beckmann_jacobian_wrong (s : BeckmannS) (x h : List ℝ) (hh : vhOf x = some h)
    (h0 : 0 < arr h 2) (h1 : arr h 2 < 1) (hx : 0 < arr x 2 * arr x 5) (y : ℕ) (hy : y < s.par.dimY)
    (hks : s.ks y ≠ 0) (ha : s.a y ≠ 0)
    (hz : s.a y ^ 2 * arr h 2 ^ 2 ≠ 1 - arr h 2 ^ 2) : ¬ (Fn.leaf beckmannCls s).IsJacobianAt x := by
  have hg : arr h 2 > 0 ∧ arr x 2 * arr x 5 > 0 := ⟨h0, hx⟩
  have g0 : arr (beckmannCls.get s) (y * 2 + 0) = s.ks y := arr_blocks _ 2 _ (fun _ _ => rfl) y 0 hy (by norm_num)
  have g1 : arr (beckmannCls.get s) (y * 2 + 1) = s.a y := arr_blocks _ 2 _ (fun _ _ => rfl) y 1 hy (by norm_num)
  have hD := diag_derivative beckmannCls beckmann_lawful s x 2 rfl
    (fun q => if arr h 2 > 0 ∧ arr x 2 * arr x 5 > 0 then beckmannLobe (q 0) (q 1) (arr h 2) else 0)
    (fun q r h => by simp only [h 0 (by norm_num), h 1 (by norm_num)])
    (fun p _ => beckmann_set_value s x h hh p) y hy 1 (by norm_num) (beckmannDa (s.ks y) (s.a y) (arr h 2)) (by
      simp only [if_pos hg, Function.update_self, ne_eq, zero_ne_one, not_false_eq_true,
        Function.update_of_ne, g0, g1]
      exact beckmannLobe_a _ _ _ ha h0.ne')
  refine not_jacobian _ x _ (beckmann_jac_eq s x h hh) y _ hy ?_ _ hD ?_
  · show y * 2 + 1 < 2 * s.par.dimY
    omega
  · refine ne_of_eq_of_ne (diag_entry s.par.dimY 2 _ [0, 0] rfl (fun i _ => by split <;> rfl) y y 1 hy hy (by norm_num)) ?_
    rw [if_pos rfl, if_pos hg, beckmannDeriv_a _ _ _ ha h0.ne']
    have hne : beckmannDa (s.ks y) (s.a y) (arr h 2) ≠ 0 := by
      unfold beckmannDa
      have hpi : π ≠ 0 := pi_ne_zero
      have hE := (exp_pos ((arr h 2 * arr h 2 - 1) / (s.a y * s.a y * (arr h 2 * arr h 2)))).ne'
      have h3 : (1 + (arr h 2 * arr h 2 - 1) / (s.a y * s.a y * (arr h 2 * arr h 2))) ≠ 0 := by
        have hne : s.a y * s.a y * (arr h 2 * arr h 2) ≠ 0 := by positivity
        intro hc
        field_simp at hc
        apply hz
        linarith
      refine mul_ne_zero (neg_ne_zero.mpr (div_ne_zero (mul_ne_zero hks hE) (by positivity))) h3
    have h3 : arr h 2 ^ 3 < 1 := pow_lt_one₀ h0.le h1 (by norm_num)
    intro hc
    have : (arr h 2 ^ 3 - 1) * beckmannDa (s.ks y) (s.a y) (arr h 2) = 0 := by rw [sub_mul, hc]; ring
    rcases mul_eq_zero.mp this with h4 | h4
    · linarith
    · exact hne h4

/-! ### Retro Beckmann -/

theorem retrobeckmann_set_value (s : RetroBeckmannS) (x : List ℝ) (d : ℝ) (hh : retroDot s.useBack x = some d) (p : List ℝ) :
    ∃ v, retrobeckmannCls.value (retrobeckmannCls.set s p) x = some v ∧
      ∀ y < s.par.dimY, arr v y =
        if d > 0 then
          beckmannLobe (arr p (y * 2 + 0)) (arr p (y * 2 + 1)) (d) else 0 := by
  refine ⟨_, by simp only [retrobeckmannCls]; rw [hh]; rfl, fun y hy => (arr_map_range s.par.dimY _ y hy).trans ?_⟩
  simp only [readInto, if_pos hy]

theorem retrobeckmann_jac_eq (s : RetroBeckmannS) (x : List ℝ) (d : ℝ) (hh : retroDot s.useBack x = some d) :
    retrobeckmannCls.jac s x = some (blocks s.par.dimY fun i => blocks s.par.dimY fun j =>
      if i = j then (if d > 0 then
        beckmannDeriv (s.ks j) (s.a j) (d) else [0, 0]) else [0, 0]) := by
  simp only [retrobeckmannCls, hh, Option.map_some, Option.some.injEq]
  refine blocks_congr _ _ _ fun i _ => blocks_congr _ _ _ fun j _ => ?_
  by_cases hij : i = j
  · subst hij; simp
  · simp [hij]

/-- C40 (retro Beckmann).  Each entry of the Jacobian of the plugin: the columns of `ks` are the
    derivatives of the value; the columns of the roughness are the derivatives multiplied by the
    cube of the cosine. -/
theorem retrobeckmann_jacobian_columns (s : RetroBeckmannS) (x : List ℝ) (d : ℝ) (hh : retroDot s.useBack x = some d)
    (ha : ∀ y < s.par.dimY, s.a y ≠ 0) :
    ∃ j, retrobeckmannCls.jac s x = some j ∧ j.length = s.par.dimY * retrobeckmannCls.nb s ∧
      ∀ y < s.par.dimY, ∀ z < s.par.dimY, ∀ a < 2, ∃ D,
        HasDerivAt (fun t => ((Fn.leaf retrobeckmannCls s).set
          ((Fn.leaf retrobeckmannCls s).params.set (z * 2 + a) t)).valueAt x y) D
          (arr (Fn.leaf retrobeckmannCls s).params (z * 2 + a)) ∧
        arr j (y * retrobeckmannCls.nb s + (z * 2 + a)) = (if a = 1 then d ^ 3 else 1) * D := by
  have hDl : ∀ i < s.par.dimY, (if d > 0 then
      beckmannDeriv (s.ks i) (s.a i) (d) else [0, 0]).length = 2 := by
    intro i _; split <;> rfl
  refine ⟨_, retrobeckmann_jac_eq s x d hh, ?_, ?_⟩
  · rw [blocks_length _ (s.par.dimY * 2) _ fun i _ => blocks_length _ 2 _ fun j hj => by
      split
      · exact hDl j hj
      · rfl]
    simp only [retrobeckmannCls]; ring
  intro y hy z hz a ha2
  have g0 : arr (retrobeckmannCls.get s) (z * 2 + 0) = s.ks z := arr_blocks _ 2 _ (fun _ _ => rfl) z 0 hz (by norm_num)
  have g1 : arr (retrobeckmannCls.get s) (z * 2 + 1) = s.a z := arr_blocks _ 2 _ (fun _ _ => rfl) z 1 hz (by norm_num)
  have hD := diag_derivative_all retrobeckmannCls retrobeckmann_lawful s x 2 rfl
    (fun q => if d > 0 then beckmannLobe (q 0) (q 1) (d) else 0)
    (fun q r h => by simp only [h 0 (by norm_num), h 1 (by norm_num)])
    (fun p _ => retrobeckmann_set_value s x d hh p) y hy z hz a ha2
  have hE := diag_entry s.par.dimY 2 (fun i => if d > 0 then
      beckmannDeriv (s.ks i) (s.a i) (d) else [0, 0]) [0, 0] rfl hDl y z a hy hz ha2
  rw [show retrobeckmannCls.nb s = 2 * s.par.dimY from rfl, hE]
  by_cases hg : d > 0
  · simp only [if_pos hg] at hD ⊢
    interval_cases a
    · refine ⟨_, hD (arr (beckmannDeriv (s.ks z) (s.a z) (d)) 0) ?_, by simp⟩
      simp only [Function.update_self, ne_eq, one_ne_zero, not_false_eq_true, Function.update_of_ne, g0, g1]
      exact beckmannLobe_ks _ _ _
    · refine ⟨_, hD (beckmannDa (s.ks z) (s.a z) (d)) ?_, ?_⟩
      · simp only [Function.update_self, ne_eq, zero_ne_one, not_false_eq_true, Function.update_of_ne, g0, g1]
        exact beckmannLobe_a _ _ _ (ha z hz) hg.ne'
      · rw [beckmannDeriv_a _ _ _ (ha z hz) hg.ne']
        split <;> simp
  · simp only [if_neg hg] at hD ⊢
    refine ⟨_, hD 0 (hasDerivAt_const _ _), ?_⟩
    interval_cases a <;> simp [arr]

/-- C40 (retro Beckmann, limit).  The cosine between the two directions is computed with `x[2] x[4]`
    in the place of `x[1] x[4]`: for a light direction equal to the view direction it is not 1. -/
theorem retroDot_wrong : retroDot false [0, 3 / 5, 4 / 5, 0, 3 / 5, 4 / 5] ≠ some 1 := by
  norm_num [retroDot, arr]

/-! ### Ward -/

theorem ward_set_value (s : WardS) (x h : List ℝ) (hh : vhOf x = some h) (p : List ℝ) :
    ∃ v, wardCls.value (wardCls.set s p) x = some v ∧
      ∀ y < s.par.dimY, arr v y =
        if arr x 2 * arr x 5 > 0 then
          wardLobe (arr p (y * 3 + 0)) (arr p (y * 3 + 1)) (arr p (y * 3 + 2)) h (arr x 2 * arr x 5) else 0 := by
  refine ⟨_, by simp only [wardCls]; rw [hh]; rfl, fun y hy => (arr_map_range s.par.dimY _ y hy).trans ?_⟩
  simp only [readInto, if_pos hy]

theorem ward_jac_eq (s : WardS) (x h : List ℝ) (hh : vhOf x = some h) :
    wardCls.jac s x = some (blocks s.par.dimY fun i => blocks s.par.dimY fun j =>
      if i = j then (if arr x 2 * arr x 5 > 0 then
        wardDeriv (s.ks j) (s.ax j) (s.ay j) h (arr x 2 * arr x 5) else [0, 0, 0]) else [0, 0, 0]) := by
  simp only [wardCls, hh, Option.map_some, Option.some.injEq]
  refine blocks_congr _ _ _ fun i _ => blocks_congr _ _ _ fun j _ => ?_
  by_cases hij : i = j
  · subst hij; simp
  · simp [hij]

/-- the Gaussian of a Ward lobe -/
def wardGauss (ax ay : ℝ) (h : List ℝ) : ℝ :=
  exp (-(((arr h 0 / ax) * (arr h 0 / ax) + (arr h 1 / ay) * (arr h 1 / ay)) / (arr h 2 * arr h 2)))

theorem wardLobe_ks (ks ax ay : ℝ) (h : List ℝ) (c : ℝ) :
    HasDerivAt (fun t => wardLobe t ax ay h c) (arr (wardDeriv ks ax ay h c) 0) ks := by
  unfold wardLobe wardDeriv
  have := ((hasDerivAt_id ks).div_const (4 * π * ax * ay * √c)).mul_const
    (exp (-(((arr h 0 / ax) * (arr h 0 / ax) + (arr h 1 / ay) * (arr h 1 / ay)) / (arr h 2 * arr h 2))))
  refine this.congr_deriv ?_
  simp only [arr, List.getD_cons_zero, neg_div]

/-- the derivative of a Ward lobe with respect to the first roughness -/
theorem wardLobe_ax (ks ax ay : ℝ) (h : List ℝ) (c : ℝ) (hax : ax ≠ 0) (hay : ay ≠ 0) (hc : 0 < c)
    (hz : arr h 2 ≠ 0) :
    HasDerivAt (fun t => wardLobe ks t ay h c)
      (ks / (4 * π * ax * ay * √c) * (1 / ax) * (2 * (arr h 0 / ax) ^ 2 / arr h 2 ^ 2 - 1) * wardGauss ax ay h) ax := by
  unfold wardLobe wardGauss
  have hpi : π ≠ 0 := pi_ne_zero
  have hsc : √c ≠ 0 := (sqrt_pos.mpr hc).ne'
  have h1 : HasDerivAt (fun t : ℝ => 4 * π * t * ay * √c) (4 * π * ay * √c) ax := by
    refine ((((hasDerivAt_id ax).const_mul (4 * π)).mul_const ay).mul_const (√c)).congr_deriv ?_
    ring
  have h2 := (hasDerivAt_const ax ks).fun_div h1 (by positivity)
  have h3 := (hasDerivAt_const ax (arr h 0)).fun_div (hasDerivAt_id ax) hax
  have h4 := ((((h3.fun_mul h3).add_const ((arr h 1 / ay) * (arr h 1 / ay))).div_const (arr h 2 * arr h 2)).fun_neg).exp
  refine (h2.fun_mul h4).congr_deriv ?_
  simp only [id]
  generalize exp (-((arr h 0 / ax * (arr h 0 / ax) + arr h 1 / ay * (arr h 1 / ay)) / (arr h 2 * arr h 2))) = E
  field_simp
  ring

/-- C40 (Ward).  The columns of `ks` are right; the entry of channel `y` for the first roughness
    and the true derivative. -/
theorem ward_jacobian_columns (s : WardS) (x h : List ℝ) (hh : vhOf x = some h) (hx : 0 < arr x 2 * arr x 5)
    (hz : arr h 2 ≠ 0) (y : ℕ) (hy : y < s.par.dimY) (hax : s.ax y ≠ 0) (hay : s.ay y ≠ 0) :
    ∃ j, wardCls.jac s x = some j ∧
      (∀ z < s.par.dimY, HasDerivAt (fun t => ((Fn.leaf wardCls s).set
          ((Fn.leaf wardCls s).params.set (z * 3 + 0) t)).valueAt x y) (arr j (y * wardCls.nb s + (z * 3 + 0)))
          (arr (Fn.leaf wardCls s).params (z * 3 + 0))) ∧
      HasDerivAt (fun t => ((Fn.leaf wardCls s).set
          ((Fn.leaf wardCls s).params.set (y * 3 + 1) t)).valueAt x y)
          (s.ks y / (4 * π * s.ax y * s.ay y * √(arr x 2 * arr x 5)) * (1 / s.ax y) *
            (2 * (arr h 0 / s.ax y) ^ 2 / arr h 2 ^ 2 - 1) * wardGauss (s.ax y) (s.ay y) h)
          (arr (Fn.leaf wardCls s).params (y * 3 + 1)) ∧
      arr j (y * wardCls.nb s + (y * 3 + 1)) =
        s.ks y / (4 * π * s.ax y * s.ay y * √(arr x 2 * arr x 5)) * (1 / s.ax y) *
          (2 * (arr h 0) ^ 2 / s.ax y / arr h 2 * wardGauss (s.ax y) (s.ay y) h - 1) := by
  have hD := diag_derivative_all wardCls ward_lawful s x 3 rfl
    (fun q => if arr x 2 * arr x 5 > 0 then wardLobe (q 0) (q 1) (q 2) h (arr x 2 * arr x 5) else 0)
    (fun q r h => by simp only [h 0 (by norm_num), h 1 (by norm_num), h 2 (by norm_num)])
    (fun p _ => ward_set_value s x h hh p) y hy
  have hE := diag_entry s.par.dimY 3 (fun j => if arr x 2 * arr x 5 > 0 then
        wardDeriv (s.ks j) (s.ax j) (s.ay j) h (arr x 2 * arr x 5) else [0, 0, 0]) [0, 0, 0] rfl
        (fun i _ => by split <;> rfl) y
  have up : ∀ (q : ℕ → ℝ) (i j : ℕ) (t : ℝ), i ≠ j → Function.update q i t j = q j :=
    fun q i j t hij => Function.update_of_ne (fun e => hij e.symm) _ _
  have g : ∀ z < s.par.dimY, arr (wardCls.get s) (z * 3 + 0) = s.ks z ∧
      arr (wardCls.get s) (z * 3 + 1) = s.ax z ∧ arr (wardCls.get s) (z * 3 + 2) = s.ay z := fun z hz =>
    ⟨arr_blocks _ 3 _ (fun _ _ => rfl) z 0 hz (by norm_num), arr_blocks _ 3 _ (fun _ _ => rfl) z 1 hz (by norm_num),
      arr_blocks _ 3 _ (fun _ _ => rfl) z 2 hz (by norm_num)⟩
  have hx' : arr x 2 * arr x 5 > 0 := hx
  refine ⟨_, ward_jac_eq s x h hh, fun z hz => ?_, ?_, ?_⟩
  · rw [show wardCls.nb s = 3 * s.par.dimY from rfl, hE z 0 hy hz (by norm_num)]
    apply hD z hz 0 (by norm_num)
    obtain ⟨g0, g1, g2⟩ := g z hz
    simp only [if_pos hx', Function.update_self, up _ 0 1 _ (by norm_num), up _ 0 2 _ (by norm_num), g0, g1, g2]
    exact wardLobe_ks _ _ _ _ _
  · obtain ⟨g0, g1, g2⟩ := g y hy
    have := hD y hy 1 (by norm_num) (s.ks y / (4 * π * s.ax y * s.ay y * √(arr x 2 * arr x 5)) * (1 / s.ax y) *
            (2 * (arr h 0 / s.ax y) ^ 2 / arr h 2 ^ 2 - 1) * wardGauss (s.ax y) (s.ay y) h) (by
      simp only [if_pos hx', Function.update_self, up _ 1 0 _ (by norm_num), up _ 1 2 _ (by norm_num), g0, g1, g2]
      exact wardLobe_ax _ _ _ _ _ hax hay hx hz)
    rwa [if_pos rfl] at this
  · rw [show wardCls.nb s = 3 * s.par.dimY from rfl, hE y 1 hy hy (by norm_num), if_pos rfl, if_pos hx']
    have hg : wardGauss (s.ax y) (s.ay y) h = exp (-((arr h 0 / s.ax y) * (arr h 0 / s.ax y) +
      (arr h 1 / s.ay y) * (arr h 1 / s.ay y)) / (arr h 2 * arr h 2)) := by unfold wardGauss; rw [neg_div]
    rw [hg]
    simp only [wardDeriv]
    show (_ : ℝ) = _
    simp only [arr, List.getD_cons_succ, List.getD_cons_zero]
    ring

/-- C40 (Ward, limit).  For a half vector tilted along the second axis the Jacobian is wrong: the
    Gaussian is missing in the derivative with respect to the first roughness. -/
theorem ward_jacobian_wrong (s : WardS) (x h : List ℝ) (hh : vhOf x = some h) (hx : 0 < arr x 2 * arr x 5)
    (hz : arr h 2 ≠ 0) (h0 : arr h 0 = 0) (h1 : arr h 1 ≠ 0) (y : ℕ) (hy : y < s.par.dimY)
    (hax : s.ax y ≠ 0) (hay : s.ay y ≠ 0) (hks : s.ks y ≠ 0) : ¬ (Fn.leaf wardCls s).IsJacobianAt x := by
  obtain ⟨j, hj, _, hD, hE⟩ := ward_jacobian_columns s x h hh hx hz y hy hax hay
  refine not_jacobian _ x j hj y _ hy ?_ _ hD ?_
  · show y * 3 + 1 < 3 * s.par.dimY
    omega
  · have hnb : (Fn.leaf wardCls s).nb = wardCls.nb s := rfl
    rw [hnb, hE, h0]
    have hpi : π ≠ 0 := pi_ne_zero
    have hsc : √(arr x 2 * arr x 5) ≠ 0 := (sqrt_pos.mpr hx).ne'
    have hk : s.ks y / (4 * π * s.ax y * s.ay y * √(arr x 2 * arr x 5)) * (1 / s.ax y) ≠ 0 := by positivity
    have hg : wardGauss (s.ax y) (s.ay y) h ≠ 1 := by
      unfold wardGauss
      rw [h0]
      have : 0 < (0 / s.ax y * (0 / s.ax y) + arr h 1 / s.ay y * (arr h 1 / s.ay y)) / (arr h 2 * arr h 2) := by
        have a1 := mul_self_pos.mpr (div_ne_zero h1 hay)
        have a2 := mul_self_pos.mpr hz
        simp only [zero_div, mul_zero, zero_add]
        exact div_pos a1 a2
      intro hc
      rw [exp_eq_one_iff] at hc
      linarith
    intro hc
    simp only [zero_div, ne_eq, OfNat.ofNat_ne_zero, not_false_eq_true, zero_pow, mul_zero, zero_sub,
      zero_mul] at hc
    rw [mul_assoc _ (-1 : ℝ)] at hc
    have := mul_left_cancel₀ hk hc
    exact hg (by linarith)

/-! ### ABC outside its domain -/

/-- C40 (ABC, limit).  For a negative cosine the value is zero whatever the parameters, but the
    Jacobian is not. -/
theorem abc_jacobian_outside (s : AbcS) (x : List ℝ) (hx : arr x 0 < 0) (hy : 0 < s.par.dimY)
    (hf : 0 < 1 + s.b 0 * (1 - arr x 0)) : ¬ (Fn.leaf abcCls s).IsJacobianAt x := by
  have hg : ¬ (1 - arr x 0 ≥ 0 ∧ 1 - arr x 0 ≤ 1) := fun h => by linarith [h.2]
  have hD := diag_derivative abcCls abc_lawful s x 3 rfl
    (fun q => if 1 - arr x 0 ≥ 0 ∧ 1 - arr x 0 ≤ 1 then q 0 / (1 + q 1 * (1 - arr x 0)) ^ q 2 else 0)
    (fun q r h => by simp only [h 0 (by norm_num), h 1 (by norm_num), h 2 (by norm_num)])
    (fun p _ => abc_set_value s x p) 0 hy 0 (by norm_num) 0 (by
      simp only [if_neg hg]; exact hasDerivAt_const _ _)
  refine not_jacobian _ x _ rfl 0 _ hy ?_ _ hD ?_
  · show 0 * 3 + 0 < 3 * s.par.dimY
    omega
  · have hl : ∀ i, ∀ j < s.par.dimY, (if i = j then
      let hn := 1 - arr x 0
      let f := 1 + s.b i * hn
      let fact := 1 / f ^ s.c i
      let fact2 := fact * fact
      [fact, -s.a i * hn * s.c i * f ^ (s.c i - 1) * fact2, if f > 0 then -s.a i * log f * fact else 0]
    else [0, 0, 0]).length = 3 := by intro i j _; split <;> rfl
    refine ne_of_eq_of_ne ((arr_blocks s.par.dimY (3 * s.par.dimY) _
      (fun i _ => (blocks_length _ 3 _ (hl i)).trans (mul_comm _ _)) 0
      (0 * 3 + 0) hy (by omega)).trans (arr_blocks _ 3 _ (hl 0) 0 0 hy (by norm_num))) ?_
    simp only [if_true, arr, List.getD_cons_zero]
    unfold arr at hf
    have := rpow_pos_of_pos hf (s.c 0)
    positivity

/-! ### Shifted gamma -/

/-- C40 (shifted gamma, limit).  The plugin does not compute its Jacobian: it is zero, but the
    derivative with respect to the diffuse albedo is `1/π`. -/
theorem sgd_jacobian_wrong (s : SgdS) (x : List ℝ) (hx : 0 ≤ arr x 2) (hy : 0 < s.par.dimY) :
    ¬ (Fn.leaf sgdCls s).IsJacobianAt x := by
  rintro ⟨j, hj, _, h⟩
  have hnb : (Fn.leaf sgdCls s).nb = 11 * s.par.dimY := rfl
  have hd := h 0 hy (8 * s.par.dimY) (by rw [hnb]; omega)
  have hj0 : arr j (0 * (Fn.leaf sgdCls s).nb + 8 * s.par.dimY) = 0 := by
    have hj' : some (List.replicate (s.par.dimY * (11 * s.par.dimY)) (0:ℝ)) = some j := hj
    cases hj'
    simp only [arr, List.getD, List.getElem?_replicate]
    split <;> rfl
  rw [hj0] at hd
  set P := (Fn.leaf sgdCls s).params with hP
  have hPl : P.length = 11 * s.par.dimY := by
    rw [hP, Fn.params_length (Fn.leaf sgdCls s) sgd_lawful]; rfl
  -- the value of the first channel is affine in that parameter
  obtain ⟨K, hK⟩ : ∃ K : ℝ, ∀ t, ((Fn.leaf sgdCls s).set (P.set (8 * s.par.dimY) t)).valueAt x 0 = onePi * t + K := by
    have hne : ∀ k, k ≠ 8 → ∀ t, arr (P.set (8 * s.par.dimY) t) (0 + k * s.par.dimY) = arr P (0 + k * s.par.dimY) := by
      intro k hk t
      apply arr_set_ne
      rw [zero_add]
      intro he
      exact hk (Nat.eq_of_mul_eq_mul_right hy he).symm
    have h8 : ∀ t, arr (P.set (8 * s.par.dimY) t) (0 + 8 * s.par.dimY) = t := by
      intro t
      rw [zero_add]
      exact arr_set_eq _ _ _ (by rw [hPl]; omega)
    have hlight : (if arr x 2 < 0 then (0:ℝ) else 1) = 1 := if_neg (not_lt.mpr hx)
    refine ⟨((Fn.leaf sgdCls s).set (P.set (8 * s.par.dimY) 0)).valueAt x 0, fun t => ?_⟩
    have hv : ∀ t, ((Fn.leaf sgdCls s).set (P.set (8 * s.par.dimY) t)).valueAt x 0 =
        sgdChannel (fun k => if k < 11 ∧ 0 < s.par.dimY then arr (P.set (8 * s.par.dimY) t) (0 + k * s.par.dimY)
          else s.v k 0) (if arr x 2 < 0 then 0 else 1)
          ((arr x 2 + arr x 5) / √((arr x 0 + arr x 3) * (arr x 0 + arr x 3) +
            (arr x 1 + arr x 4) * (arr x 1 + arr x 4) + (arr x 2 + arr x 5) * (arr x 2 + arr x 5)))
          (arr x 2) (arr x 5)
          ((arr x 3 * (arr x 0 + arr x 3) + arr x 4 * (arr x 1 + arr x 4) + arr x 5 * (arr x 2 + arr x 5)) /
            √((arr x 0 + arr x 3) * (arr x 0 + arr x 3) +
            (arr x 1 + arr x 4) * (arr x 1 + arr x 4) + (arr x 2 + arr x 5) * (arr x 2 + arr x 5))) := by
      intro t
      exact arr_map_range s.par.dimY _ 0 hy
    rw [hv t, hv 0, hlight]
    generalize (arr x 2 + arr x 5) / √((arr x 0 + arr x 3) * (arr x 0 + arr x 3) +
            (arr x 1 + arr x 4) * (arr x 1 + arr x 4) + (arr x 2 + arr x 5) * (arr x 2 + arr x 5)) = nh
    generalize (arr x 3 * (arr x 0 + arr x 3) + arr x 4 * (arr x 1 + arr x 4) + arr x 5 * (arr x 2 + arr x 5)) /
            √((arr x 0 + arr x 3) * (arr x 0 + arr x 3) +
            (arr x 1 + arr x 4) * (arr x 1 + arr x 4) + (arr x 2 + arr x 5) * (arr x 2 + arr x 5)) = vh
    unfold sgdChannel
    simp only [hy, and_true, Nat.lt_add_one, h8, hne 10 (by norm_num), hne 4 (by norm_num), hne 7 (by norm_num),
      hne 3 (by norm_num), hne 0 (by norm_num), hne 1 (by norm_num), hne 2 (by norm_num), hne 5 (by norm_num),
      hne 6 (by norm_num), hne 9 (by norm_num)]
    norm_num
    ring
  simp only [hK] at hd
  have h2 := ((hasDerivAt_id (arr P (8 * s.par.dimY))).const_mul onePi).add_const K
  have := hd.unique h2
  norm_num [onePi] at this

end
end Alta
