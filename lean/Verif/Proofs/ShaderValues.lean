import Verif.Proofs.ShaderLink
/-
The expression of one plugin object has the value of the object.
-/
namespace Alta
open Glsl Real
noncomputable section

section
variable (fmt : ℝ → Decimal) (hf : ShaderFmt fmt) (gs : List Fun) (hg : NoBuiltin gs) (env : Env) (c : Cart)
  (hc : c.Over) (he : EnvAt env c)
include hf hg hc he

/-- the conclusion: the value of the object and the one of its expression are the same colour -/
def SameColour (fmt : ℝ → Decimal) (gs : List Fun) (env : Env) (c : Cart) (o : LobeObj) : Prop :=
  ∀ y, (o.exported fmt).toFn.reflect c = some y →
    ∃ col, asColour y = some col ∧ eval gs env (o.pair fmt).1 = some (.v col)

omit hf hg hc he in
theorem same_of (o : LobeObj) (n : ℕ) (hn : n = 1 ∨ n = 3) (g : ℕ → ℝ)
    (h1 : (o.exported fmt).toFn.reflect c = some ((List.range n).map g))
    (h2 : eval gs env (o.pair fmt).1 = some (.v (colourOf n g))) : SameColour fmt gs env c o := by
  intro y hy
  rw [h1] at hy
  obtain rfl := Option.some.inj hy
  exact ⟨_, asColour_map n hn g, h2⟩

theorem blinn_colour (s : BlinnS) (hi : s.par.input = .COS_TH) (hn : s.par.dimY = 1 ∨ s.par.dimY = 3)
    (hF : FunsFor fmt gs (.blinn s)) : SameColour fmt gs env c (.blinn s) := by
  have hp := div_pos (add_pos hc.light hc.view) (sumLen_pos c hc)
  apply same_of fmt gs env c _ s.par.dimY hn (fun i => printed fmt (s.ks i) *
    ((c.l.z + c.v.z) / sumLen c.l c.v) ^ printed fmt (s.N i))
  · unfold Fn.reflect
    show (convertInput (arr c.toList) .CARTESIAN s.par.input).bind _ = _
    rw [hi, cosTH_over c hc]
    show some ((List.range s.par.dimY).map fun i => if (c.l.z + c.v.z) / sumLen c.l c.v > 0 then _ else _) = _
    simp only [if_pos hp]
    rfl
  · obtain ⟨fs', hfs, hcall⟩ := hF (blinnDef, blinnToks) (by simp [LobeObj.funs])
    show eval gs env (callE fmt "blinn".toList s.par.dimY [s.ks, s.N]) = _
    rw [eval_callE fmt hf.digits gs hg env c he _ _ hn]
    have := hcall [.v c.l, .v c.v, .v axisZ, .v axisX, .v axisY, .v (colourOf s.par.dimY fun i => printed fmt (s.ks i)),
      .v (colourOf s.par.dimY fun i => printed fmt (s.N i))] rfl
    refine Eq.trans this ?_
    rw [blinn_run fs' hfs _ _ _ _ (sumLen_pos c hc).ne' hp]
    rw [colour2 _ _ _ fun a b => a * ((c.l.z + c.v.z) / sumLen c.l c.v) ^ b]

theorem retroblinn_colour (s : BlinnS) (hi : s.par.input = .COS_TK) (hn : s.par.dimY = 1 ∨ s.par.dimY = 3)
    (hF : FunsFor fmt gs (.retroblinn s)) : SameColour fmt gs env c (.retroblinn s) := by
  have hp := div_pos (add_pos hc.light hc.view) (backLen_pos c hc)
  apply same_of fmt gs env c _ s.par.dimY hn (fun i =>
    ((c.l.z + c.v.z) / sumLen c.l (mirrored c.v)) ^ printed fmt (s.N i))
  · unfold Fn.reflect
    show (convertInput (arr c.toList) .CARTESIAN s.par.input).bind _ = _
    rw [hi, cosTK_over c hc]
    show some ((List.range s.par.dimY).map fun i => if (c.l.z + c.v.z) / sumLen c.l (mirrored c.v) ≥ 0 then
      1 * ((c.l.z + c.v.z) / sumLen c.l (mirrored c.v)) ^ printed fmt (s.N i) else 0) = _
    simp only [if_pos hp.le, ge_iff_le, one_mul]
  · obtain ⟨fs', hfs, hcall⟩ := hF (retroblinnDef, retroblinnToks) (by simp [LobeObj.funs])
    show eval gs env (callE fmt "retroblinn".toList s.par.dimY [s.ks, s.N]) = _
    rw [eval_callE fmt hf.digits gs hg env c he _ _ hn]
    have := hcall [.v c.l, .v c.v, .v axisZ, .v axisX, .v axisY, .v (colourOf s.par.dimY fun i => printed fmt (s.ks i)),
      .v (colourOf s.par.dimY fun i => printed fmt (s.N i))] rfl
    refine Eq.trans this ?_
    rw [retroblinn_run fs' hfs _ _ _ _ (backLen_pos c hc).ne' hp]
    rw [colour1 _ _ fun b => ((c.l.z + c.v.z) / sumLen c.l (mirrored c.v)) ^ b]

omit hc he in
theorem diffuse_colour (s : DiffuseS) (hn : s.par.dimY = 1 ∨ s.par.dimY = 3) : SameColour fmt gs env c (.diffuse s) := by
  intro y hy
  unfold Fn.reflect at hy
  obtain ⟨x, -, hx⟩ := Option.bind_eq_some_iff.mp hy
  have hx' : some ((List.range s.par.dimY).map fun i => printed fmt (s.kd i)) = some y := hx
  obtain rfl := Option.some.inj hx'
  refine ⟨_, asColour_map _ hn _, ?_⟩
  exact eval_vecE fmt hf.digits gs hg env _ hn s.kd

theorem schlick_colour (s : OneS) (hi : s.par.input = .CARTESIAN) (hn : s.par.dimY = 1 ∨ s.par.dimY = 3)
    (hF : FunsFor fmt gs (.schlickFresnel s)) : SameColour fmt gs env c (.schlickFresnel s) := by
  have hd := dotVH_over c hc
  generalize hdd : (c.l.x + c.v.x) / sumLen c.l c.v * c.v.x + (c.l.y + c.v.y) / sumLen c.l c.v * c.v.y +
      (c.l.z + c.v.z) / sumLen c.l c.v * c.v.z = d at hd
  apply same_of fmt gs env c _ s.par.dimY hn (fun i => printed fmt (s.R i) +
    (1 - printed fmt (s.R i)) * (1 - min (max d 0) 1) ^ 5)
  · refine (reflect_cartesian _ (by exact hi) c).trans ?_
    show (dotVH s.par.input c.toList).map _ = _
    rw [hi, hd, ← clamp_eq]
    rfl
  · obtain ⟨fs', hfs, hcall⟩ := hF (schlickDef, schlickToks) (by simp [LobeObj.funs])
    show eval gs env (callE fmt "schlick_fresnel".toList s.par.dimY [s.R]) = _
    rw [eval_callE fmt hf.digits gs hg env c he _ _ hn]
    have := hcall [.v c.l, .v c.v, .v axisZ, .v axisX, .v axisY, .v (colourOf s.par.dimY fun i => printed fmt (s.R i))] rfl
    refine Eq.trans this ?_
    rw [schlick_run fs' hfs _ _ _ (sumLen_pos c hc).ne' d _ hdd.symm rfl]
    rw [colour1 _ _ fun a => a + (1 - a) * (1 - min (max d 0) 1) ^ 5]

theorem normalizedSchlick_colour (s : OneS) (hi : s.par.input = .CARTESIAN) (hn : s.par.dimY = 1 ∨ s.par.dimY = 3)
    (hR : ∀ i < s.par.dimY, printed fmt (s.R i) ≠ 0)
    (hF : FunsFor fmt gs (.normalizedSchlick s)) : SameColour fmt gs env c (.normalizedSchlick s) := by
  have hd := dotVH_over c hc
  generalize hdd : (c.l.x + c.v.x) / sumLen c.l c.v * c.v.x + (c.l.y + c.v.y) / sumLen c.l c.v * c.v.y +
      (c.l.z + c.v.z) / sumLen c.l c.v * c.v.z = d at hd
  apply same_of fmt gs env c _ s.par.dimY hn (fun i => 1 + (1 / printed fmt (s.R i) - 1) * (1 - min (max d 0) 1) ^ 5)
  · refine (reflect_cartesian _ (by exact hi) c).trans ?_
    show (dotVH s.par.input c.toList).map _ = _
    rw [hi, hd, ← clamp_eq]
    rfl
  · obtain ⟨fs', hfs, hcall⟩ := hF (normalizedSchlickDef, normalizedSchlickToks) (by simp [LobeObj.funs])
    show eval gs env (callE fmt "normalized_schlick_fresnel".toList s.par.dimY [s.R]) = _
    rw [eval_callE fmt hf.digits gs hg env c he _ _ hn]
    have := hcall [.v c.l, .v c.v, .v axisZ, .v axisX, .v axisY, .v (colourOf s.par.dimY fun i => printed fmt (s.R i))] rfl
    refine Eq.trans this ?_
    obtain ⟨h1, h2, h3⟩ := colourOf_all _ hn (fun i => printed fmt (s.R i)) (· ≠ 0) hR
    rw [normalizedSchlick_run fs' hfs _ _ _ (sumLen_pos c hc).ne' d _ hdd.symm rfl h1 h2 h3]
    rw [colour1 _ _ fun a => 1 + (1 / a - 1) * (1 - min (max d 0) 1) ^ 5]

theorem retroSchlick_colour (s : OneS) (hi : s.par.input = .CARTESIAN) (hn : s.par.dimY = 1 ∨ s.par.dimY = 3)
    (hz : 1e-10 < c.v.z + c.l.z)
    (hF : FunsFor fmt gs (.retroSchlick s)) : SameColour fmt gs env c (.retroSchlick s) := by
  have hd := dotRK_over c hc hz
  have h0 := dotRK_nonneg c hc hz _ hd
  have h1 := dotRK_le_one c hc.above _ hd
  generalize hdd : (c.l.x + -c.v.x) / sumLen c.l (mirrored c.v) * -c.v.x + (c.l.y + -c.v.y) / sumLen c.l (mirrored c.v) *
    -c.v.y + (c.l.z + c.v.z) / sumLen c.l (mirrored c.v) * c.v.z = d at hd h0 h1
  have hcl : min (max d 0) 1 = d := by rw [max_eq_left h0, min_eq_left h1]
  apply same_of fmt gs env c _ s.par.dimY hn (fun i => printed fmt (s.R i) + (1 - printed fmt (s.R i)) * (1 - d) ^ 5)
  · refine (reflect_cartesian _ (by exact hi) c).trans ?_
    show (dotRK s.par.input c.toList).map _ = _
    rw [hi, hd]
    rfl
  · obtain ⟨fs', hfs, hcall⟩ := hF (retroSchlickDef, retroSchlickToks) (by simp [LobeObj.funs])
    show eval gs env (callE fmt "retro_schlick_fresnel".toList s.par.dimY [s.R]) = _
    rw [eval_callE fmt hf.digits gs hg env c he _ _ hn]
    have := hcall [.v c.l, .v c.v, .v axisZ, .v axisX, .v axisY, .v (colourOf s.par.dimY fun i => printed fmt (s.R i))] rfl
    refine Eq.trans this ?_
    rw [retroSchlick_run fs' hfs _ _ _ (backLen_pos c hc).ne' d _ hdd.symm (by rw [hcl])]
    rw [colour1 _ _ fun a => a + (1 - a) * (1 - d) ^ 5]

theorem sg_colour (s : SgS) (hi : s.par.input = .CARTESIAN) (hn : s.par.dimY = 1 ∨ s.par.dimY = 3)
    (ht : s.type = .Mirror ∨ s.type = .Half ∨ s.type = .Back)
    (hF : FunsFor fmt gs (.sg s)) : SameColour fmt gs env c (.sg s) := by
  obtain ⟨d, hd, hrun⟩ : ∃ d, (∀ a, sgDot s.type a c.toList = some d) ∧ ∀ fs', NoBuiltin fs' → ∀ ks n : V3,
      ((sgDef [] [] s.type).toFun fs').run [.v c.l, .v c.v, .v axisZ, .v axisX, .v axisY, .v ks, .v n] =
      some (.v ⟨ks.x * exp (n.x * (d - 1)), ks.y * exp (n.y * (d - 1)), ks.z * exp (n.z * (d - 1))⟩) := by
    rcases ht with h | h | h <;> rw [h]
    · refine ⟨c.l.x * -c.v.x + c.l.y * -c.v.y + c.l.z * c.v.z, fun a => ?_, fun fs' hfs ks n => ?_⟩
      · show sgTurn (fun p => p + π) c.toList = _
        rw [sgTurn_pi c hc.above]
        congr 1; ring
      · exact sgMirror_run fs' hfs _ _ ks n _ rfl
    · refine ⟨(c.l.z + c.v.z) / sumLen c.l c.v, fun a => ?_, fun fs' hfs ks n => ?_⟩
      · show (convertInput (arr c.toList) .CARTESIAN .COS_TH).map _ = _
        rw [cosTH_over c hc]; rfl
      · exact sgHalf_run fs' hfs _ _ ks n (sumLen_pos c hc).ne' _ rfl
    · refine ⟨(c.l.z + c.v.z) / sumLen c.l (mirrored c.v), fun a => ?_, fun fs' hfs ks n => ?_⟩
      · show (convertInput (arr c.toList) .CARTESIAN .COS_TK).map _ = _
        rw [cosTK_over c hc]; rfl
      · exact sgBack_run fs' hfs _ _ ks n (backLen_pos c hc).ne' _ rfl
  apply same_of fmt gs env c _ s.par.dimY hn (fun i => printed fmt (s.ks i) * exp (printed fmt (s.n i) * (d - 1)))
  · refine (reflect_cartesian _ (by exact hi) c).trans ?_
    show (sgDot s.type (printed fmt s.a) c.toList).map _ = _
    rw [hd]
    rfl
  · obtain ⟨fs', hfs, hcall⟩ := hF (sgDef [] [] s.type, sgToks [] [] s.type) (by simp [LobeObj.funs])
    show eval gs env (callE fmt "spherical_gaussian".toList s.par.dimY [s.ks, s.n]) = _
    rw [eval_callE fmt hf.digits gs hg env c he _ _ hn]
    have hty : (sgDef [] [] s.type).name = "spherical_gaussian".toList ∧ (sgDef [] [] s.type).params = sgHalfDef.params := by
      cases s.type <;> exact ⟨rfl, rfl⟩
    have := hcall [.v c.l, .v c.v, .v axisZ, .v axisX, .v axisY, .v (colourOf s.par.dimY fun i => printed fmt (s.ks i)),
      .v (colourOf s.par.dimY fun i => printed fmt (s.n i))] (by rw [hty.2]; rfl)
    rw [hty.1] at this
    refine Eq.trans this ?_
    rw [hrun fs' hfs]
    rw [colour2 _ _ _ fun a b => a * exp (b * (d - 1))]

theorem ward_colour (s : WardS) (hi : s.par.input = .CARTESIAN) (hn : s.par.dimY = 1 ∨ s.par.dimY = 3)
    (ha : ∀ i < s.par.dimY, printed fmt (s.ax i) ≠ 0 ∧ printed fmt (s.ay i) ≠ 0)
    (hF : FunsFor fmt gs (.ward s)) : SameColour fmt gs env c (.ward s) := by
  have hq : numVal (fmt π).unsigned = some (printed fmt π) := by
    rw [numVal_unsigned _ (hf.digits π)]
    have : ({ fmt π with neg := false } : Decimal) = fmt π := by rw [← hf.sign]
    rw [this]; rfl
  have hlv : 0 < c.l.z * c.v.z := mul_pos hc.light hc.view
  have hp := div_pos (add_pos hc.light hc.view) (sumLen_pos c hc)
  apply same_of fmt gs env c _ s.par.dimY hn (fun i => wardShade (printed fmt π) (printed fmt (s.ks i))
    (printed fmt (s.ax i)) (printed fmt (s.ay i)) ((c.l.x + c.v.x) / sumLen c.l c.v) ((c.l.y + c.v.y) / sumLen c.l c.v)
    ((c.l.z + c.v.z) / sumLen c.l c.v) (c.l.z * c.v.z))
  · refine (reflect_cartesian _ (by exact hi) c).trans ?_
    show (vhOf c.toList).map _ = _
    rw [vhOf_above c hc.above, half_sumLen c hc, Option.map_some]
    congr 1
    show (List.range s.par.dimY).map (fun i => if c.v.z * c.l.z > 0 then
      wardLobe (printed fmt (s.ks i) * (π / printed fmt π)) (printed fmt (s.ax i)) (printed fmt (s.ay i))
        [(c.l.x + c.v.x) / sumLen c.l c.v, (c.l.y + c.v.y) / sumLen c.l c.v, (c.l.z + c.v.z) / sumLen c.l c.v]
        (c.v.z * c.l.z) else 0) = _
    apply List.map_congr_left
    intro i hi'
    obtain ⟨h1, h2⟩ := ha i (List.mem_range.mp hi')
    rw [mul_comm c.v.z c.l.z, if_pos hlv]
    unfold wardLobe wardShade
    have hs : √(c.l.z * c.v.z) ≠ 0 := (Real.sqrt_pos.mpr hlv).ne'
    have hpi := Real.pi_ne_zero
    have hq0 := hf.pi
    simp only [arr, neg_div]
    have e : printed fmt (s.ks i) * (π / printed fmt π) / (4 * π * printed fmt (s.ax i) * printed fmt (s.ay i) *
        √(c.l.z * c.v.z)) = printed fmt (s.ks i) / (4 * printed fmt π * printed fmt (s.ax i) * printed fmt (s.ay i) *
        √(c.l.z * c.v.z)) := by
      field_simp
    rw [e]
    rfl
  · obtain ⟨fs', hfs, hcall⟩ := hF (wardDef (fmt π).unsigned, wardToks (fmt π).unsigned) (by simp [LobeObj.funs])
    show eval gs env (callE fmt "ward".toList s.par.dimY [s.ks, s.ax, s.ay]) = _
    rw [eval_callE fmt hf.digits gs hg env c he _ _ hn]
    have := hcall [.v c.l, .v c.v, .v axisZ, .v axisX, .v axisY, .v (colourOf s.par.dimY fun i => printed fmt (s.ks i)),
      .v (colourOf s.par.dimY fun i => printed fmt (s.ax i)), .v (colourOf s.par.dimY fun i => printed fmt (s.ay i))] rfl
    refine Eq.trans this ?_
    rw [ward_run fs' hfs _ _ hq hf.pi _ _ _ _ _ (sumLen_pos c hc).ne' hc.light hc.view
      (colourOf_all _ hn (fun i => printed fmt (s.ax i)) (· ≠ 0) (fun i hi => (ha i hi).1))
      (colourOf_all _ hn (fun i => printed fmt (s.ay i)) (· ≠ 0) (fun i hi => (ha i hi).2)) _ _ _ rfl rfl rfl hp.ne']
    rw [colour3 _ _ _ _ fun a b d => wardShade (printed fmt π) a b d ((c.l.x + c.v.x) / sumLen c.l c.v)
      ((c.l.y + c.v.y) / sumLen c.l c.v) ((c.l.z + c.v.z) / sumLen c.l c.v) (c.l.z * c.v.z)]

/-- the terms of a Lafortune lobe -/
theorem lafortune_terms (n : ℕ) (hn : n = 1 ∨ n = 3) (m : ℕ) (hm : 0 < m) (o : LobeObj) (d N : ℕ → ℕ → ℝ)
    (hl : ∃ E : ℕ → Expr × List Token, o.lobes fmt = (List.range m).map E ∧ ∀ k < m, eval gs env (E k).1 =
      some (.v (colourOf n fun i => (max (d k i) 0) ^ (N k i))))
    (hN : ∀ k < m, ∀ i < n, 0 < N k i)
    (hv : (o.exported fmt).toFn.reflect c = some ((List.range n).map fun i =>
      (List.range m).foldl (fun res k => if d k i > 0 then res + d k i ^ N k i else res) 0)) :
    SameColour fmt gs env c o := by
  obtain ⟨E, hE, hv2⟩ := hl
  obtain ⟨j, rfl⟩ : ∃ j, m = j + 1 := ⟨m - 1, by omega⟩
  apply same_of fmt gs env c o n hn _ hv
  have hp : (o.pair fmt).1 = sumE (E 0).1 (((List.range j).map Nat.succ).map E) := by
    unfold LobeObj.pair
    rw [hE, List.range_succ_eq_map]
    rfl
  rw [hp, eval_sumE gs env n _ (((List.range j).map Nat.succ).map fun k i => (max (d k i) 0) ^ (N k i)) _ (E 0).1 _
    (hv2 0 (by omega))]
  · congr 2
    apply colourOf_congr n hn
    intro i hi
    have ht : ∀ k < j + 1, ∀ r, (if d k i > 0 then r + d k i ^ N k i else r) = r + (max (d k i) 0) ^ N k i := by
      intro k hk r
      by_cases h : d k i > 0
      · rw [if_pos h, max_eq_left h.le]
      · rw [if_neg h, max_eq_right (not_lt.mp h), Real.zero_rpow (hN k hk i hi).ne', add_zero]
    have hfold : ∀ (l : List ℕ) (hl : ∀ k ∈ l, k < j + 1) (r : ℝ),
        l.foldl (fun res k => if d k i > 0 then res + d k i ^ N k i else res) r =
        (l.map fun k i => (max (d k i) 0) ^ (N k i)).foldl (fun res g => res + g i) r := by
      intro l
      induction l with
      | nil => intro _ r; rfl
      | cons k l ih =>
        intro hl r
        simp only [List.foldl_cons, List.map_cons]
        rw [ht k (hl k (by simp)), ih (fun a ha => hl a (by simp [ha]))]
    rw [hfold _ (fun k hk => List.mem_range.mp hk), List.range_succ_eq_map]
    simp only [List.map_cons, List.foldl_cons, zero_add]
  · rw [List.forall₂_map_left_iff, List.forall₂_map_right_iff]
    rw [List.forall₂_same]
    intro k hk
    obtain ⟨k', hk', rfl⟩ := List.mem_map.mp hk
    exact hv2 _ (by have := List.mem_range.mp hk'; omega)

theorem isoLafortune_colour (s : IsoLafortuneS) (hi : s.par.input = .CARTESIAN) (hn : s.par.dimY = 1 ∨ s.par.dimY = 3)
    (hs : 0 < s.n) (hN : ∀ i < s.n * s.par.dimY, 0 < printed fmt (s.N i))
    (hF : FunsFor fmt gs (.isoLafortune s)) : SameColour fmt gs env c (.isoLafortune s) := by
  have hlt : ∀ k < s.n, ∀ i < s.par.dimY, k * s.par.dimY + i < s.n * s.par.dimY := by
    intro k hk i hi
    calc k * s.par.dimY + i < k * s.par.dimY + s.par.dimY := by omega
      _ = (k + 1) * s.par.dimY := by ring
      _ ≤ s.n * s.par.dimY := Nat.mul_le_mul_right _ hk
  apply lafortune_terms fmt hf gs hg env c hc he s.par.dimY hn s.n hs _
    (fun k i => printed fmt (s.C ((k * s.par.dimY + i) * 2 + 0)) * (c.l.x * c.v.x + c.l.y * c.v.y) +
      printed fmt (s.C ((k * s.par.dimY + i) * 2 + 1)) * c.l.z * c.v.z)
    (fun k i => printed fmt (s.N (k * s.par.dimY + i)))
  · refine ⟨_, List.map_map, ?_⟩
    intro k hk
    obtain ⟨fs', hfs, hcall⟩ := hF (isoLafortuneDef, isoLafortuneToks) (by simp [LobeObj.funs])
    show eval gs env (callE fmt "lafortune".toList s.par.dimY
      [fun i => s.C ((k * s.par.dimY + i) * 2 + 0), fun i => s.C ((k * s.par.dimY + i) * 2 + 1),
       fun i => s.N (k * s.par.dimY + i)]) = _
    rw [eval_callE fmt hf.digits gs hg env c he _ _ hn]
    have := hcall [.v c.l, .v c.v, .v axisZ, .v axisX, .v axisY,
      .v (colourOf s.par.dimY fun i => printed fmt (s.C ((k * s.par.dimY + i) * 2 + 0))),
      .v (colourOf s.par.dimY fun i => printed fmt (s.C ((k * s.par.dimY + i) * 2 + 1))),
      .v (colourOf s.par.dimY fun i => printed fmt (s.N (k * s.par.dimY + i)))] rfl
    refine Eq.trans this ?_
    obtain ⟨h1, h2, h3⟩ := colourOf_all _ hn (fun i => printed fmt (s.N (k * s.par.dimY + i))) (0 < ·)
      (fun i hi => hN _ (hlt k hk i hi))
    rw [isoLafortune_run fs' hfs _ _ _ _ _ h1 h2 h3]
    rw [colour3 _ _ _ _ fun a b e => (max (a * (c.l.x * c.v.x + c.l.y * c.v.y) + b * c.l.z * c.v.z) 0) ^ e]
  · intro k hk i hi'
    exact hN _ (hlt k hk i hi')
  · refine (reflect_cartesian _ (by exact hi) c).trans ?_
    have e : ∀ a b : ℝ, a * (c.v.x * c.l.x + c.v.y * c.l.y) + b * (c.v.z * c.l.z) =
      a * (c.l.x * c.v.x + c.l.y * c.v.y) + b * c.l.z * c.v.z := fun a b => by ring
    simp only [← e]
    rfl

theorem lafortune_colour (s : LafortuneS) (hi : s.par.input = .CARTESIAN) (hn : s.par.dimY = 1 ∨ s.par.dimY = 3)
    (hs : 0 < s.n) (hN : ∀ i < s.n * s.par.dimY, 0 < printed fmt (s.N i))
    (hF : FunsFor fmt gs (.lafortune s)) : SameColour fmt gs env c (.lafortune s) := by
  have hlt : ∀ k < s.n, ∀ i < s.par.dimY, k * s.par.dimY + i < s.n * s.par.dimY := by
    intro k hk i hi
    calc k * s.par.dimY + i < k * s.par.dimY + s.par.dimY := by omega
      _ = (k + 1) * s.par.dimY := by ring
      _ ≤ s.n * s.par.dimY := Nat.mul_le_mul_right _ hk
  apply lafortune_terms fmt hf gs hg env c hc he s.par.dimY hn s.n hs _
    (fun k i => printed fmt (s.C ((k * s.par.dimY + i) * 3 + 0)) * c.l.x * c.v.x +
      printed fmt (s.C ((k * s.par.dimY + i) * 3 + 1)) * c.l.y * c.v.y +
      printed fmt (s.C ((k * s.par.dimY + i) * 3 + 2)) * c.l.z * c.v.z)
    (fun k i => printed fmt (s.N (k * s.par.dimY + i)))
  · refine ⟨_, List.map_map, ?_⟩
    intro k hk
    obtain ⟨fs', hfs, hcall⟩ := hF (lafortuneDef, lafortuneToks) (by simp [LobeObj.funs])
    show eval gs env (callE fmt "lafortune".toList s.par.dimY
      [fun i => s.C ((k * s.par.dimY + i) * 3 + 0), fun i => s.C ((k * s.par.dimY + i) * 3 + 1),
       fun i => s.C ((k * s.par.dimY + i) * 3 + 2), fun i => s.N (k * s.par.dimY + i)]) = _
    rw [eval_callE fmt hf.digits gs hg env c he _ _ hn]
    have := hcall [.v c.l, .v c.v, .v axisZ, .v axisX, .v axisY,
      .v (colourOf s.par.dimY fun i => printed fmt (s.C ((k * s.par.dimY + i) * 3 + 0))),
      .v (colourOf s.par.dimY fun i => printed fmt (s.C ((k * s.par.dimY + i) * 3 + 1))),
      .v (colourOf s.par.dimY fun i => printed fmt (s.C ((k * s.par.dimY + i) * 3 + 2))),
      .v (colourOf s.par.dimY fun i => printed fmt (s.N (k * s.par.dimY + i)))] rfl
    refine Eq.trans this ?_
    obtain ⟨h1, h2, h3⟩ := colourOf_all _ hn (fun i => printed fmt (s.N (k * s.par.dimY + i))) (0 < ·)
      (fun i hi => hN _ (hlt k hk i hi))
    rw [lafortune_run fs' hfs _ _ _ _ _ _ h1 h2 h3]
    rw [colour4 _ _ _ _ _ fun a b d e => (max (a * c.l.x * c.v.x + b * c.l.y * c.v.y + d * c.l.z * c.v.z) 0) ^ e]
  · intro k hk i hi'
    exact hN _ (hlt k hk i hi')
  · refine (reflect_cartesian _ (by exact hi) c).trans ?_
    have e : ∀ a b d : ℝ, a * (c.v.x * c.l.x) + b * (c.v.y * c.l.y) + d * (c.v.z * c.l.z) =
      a * c.l.x * c.v.x + b * c.l.y * c.v.y + d * c.l.z * c.v.z := fun a b d => by ring
    simp only [← e]
    rfl

/-- every object that can be exported -/
theorem object_colour (o : LobeObj) (ho : o.Exportable fmt c) (hF : FunsFor fmt gs o) : SameColour fmt gs env c o := by
  obtain ⟨hn, ho⟩ := ho
  cases o
  case blinn s => exact blinn_colour fmt hf gs hg env c hc he s ho hn hF
  case retroblinn s => exact retroblinn_colour fmt hf gs hg env c hc he s ho hn hF
  case diffuse s => exact diffuse_colour fmt hf gs hg env c s hn
  case ward s => exact ward_colour fmt hf gs hg env c hc he s ho.1 hn ho.2 hF
  case sg s => exact sg_colour fmt hf gs hg env c hc he s ho.1 hn ho.2 hF
  case isoLafortune s => exact isoLafortune_colour fmt hf gs hg env c hc he s ho.1 hn ho.2.1 ho.2.2 hF
  case lafortune s => exact lafortune_colour fmt hf gs hg env c hc he s ho.1 hn ho.2.1 ho.2.2 hF
  case schlickFresnel s => exact schlick_colour fmt hf gs hg env c hc he s ho hn hF
  case normalizedSchlick s => exact normalizedSchlick_colour fmt hf gs hg env c hc he s ho.1 hn ho.2 hF
  case retroSchlick s => exact retroSchlick_colour fmt hf gs hg env c hc he s ho.1 hn ho.2 hF
  all_goals exact False.elim ho

end
end
end Alta
