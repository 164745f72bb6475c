import Verif.Proofs.ShaderObjects
import Verif.Props.NonNegative
/-
What the expression of one plugin object computes.
-/
namespace Alta
open Glsl Real
noncomputable section

/-! ### Functions of the program -/

/-- the functions of a program without repetition -/
def linked : List Fun → List FunDef → List Fun
  | fs, [] => fs
  | fs, d :: ds => linked (fs ++ [d.toFun fs]) ds

/-- name and types of the parameters -/
def FunDef.sig (d : FunDef) : Str × List Ty := (d.name, d.params.map (·.1))
/-- name and types of the parameters -/
def Fun.sig (g : Fun) : Str × List Ty := (g.name, g.params)

theorem toFun_sig (d : FunDef) (fs : List Fun) : Fun.sig (d.toFun fs) = FunDef.sig d := rfl

theorem link_linked (ds : List FunDef) (fs : List Fun) (h : (fs.map Fun.sig ++ ds.map FunDef.sig).Nodup) :
    link fs ds = some (linked fs ds) := by
  induction ds generalizing fs with
  | nil => rfl
  | cons d ds ih =>
    unfold link linked
    have hn : ¬ ∃ g ∈ fs, g.name = d.name ∧ g.params = d.params.map (·.1) := by
      rintro ⟨g, hg, h1, h2⟩
      rw [List.map_cons] at h
      have := (List.nodup_append.mp h).2.2
      exact this (Fun.sig g) (List.mem_map_of_mem hg) (FunDef.sig d) (by simp) (by simp [Fun.sig, FunDef.sig, h1, h2])
    rw [if_neg hn]
    apply ih
    rw [List.map_append, List.append_assoc]
    exact h

theorem linked_sigs (ds : List FunDef) (fs : List Fun) :
    (linked fs ds).map Fun.sig = fs.map Fun.sig ++ ds.map FunDef.sig := by
  induction ds generalizing fs with
  | nil => simp [linked]
  | cons d ds ih =>
    unfold linked
    rw [ih]
    simp [toFun_sig]

theorem linked_mem (ds : List FunDef) (fs : List Fun) : (∀ g ∈ fs, g ∈ linked fs ds) ∧
    ∀ d ∈ ds, ∃ fs', d.toFun fs' ∈ linked fs ds ∧ ∀ g ∈ fs', g ∈ linked fs ds := by
  induction ds generalizing fs with
  | nil => simp [linked]
  | cons d ds ih =>
    unfold linked
    obtain ⟨h1, h2⟩ := ih (fs ++ [d.toFun fs])
    refine ⟨fun g hg => h1 g (by simp [hg]), fun e he => ?_⟩
    rcases List.mem_cons.mp he with rfl | he
    · exact ⟨fs, h1 _ (by simp), fun g hg => h1 g (by simp [hg])⟩
    · exact h2 e he

theorem call_unique (gs : List Fun) (h : (gs.map Fun.sig).Nodup) (g : Fun) (hg : g ∈ gs) (args : List Val)
    (ha : args.map Val.ty = g.params.map some) : callFun gs g.name args = g.run args := by
  unfold callFun
  have : (gs.find? fun k => decide (k.name = g.name ∧ args.map Val.ty = k.params.map some)) = some g := by
    cases hf : gs.find? fun k => decide (k.name = g.name ∧ args.map Val.ty = k.params.map some) with
    | none =>
      rw [List.find?_eq_none] at hf
      exact absurd (hf g hg) (by simp [ha])
    | some k =>
      have h1 := List.find?_some hf
      have h2 := List.mem_of_find?_eq_some hf
      simp only [decide_eq_true_eq] at h1
      have hp : k.params = g.params := by
        have := h1.2.symm.trans ha
        exact List.map_injective_iff.mpr (Option.some_injective _) this
      have hs : Fun.sig k = Fun.sig g := by simp [Fun.sig, h1.1, hp]
      rw [List.inj_on_of_nodup_map h h2 hg hs]
  simp only [this]

/-- the program has the functions of an object -/
def FunsFor (fmt : ℝ → Decimal) (gs : List Fun) (o : LobeObj) : Prop :=
  ∀ p ∈ o.funs fmt, ∃ fs', NoBuiltin fs' ∧ ∀ args : List Val, args.map Val.ty = p.1.params.map (fun q => some q.1) →
    callFun gs p.1.name args = (p.1.toFun fs').run args

/-! ### Values of expressions -/

/-- a colour, given its channels -/
def colourOf (n : ℕ) (g : ℕ → ℝ) : V3 := if n = 1 then ⟨g 0, g 0, g 0⟩ else ⟨g 0, g 1, g 2⟩

theorem asColour_map (n : ℕ) (hn : n = 1 ∨ n = 3) (g : ℕ → ℝ) :
    asColour ((List.range n).map g) = some (colourOf n g) := by
  rcases hn with rfl | rfl <;> rfl

theorem colourOf_congr (n : ℕ) (hn : n = 1 ∨ n = 3) (g g' : ℕ → ℝ) (h : ∀ i < n, g i = g' i) :
    colourOf n g = colourOf n g' := by
  rcases hn with rfl | rfl
  · simp [colourOf, h 0 (by omega)]
  · simp [colourOf, h 0 (by omega), h 1 (by omega), h 2 (by omega)]

theorem colourOf_all (n : ℕ) (hn : n = 1 ∨ n = 3) (g : ℕ → ℝ) (P : ℝ → Prop) (h : ∀ i < n, P (g i)) :
    P (colourOf n g).x ∧ P (colourOf n g).y ∧ P (colourOf n g).z := by
  rcases hn with rfl | rfl
  · simp [colourOf, h 0 (by omega)]
  · simp [colourOf, h 0 (by omega), h 1 (by omega), h 2 (by omega)]

theorem colour1 (n : ℕ) (a : ℕ → ℝ) (F : ℝ → ℝ) :
    (⟨F (colourOf n a).x, F (colourOf n a).y, F (colourOf n a).z⟩ : V3) = colourOf n fun i => F (a i) := by
  unfold colourOf; split <;> rfl

theorem colour2 (n : ℕ) (a b : ℕ → ℝ) (F : ℝ → ℝ → ℝ) :
    (⟨F (colourOf n a).x (colourOf n b).x, F (colourOf n a).y (colourOf n b).y, F (colourOf n a).z (colourOf n b).z⟩ : V3) =
      colourOf n fun i => F (a i) (b i) := by
  unfold colourOf; split <;> rfl

theorem colour3 (n : ℕ) (a b c : ℕ → ℝ) (F : ℝ → ℝ → ℝ → ℝ) :
    (⟨F (colourOf n a).x (colourOf n b).x (colourOf n c).x, F (colourOf n a).y (colourOf n b).y (colourOf n c).y,
      F (colourOf n a).z (colourOf n b).z (colourOf n c).z⟩ : V3) = colourOf n fun i => F (a i) (b i) (c i) := by
  unfold colourOf; split <;> rfl

theorem colour4 (n : ℕ) (a b c d : ℕ → ℝ) (F : ℝ → ℝ → ℝ → ℝ → ℝ) :
    (⟨F (colourOf n a).x (colourOf n b).x (colourOf n c).x (colourOf n d).x,
      F (colourOf n a).y (colourOf n b).y (colourOf n c).y (colourOf n d).y,
      F (colourOf n a).z (colourOf n b).z (colourOf n c).z (colourOf n d).z⟩ : V3) =
      colourOf n fun i => F (a i) (b i) (c i) (d i) := by
  unfold colourOf; split <;> rfl

theorem eval_vecE (fmt : ℝ → Decimal) (hf : PrintsInteger fmt) (gs : List Fun) (hg : NoBuiltin gs) (env : Env) (n : ℕ)
    (hn : n = 1 ∨ n = 3) (v : ℕ → ℝ) :
    eval gs env (vecE fmt n v) = some (.v (colourOf n fun i => printed fmt (v i))) := by
  have hv : ∀ x, eval gs env (numE (fmt x)) = some (.f (printed fmt x)) := fun x => eval_numE gs env (fmt x) (hf x)
  rcases hn with rfl | rfl
  · simp [vecE, numArgs, eval, evals, hv, call_vec3_f gs hg, colourOf]
  · simp [vecE, List.range_succ, numArgs, eval, evals, hv, call_vec3_fff gs hg, colourOf]

theorem evals_vecArgs (fmt : ℝ → Decimal) (hf : PrintsInteger fmt) (gs : List Fun) (hg : NoBuiltin gs) (env : Env) (n : ℕ)
    (hn : n = 1 ∨ n = 3) (vs : List (ℕ → ℝ)) :
    evals gs env (vecArgs fmt n vs) = some (vs.map fun v => .v (colourOf n fun i => printed fmt (v i))) := by
  induction vs with
  | nil => rfl
  | cons v vs ih => simp [vecArgs, evals, eval_vecE fmt hf gs hg env n hn, ih]

/-- the variables of the function `BRDF` -/
structure EnvAt (env : Env) (c : Cart) : Prop where
  L : env.get ['L'] = some (.v c.l)
  V : env.get ['V'] = some (.v c.v)
  N : env.get ['N'] = some (.v axisZ)
  X : env.get ['X'] = some (.v axisX)
  Y : env.get ['Y'] = some (.v axisY)

theorem eval_callE (fmt : ℝ → Decimal) (hf : PrintsInteger fmt) (gs : List Fun) (hg : NoBuiltin gs) (env : Env) (c : Cart)
    (he : EnvAt env c) (name : Str) (n : ℕ) (hn : n = 1 ∨ n = 3) (vs : List (ℕ → ℝ)) :
    eval gs env (callE fmt name n vs) = callFun gs name ([.v c.l, .v c.v, .v axisZ, .v axisX, .v axisY] ++
      vs.map fun v => .v (colourOf n fun i => printed fmt (v i))) := by
  simp [callE, eval, evals, he.L, he.V, he.N, he.X, he.Y, evals_vecArgs fmt hf gs hg env n hn]

/-- a sum of colours -/
theorem eval_sumE (gs : List Fun) (env : Env) (n : ℕ) (l : List (Expr × List Token)) (ch : List (ℕ → ℝ))
    (h : List.Forall₂ (fun (p : Expr × List Token) (g : ℕ → ℝ) => eval gs env p.1 = some (.v (colourOf n g))) l ch)
    (e : Expr) (a : ℕ → ℝ) (he : eval gs env e = some (.v (colourOf n a))) :
    eval gs env (sumE e l) = some (.v (colourOf n fun i => ch.foldl (fun res g => res + g i) (a i))) := by
  induction h generalizing e a with
  | nil => exact he
  | @cons p g l ch hp _ ih =>
    unfold sumE
    apply ih (.bin .add e p.1) (fun i => a i + g i)
    simp only [eval, he, hp, Option.bind_some, binVal, arith, V3.map2, Option.map_some]
    rw [colour2 n a g fun x y => x + y]

/-! ### The directions -/

theorem Cart.Over.above {c : Cart} (h : c.Over) : c.Above := ⟨h.unit, h.view.le, h.light.le⟩

theorem sumLen_pos (c : Cart) (h : c.Over) : 0 < sumLen c.l c.v := by
  unfold sumLen
  apply Real.sqrt_pos.mpr
  have := h.view
  have := h.light
  nlinarith [sq_nonneg (c.l.x + c.v.x), sq_nonneg (c.l.y + c.v.y), mul_pos h.view h.light]

theorem backLen_pos (c : Cart) (h : c.Over) : 0 < sumLen c.l (mirrored c.v) := by
  unfold sumLen mirrored
  apply Real.sqrt_pos.mpr
  have := h.view
  have := h.light
  nlinarith [sq_nonneg (c.l.x + -c.v.x), sq_nonneg (c.l.y + -c.v.y), mul_pos h.view h.light]

theorem half_sumLen (c : Cart) (h : c.Over) : halfVector c =
    ⟨(c.l.x + c.v.x) / sumLen c.l c.v, (c.l.y + c.v.y) / sumLen c.l c.v, (c.l.z + c.v.z) / sumLen c.l c.v⟩ := by
  have hp := sumLen_pos c h
  have e : (c.v.x + c.l.x) * (c.v.x + c.l.x) + (c.v.y + c.l.y) * (c.v.y + c.l.y) + (c.v.z + c.l.z) * (c.v.z + c.l.z) =
      (c.l.x + c.v.x) * (c.l.x + c.v.x) + (c.l.y + c.v.y) * (c.l.y + c.v.y) + (c.l.z + c.v.z) * (c.l.z + c.v.z) := by ring
  unfold halfVector
  simp only [e]
  have hp2 : 0 < (c.l.x + c.v.x) * (c.l.x + c.v.x) + (c.l.y + c.v.y) * (c.l.y + c.v.y) + (c.l.z + c.v.z) * (c.l.z + c.v.z) :=
    Real.sqrt_pos.mp hp
  rw [if_neg (not_le.mpr hp2)]
  unfold sumLen
  simp only [add_comm c.v.x, add_comm c.v.y, add_comm c.v.z]

theorem cosTH_over (c : Cart) (h : c.Over) : convertInput (arr c.toList) .CARTESIAN .COS_TH =
    some [(c.l.z + c.v.z) / sumLen c.l c.v] := by
  rw [convert_from_cartesian _ _ (by decide), fromCartesian_eq _ _ h.above.sum]
  simp only [fromCartesianSwitch, half_sumLen c h]

theorem cosTK_over (c : Cart) (h : c.Over) : convertInput (arr c.toList) .CARTESIAN .COS_TK =
    some [(c.l.z + c.v.z) / sumLen c.l (mirrored c.v)] := by
  rw [convert_from_cartesian _ _ (by decide), fromCartesian_eq _ _ h.above.sum]
  simp only [fromCartesianSwitch, sumLen, mirrored]
  have e : (c.v.x - c.l.x) * (c.v.x - c.l.x) + (c.v.y - c.l.y) * (c.v.y - c.l.y) + (c.v.z + c.l.z) * (c.v.z + c.l.z) =
    (c.l.x + -c.v.x) * (c.l.x + -c.v.x) + (c.l.y + -c.v.y) * (c.l.y + -c.v.y) + (c.l.z + c.v.z) * (c.l.z + c.v.z) := by ring
  rw [e, add_comm c.v.z]

theorem dotVH_over (c : Cart) (h : c.Over) : dotVH .CARTESIAN c.toList =
    some ((c.l.x + c.v.x) / sumLen c.l c.v * c.v.x + (c.l.y + c.v.y) / sumLen c.l c.v * c.v.y +
      (c.l.z + c.v.z) / sumLen c.l c.v * c.v.z) := by
  have h1 := vhOf_above c h.above
  unfold vhOf at h1
  unfold dotVH
  rw [h1, half_sumLen c h]
  have h3 : convertInput (arr c.toList) .CARTESIAN .CARTESIAN = some c.toList := rfl
  rw [h3]
  rfl

theorem dotRK_over (c : Cart) (h : c.Over) (hg : 1e-10 < c.v.z + c.l.z) : dotRK .CARTESIAN c.toList =
    some ((c.l.x + -c.v.x) / sumLen c.l (mirrored c.v) * -c.v.x + (c.l.y + -c.v.y) / sumLen c.l (mirrored c.v) * -c.v.y +
      (c.l.z + c.v.z) / sumLen c.l (mirrored c.v) * c.v.z) := by
  have h3 : convertInput (arr c.toList) .CARTESIAN .CARTESIAN = some c.toList := rfl
  unfold dotRK
  rw [h3, convert_from_cartesian _ _ (by decide), fromCartesian_eq _ _ h.above.sum]
  have e : (c.l.x - c.v.x) * (c.l.x - c.v.x) + (c.l.y - c.v.y) * (c.l.y - c.v.y) + (c.l.z + c.v.z) * (c.l.z + c.v.z) =
    (c.l.x + -c.v.x) * (c.l.x + -c.v.x) + (c.l.y + -c.v.y) * (c.l.y + -c.v.y) + (c.l.z + c.v.z) * (c.l.z + c.v.z) := by ring
  have e2 : sumLen c.l (mirrored c.v) = √((c.l.x + -c.v.x) * (c.l.x + -c.v.x) + (c.l.y + -c.v.y) * (c.l.y + -c.v.y) +
      (c.l.z + c.v.z) * (c.l.z + c.v.z)) := rfl
  simp only [fromCartesianSwitch, e, ← e2]
  have hn : sumLen c.l (mirrored c.v) > 1e-10 := by
    rw [e2]
    refine hg.trans_le ?_
    apply Real.le_sqrt_of_sq_le
    nlinarith [sq_nonneg (c.l.x + -c.v.x), sq_nonneg (c.l.y + -c.v.y)]
  rw [if_pos hn]
  simp only [Option.map_some, Option.some.injEq]
  show (c.l.z + c.v.z) / sumLen c.l (mirrored c.v) * c.v.z - ((c.l.x - c.v.x) / sumLen c.l (mirrored c.v) * c.v.x +
    (c.l.y - c.v.y) / sumLen c.l (mirrored c.v) * c.v.y) = _
  ring

theorem dotRK_nonneg (c : Cart) (h : c.Over) (hg : 1e-10 < c.v.z + c.l.z) (d : ℝ)
    (hd : dotRK .CARTESIAN c.toList = some d) : 0 ≤ d := by
  rw [dotRK_over c h hg] at hd
  have hp := backLen_pos c h
  have hs : sumLen c.l (mirrored c.v) * sumLen c.l (mirrored c.v) = (c.l.x + -c.v.x) * (c.l.x + -c.v.x) +
      (c.l.y + -c.v.y) * (c.l.y + -c.v.y) + (c.l.z + c.v.z) * (c.l.z + c.v.z) := by
    unfold sumLen mirrored
    apply Real.mul_self_sqrt
    nlinarith [mul_self_nonneg (c.l.x + -c.v.x), mul_self_nonneg (c.l.y + -c.v.y), mul_self_nonneg (c.l.z + c.v.z)]
  obtain rfl := Option.some.inj hd
  obtain ⟨hv, hl⟩ := h.unit
  unfold V3.IsUnit at hv hl
  generalize sumLen c.l (mirrored c.v) = r at *
  have : (c.l.x + -c.v.x) / r * -c.v.x + (c.l.y + -c.v.y) / r * -c.v.y + (c.l.z + c.v.z) / r * c.v.z =
      (r * r / 2) / r := by
    rw [hs]
    field_simp
    linear_combination hv - hl
  rw [this]
  positivity

theorem clamp_eq (d : ℝ) : clampR d 0 1 = min (max d 0) 1 := by
  unfold clampR
  rcases le_total d 1 with h | h
  · rw [min_eq_left h]
    rcases le_total d 0 with h2 | h2
    · rw [max_eq_right h2]; norm_num
    · rw [max_eq_left h2, min_eq_left h]
  · rw [min_eq_right h, max_eq_left (by linarith : (0:ℝ) ≤ d), min_eq_right h]; norm_num

end
end Alta
