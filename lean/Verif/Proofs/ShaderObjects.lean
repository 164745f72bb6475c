import Verif.Proofs.ShaderEval
import Verif.Spec.Shader
/-
The shader of one plugin object: words, expression, function.
-/
namespace Alta
open Glsl Real
noncomputable section

/-- The calls of an object: the name of the function and its vectors, for each lobe. -/
def LobeObj.calls : LobeObj → List (Str × List (ℕ → ℝ))
  | .blinn s => [("blinn".toList, [s.ks, s.N])]
  | .retroblinn s => [("retroblinn".toList, [s.ks, s.N])]
  | .ward s => [("ward".toList, [s.ks, s.ax, s.ay])]
  | .sg s => [("spherical_gaussian".toList, [s.ks, s.n])]
  | .isoLafortune s => (List.range s.n).map fun n => ("lafortune".toList,
      [fun i => s.C ((n * s.par.dimY + i) * 2 + 0), fun i => s.C ((n * s.par.dimY + i) * 2 + 1),
       fun i => s.N (n * s.par.dimY + i)])
  | .lafortune s => (List.range s.n).map fun n => ("lafortune".toList,
      [fun i => s.C ((n * s.par.dimY + i) * 3 + 0), fun i => s.C ((n * s.par.dimY + i) * 3 + 1),
       fun i => s.C ((n * s.par.dimY + i) * 3 + 2), fun i => s.N (n * s.par.dimY + i)])
  | .schlickFresnel s => [("schlick_fresnel".toList, [s.R])]
  | .normalizedSchlick s => [("normalized_schlick_fresnel".toList, [s.R])]
  | .retroSchlick s => [("retro_schlick_fresnel".toList, [s.R])]
  | _ => []

/-- The expression and the words of each lobe. -/
def LobeObj.lobes (fmt : ℝ → Decimal) (o : LobeObj) : List (Expr × List Token) :=
  match o with
  | .diffuse s => [(vecE fmt s.par.dimY s.kd, vec3Toks fmt s.par.dimY s.kd)]
  | o => o.calls.map fun p => (callE fmt p.1 o.par.dimY p.2, callToks fmt p.1 o.par.dimY p.2)

/-- The text of each lobe. -/
def LobeObj.lobeTexts (fmt : ℝ → Decimal) (o : LobeObj) : List Str :=
  match o with
  | .diffuse s => [vec3Text fmt s.par.dimY s.kd]
  | o => o.calls.map fun p => callText fmt p.1 o.par.dimY p.2

/-- the classes that are exported -/
def LobeObj.Exported : LobeObj → Prop
  | .blinn _ | .retroblinn _ | .ward _ | .diffuse _ | .schlickFresnel _ | .normalizedSchlick _
  | .retroSchlick _ => True
  | .isoLafortune s => 0 < s.n
  | .lafortune s => 0 < s.n
  | .sg s => s.type = .Mirror ∨ s.type = .Half ∨ s.type = .Back
  | _ => False

theorem LobeObj.Exportable.exported {fmt : ℝ → Decimal} {c : Cart} {o : LobeObj} (h : o.Exportable fmt c) :
    o.Exported := by
  obtain ⟨-, h⟩ := h
  cases o <;> simp_all [LobeObj.Exported]

theorem shaderCall_lobes (fmt : ℝ → Decimal) (o : LobeObj) (h : o.Exported) :
    o.shaderCall fmt = plusList (o.lobeTexts fmt) := by
  cases o
  case isoLafortune s =>
    refine congrArg plusList ?_
    show _ = ((List.range s.n).map _).map _
    rw [List.map_map]
    rfl
  case lafortune s =>
    refine congrArg plusList ?_
    show _ = ((List.range s.n).map _).map _
    rw [List.map_map]
    rfl
  all_goals first | (exact False.elim h) | rfl

theorem lobe_names (o : LobeObj) (p : Str × List (ℕ → ℝ)) (hp : p ∈ o.calls) :
    IsName p.1 ∧ ∃ v vs, p.2 = v :: vs := by
  cases o <;> simp only [LobeObj.calls, List.mem_singleton, List.not_mem_nil, List.mem_map] at hp <;>
    first
    | (subst hp; refine ⟨?_, _, _, rfl⟩; dsimp only; decide +kernel)
    | (obtain ⟨_, _, rfl⟩ := hp; refine ⟨?_, _, _, rfl⟩; dsimp only; decide +kernel)

theorem lobes_ne (fmt : ℝ → Decimal) (o : LobeObj) (h : o.Exported) : o.lobes fmt ≠ [] := by
  cases o <;> simp_all [LobeObj.Exported, LobeObj.lobes, LobeObj.calls]
  all_goals omega

theorem lobes_atoms (fmt : ℝ → Decimal) (o : LobeObj) (hd : 0 < o.par.dimY) :
    ∀ p ∈ o.lobes fmt, AtomOf p.1 p.2 := by
  intro p hp
  have hc : ∀ q ∈ o.calls, AtomOf (callE fmt q.1 o.par.dimY q.2) (callToks fmt q.1 o.par.dimY q.2) := by
    intro q hq
    obtain ⟨hn, v, vs, hv⟩ := lobe_names o q hq
    rw [hv]
    exact call_atom fmt q.1 hn _ hd v vs
  have hm : (∃ s, o = .diffuse s) ∨ o.lobes fmt = o.calls.map fun p => (callE fmt p.1 o.par.dimY p.2, callToks fmt p.1 o.par.dimY p.2) := by
    cases o <;> first | (right; rfl) | (left; exact ⟨_, rfl⟩)
  rcases hm with ⟨s, rfl⟩ | hm
  · simp only [LobeObj.lobes, List.mem_singleton] at hp
    subst hp
    exact vec3_atom fmt _ hd _
  · rw [hm] at hp
    obtain ⟨q, hq, rfl⟩ := List.mem_map.mp hp
    exact hc q hq

theorem lexRun_plus (l : List (Str × (Expr × List Token)))
    (hl : ∀ p ∈ l, ∀ D, lexRun ⟨D, []⟩ p.1 = ⟨D ++ p.2.2, []⟩) (p : Str × (Expr × List Token))
    (hp : ∀ D, lexRun ⟨D, []⟩ p.1 = ⟨D ++ p.2.2, []⟩) (D : List Token) :
    lexRun ⟨D, []⟩ (plusList (p.1 :: l.map (·.1))) = ⟨D ++ (p.2.2 ++ plusTail (l.map (·.2))), []⟩ := by
  induction l generalizing p D with
  | nil =>
    show lexRun ⟨D, []⟩ p.1 = _
    rw [hp]; simp [plusTail]
  | cons q l ih =>
    have e : plusList (p.1 :: (q :: l).map (·.1)) = p.1 ++ (" + ".toList ++ plusList (q.1 :: l.map (·.1))) := by
      rw [List.map_cons, plusList.eq_def]
      simp only [List.append_assoc]
    have h0 : lexRun ⟨[], []⟩ " + ".toList = ⟨[.sym '+'], []⟩ := by decide +kernel
    rw [e, lexRun_append, hp, lexRun_append, lexRun_of _ _ _ _ _ h0, ih (fun r hr => hl r (by simp [hr])) q (hl q (by simp))]
    simp [plusTail]

/-- the expression and the words of an object -/
def LobeObj.pair (fmt : ℝ → Decimal) (o : LobeObj) : Expr × List Token :=
  match o.lobes fmt with
  | [] => (.num [], [])
  | p :: l => (sumE p.1 l, p.2 ++ plusTail l)

theorem pair_of (fmt : ℝ → Decimal) (o : LobeObj) (h : o.Exported) : ∃ p l, o.lobes fmt = p :: l ∧
    o.pair fmt = (sumE p.1 l, p.2 ++ plusTail l) := by
  have := lobes_ne fmt o h
  unfold LobeObj.pair
  cases he : o.lobes fmt with
  | nil => exact absurd he this
  | cons p l => exact ⟨p, l, rfl, rfl⟩

theorem call_lex (fmt : ℝ → Decimal) (hf : PrintsInteger fmt) (o : LobeObj) (h : o.Exported) (hd : 0 < o.par.dimY)
    (D : List Token) : lexRun ⟨D, []⟩ (o.shaderCall fmt) = ⟨D ++ (o.pair fmt).2, []⟩ := by
  rw [shaderCall_lobes fmt o h]
  have hm : (∃ s, o = .diffuse s) ∨ (o.lobeTexts fmt = o.calls.map fun p => callText fmt p.1 o.par.dimY p.2) ∧
      o.lobes fmt = o.calls.map fun p => (callE fmt p.1 o.par.dimY p.2, callToks fmt p.1 o.par.dimY p.2) := by
    cases o <;> first | (right; exact ⟨rfl, rfl⟩) | (left; exact ⟨_, rfl⟩)
  rcases hm with ⟨s, rfl⟩ | ⟨h1, h2⟩
  · show lexRun ⟨D, []⟩ (vec3Text fmt s.par.dimY s.kd) = _
    rw [lexRun_vec3 fmt hf s.par.dimY hd]
    simp [LobeObj.pair, LobeObj.lobes, plusTail]
  · have hl := lobes_ne fmt o h
    have hn := lobe_names o
    unfold LobeObj.pair
    rw [h2] at hl ⊢
    rw [h1]
    generalize o.calls = cs at hl hn
    cases cs with
    | nil => simp at hl
    | cons q cs =>
      have hq : ∀ r ∈ q :: cs, ∀ D, lexRun ⟨D, []⟩ (callText fmt r.1 o.par.dimY r.2) =
          ⟨D ++ callToks fmt r.1 o.par.dimY r.2, []⟩ := by
        intro r hr D
        obtain ⟨a, v, vs, hv⟩ := hn r hr
        rw [hv]
        exact lexRun_call fmt hf r.1 a _ hd v vs D
      have := lexRun_plus (cs.map fun r => (callText fmt r.1 o.par.dimY r.2,
          (callE fmt r.1 o.par.dimY r.2, callToks fmt r.1 o.par.dimY r.2)))
        (by
          intro r hr D
          obtain ⟨r', hr', rfl⟩ := List.mem_map.mp hr
          exact hq r' (by simp [hr']) D)
        (callText fmt q.1 o.par.dimY q.2, (callE fmt q.1 o.par.dimY q.2, callToks fmt q.1 o.par.dimY q.2))
        (hq q (by simp)) D
      simp only [List.map_map] at this
      simp only [List.map_cons]
      exact this

theorem pair_expr (fmt : ℝ → Decimal) (o : LobeObj) (h : o.Exported) (hd : 0 < o.par.dimY) :
    ExprOf (o.pair fmt).1 (o.pair fmt).2 := by
  obtain ⟨p, l, hl, hp⟩ := pair_of fmt o h
  have ha := lobes_atoms fmt o hd
  rw [hl] at ha
  rw [hp]
  exact sum_expr p l (ha p (by simp)) (fun q hq => ha q (by simp [hq]))

/-- one lobe: a factor -/
theorem pair_atom (fmt : ℝ → Decimal) (o : LobeObj) (h : o.Exported) (hd : 0 < o.par.dimY)
    (h1 : (FT.leaf o).Factor) : AtomOf (o.pair fmt).1 (o.pair fmt).2 := by
  obtain ⟨p, l, hl, hp⟩ := pair_of fmt o h
  have ha := lobes_atoms fmt o hd
  have : l = [] := by
    have hlen : (o.lobes fmt).length = 1 := by
      cases o <;> simp_all [FT.Factor, LobeObj.lobes, LobeObj.calls, LobeObj.Exported]
    rw [hl] at hlen
    simpa using hlen
  subst this
  rw [hl] at ha
  rw [hp]
  simpa [sumE, plusTail] using ha p (by simp)

/-! ### Functions -/

/-- the functions of the shader of an object, with their words -/
def LobeObj.funs (fmt : ℝ → Decimal) : LobeObj → List (FunDef × List Token)
  | .blinn _ => [(blinnDef, blinnToks)]
  | .retroblinn _ => [(retroblinnDef, retroblinnToks)]
  | .ward _ => [(wardDef (fmt π).unsigned, wardToks (fmt π).unsigned)]
  | .sg s => [(sgDef [] [] s.type, sgToks [] [] s.type)]
  | .isoLafortune _ => [(isoLafortuneDef, isoLafortuneToks)]
  | .lafortune _ => [(lafortuneDef, lafortuneToks)]
  | .schlickFresnel _ => [(schlickDef, schlickToks)]
  | .normalizedSchlick _ => [(normalizedSchlickDef, normalizedSchlickToks)]
  | .retroSchlick _ => [(retroSchlickDef, retroSchlickToks)]
  | _ => []

theorem sgToks_pos (u w : Str) (t : SgType) : 0 < (sgToks u w t).length := by
  cases t <;> exact Nat.succ_pos _

theorem funs_parse (fmt : ℝ → Decimal) (o : LobeObj) : ∀ p ∈ o.funs fmt, FunOf p.1 p.2 := by
  intro p hp
  cases o <;> simp only [LobeObj.funs, List.mem_singleton, List.not_mem_nil] at hp <;> subst hp
  · exact FunOf.mk' _ _ (Nat.succ_pos _) blinn_parse
  · exact FunOf.mk' _ _ (Nat.succ_pos _) retroblinn_parse
  · exact FunOf.mk' _ _ (Nat.succ_pos _) (ward_parse _)
  · exact FunOf.mk' _ _ (sgToks_pos _ _ _) (sg_parse _ _ _)
  · exact FunOf.mk' _ _ (Nat.succ_pos _) isoLafortune_parse
  · exact FunOf.mk' _ _ (Nat.succ_pos _) lafortune_parse
  · exact FunOf.mk' _ _ (Nat.succ_pos _) schlick_parse
  · exact FunOf.mk' _ _ (Nat.succ_pos _) normalizedSchlick_parse
  · exact FunOf.mk' _ _ (Nat.succ_pos _) retroSchlick_parse

theorem body_lex (fmt : ℝ → Decimal) (hf : ShaderFmt fmt) (o : LobeObj) (h : o.Exported) :
    ∃ b, o.shaderBody fmt = some b ∧ ∀ D, lexRun ⟨D, []⟩ (endLines b) = ⟨D ++ (o.funs fmt).flatMap (·.2), []⟩ := by
  cases o <;> first | (exact False.elim h) | skip
  · exact ⟨_, rfl, fun D => by rw [lexRun_of _ _ _ _ _ blinn_lex]; simp [LobeObj.funs]⟩
  · exact ⟨_, rfl, fun D => by rw [lexRun_of _ _ _ _ _ retroblinn_lex]; simp [LobeObj.funs]⟩
  · exact ⟨_, rfl, fun D => by rw [lexRun_of _ _ _ _ _ (ward_lex fmt (hf.digits _) hf.sign)]; simp [LobeObj.funs]⟩
  · exact ⟨_, rfl, fun D => by simp [LobeObj.funs, endLines, lexRun]⟩
  · rename_i s
    refine ⟨_, rfl, fun D => ?_⟩
    rw [lexRun_of _ _ _ _ _ (sg_lex fmt s.a s.type (by
      intro ht; rw [LobeObj.Exported, ht] at h; simp at h) [] [])]
    simp [LobeObj.funs]
  · exact ⟨_, rfl, fun D => by rw [lexRun_of _ _ _ _ _ isoLafortune_lex]; simp [LobeObj.funs]⟩
  · exact ⟨_, rfl, fun D => by rw [lexRun_of _ _ _ _ _ lafortune_lex]; simp [LobeObj.funs]⟩
  · exact ⟨_, rfl, fun D => by rw [lexRun_of _ _ _ _ _ schlick_lex]; simp [LobeObj.funs]⟩
  · exact ⟨_, rfl, fun D => by rw [lexRun_of _ _ _ _ _ normalizedSchlick_lex]; simp [LobeObj.funs]⟩
  · exact ⟨_, rfl, fun D => by rw [lexRun_of _ _ _ _ _ retroSchlick_lex]; simp [LobeObj.funs]⟩

end
end Alta
