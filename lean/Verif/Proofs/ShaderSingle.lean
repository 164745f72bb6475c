import Verif.Props.ShaderLimits
/-
The shader of a sum of one plugin object, for the classes whose shader has not the value of the object.
-/
namespace Alta
open Glsl Real
noncomputable section

/-- the words of the text -/
theorem single_lex (fmt : ℝ → Decimal) (p : Par) (a : SMap) (o : LobeObj) (b : List Str) (T P : List Token)
    (hb : o.shaderBody fmt = some b) (hT : lexRun ⟨[], []⟩ (endLines b) = ⟨T, []⟩)
    (hP : ∀ D, lexRun ⟨D, []⟩ (o.shaderCall fmt) = ⟨D ++ P, []⟩) :
    ∃ text, exportShader fmt (.compound p (.cons a (.leaf o) .nil)) = some text ∧
      lex text = T ++ (brdfHead ++ P ++ [.sym ';'] ++ addToks []) := by
  have hbody : (FT.compound p (.cons a (.leaf o) .nil)).shaderBody fmt = some (endLines b ++ ['\n'] ++ []) := by
    simp only [FT.shaderBody, FTs.shaderBody, hb, Option.map_some, Option.bind_some]
  refine ⟨_, by rw [exportShader, hbody]; rfl, ?_⟩
  have h3 : lexRun ⟨[], []⟩ "vec3 BRDF(vec3 L, vec3 V, vec3 N, vec3 X, vec3 Y)\n{\n\tvec3 res = ".toList = ⟨brdfHead, []⟩ := by
    decide +kernel
  have h4 : lexRun ⟨[], []⟩ ";\n".toList = ⟨[.sym ';'], []⟩ := by decide +kernel
  have h0 : lexRun ⟨[], []⟩ ['\n'] = ⟨[], []⟩ := by decide +kernel
  have h5 := return_lex
  have hcall : (FT.compound p (.cons a (.leaf o) .nil)).shaderCall fmt = o.shaderCall fmt ++ ";\n".toList := by
    show o.shaderCall fmt ++ ";\n".toList ++ [] = _
    exact List.append_nil _
  rw [hcall]
  generalize "vec3 BRDF(vec3 L, vec3 V, vec3 N, vec3 X, vec3 Y)\n{\n\tvec3 res = ".toList = H at h3 ⊢
  generalize "\treturn res;\n}\n\n".toList = R at h5 ⊢
  generalize ";\n".toList = S at h4 ⊢
  have key : lexRun ⟨[], []⟩ (endLines b ++ ['\n'] ++ [] ++ H ++ (o.shaderCall fmt ++ S) ++ R) =
      ⟨T ++ (brdfHead ++ P ++ [.sym ';'] ++ addToks []), []⟩ := by
    simp only [List.append_nil]
    rw [lexRun_append, lexRun_append, lexRun_append, lexRun_append, lexRun_append, hT, lexRun_of _ _ _ _ _ h0, lexRun_of _ _ _ _ _ h3, hP,
      lexRun_of _ _ _ _ _ h4, lexRun_of _ _ _ _ _ h5]
    simp
  show (lexRun ⟨[], []⟩ (endLines b ++ ['\n'] ++ [] ++ H ++ (o.shaderCall fmt ++ S) ++ R)).done ++
    flush (lexRun ⟨[], []⟩ (endLines b ++ ['\n'] ++ [] ++ H ++ (o.shaderCall fmt ++ S) ++ R)).word = _
  rw [key]
  simp [flush]

/-- the functions of the text -/
theorem single_parse (text : Str) (l : List (FunDef × List Token)) (hl : ∀ q ∈ l, FunOf q.1 q.2)
    (q : Expr × List Token) (hq : ExprOf q.1 q.2)
    (h2 : lex text = l.flatMap (·.2) ++ brdfToks q []) :
    parse text = some (l.map (·.1) ++ [brdfDef q []]) := by
  unfold parse
  simp only [h2]
  apply pProgram_funs
  · omega
  · exact hl
  · have := brdf_parse q [] hq (by simp) (100 + 10 * (l.flatMap (·.2) ++ brdfToks q []).length)
      (by simp only [List.length_append]; omega) []
    simpa using this
  · simp [brdfToks, brdfHead]
  · simp only [List.length_append]; omega

/-- what the function `BRDF` computes: its only expression -/
theorem single_value (text : Str) (l : List FunDef) (q : Expr × List Token)
    (hp : parse text = some (l ++ [brdfDef q []])) (hnd : ((l ++ [brdfDef q []]).map FunDef.sig).Nodup)
    (c : Cart) (col : V3)
    (h3 : eval (linked [] l) [(['L'], .v c.l), (['V'], .v c.v), (['N'], .v axisZ), (['X'], .v axisX), (['Y'], .v axisY)]
      q.1 = some (.v col)) :
    shade text c.l c.v frameN frameX frameY = some col := by
  unfold shade
  rw [hp]
  simp only [Option.bind_some]
  rw [link_linked _ _ (by simpa using hnd)]
  simp only [Option.bind_some]
  have h4 : execs (linked [] l) [(resW, .v col), (['L'], .v c.l), (['V'], .v c.v), (['N'], .v axisZ), (['X'], .v axisX), (['Y'], .v axisY)]
      (addStmts []) = some ([(resW, .v col), (['L'], .v c.l), (['V'], .v c.v), (['N'], .v axisZ), (['X'], .v axisX),
        (['Y'], .v axisY)], some (.v col)) := by
    simp [addStmts, execs, exec, eval, Env.get]
  have h10 := brdf_run (linked [] l) q [] c col col _ h3 h4
  have h11 := call_brdf l (brdfDef q []) hnd [.v c.l, .v c.v, .v axisZ, .v axisX, .v axisY] rfl
  have h12 := h11.trans h10
  have e : "BRDF".toList = (brdfDef q []).name := by
    show "BRDF".toList = ['B', 'R', 'D', 'F']
    decide
  rw [e]
  have e2 : [Val.v c.l, .v c.v, .v frameN, .v frameX, .v frameY] = [.v c.l, .v c.v, .v axisZ, .v axisX, .v axisY] := rfl
  rw [e2, h12]

/-- the function of the object called with its coefficients -/
theorem single_shade (fmt : ℝ → Decimal) (hf : ShaderFmt fmt) (p : Par) (a : SMap) (o : LobeObj) (b : List Str)
    (l : List (FunDef × List Token)) (hl : ∀ q ∈ l, FunOf q.1 q.2) (hb : o.shaderBody fmt = some b)
    (hT : lexRun ⟨[], []⟩ (endLines b) = ⟨l.flatMap (·.2), []⟩)
    (name : Str) (hname : IsName name) (n : ℕ) (hn : n = 1 ∨ n = 3) (v : ℕ → ℝ) (vs : List (ℕ → ℝ))
    (hcall : o.shaderCall fmt = callText fmt name n (v :: vs))
    (hnd : (l.map (fun q : FunDef × List Token => FunDef.sig q.1) ++
      [((['B', 'R', 'D', 'F'] : Str), [Ty.vec3, .vec3, .vec3, .vec3, .vec3])]).Nodup)
    (hbn : ∀ q ∈ l, q.1.name ∉ builtinNames)
    (g : Fun) (hg : g ∈ linked [] (l.map (·.1))) (hgn : g.name = name)
    (hgp : g.params = [.vec3, .vec3, .vec3, .vec3, .vec3] ++ (v :: vs).map fun _ => .vec3)
    (c : Cart) (col : V3)
    (hr : g.run ([.v c.l, .v c.v, .v axisZ, .v axisX, .v axisY] ++
      (v :: vs).map fun w => .v (colourOf n fun i => printed fmt (w i))) = some (.v col)) :
    ∃ text, exportShader fmt (.compound p (.cons a (.leaf o) .nil)) = some text ∧
      shade text c.l c.v frameN frameX frameY = some col := by
  have h0 : 0 < n := by omega
  obtain ⟨text, h1, h2⟩ := single_lex fmt p a o b _ (callToks fmt name n (v :: vs)) hb hT (fun D => by
    rw [hcall]; exact lexRun_call fmt hf.digits name hname n h0 v vs D)
  refine ⟨text, h1, ?_⟩
  have hB : NoBuiltin (linked [] (l.map (·.1))) := by
    intro g hg
    rcases linked_from _ _ g hg with hg | ⟨d, hd, hgd⟩
    · simp at hg
    · obtain ⟨q, hq, rfl⟩ := List.mem_map.mp hd
      rw [hgd]
      exact hbn q hq
  have hnd' : ((linked [] (l.map (·.1))).map Fun.sig).Nodup := by
    rw [linked_sigs, List.map_map]
    exact (List.nodup_append.mp hnd).1
  have he : EnvAt [(['L'], .v c.l), (['V'], .v c.v), (['N'], .v axisZ), (['X'], .v axisX), (['Y'], .v axisY)] c :=
    ⟨rfl, rfl, rfl, rfl, rfl⟩
  have h3 : eval (linked [] (l.map (·.1))) [(['L'], .v c.l), (['V'], .v c.v), (['N'], .v axisZ), (['X'], .v axisX), (['Y'], .v axisY)]
      (callE fmt name n (v :: vs)) = some (.v col) := by
    rw [eval_callE fmt hf.digits _ hB _ c he name n hn (v :: vs), ← hr, ← hgn]
    apply call_unique _ hnd' g hg
    rw [hgp, List.map_append, List.map_append, List.map_map, List.map_map]
    rfl
  have hq := (call_atom fmt name hname n h0 v vs).expr
  have hp := single_parse text l hl (callE fmt name n (v :: vs), callToks fmt name n (v :: vs)) hq h2
  refine single_value text _ _ hp ?_ c col h3
  rw [List.map_append, List.map_map]
  exact hnd

end
end Alta
