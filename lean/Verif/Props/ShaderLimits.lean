import Verif.Props.Shader
/-
C72: what is not a shader.
-/
namespace Alta
open Glsl Real
noncomputable section

/-! ### A plugin object or a product that is not in a sum -/

/-- the words of the function when a semicolon is missing -/
def brdfBroken (p : Expr × List Token) : List Token := brdfHead ++ p.2 ++ addToks []

theorem brdf_broken (p : Expr × List Token) (hp : ExprOf p.1 p.2) (k : ℕ) (hk : 10 * (brdfBroken p).length ≤ k) :
    pFun k (brdfBroken p) = none := by
  unfold brdfBroken at hk ⊢
  simp only [List.length_append] at hk
  have hh : brdfHead.length = 22 := rfl
  obtain ⟨k, rfl⟩ : ∃ j, k = j + 20 := ⟨k - 20, by omega⟩
  have e : brdfHead ++ p.2 ++ addToks [] = brdfHead ++ (p.2 ++ addToks []) := by simp
  rw [e]
  have h1 : pStmt (k + 19) (.ident ['v', 'e', 'c', '3'] :: .ident resW :: .sym '=' :: (p.2 ++ addToks [])) = none := by
    show ((pExpr (k + 18) (p.2 ++ addToks [])).bind _) = _
    rw [hp.2 (k + 18) (addToks []) (by omega) (.inl ⟨_, _, rfl⟩)]
    rfl
  have h2 : pStmts (k + 20) (.ident ['v', 'e', 'c', '3'] :: .ident resW :: .sym '=' :: (p.2 ++ addToks [])) = none := by
    show (pStmt (k + 19) _).bind _ = _
    rw [h1]
    rfl
  show (pStmts (k + 20) (.ident ['v', 'e', 'c', '3'] :: .ident resW :: .sym '=' :: (p.2 ++ addToks []))).map _ = _
  rw [h2]
  rfl

theorem pProgram_none (m : ℕ) (hm : 40 ≤ m) (l : List (FunDef × List Token)) (hl : ∀ p ∈ l, FunOf p.1 p.2)
    (ts : List Token) (hd : pFun m ts = none) (h0 : ts ≠ []) (k : ℕ) :
    pProgram m k (l.flatMap (·.2) ++ ts) = none := by
  induction l generalizing k with
  | nil =>
    simp only [List.flatMap_nil, List.nil_append]
    cases ts with
    | nil => exact absurd rfl h0
    | cons t ts =>
      cases k with
      | zero => rfl
      | succ k =>
        rw [pProgram.eq_def]
        simp only [hd, Option.bind_none]
  | cons p l ih =>
    have hp := hl p (by simp)
    have hp0 := hp.1
    simp only [List.flatMap_cons, List.append_assoc]
    have h1 := hp.2 m (l.flatMap (·.2) ++ ts) hm
    generalize hT : p.2 ++ (l.flatMap (·.2) ++ ts) = T at h1
    cases T with
    | nil =>
      have := congrArg List.length hT
      simp only [List.length_append, List.length_nil] at this
      omega
    | cons t T =>
      cases k with
      | zero => rfl
      | succ k =>
        rw [pProgram.eq_def]
        simp only [h1, Option.bind_some]
        rw [ih (fun q hq => hl q (by simp [hq])) k]
        rfl

/-- C72 (limit).  A plugin object or a product that is exported alone, not in a sum, is not a shader: no
    semicolon is written after its expression. -/
theorem single_function_not_shader (fmt : ℝ → Decimal) (hf : ShaderFmt fmt) (f : FT LobeObj) (ht : f.Term)
    (hw : ∀ o ∈ f.objects, (∃ c, o.Exportable fmt c)) :
    ∃ text, exportShader fmt f = some text ∧ ∀ L V N X Y, shade text L V N X Y = none := by
  have hw' : Writable f.objects := fun o h => by
    obtain ⟨c, hc⟩ := hw o h
    exact ⟨hc.exported, by rcases hc.1 with h | h <;> omega⟩
  obtain ⟨b, h1, h2⟩ := tree_body_lex fmt hf f hw'
  refine ⟨_, by rw [exportShader, h1]; rfl, ?_⟩
  have h3 : lexRun ⟨[], []⟩ "vec3 BRDF(vec3 L, vec3 V, vec3 N, vec3 X, vec3 Y)\n{\n\tvec3 res = ".toList = ⟨brdfHead, []⟩ := by
    decide +kernel
  have h5 := return_lex
  generalize "vec3 BRDF(vec3 L, vec3 V, vec3 N, vec3 X, vec3 Y)\n{\n\tvec3 res = ".toList = H at h3 ⊢
  generalize "\treturn res;\n}\n\n".toList = R at h5 ⊢
  have key : lex (b ++ H ++ f.shaderCall fmt ++ R) =
      (f.objects.flatMap (·.funs fmt)).flatMap (·.2) ++ brdfBroken (f.pair fmt) := by
    have k1 : lexRun ⟨[], []⟩ (b ++ H ++ f.shaderCall fmt ++ R) =
        ⟨(f.objects.flatMap (·.funs fmt)).flatMap (·.2) ++ brdfBroken (f.pair fmt), []⟩ := by
      rw [lexRun_append, lexRun_append, lexRun_append, h2, lexRun_of _ _ _ _ _ h3, tree_call_lex fmt hf f ht hw',
        lexRun_of _ _ _ _ _ h5]
      simp [brdfBroken]
    show (lexRun ⟨[], []⟩ (b ++ H ++ f.shaderCall fmt ++ R)).done ++ flush (lexRun ⟨[], []⟩ (b ++ H ++ f.shaderCall fmt ++ R)).word = _
    rw [k1]
    simp [flush]
  have hp : parse (b ++ H ++ f.shaderCall fmt ++ R) = none := by
    unfold parse
    simp only [key]
    apply pProgram_none _ (by omega)
    · intro q hq
      obtain ⟨o, -, ho⟩ := List.mem_flatMap.mp hq
      exact funs_parse fmt o q ho
    · exact brdf_broken _ (term_expr fmt f ht hw') _ (by simp only [List.length_append]; omega)
    · simp [brdfBroken, brdfHead]
  intro L V N X Y
  unfold shade
  rw [hp]
  rfl

/-! ### Two objects of the same class -/

theorem link_nodup (ds : List FunDef) (fs r : List Fun) (hfs : (fs.map Fun.sig).Nodup) (h : link fs ds = some r) :
    (fs.map Fun.sig ++ ds.map FunDef.sig).Nodup := by
  induction ds generalizing fs with
  | nil => simpa using hfs
  | cons d ds ih =>
    unfold link at h
    split at h
    · simp at h
    · rename_i hn
      have h1 : ((fs ++ [d.toFun fs]).map Fun.sig).Nodup := by
        rw [List.map_append, List.nodup_append]
        refine ⟨hfs, by simp, ?_⟩
        intro s hs s' hs' he
        obtain rfl : s' = FunDef.sig d := by simpa [toFun_sig] using hs'
        obtain ⟨g, hg, rfl⟩ := List.mem_map.mp hs
        simp only [Fun.sig, FunDef.sig, Prod.mk.injEq] at he
        exact hn ⟨g, hg, he.1, he.2⟩
      have := ih _ h1 h
      simpa [toFun_sig] using this

theorem class_funs (fmt : ℝ → Decimal) (o : LobeObj) (h : o.Exported) (k : ℕ) (hk : o.shaderClass = some k) :
    ∃ p, o.funs fmt = [p] ∧ ∀ o' : LobeObj, o'.Exported → o'.shaderClass = some k →
      ∃ q, o'.funs fmt = [q] ∧ FunDef.sig q.1 = FunDef.sig p.1 := by
  have sgs : ∀ (t t' : SgType), FunDef.sig (sgDef [] [] t) = FunDef.sig (sgDef [] [] t') := by
    intro t t'; cases t <;> cases t' <;> rfl
  cases o <;> first
    | (exact False.elim h)
    | (simp only [LobeObj.shaderClass, reduceCtorEq] at hk; done)
    | skip
  all_goals
    refine ⟨_, rfl, ?_⟩
    intro o' h' hk'
    rw [← hk] at hk'
    cases o' <;> first
      | (exact False.elim h')
      | (simp [LobeObj.shaderClass] at hk'; done)
      | exact ⟨_, rfl, rfl⟩
      | exact ⟨_, rfl, sgs _ _⟩

theorem funs_nodup_class (fmt : ℝ → Decimal) (l : List LobeObj) (hl : ∀ o ∈ l, o.Exported)
    (h : (((l.flatMap (·.funs fmt)).map (·.1)).map FunDef.sig).Nodup) : (l.filterMap LobeObj.shaderClass).Nodup := by
  induction l with
  | nil => simp
  | cons o l ih =>
    rw [List.flatMap_cons, List.map_append, List.map_append] at h
    have ih' := ih (fun o h => hl o (by simp [h])) (List.nodup_append.mp h).2.1
    cases ho : o.shaderClass with
    | none => rwa [List.filterMap_cons_none ho]
    | some k =>
      rw [List.filterMap_cons_some ho]
      refine List.nodup_cons.mpr ⟨?_, ih'⟩
      intro hm
      obtain ⟨o', ho', hk'⟩ := List.mem_filterMap.mp hm
      obtain ⟨p, hp, hp'⟩ := class_funs fmt o (hl o (by simp)) k ho
      obtain ⟨q, hq, hs⟩ := hp' o' (hl o' (by simp [ho'])) hk'
      refine (List.nodup_append.mp h).2.2 (FunDef.sig p.1) (by simp [hp]) (FunDef.sig q.1) ?_ hs.symm
      exact List.mem_map.mpr ⟨q.1, List.mem_map.mpr ⟨q, List.mem_flatMap.mpr ⟨o', ho', by simp [hq]⟩, rfl⟩, rfl⟩

/-- C72 (limit).  A sum with two objects of the same class (except diffuse) is not a shader: the
    function of the class is written twice. -/
theorem repeated_class_not_shader (fmt : ℝ → Decimal) (hf : ShaderFmt fmt) (p : Par) (fs : FTs LobeObj)
    (hne : fs ≠ .nil) (ht : fs.Terms) (hw : ∀ o ∈ fs.objects, (∃ c, o.Exportable fmt c))
    (hd : ¬ (fs.objects.filterMap LobeObj.shaderClass).Nodup) :
    ∃ text, exportShader fmt (.compound p fs) = some text ∧ ∀ L V N X Y, shade text L V N X Y = none := by
  match fs with
  | .nil => exact absurd rfl hne
  | .cons a f rest =>
    have hw1 : Writable (FTs.cons a f rest).objects := fun o h => by
      obtain ⟨c, hc⟩ := hw o h
      exact ⟨hc.exported, by rcases hc.1 with h | h <;> omega⟩
    have hw' : Writable (f.objects ++ rest.objects) := hw1
    obtain ⟨text, h1, h2⟩ := export_lex fmt hf p a f rest ht hw1
    have h3 := export_parse fmt text _ f rest ht.1 ht.2 hw'.left hw'.right h2
    refine ⟨text, h1, fun L V N X Y => ?_⟩
    unfold shade
    rw [h3]
    simp only [Option.bind_some]
    cases hl : link [] (((FTs.cons a f rest).objects.flatMap (·.funs fmt)).map (·.1) ++
        [brdfDef (f.pair fmt) (rest.pairs fmt)]) with
    | none => rfl
    | some r =>
      have := link_nodup _ _ _ (by simp) hl
      rw [List.map_nil, List.nil_append, List.map_append] at this
      exact absurd (funs_nodup_class fmt _ (fun o h => (hw1 o h).1) (List.nodup_append.mp this).1) hd

/-! ### Classes that cannot be exported -/

mutual
/-- C72 (limit).  The export of a function with an object of the class smith ends the program. -/
theorem smith_stops (fmt : ℝ → Decimal) (f : FT LobeObj) (s : OneS) (h : LobeObj.smith s ∈ f.objects) :
    f.shaderBody fmt = none := by
  match f with
  | .leaf o =>
    obtain rfl : LobeObj.smith s = o := by simpa [FT.objects] using h
    rfl
  | .compound p fs => exact smith_stops_list fmt fs s h
  | .product p f g a b =>
    have h' : LobeObj.smith s ∈ f.objects ++ g.objects := h
    simp only [FT.shaderBody]
    rcases List.mem_append.mp h' with h | h
    · rw [smith_stops fmt f s h]; rfl
    · rw [smith_stops fmt g s h]; cases f.shaderBody fmt <;> rfl
/-- the same for the members of a sum -/
theorem smith_stops_list (fmt : ℝ → Decimal) (fs : FTs LobeObj) (s : OneS) (h : LobeObj.smith s ∈ fs.objects) :
    fs.shaderBody fmt = none := by
  match fs with
  | .nil => simp [FTs.objects] at h
  | .cons a f rest =>
    have h' : LobeObj.smith s ∈ f.objects ++ rest.objects := h
    simp only [FTs.shaderBody]
    rcases List.mem_append.mp h' with h | h
    · rw [smith_stops fmt f s h]; rfl
    · rw [smith_stops_list fmt rest s h]; cases f.shaderBody fmt <;> rfl
end

end
end Alta
