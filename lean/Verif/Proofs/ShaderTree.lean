import Verif.Proofs.ShaderValues
import Verif.Props.ReciprocityTree
/-
The shader of a composition: words, grammar, values.
-/
namespace Alta
open Glsl Real
noncomputable section

/-- the expression and the words of a term -/
def FT.pair (fmt : ℝ → Decimal) : FT LobeObj → Expr × List Token
  | .leaf o => o.pair fmt
  | .product _ f g _ _ => (.bin .mul (f.pair fmt).1 (g.pair fmt).1, prodToks (f.pair fmt).2 (g.pair fmt).2)
  | .compound _ _ => (.num [], [])

/-- the same for the members of a compound -/
def FTs.pairs (fmt : ℝ → Decimal) : FTs LobeObj → List (Expr × List Token)
  | .nil => []
  | .cons _ f rest => f.pair fmt :: rest.pairs fmt

theorem FT.Factor.term {f : FT LobeObj} (h : f.Factor) : f.Term := by
  cases f with
  | leaf l => exact True.intro
  | product p f g a b => simpa [FT.Factor, FT.Term] using h
  | compound p fs => simpa [FT.Factor] using h

/-! ### Words -/

section
variable (fmt : ℝ → Decimal) (hf : ShaderFmt fmt)

/-- the objects can be written -/
def Writable (l : List LobeObj) : Prop := ∀ o ∈ l, o.Exported ∧ 0 < o.par.dimY

theorem Writable.left {a b : List LobeObj} (h : Writable (a ++ b)) : Writable a := fun o ho => h o (by simp [ho])
theorem Writable.right {a b : List LobeObj} (h : Writable (a ++ b)) : Writable b := fun o ho => h o (by simp [ho])

include hf

theorem tree_call_lex (f : FT LobeObj) (ht : f.Term) (hw : Writable f.objects) (D : List Token) :
    lexRun ⟨D, []⟩ (f.shaderCall fmt) = ⟨D ++ (f.pair fmt).2, []⟩ := by
  match f with
  | .leaf o =>
    obtain ⟨h1, h2⟩ := hw o (by simp [FT.objects])
    simp only [FT.shaderCall, FT.pair]
    exact call_lex fmt hf.digits o h1 h2 D
  | .product p f g a b =>
    have h1 : lexRun ⟨[], []⟩ "(".toList = ⟨[.sym '('], []⟩ := by decide +kernel
    have h2 : lexRun ⟨[], []⟩ " * ".toList = ⟨[.sym '*'], []⟩ := by decide +kernel
    have h3 : lexRun ⟨[], []⟩ ")\n".toList = ⟨[.sym ')'], []⟩ := by decide +kernel
    have ht' : f.Factor ∧ g.Factor := ht
    have hw' : Writable (f.objects ++ g.objects) := hw
    simp only [FT.shaderCall, FT.pair]
    rw [lexRun_append, lexRun_append, lexRun_append, lexRun_append, lexRun_of _ _ _ _ _ h1,
      tree_call_lex f ht'.1.term hw'.left, lexRun_of _ _ _ _ _ h2, tree_call_lex g ht'.2.term hw'.right,
      lexRun_of _ _ _ _ _ h3]
    simp [prodToks]
  | .compound p fs => exact False.elim ht

mutual
theorem tree_body_lex (f : FT LobeObj) (hw : Writable f.objects) :
    ∃ b, f.shaderBody fmt = some b ∧
      ∀ D, lexRun ⟨D, []⟩ b = ⟨D ++ (f.objects.flatMap (·.funs fmt)).flatMap (·.2), []⟩ := by
  match f with
  | .leaf o =>
    obtain ⟨b, h1, h2⟩ := body_lex fmt hf o (hw o (by simp [FT.objects])).1
    refine ⟨endLines b, by simp [FT.shaderBody, h1], fun D => ?_⟩
    rw [h2]; simp [FT.objects]
  | .compound p fs =>
    obtain ⟨b, h1, h2⟩ := trees_body_lex fs hw
    exact ⟨b, by simp [FT.shaderBody, h1], h2⟩
  | .product p f g a b =>
    have hw' : Writable (f.objects ++ g.objects) := hw
    obtain ⟨b1, h1, h2⟩ := tree_body_lex f hw'.left
    obtain ⟨b2, h3, h4⟩ := tree_body_lex g hw'.right
    have h0 : lexRun ⟨[], []⟩ ['\n'] = ⟨[], []⟩ := by decide +kernel
    refine ⟨b1 ++ ['\n'] ++ b2 ++ ['\n'], by simp only [FT.shaderBody, h1, h3, Option.bind_some, Option.map_some], fun D => ?_⟩
    rw [lexRun_append, lexRun_append, lexRun_append, h2, lexRun_of _ _ _ _ _ h0, h4, lexRun_of _ _ _ _ _ h0]
    simp [FT.objects]
theorem trees_body_lex (fs : FTs LobeObj) (hw : Writable fs.objects) :
    ∃ b, fs.shaderBody fmt = some b ∧
      ∀ D, lexRun ⟨D, []⟩ b = ⟨D ++ (fs.objects.flatMap (·.funs fmt)).flatMap (·.2), []⟩ := by
  match fs with
  | .nil => exact ⟨[], by simp [FTs.shaderBody], fun D => by simp [FTs.objects, lexRun]⟩
  | .cons a f rest =>
    have hw' : Writable (f.objects ++ rest.objects) := hw
    obtain ⟨b1, h1, h2⟩ := tree_body_lex f hw'.left
    obtain ⟨b2, h3, h4⟩ := trees_body_lex rest hw'.right
    have h0 : lexRun ⟨[], []⟩ ['\n'] = ⟨[], []⟩ := by decide +kernel
    refine ⟨b1 ++ ['\n'] ++ b2, by simp only [FTs.shaderBody, h1, h3, Option.bind_some, Option.map_some], fun D => ?_⟩
    rw [lexRun_append, lexRun_append, h2, lexRun_of _ _ _ _ _ h0, h4]
    simp [FTs.objects]
end

theorem trees_call_lex (fs : FTs LobeObj) (ht : fs.Terms) (hw : Writable fs.objects) (R : Str)
    (hR : lexRun ⟨[], []⟩ R = ⟨addToks [], []⟩) (D : List Token) :
    lexRun ⟨D, []⟩ (fs.shaderCall fmt ++ R) = ⟨D ++ addToks (fs.pairs fmt), []⟩ := by
  match fs with
  | .nil =>
    show lexRun ⟨D, []⟩ R = _
    rw [lexRun_of _ _ _ _ _ hR]
    rfl
  | .cons a f rest =>
    have hw' : Writable (f.objects ++ rest.objects) := hw
    have h1 : lexRun ⟨[], []⟩ "\tres += ".toList = ⟨[.ident resW, .sym '+', .sym '='], []⟩ := by decide +kernel
    have h2 : lexRun ⟨[], []⟩ ";\n".toList = ⟨[.sym ';'], []⟩ := by decide +kernel
    have ih := trees_call_lex rest ht.2 hw'.right R hR
    show lexRun ⟨D, []⟩ ("\tres += ".toList ++ f.shaderCall fmt ++ ";\n".toList ++ rest.shaderCall fmt ++ R) =
      ⟨D ++ ([.ident resW, .sym '+', .sym '='] ++ (f.pair fmt).2 ++ [.sym ';'] ++ addToks (rest.pairs fmt)), []⟩
    simp only [List.append_assoc]
    rw [lexRun_append, lexRun_of _ _ _ _ _ h1, lexRun_append, tree_call_lex fmt hf f ht.1 hw'.left, lexRun_append,
      lexRun_of _ _ _ _ _ h2, ih]
    simp

omit hf in
theorem return_lex : lexRun ⟨[], []⟩ "\treturn res;\n}\n\n".toList = ⟨addToks [], []⟩ := by decide +kernel

/-- the words of the whole text -/
theorem export_lex (p : Par) (a : SMap) (f : FT LobeObj) (rest : FTs LobeObj) (ht : (FTs.cons a f rest).Terms)
    (hw : Writable (FTs.cons a f rest).objects) :
    ∃ text, exportShader fmt (.compound p (.cons a f rest)) = some text ∧
      lex text = ((FTs.cons a f rest).objects.flatMap (·.funs fmt)).flatMap (·.2) ++ brdfToks (f.pair fmt) (rest.pairs fmt) := by
  have hw' : Writable (f.objects ++ rest.objects) := hw
  obtain ⟨b, h1, h2⟩ := tree_body_lex fmt hf (.compound p (.cons a f rest)) hw
  refine ⟨_, by rw [exportShader, h1]; rfl, ?_⟩
  have h3 : lexRun ⟨[], []⟩ "vec3 BRDF(vec3 L, vec3 V, vec3 N, vec3 X, vec3 Y)\n{\n\tvec3 res = ".toList = ⟨brdfHead, []⟩ := by
    decide +kernel
  have h4 : lexRun ⟨[], []⟩ ";\n".toList = ⟨[.sym ';'], []⟩ := by decide +kernel
  have h5 := trees_call_lex fmt hf rest ht.2 hw'.right _ (return_lex)
  unfold lex
  simp only [FT.shaderCall]
  generalize "vec3 BRDF(vec3 L, vec3 V, vec3 N, vec3 X, vec3 Y)\n{\n\tvec3 res = ".toList = H at h3 ⊢
  generalize "\treturn res;\n}\n\n".toList = R at h5 ⊢
  have e : b ++ H ++ (f.shaderCall fmt ++ ";\n".toList ++ rest.shaderCall fmt) ++ R =
      b ++ (H ++ (f.shaderCall fmt ++ (";\n".toList ++ (rest.shaderCall fmt ++ R)))) := by simp only [List.append_assoc]
  have key : List.foldl lexStep ⟨[], []⟩ (b ++ H ++ (f.shaderCall fmt ++ ";\n".toList ++ rest.shaderCall fmt) ++ R) =
      ⟨((FTs.cons a f rest).objects.flatMap (·.funs fmt)).flatMap (·.2) ++ brdfToks (f.pair fmt) (rest.pairs fmt), []⟩ := by
    rw [e]
    show lexRun ⟨[], []⟩ _ = _
    rw [lexRun_append, h2, lexRun_append, lexRun_of _ _ _ _ _ h3, lexRun_append,
      tree_call_lex fmt hf f ht.1 hw'.left, lexRun_append, lexRun_of _ _ _ _ _ h4, h5]
    simp [brdfToks, FT.objects]
  rw [key]
  simp [flush]

omit hf

/-! ### Grammar -/

theorem factor_atom (f : FT LobeObj) (ht : f.Factor) (hw : Writable f.objects) :
    AtomOf (f.pair fmt).1 (f.pair fmt).2 := by
  match f with
  | .leaf o =>
    obtain ⟨h1, h2⟩ := hw o (by simp [FT.objects])
    exact pair_atom fmt o h1 h2 ht
  | .product p f g a b =>
    have ht' : f.Factor ∧ g.Factor := by simpa [FT.Factor] using ht
    have hw' : Writable (f.objects ++ g.objects) := hw
    exact prod_atom _ _ _ _ (factor_atom f ht'.1 hw'.left) (factor_atom g ht'.2 hw'.right)
  | .compound p fs => exact False.elim (by simpa [FT.Factor] using ht)

theorem term_expr (f : FT LobeObj) (ht : f.Term) (hw : Writable f.objects) :
    ExprOf (f.pair fmt).1 (f.pair fmt).2 := by
  match f with
  | .leaf o =>
    obtain ⟨h1, h2⟩ := hw o (by simp [FT.objects])
    exact pair_expr fmt o h1 h2
  | .product p f g a b =>
    have ht' : f.Factor ∧ g.Factor := ht
    have hw' : Writable (f.objects ++ g.objects) := hw
    exact (prod_atom _ _ _ _ (factor_atom fmt f ht'.1 hw'.left) (factor_atom fmt g ht'.2 hw'.right)).expr
  | .compound p fs => exact False.elim ht

theorem terms_expr (fs : FTs LobeObj) (ht : fs.Terms) (hw : Writable fs.objects) :
    ∀ q ∈ fs.pairs fmt, ExprOf q.1 q.2 := by
  match fs with
  | .nil => simp [FTs.pairs]
  | .cons a f rest =>
    have hw' : Writable (f.objects ++ rest.objects) := hw
    intro q hq
    rcases List.mem_cons.mp hq with rfl | hq
    · exact term_expr fmt f ht.1 hw'.left
    · exact terms_expr rest ht.2 hw'.right q hq

/-- the functions of the program -/
theorem export_parse (text : Str) (l : List LobeObj) (f : FT LobeObj) (rest : FTs LobeObj) (htf : f.Term)
    (htr : rest.Terms) (hwf : Writable f.objects) (hwr : Writable rest.objects)
    (hl : lex text = (l.flatMap (·.funs fmt)).flatMap (·.2) ++ brdfToks (f.pair fmt) (rest.pairs fmt)) :
    parse text = some ((l.flatMap (·.funs fmt)).map (·.1) ++ [brdfDef (f.pair fmt) (rest.pairs fmt)]) := by
  unfold parse
  simp only [hl]
  apply pProgram_funs
  · omega
  · intro q hq
    obtain ⟨o, -, ho⟩ := List.mem_flatMap.mp hq
    exact funs_parse fmt o q ho
  · have := brdf_parse (f.pair fmt) (rest.pairs fmt) (term_expr fmt f htf hwf) (terms_expr fmt rest htr hwr)
      (100 + 10 * (List.flatMap (fun x => x.2) (List.flatMap (fun x => LobeObj.funs fmt x) l) ++
        brdfToks (f.pair fmt) (rest.pairs fmt)).length) (by simp only [List.length_append]; omega) []
    simpa using this
  · simp [brdfToks, brdfHead]
  · simp only [List.length_append]; omega

end

end
end Alta
