import Verif.Proofs.ShaderSum
/-
C72: the exported shader computes the function.
-/
namespace Alta
open Glsl Real
noncomputable section

theorem call_brdf (ds : List FunDef) (d : FunDef) (hn : ((ds ++ [d]).map FunDef.sig).Nodup)
    (args : List Val) (ha : args.map Val.ty = d.params.map fun q => some q.1) :
    callFun (linked [] (ds ++ [d])) d.name args = (d.toFun (linked [] ds)).run args := by
  have hs : ((linked [] (ds ++ [d])).map Fun.sig).Nodup := by
    rw [linked_sigs]; simpa using hn
  have := call_unique _ hs (d.toFun (linked [] ds)) (by rw [linked_snoc]; simp) args (by
    rw [ha]; simp [FunDef.toFun])
  exact this

/-- C72.  For every sum of terms (plugin objects and products of plugin objects, of different
    classes), every way of writing the numbers and every pair of directions above the surface, the
    text written by the export is a program of the shading language whose function `BRDF` computes the
    value of the function (with the coefficients written in the text). -/
theorem exported_shader_value_partial (fmt : ℝ → Decimal) (hf : ShaderFmt fmt) (c : Cart) (hc : c.Over) (p : Par)
    (fs : FTs LobeObj) (hne : fs ≠ .nil) (ht : fs.Terms) (ho : ∀ o ∈ fs.objects, o.Exportable fmt c)
    (hd : (fs.objects.filterMap LobeObj.shaderClass).Nodup) (hs : (FT.compound p fs).toFn.SharedInput) (y : List ℝ)
    (hy : ((FT.compound p fs).mapObjects (·.exported fmt)).toFn.reflect c = some y) :
    ∃ text col, exportShader fmt (.compound p fs) = some text ∧ asColour y = some col ∧
      shade text c.l c.v frameN frameX frameY = some col := by
  match fs with
  | .nil => exact absurd rfl hne
  | .cons a f rest =>
    have hw : Writable (FTs.cons a f rest).objects := fun o h =>
      ⟨(ho o h).exported, by rcases (ho o h).1 with h | h <;> omega⟩
    have hw' : Writable (f.objects ++ rest.objects) := hw
    obtain ⟨text, h1, h2⟩ := export_lex fmt hf p a f rest ht hw
    have h3 := export_parse fmt text _ f rest ht.1 ht.2 hw'.left hw'.right h2
    have hF := objectFuns_for fmt _ hd
    have hg := objectFuns_noBuiltin fmt (FTs.cons a f rest).objects
    have hnd : ((((FTs.cons a f rest).objects.flatMap (·.funs fmt)).map (·.1) ++
        [brdfDef (f.pair fmt) (rest.pairs fmt)]).map FunDef.sig).Nodup := by
      rw [List.map_append, List.nodup_append]
      refine ⟨funs_nodup fmt _ hd, by simp, ?_⟩
      intro s hs1 s' hs2 hss
      obtain ⟨d, hd1, rfl⟩ := List.mem_map.mp hs1
      obtain ⟨q, hq, rfl⟩ := List.mem_map.mp hd1
      obtain ⟨o, -, hq'⟩ := List.mem_flatMap.mp hq
      have h5 := (funs_class fmt o q hq').2.1
      rw [hss] at h5
      obtain rfl := List.mem_singleton.mp (by simpa using hs2)
      revert h5
      show ¬ (classOf (['B', 'R', 'D', 'F'], [.vec3, .vec3, .vec3, .vec3, .vec3])).isSome = true
      decide +kernel
    -- the value of the function
    have hsm := mapped_shareds fmt _ _ hs
    simp only [FT.mapObjects, FT.toFn] at hy
    unfold Fn.reflect at hy
    obtain ⟨x, hx, hy⟩ := Option.bind_eq_some_iff.mp hy
    replace hy : (Fns.cons (a.isDefined "fixed".toList) (f.mapObjects (·.exported fmt)).toFn
        (rest.mapObjects (·.exported fmt)).toFns).valueLoop p.input x (List.replicate p.dimY 0) = some y := hy
    rw [valueLoop_bind] at hy
    obtain ⟨u, hu, hy⟩ := Option.bind_eq_some_iff.mp hy
    obtain ⟨r, hr, hy2⟩ := Option.bind_eq_some_iff.mp hy
    obtain rfl := vecAdd_zeros _ _ _ hr
    rw [part_reflect _ p.input hsm.1.2 c x hx] at hu
    have he : EnvAt [(['L'], .v c.l), (['V'], .v c.v), (['N'], .v axisZ), (['X'], .v axisX), (['Y'], .v axisY)] c :=
      ⟨rfl, rfl, rfl, rfl, rfl⟩
    simp only [FTs.objects, List.mem_append] at ho
    obtain ⟨c1, h6, h7⟩ := tree_colour fmt hf _ hg c hc _ he f ht.1 (fun o h => ho o (.inl h))
      (fun o h => hF o (by simp [FTs.objects, h])) hs.1.1 r hu
    obtain ⟨col, env', h8, h9⟩ := trees_colour fmt hf _ hg c hc _ he rest ht.2 (fun o h => ho o (.inr h))
      (fun o h => hF o (by simp [FTs.objects, h])) p.input hs.2 x hx r c1 h6 y hy2
    refine ⟨text, col, h1, h8, ?_⟩
    have h10 := brdf_run _ _ _ c c1 col env' h7 h9
    unfold shade
    rw [h3]
    simp only [Option.bind_some]
    rw [link_linked _ _ (by simpa using hnd)]
    simp only [Option.bind_some]
    have h11 := call_brdf _ _ hnd [.v c.l, .v c.v, .v axisZ, .v axisX, .v axisY] rfl
    have h12 := h11.trans h10
    have e : "BRDF".toList = (brdfDef (f.pair fmt) (rest.pairs fmt)).name := by
      show "BRDF".toList = ['B', 'R', 'D', 'F']
      decide
    rw [e]
    have e2 : [Val.v c.l, .v c.v, .v frameN, .v frameX, .v frameY] = [.v c.l, .v c.v, .v axisZ, .v axisX, .v axisY] := rfl
    rw [e2, h12]

mutual
theorem mapObjects_same (g : LobeObj → LobeObj) (f : FT LobeObj) (h : ∀ o ∈ f.objects, g o = o) : f.mapObjects g = f := by
  match f with
  | .leaf o => simp only [FT.mapObjects, h o (by simp [FT.objects])]
  | .compound p fs => simp only [FT.mapObjects, mapObjects_sames g fs h]
  | .product p f k a b =>
    have h' : ∀ o ∈ f.objects ++ k.objects, g o = o := h
    simp only [FT.mapObjects, mapObjects_same g f fun o ho => h' o (by simp [ho]),
      mapObjects_same g k fun o ho => h' o (by simp [ho])]
theorem mapObjects_sames (g : LobeObj → LobeObj) (fs : FTs LobeObj) (h : ∀ o ∈ fs.objects, g o = o) : fs.mapObjects g = fs := by
  match fs with
  | .nil => rfl
  | .cons a f rest =>
    have h' : ∀ o ∈ f.objects ++ rest.objects, g o = o := h
    simp only [FTs.mapObjects, mapObjects_same g f fun o ho => h' o (by simp [ho]),
      mapObjects_sames g rest fun o ho => h' o (by simp [ho])]
end

/-- C72.  When the numbers are written exactly (and the classes that lose a coefficient have its neutral
    value), the shader computes the value of the function itself. -/
theorem exported_shader_exact_partial (fmt : ℝ → Decimal) (hf : ShaderFmt fmt) (c : Cart) (hc : c.Over) (p : Par)
    (fs : FTs LobeObj) (hne : fs ≠ .nil) (ht : fs.Terms) (ho : ∀ o ∈ fs.objects, o.Exportable fmt c)
    (hd : (fs.objects.filterMap LobeObj.shaderClass).Nodup) (hs : (FT.compound p fs).toFn.SharedInput)
    (he : ∀ o ∈ fs.objects, o.exported fmt = o) (y : List ℝ) (hy : (FT.compound p fs).toFn.reflect c = some y) :
    ∃ text col, exportShader fmt (.compound p fs) = some text ∧ asColour y = some col ∧
      shade text c.l c.v frameN frameX frameY = some col := by
  refine exported_shader_value_partial fmt hf c hc p fs hne ht ho hd hs y ?_
  rw [mapObjects_same (·.exported fmt) (.compound p fs) he]
  exact hy

/-- C72.  The export for the BRDF explorer is the same shader, between its two markers. -/
theorem exported_explorer (fmt : ℝ → Decimal) (f : FT LobeObj) (text : Str) (h : exportShader fmt f = some text) :
    exportExplorer fmt f = some ("analytic\n\n::begin shader\n".toList ++ text ++ "::end shader\n".toList) := by
  rw [exportExplorer, h]; rfl

end
end Alta
