import Verif.Proofs.ShaderTree
/-
The shader of a composition computes its value.
-/
namespace Alta
open Glsl Real
noncomputable section

/-! ### Functions -/

/-- the classes by name and number of parameters -/
def classTable : List ((Str × ℕ) × ℕ) :=
  [(("blinn".toList, 7), 0), (("retroblinn".toList, 7), 1), (("ward".toList, 8), 4),
   (("spherical_gaussian".toList, 7), 6), (("lafortune".toList, 8), 7), (("lafortune".toList, 9), 8),
   (("schlick_fresnel".toList, 6), 9), (("normalized_schlick_fresnel".toList, 6), 10),
   (("retro_schlick_fresnel".toList, 6), 11)]

/-- the class, given name and number of parameters -/
def classOf (s : Str × List Ty) : Option ℕ := (classTable.find? fun r => r.1 == (s.1, s.2.length)).map (·.2)

theorem funs_class (fmt : ℝ → Decimal) (o : LobeObj) : ∀ p ∈ o.funs fmt,
    o.shaderClass = classOf (FunDef.sig p.1) ∧ (classOf (FunDef.sig p.1)).isSome ∧ p.1.name ∉ builtinNames := by
  intro p hp
  cases o <;> simp only [LobeObj.funs, List.mem_singleton, List.not_mem_nil] at hp <;> subst hp
  case ward s =>
    refine ⟨rfl, rfl, ?_⟩
    show ['w', 'a', 'r', 'd'] ∉ builtinNames
    decide
  case sg s =>
    generalize s.type = t
    cases t <;> exact ⟨rfl, rfl, by decide⟩
  all_goals exact ⟨rfl, rfl, by decide⟩

theorem funs_length (fmt : ℝ → Decimal) (o : LobeObj) : (o.funs fmt).length ≤ 1 := by
  cases o <;> simp [LobeObj.funs]

theorem funs_nodup (fmt : ℝ → Decimal) (l : List LobeObj) (h : (l.filterMap LobeObj.shaderClass).Nodup) :
    (((l.flatMap (·.funs fmt)).map (·.1)).map FunDef.sig).Nodup := by
  induction l with
  | nil => simp
  | cons o l ih =>
    have hl : (l.filterMap LobeObj.shaderClass).Nodup := by
      cases ho : o.shaderClass with
      | none => rwa [List.filterMap_cons_none ho] at h
      | some k => rw [List.filterMap_cons_some ho] at h; exact (List.nodup_cons.mp h).2
    have hlen := funs_length fmt o
    have hc := funs_class fmt o
    rw [List.flatMap_cons, List.map_append, List.map_append]
    cases hf : o.funs fmt with
    | nil => simpa using ih hl
    | cons p ps =>
      obtain rfl : ps = [] := by
        rw [hf] at hlen
        cases ps with
        | nil => rfl
        | cons a b => simp at hlen
      obtain ⟨c1, c2, -⟩ := hc p (by simp [hf])
      simp only [List.map_cons, List.map_nil, List.singleton_append]
      refine List.nodup_cons.mpr ⟨?_, ih hl⟩
      intro hm
      obtain ⟨d, hd, hs⟩ := List.mem_map.mp hm
      obtain ⟨q, hq, rfl⟩ := List.mem_map.mp hd
      obtain ⟨o', ho', hq'⟩ := List.mem_flatMap.mp hq
      obtain ⟨k, hk⟩ := Option.isSome_iff_exists.mp c2
      rw [List.filterMap_cons_some (c1.trans hk)] at h
      apply (List.nodup_cons.mp h).1
      exact List.mem_filterMap.mpr ⟨o', ho', by rw [(funs_class fmt o' q hq').1, hs, hk]⟩

theorem linked_snoc (ds : List FunDef) (d : FunDef) (fs : List Fun) :
    linked fs (ds ++ [d]) = linked fs ds ++ [d.toFun (linked fs ds)] := by
  induction ds generalizing fs with
  | nil => rfl
  | cons e ds ih => exact ih _

theorem linked_from (ds : List FunDef) (fs : List Fun) (g : Fun) (hg : g ∈ linked fs ds) :
    g ∈ fs ∨ ∃ d ∈ ds, g.name = d.name := by
  induction ds generalizing fs with
  | nil => exact .inl hg
  | cons e ds ih =>
    rcases ih _ hg with h | ⟨d, hd, h⟩
    · rcases List.mem_append.mp h with h | h
      · exact .inl h
      · obtain rfl := List.mem_singleton.mp h
        exact .inr ⟨e, by simp, rfl⟩
    · exact .inr ⟨d, by simp [hd], h⟩

/-- the functions of a list of objects -/
def objectFuns (fmt : ℝ → Decimal) (l : List LobeObj) : List Fun := linked [] ((l.flatMap (·.funs fmt)).map (·.1))

theorem objectFuns_noBuiltin (fmt : ℝ → Decimal) (l : List LobeObj) : NoBuiltin (objectFuns fmt l) := by
  intro g hg
  rcases linked_from _ _ g hg with h | ⟨d, hd, h⟩
  · simp at h
  · obtain ⟨q, hq, rfl⟩ := List.mem_map.mp hd
    obtain ⟨o, -, ho⟩ := List.mem_flatMap.mp hq
    rw [h]
    exact (funs_class fmt o q ho).2.2

theorem objectFuns_for (fmt : ℝ → Decimal) (l : List LobeObj) (h : (l.filterMap LobeObj.shaderClass).Nodup)
    (o : LobeObj) (ho : o ∈ l) : FunsFor fmt (objectFuns fmt l) o := by
  intro p hp
  have hd : p.1 ∈ (l.flatMap (·.funs fmt)).map (·.1) :=
    List.mem_map.mpr ⟨p, List.mem_flatMap.mpr ⟨o, ho, hp⟩, rfl⟩
  obtain ⟨fs', h1, h2⟩ := (linked_mem ((l.flatMap (·.funs fmt)).map (·.1)) []).2 p.1 hd
  refine ⟨fs', fun g hg => objectFuns_noBuiltin fmt l g (h2 g hg), fun args ha => ?_⟩
  have hn : ((objectFuns fmt l).map Fun.sig).Nodup := by
    unfold objectFuns
    rw [linked_sigs]
    simpa using funs_nodup fmt l h
  have := call_unique _ hn _ h1 args (by
    rw [ha]; simp [FunDef.toFun])
  exact this

/-! ### Exported objects keep their parametrization -/

theorem exported_par (fmt : ℝ → Decimal) (o : LobeObj) : (o.exported fmt).toFn.par = o.toFn.par := by
  cases o <;> rfl

theorem mapped_par (fmt : ℝ → Decimal) (f : FT LobeObj) :
    (f.mapObjects (·.exported fmt)).toFn.par = f.toFn.par := by
  cases f with
  | leaf o => exact exported_par fmt o
  | compound p fs => rfl
  | product p f g a b => rfl

mutual
theorem mapped_shared (fmt : ℝ → Decimal) (f : FT LobeObj) (h : f.toFn.SharedInput) :
    (f.mapObjects (·.exported fmt)).toFn.SharedInput := by
  match f with
  | .leaf o =>
    simp only [FT.mapObjects, FT.toFn]
    cases o <;> exact True.intro
  | .compound p fs =>
    simp only [FT.mapObjects, FT.toFn, Fn.SharedInput] at h ⊢
    exact mapped_shareds fmt fs p.input h
  | .product p f g a b =>
    simp only [FT.mapObjects, FT.toFn, Fn.SharedInput] at h ⊢
    rw [mapped_par, mapped_par]
    exact ⟨⟨mapped_shared fmt f h.1.1, h.1.2⟩, mapped_shared fmt g h.2.1, h.2.2⟩
theorem mapped_shareds (fmt : ℝ → Decimal) (fs : FTs LobeObj) (i : Input) (h : fs.toFns.SharedInput i) :
    (fs.mapObjects (·.exported fmt)).toFns.SharedInput i := by
  match fs with
  | .nil => exact True.intro
  | .cons a f rest =>
    simp only [FTs.mapObjects, FTs.toFns, Fns.SharedInput] at h ⊢
    rw [mapped_par]
    exact ⟨⟨mapped_shared fmt f h.1.1, h.1.2⟩, mapped_shareds fmt rest i h.2⟩
end

/-! ### Values -/

theorem asColour_cases (y : List ℝ) (a : V3) (h : asColour y = some a) :
    (y = [a.x] ∧ a.y = a.x ∧ a.z = a.x) ∨ y = [a.x, a.y, a.z] := by
  unfold asColour at h
  split at h
  · obtain rfl := Option.some.inj h; exact .inl ⟨rfl, rfl, rfl⟩
  · obtain rfl := Option.some.inj h; exact .inr rfl
  · simp at h

theorem asColour_product (y z w : List ℝ) (a b : V3) (ha : asColour y = some a) (hb : asColour z = some b)
    (h : vecProduct y z = some w) : asColour w = some ⟨a.x * b.x, a.y * b.y, a.z * b.z⟩ := by
  rcases asColour_cases y a ha with ⟨rfl, e1, e2⟩ | rfl <;> rcases asColour_cases z b hb with ⟨rfl, e3, e4⟩ | rfl <;>
    simp [vecProduct] at h <;> subst h <;> simp [asColour, *, mul_comm]

theorem asColour_add (y z w : List ℝ) (a b : V3) (ha : asColour y = some a) (hb : asColour z = some b)
    (h : vecAdd y z = some w) : asColour w = some ⟨a.x + b.x, a.y + b.y, a.z + b.z⟩ := by
  rcases asColour_cases y a ha with ⟨rfl, e1, e2⟩ | rfl <;> rcases asColour_cases z b hb with ⟨rfl, e3, e4⟩ | rfl <;>
    simp [vecAdd] at h <;> subst h <;> simp [asColour, *]

theorem vecAdd_zeros (n : ℕ) (v w : List ℝ) (h : vecAdd (List.replicate n 0) v = some w) : w = v := by
  unfold vecAdd at h
  split at h
  · rename_i hl
    rw [List.length_replicate] at hl
    subst hl
    obtain rfl := Option.some.inj h
    clear h
    induction v with
    | nil => rfl
    | cons a v ih => simp only [List.length_cons, List.replicate_succ, List.zipWith_cons_cons, zero_add, ih]
  · simp at h

section
variable (fmt : ℝ → Decimal) (hf : ShaderFmt fmt) (gs : List Fun) (hg : NoBuiltin gs) (c : Cart)
  (hc : c.Over)
include hf hg hc

theorem tree_colour (env : Env) (he : EnvAt env c) (f : FT LobeObj) (ht : f.Term) (ho : ∀ o ∈ f.objects, o.Exportable fmt c)
    (hF : ∀ o ∈ f.objects, FunsFor fmt gs o) (hs : f.toFn.SharedInput) :
    ∀ y, (f.mapObjects (·.exported fmt)).toFn.reflect c = some y →
      ∃ col, asColour y = some col ∧ eval gs env (f.pair fmt).1 = some (.v col) := by
  match f with
  | .leaf o =>
    exact object_colour fmt hf gs hg env c hc he o (ho o (by simp [FT.objects])) (hF o (by simp [FT.objects]))
  | .compound p fs => exact False.elim ht
  | .product p f g a b =>
    have ht' : f.Factor ∧ g.Factor := ht
    have hsm := mapped_shared fmt _ hs
    simp only [FT.mapObjects, FT.toFn, Fn.SharedInput] at hsm hs
    simp only [FT.objects, List.mem_append] at ho hF
    intro y hy
    have ihf := tree_colour env he f ht'.1.term (fun o h => ho o (.inl h)) (fun o h => hF o (.inl h)) hs.1.1
    have ihg := tree_colour env he g ht'.2.term (fun o h => ho o (.inr h)) (fun o h => hF o (.inr h)) hs.2.1
    simp only [FT.mapObjects, FT.toFn] at hy
    unfold Fn.reflect at hy
    obtain ⟨x, hx, hy⟩ := Option.bind_eq_some_iff.mp hy
    rw [product_bind] at hy
    obtain ⟨u, hu, hy⟩ := Option.bind_eq_some_iff.mp hy
    obtain ⟨v, hv, hy⟩ := Option.bind_eq_some_iff.mp hy
    rw [part_reflect _ p.input hsm.1.2 c x hx] at hu
    rw [part_reflect _ p.input hsm.2.2 c x hx] at hv
    obtain ⟨c1, h1, h2⟩ := ihf u hu
    obtain ⟨c2, h3, h4⟩ := ihg v hv
    refine ⟨_, asColour_product u v y c1 c2 h1 h3 hy, ?_⟩
    simp only [FT.pair, eval, h2, h4, Option.bind_some]
    rfl

theorem env_res (env : Env) (he : EnvAt env c) (a : V3) : EnvAt ((resW, .v a) :: env) c := by
  obtain ⟨h1, h2, h3, h4, h5⟩ := he
  unfold Env.get at h1 h2 h3 h4 h5
  constructor <;> unfold Env.get <;> rw [List.find?_cons_of_neg (by simp [resW])] <;> assumption

theorem trees_colour (env : Env) (he : EnvAt env c) (fs : FTs LobeObj) (ht : fs.Terms)
    (ho : ∀ o ∈ fs.objects, o.Exportable fmt c) (hF : ∀ o ∈ fs.objects, FunsFor fmt gs o) (i : Input)
    (hs : fs.toFns.SharedInput i) (x : List ℝ) (hx : convertInput (arr c.toList) .CARTESIAN i = some x)
    (res : List ℝ) (a : V3) (hr : asColour res = some a) :
    ∀ y, (fs.mapObjects (·.exported fmt)).toFns.valueLoop i x res = some y →
      ∃ col env', asColour y = some col ∧
        execs gs ((resW, .v a) :: env) (addStmts (fs.pairs fmt)) = some (env', some (.v col)) := by
  match fs with
  | .nil =>
    intro y hy
    obtain rfl : res = y := Option.some.inj hy
    exact ⟨a, _, hr, rfl⟩
  | .cons b f rest =>
    intro y hy
    have hsm := mapped_shareds fmt _ _ hs
    simp only [FTs.mapObjects, FTs.toFns, Fns.SharedInput] at hsm hs
    simp only [FTs.objects, List.mem_append] at ho hF
    simp only [FTs.mapObjects, FTs.toFns] at hy
    rw [valueLoop_bind] at hy
    obtain ⟨u, hu, hy⟩ := Option.bind_eq_some_iff.mp hy
    obtain ⟨r, hrr, hy⟩ := Option.bind_eq_some_iff.mp hy
    rw [part_reflect _ i hsm.1.2 c x hx] at hu
    obtain ⟨c1, h1, h2⟩ := tree_colour fmt hf gs hg c hc _ (env_res fmt hf gs hg c hc env he a) f ht.1
      (fun o h => ho o (.inl h)) (fun o h => hF o (.inl h)) hs.1.1 u hu
    obtain ⟨col, env', h3, h4⟩ := trees_colour env he rest ht.2 (fun o h => ho o (.inr h)) (fun o h => hF o (.inr h))
      i hs.2 x hx r _ (asColour_add res u r a c1 hr h1 hrr) y hy
    refine ⟨col, env', h3, ?_⟩
    rw [← h4]
    have hex : exec gs ((resW, .v a) :: env) (.addAssign resW (f.pair fmt).1) =
        some ((resW, .v ⟨a.x + c1.x, a.y + c1.y, a.z + c1.z⟩) :: env, Option.none) := by
      simp only [exec, h2, Option.bind_some]
      rfl
    show (exec gs ((resW, .v a) :: env) (.addAssign resW (f.pair fmt).1)).bind _ = _
    rw [hex]
    rfl

end

/-- what the function `BRDF` returns -/
theorem brdf_run (gs : List Fun) (p : Expr × List Token) (l : List (Expr × List Token)) (c : Cart) (a col : V3)
    (env' : Env)
    (h1 : eval gs [(['L'], .v c.l), (['V'], .v c.v), (['N'], .v axisZ), (['X'], .v axisX), (['Y'], .v axisY)] p.1 =
      some (.v a))
    (h2 : execs gs ((resW, .v a) :: [(['L'], .v c.l), (['V'], .v c.v), (['N'], .v axisZ), (['X'], .v axisX), (['Y'], .v axisY)])
      (addStmts l) = some (env', some (.v col))) :
    ((brdfDef p l).toFun gs).run [.v c.l, .v c.v, .v axisZ, .v axisX, .v axisY] = some (.v col) := by
  have h3 : exec gs [(['L'], .v c.l), (['V'], .v c.v), (['N'], .v axisZ), (['X'], .v axisX), (['Y'], .v axisY)]
      (.decl .vec3 resW p.1) = some ((resW, .v a) :: [(['L'], .v c.l), (['V'], .v c.v), (['N'], .v axisZ),
        (['X'], .v axisX), (['Y'], .v axisY)], Option.none) := by
    simp [exec, h1, Val.HasTy]
  have h4 : execs gs [(['L'], .v c.l), (['V'], .v c.v), (['N'], .v axisZ), (['X'], .v axisX), (['Y'], .v axisY)]
      (.cons (.decl .vec3 resW p.1) (addStmts l)) = some (env', some (.v col)) := by
    rw [← h2]
    simp only [execs, h3, Option.bind_some]
  show (execs gs [(['L'], .v c.l), (['V'], .v c.v), (['N'], .v axisZ), (['X'], .v axisX), (['Y'], .v axisY)]
      (.cons (.decl .vec3 resW p.1) (addStmts l))).bind _ = _
  rw [h4]
  simp [brdfDef, Val.HasTy]

end
end Alta
