import Verif.Proofs.Bootstrap
/-
Property C58: the starting point given by the command line.
-/
namespace Alta
noncomputable section

/-! ### The vector of the option `bootstrap` -/

/-- C58: with a vector, a product starts with exactly these parameters. -/
theorem bootstrap_vector_product (files : Str → Option Str) (d : Data) (args : SMap) (p : Par) (f g : FT LobeObj)
    (a b : Bool) (hwf : (FT.product p f g a b).toFn.WF) (xs : List (Str × Decimal)) (hv : GivesVector args xs)
    (hn : xs.length = (FT.product p f g a b).toFn.nb) :
    ∃ f', (FT.product p f g a b).bootstrap files d args = some f' ∧
      f'.toFn.params = xs.map (fun q => ((q.2.value : ℚ) : ℝ)) ∧
      f'.toFn = (FT.product p f g a b).toFn.set (xs.map fun q => ((q.2.value : ℚ) : ℝ)) := by
  have e : bootVec args (FT.product p f g a b).nb = xs.map fun q => ((q.2.value : ℚ) : ℝ) := by
    rw [FT.toFn_nb, ← hn, hv.read]
  refine ⟨_, ?_, ?_, FT.toFn_set _ _⟩
  · simp only [FT.bootstrap, isDefined_of_isVec _ _ hv.isVec, hv.isVec, if_true, e]
  · rw [FT.toFn_set, Fn.params_set _ hwf _ (by simp [hn])]

theorem diffuse_bootstrap_shape (files : Str → Option Str) (d : Data) (args : SMap) (s : DiffuseS) (l : LobeObj)
    (h : LobeObj.bootstrap files d args (.diffuse s) = some l) : ∃ t : DiffuseS, l = .diffuse t ∧ t.par = s.par := by
  simp only [LobeObj.bootstrap, DiffuseS.bootstrap] at h
  split at h
  · simp at h
  · split at h
    · simp at h
    · split at h
      · simp only [Option.map_map, Option.map_eq_some_iff, Function.comp_apply] at h
        obtain ⟨kd, -, h⟩ := h
        exact ⟨_, h.symm, rfl⟩
      · simp only [Option.map_some, Option.some.injEq] at h
        exact ⟨_, h.symm, rfl⟩

/-- A product stays a product, with the same flags. -/
theorem product_bootstrap_shape (files : Str → Option Str) (d : Data) (args : SMap) (p : Par) (f g : FT LobeObj)
    (a b : Bool) (r : FT LobeObj) (h : (FT.product p f g a b).bootstrap files d args = some r) :
    ∃ f' g', r = .product p f' g' a b := by
  simp only [FT.bootstrap] at h
  repeat' split at h
  all_goals first
    | (simp only [reduceCtorEq] at h; done)
    | (simp only [FT.set, Option.some.injEq] at h; exact ⟨_, _, h.symm⟩)
    | (simp only [Option.some.injEq] at h; exact ⟨_, _, h.symm⟩)
    | (simp only [Option.map_eq_some_iff] at h; obtain ⟨g1, -, h⟩ := h; exact ⟨_, _, h.symm⟩)
    | (obtain ⟨g1, -, h⟩ := Option.map_eq_some_iff.1 h; exact ⟨_, _, h.symm⟩)

theorem bootVector_get (files : Str → Option Str) (d : Data) : ∀ (fs : FTs LobeObj) (v : List ℝ) (fs' : FTs LobeObj),
    fs.Plain → fs.bootVector files d v = some fs' →
    fs'.toFns.get = (fs.toFns.set v).get ∧ fs'.toFns.nb = (fs.toFns.set v).nb
  | .nil, v, fs', _, h => by
    simp only [FTs.bootVector, Option.some.injEq] at h
    subst h
    exact ⟨rfl, rfl⟩
  | .cons a f rest, v, fs', hp, h => by
    simp only [FTs.Plain] at hp
    simp only [FTs.bootVector] at h
    by_cases c : (f.nb > 0 && !isFixed a) = true
    · rw [if_pos c] at h
      obtain ⟨r, hr, rfl⟩ := Option.map_eq_some_iff.1 h
      rw [FT.toFn_nb f] at hr ⊢
      obtain ⟨ih1, ih2⟩ := bootVector_get files d rest _ r hp.2 hr
      have c' : (f.toFn.nb > 0 && !isFixed a) = true := by rw [← FT.toFn_nb]; exact c
      unfold isFixed at c'
      simp only [FTs.toFns, Fns.set, c', if_true, Fns.get, Fns.nb, FT.toFn_set, ih1, ih2, and_self]
    · rw [if_neg c] at h
      have c' : ¬ (f.toFn.nb > 0 && !isFixed a) = true := by rw [← FT.toFn_nb]; exact c
      unfold isFixed at c'
      simp only [FTs.toFns, Fns.set, c', Bool.false_eq_true, if_false, Fns.get, Fns.nb]
      by_cases h0 : f.nb = 0
      · rw [if_pos h0] at h
        have h0' : f.toFn.nb = 0 := by rw [← FT.toFn_nb]; exact h0
        have key : ∀ f1, f.bootstrap files d a = some f1 → f1.toFn.nb = 0 := by
          intro f1 hf1
          rcases hp.1 h0' with ⟨s, rfl⟩ | ⟨p, g, g', rfl⟩
          · simp only [FT.bootstrap] at hf1
            obtain ⟨l, hl, rfl⟩ := Option.map_eq_some_iff.1 hf1
            obtain ⟨t, rfl, -⟩ := diffuse_bootstrap_shape files d a s l hl
            rfl
          · obtain ⟨f', g', rfl⟩ := product_bootstrap_shape files d a p g g' true true f1 hf1
            rfl
        cases hb : f.bootstrap files d a with
        | none => simp [hb] at h
        | some f1 =>
          simp only [hb] at h
          obtain ⟨r, hr, rfl⟩ := Option.map_eq_some_iff.1 h
          obtain ⟨ih1, ih2⟩ := bootVector_get files d rest _ r hp.2 hr
          have h1 := key f1 hb
          simp only [FTs.toFns, Fns.get, Fns.nb, h1, h0', ih1, ih2, gt_iff_lt, lt_self_iff_false,
            decide_false, Bool.false_and, Bool.false_eq_true, if_false, and_self]
      · rw [if_neg h0] at h
        obtain ⟨r, hr, rfl⟩ := Option.map_eq_some_iff.1 h
        obtain ⟨ih1, ih2⟩ := bootVector_get files d rest _ r hp.2 hr
        simp only [FTs.toFns, Fns.get, Fns.nb, ih1, ih2, c', Bool.false_eq_true, if_false, and_self]

/-- C58: with a vector, a sum starts with exactly these parameters. -/
theorem bootstrap_vector_sum (files : Str → Option Str) (d : Data) (args : SMap) (p : Par) (fs : FTs LobeObj)
    (hwf : (FT.compound p fs).toFn.WF) (hpl : fs.Plain) (xs : List (Str × Decimal)) (hv : GivesVector args xs)
    (hn : xs.length = (FT.compound p fs).toFn.nb) (f' : FT LobeObj)
    (hb : (FT.compound p fs).bootstrap files d args = some f') :
    f'.toFn.nb = (FT.compound p fs).toFn.nb ∧ f'.toFn.params = xs.map (fun q => ((q.2.value : ℚ) : ℝ)) := by
  have hn' : xs.length = fs.nb := by rw [hn]; simp only [FT.toFn, Fn.nb, FTs.toFns_nb]
  simp only [FT.bootstrap, isDefined_of_isVec _ _ hv.isVec, hv.isVec, if_true, ← hn', hv.read] at hb
  obtain ⟨fs', h1, rfl⟩ := Option.map_eq_some_iff.1 hb
  obtain ⟨h2, h3⟩ := bootVector_get files d fs _ fs' hpl h1
  have h4 := Fn.set_nb _ hwf (xs.map fun q => ((q.2.value : ℚ) : ℝ))
  have h5 := Fn.params_set _ hwf (xs.map fun q => ((q.2.value : ℚ) : ℝ)) (by simp [hn])
  simp only [FT.toFn, Fn.set, Fn.nb] at h4
  simp only [FT.toFn, Fn.params, Fn.get, Fn.nb, Fn.set] at h5 ⊢
  rw [h2, h3]
  exact ⟨h4, h5⟩

/-- C58: with a vector, a Beckmann lobe and an sgd lobe alone start with exactly these parameters. -/
theorem bootstrap_vector_lobe (files : Str → Option Str) (d : Data) (args : SMap) (l : LobeObj)
    (hl : (∃ s, l = .beckmann s) ∨ ∃ s, l = .sgd s) (xs : List (Str × Decimal)) (hv : GivesVector args xs)
    (hn : xs.length = l.toFn.nb) :
    ∃ l', (FT.leaf l).bootstrap files d args = some (.leaf l') ∧
      l'.toFn.params = xs.map (fun q => ((q.2.value : ℚ) : ℝ)) := by
  have h5 := Fn.params_set _ l.toFn_WF (xs.map fun q => ((q.2.value : ℚ) : ℝ)) (by simp [hn])
  have e : LobeObj.nlBootstrap files args l = some (l.set (xs.map fun q => ((q.2.value : ℚ) : ℝ))) := by
    simp only [LobeObj.nlBootstrap, hv.isVec, if_true, ← hn, hv.read]
  refine ⟨l.set (xs.map fun q => ((q.2.value : ℚ) : ℝ)), ?_, by rw [LobeObj.toFn_set]; exact h5⟩
  rcases hl with ⟨s, rfl⟩ | ⟨s, rfl⟩
  · simp only [FT.bootstrap, LobeObj.bootstrap, isDefined_of_isVec _ _ hv.isVec, if_true, e, Option.map_some]
  · simp only [FT.bootstrap, LobeObj.bootstrap, e, Option.map_some]

/-! ### Each part by itself -/

theorem foldlM_isSome {α β : Type} (f : β → α → Option β) (l : List α) (h : ∀ a ∈ l, ∀ b, (f b a).isSome) (b : β) :
    (l.foldlM f b).isSome := by
  induction l generalizing b with
  | nil => rfl
  | cons a l ih =>
    obtain ⟨c, hc⟩ := Option.isSome_iff_exists.1 (h a (by simp) b)
    simp only [List.foldlM_cons, hc]
    exact ih (fun x hx => h x (by simp [hx])) c

theorem foldlM_isSome_rev {α β : Type} (f : β → α → Option β) (g : α → Bool) (hg : ∀ b a, (f b a).isSome = g a)
    (l : List α) (b : β) (h : (l.foldlM f b).isSome = true) : ∀ a ∈ l, g a = true := by
  induction l generalizing b with
  | nil => simp
  | cons a l ih =>
    simp only [List.foldlM_cons] at h
    cases hc : f b a with
    | none => simp [hc] at h
    | some c =>
      simp only [hc] at h
      intro x hx
      rcases List.mem_cons.1 hx with rfl | hx
      · rw [← hg b x, hc]; rfl
      · exact ih c h x hx

theorem foldlM_isSome_iff {α β : Type} (f : β → α → Option β) (g : α → Bool) (hg : ∀ b a, (f b a).isSome = g a)
    (l : List α) (b : β) : (l.foldlM f b).isSome = true ↔ ∀ a ∈ l, g a = true :=
  ⟨foldlM_isSome_rev f g hg l b, fun h => foldlM_isSome f l (fun a ha b => by rw [hg]; exact h a ha) b⟩

theorem isCosineWeighted_iff (o : Output) : isCosineWeighted o = true ↔ o = .INV_STERADIAN_COSINE_FACTOR := by
  cases o <;> simp [isCosineWeighted]

/-- C58: exactly when a plugin object can be started. -/
theorem startable_iff (files : Str → Option Str) (d : Data) (args : SMap) (l : LobeObj) :
    (l.bootstrap files d args).isSome ↔ l.Startable files d args := by
  have nl : ∀ l : LobeObj, (LobeObj.nlBootstrap files args l).isSome ↔
      (args.isVec kBoot = true ∨ args.get kBoot = [] ∨ (files (args.get kBoot)).isSome) := by
    intro l
    unfold LobeObj.nlBootstrap LobeObj.baseBootstrap
    by_cases h1 : args.isVec kBoot = true
    · simp [h1]
    · by_cases h2 : args.get kBoot = []
      · simp [h1, h2]
      · have h3 : args.isDefined kBoot = true := by
          unfold SMap.get at h2
          unfold SMap.isDefined
          cases h : args.find kBoot <;> simp_all
        cases h4 : files (args.get kBoot) <;> simp [h1, h2, h3]
  cases l with
  | beckmann s =>
    simp only [LobeObj.bootstrap, LobeObj.Startable]
    by_cases h : args.isDefined kBoot = true
    · rw [if_pos h]; exact nl _
    · rw [if_neg h]
      have : args.get kBoot = [] := by
        unfold SMap.get
        unfold SMap.isDefined at h
        cases h' : args.find kBoot <;> simp_all
      simp [this]
  | sgd s => exact nl _
  | diffuse s =>
    simp only [LobeObj.bootstrap, LobeObj.Startable, DiffuseS.bootstrap, Option.isSome_map]
    by_cases h1 : args.isDefined kBoot = true
    · simp [h1]
    · by_cases h2 : s.par.dimY < d.dimY
      · simp [h1, h2]
      · by_cases h3 : (isCosineWeighted d.output || args.isDefined "cos-fit".toList) = true
        · have h3' := h3
          rw [Bool.or_eq_true, isCosineWeighted_iff] at h3'
          simp only [h1, h2, h3, Bool.false_eq_true, if_false, if_true, Option.isSome_map]
          rw [foldlM_isSome_iff _ (fun row => (convertInput (arr row) d.input .CARTESIAN).isSome)
            (fun b a => by simp [diffuseCosRow])]
          simp only [not_lt] at h2
          simp only [true_and, h2, h3', forall_true_left]
        · have h3' := h3
          rw [Bool.or_eq_true, isCosineWeighted_iff] at h3'
          simp only [h1, h2, h3, Bool.false_eq_true, if_false, Option.isSome_some, true_iff]
          exact ⟨trivial, by omega, fun h => absurd h h3'⟩
  | isoLafortune s =>
    simp only [LobeObj.bootstrap, LobeObj.Startable, IsoLafortuneS.bootstrap, Option.isSome_map, askedLobes]
    generalize args.getInt "lobes".toList 1 = z
    split <;> simp <;> omega
  | lafortune s =>
    simp only [LobeObj.bootstrap, LobeObj.Startable, LafortuneS.bootstrap, Option.isSome_map, askedLobes]
    generalize args.getInt "lobes".toList 1 = z
    by_cases h1 : z < 0
    · simp [h1]
    · cases h2 : d.rows with
      | nil => simp [h1]
      | cons x rows =>
        by_cases h3 : s.par.dimY < d.dimY
        · simp [h1, h3]
        · simp only [h1, h3, if_false, Option.isSome_some, true_iff]
          exact ⟨by omega, by simp, by omega⟩
  | _ => simp [LobeObj.bootstrap, LobeObj.Startable]

mutual
theorem FT.bootstrap_parts (files : Str → Option Str) (d : Data) : ∀ (f : FT LobeObj) (args : SMap) (f' : FT LobeObj),
    args.isDefined kBoot = false → f.Free → f.bootstrap files d args = some f' →
    List.Forall₂ (fun x y => y.1 = x.1 ∧ x.2.bootstrap files d x.1 = some y.2) (f.parts args) (f'.parts args)
  | .leaf l, args, f', ha, hf, h => by
    simp only [FT.bootstrap] at h
    obtain ⟨l', h1, rfl⟩ := Option.map_eq_some_iff.1 h
    exact .cons ⟨rfl, h1⟩ .nil
  | .compound p fs, args, f', ha, hf, h => by
    simp only [FT.bootstrap, ha, Bool.false_eq_true, if_false] at h
    obtain ⟨fs', h1, rfl⟩ := Option.map_eq_some_iff.1 h
    exact FTs.bootstrap_parts files d fs fs' hf h1
  | .product p f g a b, args, f', ha, hf, h => by
    simp only [FT.bootstrap, ha, Bool.false_eq_true, if_false] at h
    cases h1 : f.bootstrap files d args with
    | none => simp [h1] at h
    | some f1 =>
      simp only [h1] at h
      obtain ⟨g1, h2, rfl⟩ := Option.map_eq_some_iff.1 h
      exact List.rel_append (FT.bootstrap_parts files d f args f1 ha hf.1 h1)
        (FT.bootstrap_parts files d g args g1 ha hf.2 h2)
theorem FTs.bootstrap_parts (files : Str → Option Str) (d : Data) : ∀ (fs fs' : FTs LobeObj),
    fs.Free → fs.bootEach files d = some fs' →
    List.Forall₂ (fun x y => y.1 = x.1 ∧ x.2.bootstrap files d x.1 = some y.2) fs.parts fs'.parts
  | .nil, fs', _, h => by
    simp only [FTs.bootEach, Option.some.injEq] at h
    subst h
    exact .nil
  | .cons a f rest, fs', hf, h => by
    simp only [FTs.bootEach] at h
    cases h1 : f.bootstrap files d a with
    | none => simp [h1] at h
    | some f1 =>
      simp only [h1] at h
      obtain ⟨r, h2, rfl⟩ := Option.map_eq_some_iff.1 h
      exact List.rel_append (FT.bootstrap_parts files d f a f1 hf.1 hf.2.1 h1)
        (FTs.bootstrap_parts files d rest r hf.2.2 h2)
end

mutual
theorem FT.bootstrap_isSome (files : Str → Option Str) (d : Data) : ∀ (f : FT LobeObj) (args : SMap),
    args.isDefined kBoot = false → f.Free →
    ((f.bootstrap files d args).isSome ↔ ∀ x ∈ f.parts args, x.2.Startable files d x.1)
  | .leaf l, args, ha, hf => by
    simp only [FT.bootstrap, Option.isSome_map, FT.parts, List.mem_singleton, forall_eq]
    exact startable_iff files d args l
  | .compound p fs, args, ha, hf => by
    simp only [FT.bootstrap, ha, Bool.false_eq_true, if_false, Option.isSome_map, FT.parts]
    exact FTs.bootstrap_isSome files d fs hf
  | .product p f g a b, args, ha, hf => by
    have h1 := FT.bootstrap_isSome files d f args ha hf.1
    have h2 := FT.bootstrap_isSome files d g args ha hf.2
    simp only [FT.bootstrap, ha, Bool.false_eq_true, if_false, FT.parts, List.mem_append, or_imp, forall_and]
    rw [← h1, ← h2]
    cases f.bootstrap files d args <;> simp
theorem FTs.bootstrap_isSome (files : Str → Option Str) (d : Data) : ∀ fs : FTs LobeObj, fs.Free →
    ((fs.bootEach files d).isSome ↔ ∀ x ∈ fs.parts, x.2.Startable files d x.1)
  | .nil, _ => by simp [FTs.bootEach, FTs.parts]
  | .cons a f rest, hf => by
    have h1 := FT.bootstrap_isSome files d f a hf.1 hf.2.1
    have h2 := FTs.bootstrap_isSome files d rest hf.2.2
    simp only [FTs.bootEach, FTs.parts, List.mem_append, or_imp, forall_and]
    rw [← h1, ← h2]
    cases f.bootstrap files d a <;> simp
end

/-- C58: without the option `bootstrap`, a function starts exactly when each of its plugin objects can,
    and each of them is started with the arguments of its own term. -/
theorem bootstrap_each (files : Str → Option Str) (d : Data) (f : FT LobeObj) (args : SMap)
    (ha : args.isDefined kBoot = false) (hf : f.Free) :
    ((f.bootstrap files d args).isSome ↔ ∀ x ∈ f.parts args, x.2.Startable files d x.1) ∧
    ∀ f', f.bootstrap files d args = some f' →
      List.Forall₂ (fun x y => y.1 = x.1 ∧ x.2.bootstrap files d x.1 = some y.2) (f.parts args) (f'.parts args) :=
  ⟨FT.bootstrap_isSome files d f args ha hf, fun f' h => FT.bootstrap_parts files d f args f' ha hf h⟩

end
end Alta
