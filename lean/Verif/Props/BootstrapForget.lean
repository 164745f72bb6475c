import Verif.Props.Bootstrap
/-
Property C58: the starting point does not depend on the coefficients that the function had before, which
the constructors of the plugins do not initialise.
-/
namespace Alta
noncomputable section

theorem fillTo_lt (n : ℕ) (v : ℝ) (old : ℕ → ℝ) (i : ℕ) (h : i < n) : fillTo n v old i = v := by simp [fillTo, h]

theorem fillTo_congr (n : ℕ) (v : ℝ) (a b : ℕ → ℝ) (i : ℕ) (h : i < n) : fillTo n v a i = fillTo n v b i := by
  rw [fillTo_lt _ _ _ _ h, fillTo_lt _ _ _ _ h]

theorem minInto_congr (n : ℕ) (v a b : ℕ → ℝ) (h : ∀ i < n, a i = b i) : ∀ i < n, minInto n v a i = minInto n v b i := by
  intro i hi
  simp [minInto, hi, h i hi]

theorem min_foldl_congr (n : ℕ) (v : List ℝ → ℕ → ℝ) (rows : List (List ℝ)) : ∀ a b : ℕ → ℝ, (∀ i < n, a i = b i) →
    ∀ i < n, rows.foldl (fun kd row => minInto n (v row) kd) a i = rows.foldl (fun kd row => minInto n (v row) kd) b i := by
  induction rows with
  | nil => intro a b h; exact h
  | cons r rows ih => intro a b h; exact ih _ _ (minInto_congr n _ a b h)

theorem cos_foldlM_congr (d : Data) (rows : List (List ℝ)) : ∀ (a b r : ℕ → ℝ), (∀ i < d.dimY, a i = b i) →
    rows.foldlM (diffuseCosRow d) a = some r →
    ∃ r', rows.foldlM (diffuseCosRow d) b = some r' ∧ ∀ i < d.dimY, r i = r' i := by
  induction rows with
  | nil =>
    intro a b r h hr
    have : a = r := by simpa using hr
    exact ⟨b, rfl, this ▸ h⟩
  | cons x rows ih =>
    intro a b r h hr
    simp only [List.foldlM_cons] at hr ⊢
    unfold diffuseCosRow at hr ⊢
    cases hc : convertInput (arr x) d.input .CARTESIAN with
    | none => simp [hc] at hr
    | some c =>
      simp only [hc, Option.map_some] at hr ⊢
      refine ih _ _ r ?_ hr
      by_cases hp : bothCosines c > 0
      · simp only [hp, if_true]; exact minInto_congr _ _ a b h
      · simp only [hp, if_false]; exact h

/-- C58: a plugin object, but for the class sgd, starts with coefficients that do not depend on those it
    had. -/
theorem lobe_forgets (files : Str → Option Str) (d : Data) (args : SMap) (ha : args.isDefined kBoot = false)
    (l m l' : LobeObj) (hlm : l.Alike m) (hs : l.isSgd = false) (hd : l.par.dimY = d.dimY)
    (h : l.bootstrap files d args = some l') :
    ∃ m', m.bootstrap files d args = some m' ∧ Fn.Same l'.toFn m'.toFn := by
  cases l <;> cases m <;> simp only [LobeObj.Alike] at hlm <;>
    simp only [LobeObj.bootstrap, ha, Bool.false_eq_true, if_false, Option.some.injEq] at h ⊢
  case blinn.blinn s t =>
    subst h
    refine ⟨_, rfl, blinn_same _ _ hlm ?_ ?_⟩ <;> intro i hi <;> simp only [← hlm] <;> exact fillTo_congr _ _ _ _ i hi
  case retroblinn.retroblinn s t =>
    subst h
    refine ⟨_, rfl, retroblinn_same _ _ hlm ?_ ?_⟩ <;> intro i hi <;> simp only [← hlm] <;> exact fillTo_congr _ _ _ _ i hi
  case beckmann.beckmann s t =>
    subst h
    refine ⟨_, rfl, beckmann_same _ _ hlm ?_ ?_⟩ <;> intro i hi <;> simp only [← hlm] <;> exact fillTo_congr _ _ _ _ i hi
  case retrobeckmann.retrobeckmann s t =>
    subst h
    refine ⟨_, rfl, retrobeckmann_same _ _ hlm.1 rfl ?_ ?_⟩ <;> intro i hi <;> simp only [← hlm.1] <;>
      exact fillTo_congr _ _ _ _ i hi
  case ward.ward s t =>
    subst h
    refine ⟨_, rfl, ward_same _ _ hlm ?_ ?_ ?_⟩ <;> intro i hi <;> simp only [← hlm] <;> exact fillTo_congr _ _ _ _ i hi
  case abc.abc s t =>
    subst h
    refine ⟨_, rfl, abc_same _ _ ?_ ?_ ?_ ?_⟩
    · simp only [AbcS.bootstrap, hlm]
    all_goals
      intro i hi
      simp only [AbcS.bootstrap, ← hlm]
      exact fillTo_congr _ _ _ _ i hi
  case diffuse.diffuse s t =>
    simp only [DiffuseS.bootstrap, ha, ← hlm] at h ⊢
    have hd' : s.par.dimY = d.dimY := hd
    have hlt : ¬ s.par.dimY < d.dimY := by omega
    simp only [hlt, Bool.false_eq_true, if_false] at h ⊢
    by_cases hc : (isCosineWeighted d.output || args.isDefined "cos-fit".toList) = true
    · simp only [hc, if_true, Option.map_map, Option.map_eq_some_iff, Function.comp_apply] at h ⊢
      obtain ⟨kd, h1, rfl⟩ := h
      obtain ⟨kd', h2, h3⟩ := cos_foldlM_congr d _ _ (fillTo d.dimY maxDouble t.kd) _
        (fun i hi => fillTo_congr _ _ _ _ i hi) h1
      exact ⟨_, ⟨kd', h2, rfl⟩, diffuse_same _ _ rfl fun i hi => h3 i (by simp only [hd'] at hi; exact hi)⟩
    · simp only [hc, Bool.false_eq_true, if_false, Option.map_some, Option.some.injEq] at h ⊢
      subst h
      refine ⟨_, rfl, diffuse_same _ _ rfl fun i hi => ?_⟩
      simp only [hd'] at hi
      exact min_foldl_congr d.dimY (fun row j => arr row (d.dimX + j)) d.rows _ _
        (fun i hi => fillTo_congr _ _ _ _ i hi) i hi
  case sg.sg s t =>
    subst h
    obtain ⟨h1, h2, h3⟩ := hlm
    refine ⟨_, rfl, ?_⟩
    have key : ∀ (ty : SgType) (a : ℝ), Fn.Same
        (.leaf sgCls { s with ks := fillTo s.par.dimY 1 s.ks, n := fillTo s.par.dimY 1 s.n, type := ty, a := a })
        (.leaf sgCls { t with ks := fillTo t.par.dimY 1 t.ks, n := fillTo t.par.dimY 1 t.n, type := ty, a := a }) := by
      intro ty a
      refine sg_same _ _ h1 rfl ?_ ?_ fun _ => rfl <;> intro i hi <;> simp only [← h1] <;> exact fillTo_congr _ _ _ _ i hi
    have k1 : Fn.Same (.leaf sgCls { s with ks := fillTo s.par.dimY 1 s.ks, n := fillTo s.par.dimY 1 s.n })
        (.leaf sgCls { t with ks := fillTo t.par.dimY 1 t.ks, n := fillTo t.par.dimY 1 t.n }) := by
      have := key s.type s.a
      rw [show ({ t with ks := fillTo t.par.dimY 1 t.ks, n := fillTo t.par.dimY 1 t.n, type := s.type, a := s.a } : SgS) =
        { t with ks := fillTo t.par.dimY 1 t.ks, n := fillTo t.par.dimY 1 t.n } by rw [h2, h3]] at this
      exact this
    have k2 : ∀ ty, Fn.Same
        (.leaf sgCls { s with ks := fillTo s.par.dimY 1 s.ks, n := fillTo s.par.dimY 1 s.n, type := ty })
        (.leaf sgCls { t with ks := fillTo t.par.dimY 1 t.ks, n := fillTo t.par.dimY 1 t.n, type := ty }) := by
      intro ty
      have := key ty s.a
      rw [show ({ t with ks := fillTo t.par.dimY 1 t.ks, n := fillTo t.par.dimY 1 t.n, type := ty, a := s.a } : SgS) =
        { t with ks := fillTo t.par.dimY 1 t.ks, n := fillTo t.par.dimY 1 t.n, type := ty } by rw [h3]] at this
      exact this
    simp only [LobeObj.toFn, SgS.bootstrap]
    split
    · split
      · exact key .Moment 1
      · exact k2 _
      · exact k1
    · exact k1
  case isoLafortune.isoLafortune s t =>
    simp only [IsoLafortuneS.bootstrap] at h ⊢
    cases hn : askedLobes args with
    | none => simp [hn] at h
    | some n =>
      simp only [hn, Option.map_some, Option.some.injEq] at h ⊢
      subst h
      refine ⟨_, rfl, isoLafortune_same _ _ hlm.1 rfl ?_ ?_⟩
      · intro i hi
        simp only at hi
        simp only [← hlm.1, hi, if_true]
      · intro i hi
        simp only [← hlm.1]
        exact fillTo_congr _ _ _ _ i hi
  case lafortune.lafortune s t =>
    simp only [LafortuneS.bootstrap, ha] at h ⊢
    have hd' : s.par.dimY = d.dimY := hd
    cases hn : askedLobes args with
    | none => simp [hn] at h
    | some n =>
      cases hr : d.rows with
      | nil => simp [hn, hr] at h
      | cons x rows =>
        have hlt : ¬ s.par.dimY < d.dimY := by omega
        simp only [hn, hr, ← hlm.1, hlt, if_false, Option.map_some, Option.some.injEq] at h ⊢
        subst h
        refine ⟨_, rfl, lafortune_same _ _ rfl rfl ?_ ?_ ?_⟩
        · intro i hi
          simp only at hi
          simp only [hi, if_true]
        · intro i hi
          exact fillTo_congr _ _ _ _ i hi
        · simp only [hlm.2.2]
  case schlickFresnel.schlickFresnel s t =>
    subst h
    refine ⟨_, rfl, schlickFresnel_same _ _ hlm ?_⟩; intro i hi; simp only [OneS.fill, ← hlm]; exact fillTo_congr _ _ _ _ i hi
  case normalizedSchlick.normalizedSchlick s t =>
    subst h
    refine ⟨_, rfl, normalizedSchlick_same _ _ hlm ?_⟩; intro i hi; simp only [OneS.fill, ← hlm]; exact fillTo_congr _ _ _ _ i hi
  case retroSchlick.retroSchlick s t =>
    subst h
    refine ⟨_, rfl, retroSchlick_same _ _ hlm ?_⟩; intro i hi; simp only [OneS.fill, ← hlm]; exact fillTo_congr _ _ _ _ i hi
  case schlickMasking.schlickMasking s t =>
    subst h
    refine ⟨_, rfl, schlickMasking_same _ _ hlm ?_⟩; intro i hi; simp only [OneS.fill, ← hlm]; exact fillTo_congr _ _ _ _ i hi
  case smith.smith s t =>
    subst h
    refine ⟨_, rfl, smith_same _ _ hlm ?_⟩; intro i hi; simp only [OneS.fill, ← hlm]; exact fillTo_congr _ _ _ _ i hi
  case walterSmith.walterSmith s t =>
    subst h
    refine ⟨_, rfl, walterSmith_same _ _ hlm ?_⟩; intro i hi; simp only [OneS.fill, ← hlm]; exact fillTo_congr _ _ _ _ i hi
  case sgd.sgd s t => simp [LobeObj.isSgd] at hs

mutual
theorem FT.forgets (files : Str → Option Str) (d : Data) : ∀ (f g : FT LobeObj) (args : SMap) (f' : FT LobeObj),
    f.Alike g → args.isDefined kBoot = false → f.Free →
    (∀ x ∈ f.parts args, x.2.isSgd = false ∧ x.2.par.dimY = d.dimY) → f.bootstrap files d args = some f' →
    ∃ g', g.bootstrap files d args = some g' ∧ f'.LeafSame g'
  | .leaf l, .leaf m, args, f', hl, ha, _, hp, h => by
    simp only [FT.bootstrap] at h
    obtain ⟨l', h1, rfl⟩ := Option.map_eq_some_iff.1 h
    have hp' := hp (args, l) (by simp [FT.parts])
    obtain ⟨m', h2, h3⟩ := lobe_forgets files d args ha l m l' hl hp'.1 hp'.2 h1
    exact ⟨.leaf m', by simp only [FT.bootstrap, h2, Option.map_some], h3⟩
  | .compound p fs, .compound q gs, args, f', hl, ha, hf, hp, h => by
    simp only [FT.bootstrap, ha, Bool.false_eq_true, if_false] at h
    obtain ⟨fs', h1, rfl⟩ := Option.map_eq_some_iff.1 h
    obtain ⟨gs', h2, h3⟩ := FTs.forgets files d fs gs fs' hl.2 hf hp h1
    refine ⟨.compound q gs', ?_, hl.1, h3⟩
    simp only [FT.bootstrap, ha, Bool.false_eq_true, if_false, h2, Option.map_some]
  | .product p f g a b, .product q f2 g2 a2 b2, args, r, hl, ha, hf, hp, h => by
    simp only [FT.bootstrap, ha, Bool.false_eq_true, if_false] at h
    obtain ⟨rfl, rfl, rfl, hlf, hlg⟩ := hl
    cases h1 : f.bootstrap files d args with
    | none => simp [h1] at h
    | some f1 =>
      simp only [h1] at h
      obtain ⟨g1, h2, rfl⟩ := Option.map_eq_some_iff.1 h
      obtain ⟨f1', k1, k2⟩ := FT.forgets files d f f2 args f1 hlf ha hf.1
        (fun x hx => hp x (by simp [FT.parts, hx])) h1
      obtain ⟨g1', k3, k4⟩ := FT.forgets files d g g2 args g1 hlg ha hf.2
        (fun x hx => hp x (by simp [FT.parts, hx])) h2
      refine ⟨.product p f1' g1' a b, ?_, rfl, rfl, rfl, k2, k4⟩
      simp only [FT.bootstrap, ha, Bool.false_eq_true, if_false, k1, k3, Option.map_some]
  | .leaf _, .compound _ _, _, _, h, _, _, _, _ => by simp only [FT.Alike] at h
  | .leaf _, .product _ _ _ _ _, _, _, h, _, _, _, _ => by simp only [FT.Alike] at h
  | .compound _ _, .leaf _, _, _, h, _, _, _, _ => by simp only [FT.Alike] at h
  | .compound _ _, .product _ _ _ _ _, _, _, h, _, _, _, _ => by simp only [FT.Alike] at h
  | .product _ _ _ _ _, .leaf _, _, _, h, _, _, _, _ => by simp only [FT.Alike] at h
  | .product _ _ _ _ _, .compound _ _, _, _, h, _, _, _, _ => by simp only [FT.Alike] at h
theorem FTs.forgets (files : Str → Option Str) (d : Data) : ∀ (fs gs fs' : FTs LobeObj),
    fs.Alike gs → fs.Free → (∀ x ∈ fs.parts, x.2.isSgd = false ∧ x.2.par.dimY = d.dimY) →
    fs.bootEach files d = some fs' → ∃ gs', gs.bootEach files d = some gs' ∧ fs'.LeafSame gs'
  | .nil, .nil, fs', _, _, _, h => by
    simp only [FTs.bootEach, Option.some.injEq] at h
    subst h
    exact ⟨.nil, rfl, trivial⟩
  | .cons a f r, .cons b g r2, fs', hl, hf, hp, h => by
    simp only [FTs.bootEach] at h
    obtain ⟨rfl, hlf, hlr⟩ := hl
    cases h1 : f.bootstrap files d a with
    | none => simp [h1] at h
    | some f1 =>
      simp only [h1] at h
      obtain ⟨r1, h2, rfl⟩ := Option.map_eq_some_iff.1 h
      obtain ⟨f1', k1, k2⟩ := FT.forgets files d f g a f1 hlf hf.1 hf.2.1
        (fun x hx => hp x (by simp [FTs.parts, hx])) h1
      obtain ⟨r1', k3, k4⟩ := FTs.forgets files d r r2 r1 hlr hf.2.2
        (fun x hx => hp x (by simp [FTs.parts, hx])) h2
      refine ⟨.cons a f1' r1', ?_, rfl, k2, k4⟩
      simp only [FTs.bootEach, k1, k3, Option.map_some]
  | .nil, .cons _ _ _, _, h, _, _, _ => by simp only [FTs.Alike] at h
  | .cons _ _ _, .nil, _, h, _, _, _ => by simp only [FTs.Alike] at h
end

/-- C58: without the option `bootstrap`, and without an sgd lobe, the function a fit starts from does not
    depend on the coefficients its plugin objects had before (which their constructors do not
    initialise): two functions that differ only by the coefficients start as the same function. -/
theorem bootstrap_forgets (files : Str → Option Str) (d : Data) (f g : FT LobeObj) (args : SMap) (hfg : f.Alike g)
    (ha : args.isDefined kBoot = false) (hf : f.Free)
    (hp : ∀ x ∈ f.parts args, x.2.isSgd = false ∧ x.2.par.dimY = d.dimY) (f' : FT LobeObj)
    (h : f.bootstrap files d args = some f') :
    ∃ g', g.bootstrap files d args = some g' ∧ Fn.Same f'.toFn g'.toFn := by
  obtain ⟨g', h1, h2⟩ := FT.forgets files d f g args f' hfg ha hf hp h
  exact ⟨g', h1, FT.same_of_leaves _ _ h2⟩

/-! ### Limits -/

/-- Limit: an sgd lobe keeps, without the option `bootstrap`, the coefficients it had: those that its
    constructor left in memory. -/
theorem sgd_not_started (files : Str → Option Str) (d : Data) (args : SMap) (ha : args.isDefined kBoot = false)
    (s : SgdS) : (FT.leaf (.sgd s)).bootstrap files d args = some (.leaf (.sgd s)) := by
  have hv : args.isVec kBoot = false := by
    cases h : args.isVec kBoot
    · rfl
    · rw [isDefined_of_isVec _ _ h] at ha; cases ha
  simp [FT.bootstrap, LobeObj.bootstrap, LobeObj.nlBootstrap, LobeObj.baseBootstrap, hv, ha]

/-- Limit: with a vector, a fixed member of a sum that has coefficients is not started: it keeps those
    that its constructor left in memory. -/
theorem fixed_member_not_started (files : Str → Option Str) (d : Data) (args : SMap) (hv : args.isVec kBoot = true)
    (p : Par) (a : SMap) (hx : isFixed a = true) (f : FT LobeObj) (hn : f.toFn.nb ≠ 0) (rest : FTs LobeObj)
    (r : FT LobeObj) (h : (FT.compound p (.cons a f rest)).bootstrap files d args = some r) :
    ∃ rest', r = .compound p (.cons a f rest') := by
  simp only [FT.bootstrap, isDefined_of_isVec _ _ hv, hv, if_true, FTs.bootVector, hx, Bool.not_true, Bool.and_false,
    Bool.false_eq_true, if_false, FT.toFn_nb, if_neg hn] at h
  obtain ⟨fs', h1, rfl⟩ := Option.map_eq_some_iff.1 h
  obtain ⟨r', -, rfl⟩ := Option.map_eq_some_iff.1 h1
  exact ⟨r', rfl⟩

/-- Limit: the same for a part of a product fixed with `--fixed-lobe` or `--fixed-fresnel`. -/
theorem fixed_part_not_started (files : Str → Option Str) (d : Data) (args : SMap) (hv : args.isVec kBoot = true)
    (p : Par) (f g : FT LobeObj) (a b : Bool) (r : FT LobeObj)
    (h : (FT.product p f g a b).bootstrap files d args = some r) :
    ∃ f' g', r = .product p f' g' a b ∧ (a = true → f' = f) ∧ (b = true → g' = g) := by
  simp only [FT.bootstrap, isDefined_of_isVec _ _ hv, hv, if_true, FT.set, Option.some.injEq] at h
  exact ⟨_, _, h.symm, fun ha => by simp [ha], fun hb => by simp [hb]⟩

end
end Alta
