import Verif.Proofs.FunctionFile
/-
Two plugin objects with the same attributes on their channels are the same function.
-/
namespace Alta
noncomputable section

theorem map_range_congr {β : Type} (n : ℕ) (f g : ℕ → β) (h : ∀ i < n, f i = g i) :
    (List.range n).map f = (List.range n).map g :=
  List.map_congr_left fun i hi => h i (List.mem_range.1 hi)

theorem same_of_set {σ : Type} (c : Cls σ) (s t : σ) (h1 : c.par s = c.par t) (h2 : c.nb s = c.nb t)
    (h3 : c.get s = c.get t) (h4 : ∀ x, c.value s x = c.value t x) :
    Fn.Same (.leaf c s) (.leaf c t) :=
  ⟨h1, h2, by simp only [Fn.params, Fn.get, Fn.nb, h2, h3], fun x => h4 x⟩

theorem blinn_same (s t : BlinnS) (hp : s.par = t.par) (h1 : ∀ i < s.par.dimY, s.ks i = t.ks i)
    (h2 : ∀ i < s.par.dimY, s.N i = t.N i) : Fn.Same (.leaf blinnCls s) (.leaf blinnCls t) := by
  apply same_of_set _ s t hp
  · simp [blinnCls, hp]
  · simp only [blinnCls, ← hp]
    exact blocks_congr _ _ _ fun i hi => by rw [h1 i hi, h2 i hi]
  · intro x
    simp only [blinnCls, ← hp]
    exact congrArg some (map_range_congr _ _ _ fun i hi => by rw [h1 i hi, h2 i hi])

theorem retroblinn_same (s t : BlinnS) (hp : s.par = t.par) (h1 : ∀ i < s.par.dimY, s.ks i = t.ks i)
    (h2 : ∀ i < s.par.dimY, s.N i = t.N i) : Fn.Same (.leaf retroblinnCls s) (.leaf retroblinnCls t) := by
  apply same_of_set _ s t hp
  · simp [retroblinnCls, hp]
  · simp only [retroblinnCls, ← hp]
    exact blocks_congr _ _ _ fun i hi => by rw [h1 i hi, h2 i hi]
  · intro x
    simp only [retroblinnCls, ← hp]
    exact congrArg some (map_range_congr _ _ _ fun i hi => by rw [h1 i hi, h2 i hi])

theorem beckmann_same (s t : BeckmannS) (hp : s.par = t.par) (h1 : ∀ i < s.par.dimY, s.ks i = t.ks i)
    (h2 : ∀ i < s.par.dimY, s.a i = t.a i) : Fn.Same (.leaf beckmannCls s) (.leaf beckmannCls t) := by
  apply same_of_set _ s t hp
  · simp [beckmannCls, hp]
  · simp only [beckmannCls, ← hp]
    exact blocks_congr _ _ _ fun i hi => by rw [h1 i hi, h2 i hi]
  · intro x
    simp only [beckmannCls, ← hp]
    congr 1
    funext h
    exact map_range_congr _ _ _ fun i hi => by rw [h1 i hi, h2 i hi]

theorem retrobeckmann_same (s t : RetroBeckmannS) (hp : s.par = t.par) (hb : s.useBack = t.useBack)
    (h1 : ∀ i < s.par.dimY, s.ks i = t.ks i)
    (h2 : ∀ i < s.par.dimY, s.a i = t.a i) : Fn.Same (.leaf retrobeckmannCls s) (.leaf retrobeckmannCls t) := by
  apply same_of_set _ s t hp
  · simp [retrobeckmannCls, hp]
  · simp only [retrobeckmannCls, ← hp]
    exact blocks_congr _ _ _ fun i hi => by rw [h1 i hi, h2 i hi]
  · intro x
    simp only [retrobeckmannCls, ← hp, ← hb]
    congr 1
    funext h
    exact map_range_congr _ _ _ fun i hi => by rw [h1 i hi, h2 i hi]

theorem ward_same (s t : WardS) (hp : s.par = t.par) (h1 : ∀ i < s.par.dimY, s.ks i = t.ks i)
    (h2 : ∀ i < s.par.dimY, s.ax i = t.ax i) (h3 : ∀ i < s.par.dimY, s.ay i = t.ay i) :
    Fn.Same (.leaf wardCls s) (.leaf wardCls t) := by
  apply same_of_set _ s t hp
  · simp [wardCls, hp]
  · simp only [wardCls, ← hp]
    exact blocks_congr _ _ _ fun i hi => by rw [h1 i hi, h2 i hi, h3 i hi]
  · intro x
    simp only [wardCls, ← hp]
    congr 1
    funext h
    exact map_range_congr _ _ _ fun i hi => by rw [h1 i hi, h2 i hi, h3 i hi]

theorem abc_same (s t : AbcS) (hp : s.par = t.par) (h1 : ∀ i < s.par.dimY, s.a i = t.a i)
    (h2 : ∀ i < s.par.dimY, s.b i = t.b i) (h3 : ∀ i < s.par.dimY, s.c i = t.c i) :
    Fn.Same (.leaf abcCls s) (.leaf abcCls t) := by
  apply same_of_set _ s t hp
  · simp [abcCls, hp]
  · simp only [abcCls, ← hp]
    exact blocks_congr _ _ _ fun i hi => by rw [h1 i hi, h2 i hi, h3 i hi]
  · intro x
    simp only [abcCls, ← hp]
    exact congrArg some (map_range_congr _ _ _ fun i hi => by rw [h1 i hi, h2 i hi, h3 i hi])

theorem diffuse_same (s t : DiffuseS) (hp : s.par = t.par) (h1 : ∀ i < s.par.dimY, s.kd i = t.kd i) :
    Fn.Same (.leaf diffuseCls s) (.leaf diffuseCls t) := by
  refine ⟨hp, rfl, rfl, fun x => ?_⟩
  simp only [Fn.value, diffuseCls, ← hp]
  exact congrArg some (map_range_congr _ _ _ fun i hi => h1 i hi)

theorem sg_same (s t : SgS) (hp : s.par = t.par) (ht : s.type = t.type)
    (h1 : ∀ i < s.par.dimY, s.ks i = t.ks i) (h2 : ∀ i < s.par.dimY, s.n i = t.n i)
    (h3 : s.type = .Moment → s.a = t.a) : Fn.Same (.leaf sgCls s) (.leaf sgCls t) := by
  apply same_of_set _ s t hp
  · simp [sgCls, hp, ht]
  · simp only [sgCls, ← hp, ← ht]
    congr 1
    · exact blocks_congr _ _ _ fun i hi => by rw [h1 i hi, h2 i hi]
    · split
      · rename_i h; rw [h3 h]
      · rfl
  · intro x
    have hd : sgDot s.type s.a x = sgDot t.type t.a x := by
      rw [← ht]
      by_cases h : s.type = .Moment
      · rw [h3 h]
      · cases hs : s.type <;> simp_all [sgDot]
    simp only [sgCls, ← hp]
    rw [hd]
    congr 1
    funext h
    exact map_range_congr _ _ _ fun i hi => by rw [h1 i hi, h2 i hi]

theorem one_same (c : Cls OneS) (hpar : ∀ s, c.par s = s.par) (hnb : ∀ s, c.nb s = s.par.dimY)
    (hget : ∀ s, c.get s = (List.range s.par.dimY).map s.R)
    (hval : ∀ s t : OneS, s.par = t.par → (∀ i < s.par.dimY, s.R i = t.R i) → ∀ x, c.value s x = c.value t x)
    (s t : OneS) (hp : s.par = t.par) (h1 : ∀ i < s.par.dimY, s.R i = t.R i) :
    Fn.Same (.leaf c s) (.leaf c t) := by
  apply same_of_set _ s t
  · rw [hpar, hpar, hp]
  · rw [hnb, hnb, hp]
  · rw [hget, hget, ← hp]; exact map_range_congr _ _ _ h1
  · exact hval s t hp h1

theorem schlickFresnel_same (s t : OneS) (hp : s.par = t.par) (h1 : ∀ i < s.par.dimY, s.R i = t.R i) :
    Fn.Same (.leaf schlickFresnelCls s) (.leaf schlickFresnelCls t) := by
  apply one_same _ (fun _ => rfl) (fun _ => rfl) (fun _ => rfl) _ s t hp h1
  intro s t hp h1 x
  simp only [schlickFresnelCls, ← hp]
  congr 1; funext d
  exact map_range_congr _ _ _ fun i hi => by rw [h1 i hi]

theorem normalizedSchlick_same (s t : OneS) (hp : s.par = t.par) (h1 : ∀ i < s.par.dimY, s.R i = t.R i) :
    Fn.Same (.leaf normalizedSchlickCls s) (.leaf normalizedSchlickCls t) := by
  apply one_same _ (fun _ => rfl) (fun _ => rfl) (fun _ => rfl) _ s t hp h1
  intro s t hp h1 x
  simp only [normalizedSchlickCls, ← hp]
  congr 1; funext d
  exact map_range_congr _ _ _ fun i hi => by rw [h1 i hi]

theorem retroSchlick_same (s t : OneS) (hp : s.par = t.par) (h1 : ∀ i < s.par.dimY, s.R i = t.R i) :
    Fn.Same (.leaf retroSchlickCls s) (.leaf retroSchlickCls t) := by
  apply one_same _ (fun _ => rfl) (fun _ => rfl) (fun _ => rfl) _ s t hp h1
  intro s t hp h1 x
  simp only [retroSchlickCls, ← hp]
  congr 1; funext d
  exact map_range_congr _ _ _ fun i hi => by rw [h1 i hi]

theorem schlickMasking_same (s t : OneS) (hp : s.par = t.par) (h1 : ∀ i < s.par.dimY, s.R i = t.R i) :
    Fn.Same (.leaf schlickMaskingCls s) (.leaf schlickMaskingCls t) := by
  apply one_same _ (fun _ => rfl) (fun _ => rfl) (fun _ => rfl) _ s t hp h1
  intro s t hp h1 x
  simp only [schlickMaskingCls, ← hp]
  exact congrArg some (map_range_congr _ _ _ fun i hi => by rw [h1 i hi])

theorem smith_same (s t : OneS) (hp : s.par = t.par) (h1 : ∀ i < s.par.dimY, s.R i = t.R i) :
    Fn.Same (.leaf smithCls s) (.leaf smithCls t) := by
  apply one_same _ (fun _ => rfl) (fun _ => rfl) (fun _ => rfl) _ s t hp h1
  intro s t hp h1 x
  simp only [smithCls, ← hp]
  exact congrArg some (map_range_congr _ _ _ fun i hi => by rw [h1 i hi])

theorem walterSmith_same (s t : OneS) (hp : s.par = t.par) (h1 : ∀ i < s.par.dimY, s.R i = t.R i) :
    Fn.Same (.leaf walterSmithCls s) (.leaf walterSmithCls t) := by
  apply one_same _ (fun _ => rfl) (fun _ => rfl) (fun _ => rfl) _ s t hp h1
  intro s t hp h1 x
  simp only [walterSmithCls, ← hp]
  exact congrArg some (map_range_congr _ _ _ fun i hi => by rw [h1 i hi])

theorem foldl_range_congr (n : ℕ) (f g : ℝ → ℕ → ℝ) (a : ℝ) (h : ∀ k < n, ∀ r, f r k = g r k) :
    (List.range n).foldl f a = (List.range n).foldl g a := by
  induction n with
  | zero => rfl
  | succ n ih =>
    rw [List.range_succ, List.foldl_append, List.foldl_append, ih fun k hk => h k (by omega)]
    exact h n (by omega) _

theorem lobe_index (n d k i : ℕ) (hk : k < n) (hi : i < d) : k * d + i < n * d := by
  have : (k + 1) * d ≤ n * d := Nat.mul_le_mul_right d hk
  rw [Nat.add_mul] at this
  omega

theorem isoLafortune_same (s t : IsoLafortuneS) (hp : s.par = t.par) (hn : s.n = t.n)
    (h1 : ∀ i < s.n * s.par.dimY * 2, s.C i = t.C i) (h2 : ∀ i < s.n * s.par.dimY, s.N i = t.N i) :
    Fn.Same (.leaf isoLafortuneCls s) (.leaf isoLafortuneCls t) := by
  apply same_of_set _ s t hp
  · simp [isoLafortuneCls, hp, hn]
  · simp only [isoLafortuneCls, ← hp, ← hn]
    refine blocks_congr _ _ _ fun k hk => blocks_congr _ _ _ fun i hi => ?_
    have := lobe_index _ _ k i hk hi
    rw [h1 _ (by omega), h1 _ (by omega), h2 _ this]
  · intro x
    simp only [isoLafortuneCls, ← hp, ← hn]
    refine congrArg some (map_range_congr _ _ _ fun i hi => foldl_range_congr _ _ _ _ fun k hk r => ?_)
    have := lobe_index _ _ k i hk hi
    rw [h1 _ (by omega), h1 _ (by omega), h2 _ this]

theorem lafortune_same (s t : LafortuneS) (hp : s.par = t.par) (hn : s.n = t.n)
    (h1 : ∀ i < s.n * s.par.dimY * 3, s.C i = t.C i) (h2 : ∀ i < s.n * s.par.dimY, s.N i = t.N i)
    (h3 : s.kd = t.kd) :
    Fn.Same (.leaf lafortuneCls s) (.leaf lafortuneCls t) := by
  apply same_of_set _ s t hp
  · simp [lafortuneCls, hp, hn]
  · simp only [lafortuneCls, ← hp, ← hn]
    refine blocks_congr _ _ _ fun k hk => blocks_congr _ _ _ fun i hi => ?_
    have := lobe_index _ _ k i hk hi
    rw [h1 _ (by omega), h1 _ (by omega), h1 _ (by omega), h2 _ this]
  · intro x
    simp only [lafortuneCls, ← hp, ← hn, ← h3]
    refine congrArg some (map_range_congr _ _ _ fun i hi => foldl_range_congr _ _ _ _ fun k hk r => ?_)
    have := lobe_index _ _ k i hk hi
    rw [h1 _ (by omega), h1 _ (by omega), h1 _ (by omega), h2 _ this]

/-! ### Trees -/

theorem params_take (f g : Fn) (h1 : f.nb = g.nb) (h2 : f.params = g.params) : f.get.take g.nb = g.get.take g.nb := by
  have h : f.get.take f.nb = g.get.take g.nb := h2
  rwa [h1] at h

mutual
theorem FT.same_of_leaves : ∀ (f g : FT LobeObj), FT.LeafSame f g → Fn.Same f.toFn g.toFn
  | .leaf l, .leaf m, h => by simpa [FT.LeafSame, FT.toFn] using h
  | .compound p fs, .compound q gs, h => by
    obtain ⟨rfl, h⟩ := h
    obtain ⟨h1, h2, h3⟩ := FTs.same_of_leaves fs gs h
    refine ⟨rfl, ?_, ?_, ?_⟩
    · simpa [FT.toFn, Fn.nb] using h1
    · simp [FT.toFn, Fn.params, Fn.nb, Fn.get, h1, h2]
    · intro x; simp [FT.toFn, Fn.value, h3]
  | .product p f g a b, .product q f' g' a' b', h => by
    obtain ⟨rfl, rfl, rfl, hf, hg⟩ := h
    obtain ⟨f1, f2, f3, f4⟩ := FT.same_of_leaves f f' hf
    obtain ⟨g1, g2, g3, g4⟩ := FT.same_of_leaves g g' hg
    have f5 := params_take _ _ f2 f3
    have g5 := params_take _ _ g2 g3
    refine ⟨rfl, ?_, ?_, ?_⟩
    · simp [FT.toFn, Fn.nb, f2, g2]
    · simp only [FT.toFn, Fn.params, Fn.nb, Fn.get, f2, g2, f5, g5]
    · intro x; simp only [FT.toFn, Fn.value, f4, g4, f1, g1]
  | .leaf _, .compound _ _, h => h.elim
  | .leaf _, .product _ _ _ _ _, h => h.elim
  | .compound _ _, .leaf _, h => h.elim
  | .compound _ _, .product _ _ _ _ _, h => h.elim
  | .product _ _ _ _ _, .leaf _, h => h.elim
  | .product _ _ _ _ _, .compound _ _, h => h.elim
theorem FTs.same_of_leaves : ∀ (fs gs : FTs LobeObj), FTs.LeafSame fs gs →
    fs.toFns.nb = gs.toFns.nb ∧ fs.toFns.get = gs.toFns.get ∧
    ∀ i x r, fs.toFns.valueLoop i x r = gs.toFns.valueLoop i x r
  | .nil, .nil, _ => ⟨rfl, rfl, fun _ _ _ => rfl⟩
  | .cons a f rest, .cons b g rest', h => by
    obtain ⟨ha, hf, hr⟩ := h
    obtain ⟨f1, f2, f3, f4⟩ := FT.same_of_leaves f g hf
    obtain ⟨h1, h2, h3⟩ := FTs.same_of_leaves rest rest' hr
    have f5 := params_take _ _ f2 f3
    refine ⟨?_, ?_, ?_⟩
    · simp only [FTs.toFns, Fns.nb, f2, h1, ha]
    · simp only [FTs.toFns, Fns.get, f2, f5, h2, ha]
    · intro i x r; simp only [FTs.toFns, Fns.valueLoop, f4, f1, h3]
  | .nil, .cons _ _ _, h => h.elim
  | .cons _ _ _, .nil, h => h.elim
end

end
end Alta
