import Verif.Props.BootstrapFile
import Verif.Props.NonlinearFitLobes
/-
Property C59: the bounds of the parameters of a function (`getParametersMin`, `getParametersMax`).
-/
namespace Alta
noncomputable section

/-- `a` is below `b`, entry by entry; the sizes are the same. -/
abbrev Below (a b : List ℝ) : Prop := List.Forall₂ (· ≤ ·) a b

theorem below_blocks (n : ℕ) (f g : ℕ → List ℝ) (h : ∀ i < n, Below (f i) (g i)) : Below (blocks n f) (blocks n g) := by
  unfold blocks
  induction n with
  | zero => exact .nil
  | succ n ih =>
    rw [List.range_succ, List.flatMap_append, List.flatMap_append]
    refine List.rel_append (ih fun i hi => h i (by omega)) ?_
    simpa using h n (by omega)

theorem blocks_replicate (n K : ℕ) (v : ℝ) : blocks n (fun _ => List.replicate K v) = List.replicate (n * K) v := by
  unfold blocks
  induction n with
  | zero => simp
  | succ n ih =>
    rw [List.range_succ, List.flatMap_append, ih, Nat.succ_mul, List.replicate_add]
    simp

theorem below_arr (a b : List ℝ) (h : Below a b) (i : ℕ) (hi : i < a.length) : arr a i ≤ arr b i := by
  have hl := h.length_eq
  have := List.Forall₂.get h hi (by omega)
  unfold arr
  simp only [List.getD, List.getElem?_eq_getElem hi, List.getElem?_eq_getElem (show i < b.length by omega), Option.getD_some]
  simpa using this

theorem below_map (n : ℕ) (f g : ℕ → ℝ) (h : ∀ i < n, f i ≤ g i) :
    Below ((List.range n).map f) ((List.range n).map g) := by
  unfold Below
  rw [List.forall₂_map_left_iff, List.forall₂_map_right_iff, List.forall₂_same]
  exact fun i hi => h i (List.mem_range.1 hi)

theorem below_replicate (n : ℕ) (a b : ℝ) (h : a ≤ b) : Below (List.replicate n a) (List.replicate n b) := by
  induction n with
  | zero => exact .nil
  | succ n ih => exact .cons h ih

theorem map_const_replicate (n : ℕ) (v : ℝ) : (List.range n).map (fun _ => v) = List.replicate n v := by
  simp

theorem flatten_replicate_blocks (n : ℕ) (v : List ℝ) : (List.replicate n v).flatten = blocks n fun _ => v :=
  (blocks_const n (fun _ => v) v fun _ _ => rfl).symm

theorem blocks_const_length (n : ℕ) (v : List ℝ) : (blocks n fun _ => v).length = n * v.length :=
  blocks_length n v.length _ fun _ _ => rfl

theorem maxDouble_pos : 0 < maxDouble := by have := maxDouble_large; linarith

theorem defaultMax_blocks (n K : ℕ) : defaultMax (K * n) = blocks n fun _ => List.replicate K maxDouble := by
  rw [blocks_replicate, defaultMax, Nat.mul_comm]

theorem defaultMin_blocks (n K : ℕ) : defaultMin (K * n) = blocks n fun _ => List.replicate K (-maxDouble) := by
  rw [blocks_replicate, defaultMin, Nat.mul_comm]

/-! ### The plugins -/

/-- The lower bounds are below the upper ones; there are as many as parameters. -/
theorem LobeObj.bounds (l : LobeObj) : Below l.toFn.lo l.toFn.hi ∧ l.toFn.lo.length = l.toFn.nb := by
  have hm := maxDouble_large
  have z : (0:ℝ) ≤ maxDouble := by linarith
  have n : -maxDouble ≤ maxDouble := by linarith
  cases l <;> simp only [LobeObj.toFn, Fn.lo, Fn.hi, Fn.nb]
  case blinn s => exact ⟨below_replicate _ _ _ n, by simp [blinnCls, defaultMin]⟩
  case retroblinn s => exact ⟨below_replicate _ _ _ n, by simp [retroblinnCls, defaultMin]⟩
  case beckmann s =>
    refine ⟨?_, ?_⟩
    · simp only [beckmannCls, defaultMax_blocks]
      exact below_blocks _ _ _ fun i _ => .cons z (.cons z .nil)
    · simp only [beckmannCls, blocks_const_length, List.length_cons, List.length_nil]; omega
  case retrobeckmann s =>
    refine ⟨?_, ?_⟩
    · simp only [retrobeckmannCls, defaultMax_blocks]
      exact below_blocks _ _ _ fun i _ => .cons z (.cons z .nil)
    · simp only [retrobeckmannCls, blocks_const_length, List.length_cons, List.length_nil]; omega
  case ward s =>
    refine ⟨?_, ?_⟩
    · simp only [wardCls, defaultMax_blocks]
      exact below_blocks _ _ _ fun i _ => .cons z (.cons z (.cons z .nil))
    · simp only [wardCls, blocks_const_length, List.length_cons, List.length_nil]; omega
  case abc s =>
    refine ⟨?_, ?_⟩
    · simp only [abcCls, defaultMax_blocks]
      exact below_blocks _ _ _ fun i _ => .cons z (.cons z (.cons z .nil))
    · simp only [abcCls, blocks_const_length, List.length_cons, List.length_nil]; omega
  case diffuse s => exact ⟨.nil, rfl⟩
  case sg s =>
    simp only [sgCls]
    by_cases h : s.type = .Moment
    · simp only [h, if_true]
      refine ⟨?_, ?_⟩
      · have : defaultMax (2 * s.par.dimY + 1) = defaultMax (2 * s.par.dimY) ++ [maxDouble] := by
          simp only [defaultMax, List.replicate_succ']
        rw [this, defaultMax_blocks]
        exact List.rel_append (below_blocks _ _ _ fun i _ => .cons z (.cons z .nil)) (.cons z .nil)
      · simp only [List.length_append, blocks_const_length, List.length_cons, List.length_nil]; omega
    · simp only [h, if_false, List.append_nil]
      refine ⟨?_, ?_⟩
      · rw [defaultMax_blocks]
        exact below_blocks _ _ _ fun i _ => .cons z (.cons z .nil)
      · simp only [blocks_const_length, List.length_cons, List.length_nil]; omega
  case isoLafortune s =>
    simp only [isoLafortuneCls]
    have hb := blocks_blocks s.n s.par.dimY fun _ => [-maxDouble, -maxDouble, 0]
    rw [hb]
    refine ⟨?_, ?_⟩
    · rw [Nat.mul_assoc, defaultMax_blocks]
      exact below_blocks _ _ _ fun i _ => .cons n (.cons n (.cons z .nil))
    · simp only [blocks_const_length, List.length_cons, List.length_nil]; ring
  case lafortune s => exact ⟨below_replicate _ _ _ n, by simp [lafortuneCls, defaultMin]⟩
  case schlickFresnel s => exact ⟨below_map _ _ _ fun _ _ => zero_le_one, by simp [schlickFresnelCls]⟩
  case normalizedSchlick s => exact ⟨below_map _ _ _ fun _ _ => by norm_num, by simp [normalizedSchlickCls]⟩
  case retroSchlick s =>
    simp only [retroSchlickCls, map_const_replicate]
    exact ⟨below_replicate _ _ _ zero_le_one, by simp⟩
  case schlickMasking s =>
    simp only [schlickMaskingCls, map_const_replicate]
    exact ⟨below_replicate _ _ _ z, by simp⟩
  case smith s =>
    simp only [smithCls, map_const_replicate]
    exact ⟨below_replicate _ _ _ z, by simp⟩
  case walterSmith s =>
    simp only [walterSmithCls, map_const_replicate]
    refine ⟨below_replicate _ _ _ ?_, by simp⟩
    refine le_trans ?_ hm
    norm_num
  case sgd s => exact ⟨below_replicate _ _ _ n, by simp [sgdCls, defaultMin]⟩

theorem LobeObj.bounds_set (l : LobeObj) (p : List ℝ) : (l.set p).toFn.lo = l.toFn.lo ∧ (l.set p).toFn.hi = l.toFn.hi := by
  cases l <;> exact ⟨rfl, rfl⟩

/-! ### Sums and products -/

theorem Fns.take_all (f : Fn) (a : List ℝ) (h : a.length = f.nb) : a.take f.nb = a := by
  rw [← h, List.take_length]

mutual
/-- For any function, the lower bounds are below the upper ones and there are as many as parameters. -/
theorem FT.bounds : ∀ f : FT LobeObj, Below f.toFn.lo f.toFn.hi ∧ f.toFn.lo.length = f.toFn.nb
  | .leaf l => l.bounds
  | .compound p fs => FTs.bounds fs
  | .product p f g a b => by
    obtain ⟨f1, f2⟩ := FT.bounds f
    obtain ⟨g1, g2⟩ := FT.bounds g
    have f3 := f1.length_eq
    have g3 := g1.length_eq
    simp only [FT.toFn, Fn.lo, Fn.hi, Fn.nb, Fns.take_all _ _ f2, Fns.take_all _ _ g2,
      Fns.take_all f.toFn f.toFn.hi (by omega), Fns.take_all g.toFn g.toFn.hi (by omega)]
    constructor
    · refine List.rel_append ?_ ?_
      · split
        · exact f1
        · exact .nil
      · split
        · exact g1
        · exact .nil
    · cases a <;> cases b <;> simp [f2, g2]
theorem FTs.bounds : ∀ fs : FTs LobeObj, Below fs.toFns.lo fs.toFns.hi ∧ fs.toFns.lo.length = fs.toFns.nb
  | .nil => ⟨.nil, rfl⟩
  | .cons a f rest => by
    obtain ⟨f1, f2⟩ := FT.bounds f
    obtain ⟨r1, r2⟩ := FTs.bounds rest
    have f3 := f1.length_eq
    simp only [FTs.toFns, Fns.lo, Fns.hi, Fns.nb, Fns.take_all _ _ f2,
      Fns.take_all f.toFn f.toFn.hi (by omega)]
    constructor
    · refine List.rel_append ?_ r1
      split
      · exact f1
      · exact .nil
    · rcases Nat.eq_zero_or_pos f.toFn.nb with h0 | h0
      · simp [h0, r2]
      · cases (a.isDefined "fixed".toList) <;> simp [h0, f2, r2]
end

mutual
theorem FT.bounds_set : ∀ (f : FT LobeObj) (p : List ℝ), (f.set p).toFn.lo = f.toFn.lo ∧ (f.set p).toFn.hi = f.toFn.hi ∧
    (f.set p).toFn.nb = f.toFn.nb
  | .leaf l, p => ⟨(l.bounds_set p).1, (l.bounds_set p).2, by
      show (l.set p).toFn.nb = _
      rw [LobeObj.toFn_set, Fn.set_nb _ l.toFn_WF]; rfl⟩
  | .compound q fs, p => FTs.bounds_set fs p
  | .product q f g a b, p => by
    obtain ⟨f1, f2, f3⟩ := FT.bounds_set f (p.take f.nb)
    obtain ⟨g1, g2, g3⟩ := FT.bounds_set g ((p.drop (if !a then f.nb else 0)).take g.nb)
    simp only [FT.set, FT.toFn, Fn.lo, Fn.hi, Fn.nb]
    cases a <;> cases b <;>
      simp only [Bool.not_false, Bool.not_true, if_true, if_false, Bool.false_eq_true] at *
    all_goals simp only [f1, f2, f3, g1, g2, g3, and_self]
theorem FTs.bounds_set : ∀ (fs : FTs LobeObj) (p : List ℝ), (fs.set p).toFns.lo = fs.toFns.lo ∧
    (fs.set p).toFns.hi = fs.toFns.hi ∧ (fs.set p).toFns.nb = fs.toFns.nb
  | .nil, _ => ⟨rfl, rfl, rfl⟩
  | .cons a f rest, p => by
    rw [FTs.set]
    split
    · obtain ⟨f1, f2, f3⟩ := FT.bounds_set f (p.take f.nb)
      obtain ⟨r1, r2, r3⟩ := FTs.bounds_set rest (p.drop f.nb)
      simp only [FTs.toFns, Fns.lo, Fns.hi, Fns.nb, f1, f2, f3, r1, r2, r3, and_self]
    · obtain ⟨r1, r2, r3⟩ := FTs.bounds_set rest p
      simp only [FTs.toFns, Fns.lo, Fns.hi, Fns.nb, r1, r2, r3, and_self]
end

/-- C59: the bounds of a function have one entry per parameter, the lower one is at most the upper one,
    and they do not depend on the parameters. -/
theorem bounds_ordered (f : FT LobeObj) : f.toFn.lo.length = f.toFn.nb ∧ f.toFn.hi.length = f.toFn.nb ∧
    (∀ i < f.toFn.nb, arr f.toFn.lo i ≤ arr f.toFn.hi i) ∧
    ∀ p, (f.toFn.set p).lo = f.toFn.lo ∧ (f.toFn.set p).hi = f.toFn.hi := by
  obtain ⟨h1, h2⟩ := FT.bounds f
  refine ⟨h2, h1.length_eq.symm.trans h2, fun i hi => below_arr _ _ h1 i (by omega), fun p => ?_⟩
  rw [← FT.toFn_set]
  exact ⟨(FT.bounds_set f p).1, (FT.bounds_set f p).2.1⟩

/-! ### The starting point -/

/-- The parameters of a function are within its bounds. -/
def Fn.Inside (f : Fn) : Prop := Below f.lo f.params ∧ Below f.params f.hi

theorem Fn.Inside.within {f : Fn} (h : f.Inside) (hl : f.lo.length = f.nb) : WithinBounds f f.params := by
  intro i hi
  have h1 := h.1.length_eq
  exact ⟨below_arr _ _ h.1 i (by omega), below_arr _ _ h.2 i (by omega)⟩

/-- The same for the members of a sum. -/
def Fns.Inside (fs : Fns) : Prop := Below fs.lo fs.get ∧ Below fs.get fs.hi

mutual
theorem FT.inside_of_parts : ∀ (f : FT LobeObj) (args : SMap), f.toFn.WF → (∀ x ∈ f.parts args, x.2.toFn.Inside) →
    f.toFn.Inside
  | .leaf l, args, _, h => h (args, l) (by simp [FT.parts])
  | .compound p fs, args, hw, h => by
    have := FTs.inside_of_parts fs p.dimY hw h
    unfold Fn.Inside
    rw [composition_params _ hw (by intro σ c s e; cases e)]
    exact this
  | .product p f g a b, args, hw, h => by
    have hf := FT.inside_of_parts f args hw.1 fun x hx => h x (by simp [FT.parts, hx])
    have hg := FT.inside_of_parts g args hw.2.1 fun x hx => h x (by simp [FT.parts, hx])
    obtain ⟨f1, f2⟩ := FT.bounds f
    obtain ⟨g1, g2⟩ := FT.bounds g
    have f3 := f1.length_eq
    have g3 := g1.length_eq
    unfold Fn.Inside
    rw [composition_params _ hw (by intro σ c s e; cases e)]
    simp only [FT.toFn, Fn.lo, Fn.hi, Fn.get, Fns.take_all _ _ f2, Fns.take_all _ _ g2,
      Fns.take_all f.toFn f.toFn.hi (by omega), Fns.take_all g.toFn g.toFn.hi (by omega)]
    cases a <;> cases b <;> simp only [Bool.not_false, Bool.not_true, if_true, Bool.false_eq_true, if_false,
      List.append_nil, List.nil_append]
    · exact ⟨List.rel_append hf.1 hg.1, List.rel_append hf.2 hg.2⟩
    · exact hf
    · exact hg
    · exact ⟨.nil, .nil⟩
theorem FTs.inside_of_parts : ∀ (fs : FTs LobeObj) (n : ℕ), fs.toFns.WF n → (∀ x ∈ fs.parts, x.2.toFn.Inside) →
    fs.toFns.Inside
  | .nil, _, _, _ => ⟨.nil, .nil⟩
  | .cons a f rest, n, hw, h => by
    have hf := FT.inside_of_parts f a hw.1.1 fun x hx => h x (by simp [FTs.parts, hx])
    have hr := FTs.inside_of_parts rest n hw.2 fun x hx => h x (by simp [FTs.parts, hx])
    obtain ⟨f1, f2⟩ := FT.bounds f
    have f3 := f1.length_eq
    unfold Fns.Inside
    simp only [FTs.toFns, Fns.lo, Fns.hi, Fns.get, Fns.take_all _ _ f2, Fns.take_all f.toFn f.toFn.hi (by omega)]
    split
    · exact ⟨List.rel_append hf.1 hr.1, List.rel_append hf.2 hr.2⟩
    · exact ⟨List.rel_append .nil hr.1, List.rel_append .nil hr.2⟩
end

mutual
theorem FT.parts_free : ∀ (f : FT LobeObj) (args : SMap), args.isDefined kBoot = false → f.Free →
    ∀ x ∈ f.parts args, x.1.isDefined kBoot = false
  | .leaf l, args, ha, _, x, hx => by
    simp only [FT.parts, List.mem_singleton] at hx
    rw [hx]; exact ha
  | .compound p fs, args, ha, hf, x, hx => FTs.parts_free fs hf x hx
  | .product p f g a b, args, ha, hf, x, hx => by
    simp only [FT.parts, List.mem_append] at hx
    rcases hx with hx | hx
    · exact FT.parts_free f args ha hf.1 x hx
    · exact FT.parts_free g args ha hf.2 x hx
theorem FTs.parts_free : ∀ fs : FTs LobeObj, fs.Free → ∀ x ∈ fs.parts, x.1.isDefined kBoot = false
  | .nil, _, x, hx => by simp [FTs.parts] at hx
  | .cons a f rest, hf, x, hx => by
    simp only [FTs.parts, List.mem_append] at hx
    rcases hx with hx | hx
    · exact FT.parts_free f a hf.1 hf.2.1 x hx
    · exact FTs.parts_free rest hf.2.2 x hx
end

theorem int_le_maxDouble (z : ℤ) (h : z ≤ 2147483647) : (z : ℝ) ≤ maxDouble := by
  have h1 : (z : ℝ) ≤ 2147483647 := by exact_mod_cast h
  have h2 : (2:ℝ) ^ 31 ≤ 2 ^ 1023 := pow_le_pow_right₀ (by norm_num) (by norm_num)
  refine le_trans h1 ?_
  unfold maxDouble
  generalize (2:ℝ) ^ 1023 = q at *
  norm_num at h2 ⊢
  linarith

theorem inside_of_get (f : Fn) (h1 : Below f.lo f.get) (h2 : Below f.get f.hi) (hl : f.lo.length = f.nb) : f.Inside := by
  have h3 : f.params = f.get := by
    unfold Fn.params
    rw [← hl, h1.length_eq, List.take_length]
  unfold Fn.Inside
  rw [h3]
  exact ⟨h1, h2⟩

/-- The scale of a spherical gaussian (1 after its construction) is not negative nor too large. -/
def LobeObj.ScaleInside : LobeObj → Prop
  | .sg s => 0 ≤ s.a ∧ s.a ≤ maxDouble
  | _ => True

theorem sg_inside (t : SgS) (hks : ∀ i < t.par.dimY, t.ks i = 1) (hn : ∀ i < t.par.dimY, t.n i = 1)
    (ha : 0 ≤ t.a ∧ t.a ≤ maxDouble) : (LobeObj.sg t).toFn.Inside := by
  have hm := maxDouble_large
  have e1 : (1:ℝ) ≤ maxDouble := by linarith
  have hi : defaultMax (if t.type = .Moment then 2 * t.par.dimY + 1 else 2 * t.par.dimY) =
      (blocks t.par.dimY fun _ => [maxDouble, maxDouble]) ++ (if t.type = .Moment then [maxDouble] else []) := by
    have h2 := defaultMax_blocks t.par.dimY 2
    split
    · rw [defaultMax, List.replicate_succ', ← defaultMax, h2]; rfl
    · rw [h2, List.append_nil]; rfl
  refine inside_of_get _ ?_ ?_ (LobeObj.sg t).bounds.2
  · simp only [LobeObj.toFn, Fn.lo, Fn.get, sgCls]
    refine List.rel_append (below_blocks _ _ _ fun i hi => ?_) ?_
    · rw [hks i hi, hn i hi]; exact .cons zero_le_one (.cons zero_le_one .nil)
    · split
      · exact .cons ha.1 .nil
      · exact .nil
  · simp only [LobeObj.toFn, Fn.hi, Fn.get, sgCls, hi]
    refine List.rel_append (below_blocks _ _ _ fun i hi => ?_) ?_
    · rw [hks i hi, hn i hi]; exact .cons e1 (.cons e1 .nil)
    · split
      · exact .cons ha.2 .nil
      · exact .nil

/-- The start of an object that is not an sgd lobe is within its bounds. -/
theorem LobeObj.start_inside (files : Str → Option Str) (d : Data) (args : SMap) (l l' : LobeObj)
    (ha : args.isDefined kBoot = false) (hs : l.isSgd = false)
    (hsc : l.ScaleInside) (hl : args.getInt "lobes".toList 1 ≤ 2147483647)
    (h : l.bootstrap files d args = some l') : l'.toFn.Inside := by
  have hm := maxDouble_large
  have z : (0:ℝ) ≤ maxDouble := by linarith
  have e0 : (0:ℝ) ≤ 1 := zero_le_one
  have e1 : (1:ℝ) ≤ maxDouble := by linarith
  have n1 : -maxDouble ≤ 1 := by linarith
  have e10 : (10:ℝ) ≤ maxDouble := int_le_maxDouble 10 (by norm_num)
  have key : ∀ l' : LobeObj, Below l'.toFn.lo l'.toFn.get → Below l'.toFn.get l'.toFn.hi → l'.toFn.Inside :=
    fun l' h1 h2 => inside_of_get _ h1 h2 l'.bounds.2
  have lobes : ∀ n : ℕ, askedLobes args = some n → (n : ℝ) ≤ maxDouble := by
    intro n hn
    unfold askedLobes at hn
    generalize args.getInt "lobes".toList 1 = k at *
    simp only at hn
    split at hn
    · cases hn
    · rename_i h0
      cases hn
      have : ((k.toNat : ℕ) : ℝ) = (k : ℝ) := by
        have h2 : ((k.toNat : ℕ) : ℤ) = k := Int.toNat_of_nonneg (by omega)
        exact_mod_cast congrArg (fun t : ℤ => (t : ℝ)) h2
      rw [this]
      exact int_le_maxDouble k hl
  have fill : ∀ (n : ℕ) (lo v hi : ℝ) (R : ℕ → ℝ), lo ≤ v → v ≤ hi →
      Below (List.replicate n lo) ((List.range n).map (fillTo n v R)) ∧
      Below ((List.range n).map (fillTo n v R)) (List.replicate n hi) := by
    intro n lo v hi R h1 h2
    rw [← map_const_replicate, ← map_const_replicate]
    exact ⟨below_map _ _ _ fun i hi' => by rw [fillTo_lt _ _ _ _ hi']; exact h1,
      below_map _ _ _ fun i hi' => by rw [fillTo_lt _ _ _ _ hi']; exact h2⟩
  cases l with
  | sgd s => cases hs
  | blinn s =>
    simp only [LobeObj.bootstrap, Option.some.injEq] at h
    subst h
    refine key _ ?_ ?_ <;> simp only [LobeObj.toFn, Fn.lo, Fn.hi, Fn.get, blinnCls, defaultMin_blocks, defaultMax_blocks] <;>
      refine below_blocks _ _ _ fun i hi => ?_ <;> rw [fillTo_lt _ _ _ _ hi, fillTo_lt _ _ _ _ hi]
    · exact .cons n1 (.cons (by linarith) .nil)
    · exact .cons e1 (.cons e10 .nil)
  | retroblinn s =>
    simp only [LobeObj.bootstrap, Option.some.injEq] at h
    subst h
    refine key _ ?_ ?_ <;> simp only [LobeObj.toFn, Fn.lo, Fn.hi, Fn.get, retroblinnCls, defaultMin_blocks, defaultMax_blocks] <;>
      refine below_blocks _ _ _ fun i hi => ?_ <;> rw [fillTo_lt _ _ _ _ hi, fillTo_lt _ _ _ _ hi]
    · exact .cons n1 (.cons n1 .nil)
    · exact .cons e1 (.cons e1 .nil)
  | beckmann s =>
    simp only [LobeObj.bootstrap, ha, Bool.false_eq_true, if_false, Option.some.injEq] at h
    subst h
    refine key _ ?_ ?_ <;> simp only [LobeObj.toFn, Fn.lo, Fn.hi, Fn.get, beckmannCls, defaultMax_blocks] <;>
      refine below_blocks _ _ _ fun i hi => ?_ <;> rw [fillTo_lt _ _ _ _ hi, fillTo_lt _ _ _ _ hi]
    · exact .cons e0 (.cons e0 .nil)
    · exact .cons e1 (.cons e1 .nil)
  | retrobeckmann s =>
    simp only [LobeObj.bootstrap, Option.some.injEq] at h
    subst h
    refine key _ ?_ ?_ <;> simp only [LobeObj.toFn, Fn.lo, Fn.hi, Fn.get, retrobeckmannCls, defaultMax_blocks] <;>
      refine below_blocks _ _ _ fun i hi => ?_ <;> rw [fillTo_lt _ _ _ _ hi, fillTo_lt _ _ _ _ hi]
    · exact .cons e0 (.cons e0 .nil)
    · exact .cons e1 (.cons e1 .nil)
  | ward s =>
    simp only [LobeObj.bootstrap, Option.some.injEq] at h
    subst h
    refine key _ ?_ ?_ <;> simp only [LobeObj.toFn, Fn.lo, Fn.hi, Fn.get, wardCls, defaultMax_blocks] <;>
      refine below_blocks _ _ _ fun i hi => ?_ <;>
      rw [fillTo_lt _ _ _ _ hi, fillTo_lt _ _ _ _ hi, fillTo_lt _ _ _ _ hi]
    · exact .cons e0 (.cons e0 (.cons e0 .nil))
    · exact .cons e1 (.cons e1 (.cons e1 .nil))
  | abc s =>
    simp only [LobeObj.bootstrap, Option.some.injEq] at h
    subst h
    refine key _ ?_ ?_ <;>
      simp only [LobeObj.toFn, Fn.lo, Fn.hi, Fn.get, abcCls, AbcS.bootstrap, defaultMax_blocks] <;>
      refine below_blocks _ _ _ fun i hi => ?_ <;>
      rw [fillTo_lt _ _ _ _ hi, fillTo_lt _ _ _ _ hi, fillTo_lt _ _ _ _ hi]
    · exact .cons e0 (.cons e0 (.cons e0 .nil))
    · exact .cons e1 (.cons e1 (.cons e1 .nil))
  | diffuse s =>
    obtain ⟨t, rfl, -⟩ := diffuse_bootstrap_shape files d args s l' h
    exact ⟨.nil, .nil⟩
  | sg s =>
    simp only [LobeObj.bootstrap, Option.some.injEq] at h
    subst h
    obtain ⟨s1, s2⟩ := hsc
    refine sg_inside _ ?_ ?_ ?_ <;> simp only [SgS.bootstrap] <;> repeat' split
    all_goals first
      | exact ⟨e0, e1⟩
      | exact ⟨s1, s2⟩
      | (intro i hi; exact fillTo_lt _ _ _ _ hi)
  | isoLafortune s =>
    simp only [LobeObj.bootstrap, IsoLafortuneS.bootstrap, Option.map_map, Option.map_eq_some_iff,
      Function.comp_apply] at h
    obtain ⟨n, hn, rfl⟩ := h
    have hN := lobes n hn
    have hN0 : (0:ℝ) ≤ n := Nat.cast_nonneg n
    have entry : ∀ k < n * s.par.dimY, ∀ sp m, -1 ≤ isoCxy sp m ∧ isoCxy sp m ≤ 1 := by
      intro k _ sp m
      unfold isoCxy
      repeat' split
      all_goals constructor <;> norm_num
    have hget : ∀ t : IsoLafortuneS, (LobeObj.isoLafortune t).toFn.get =
        blocks (t.n * t.par.dimY) fun k => [t.C (k * 2 + 0), t.C (k * 2 + 1), t.N k] := isoLafortune_get
    have hlo : ∀ t : IsoLafortuneS, (LobeObj.isoLafortune t).toFn.lo =
        blocks (t.n * t.par.dimY) fun _ => [-maxDouble, -maxDouble, 0] := fun t =>
      blocks_blocks t.n t.par.dimY fun _ => [-maxDouble, -maxDouble, 0]
    have hhi : ∀ t : IsoLafortuneS, (LobeObj.isoLafortune t).toFn.hi =
        blocks (t.n * t.par.dimY) fun _ => [maxDouble, maxDouble, maxDouble] := fun t => by
      show defaultMax (3 * t.n * t.par.dimY) = _
      rw [Nat.mul_assoc, defaultMax_blocks]; rfl
    refine key _ ?_ ?_
    · rw [hget, hlo]
      refine below_blocks _ _ _ fun k hk => ?_
      simp only at hk ⊢
      obtain ⟨b1, b2⟩ := entry k hk (args.isDefined kBoot) ((k * 2 + 0) / 2 / s.par.dimY)
      rw [if_pos (by omega), if_pos (by omega), if_pos (by omega), if_neg (by omega), fillTo_lt _ _ _ _ hk]
      exact .cons (by linarith) (.cons n1 (.cons hN0 .nil))
    · rw [hget, hhi]
      refine below_blocks _ _ _ fun k hk => ?_
      simp only at hk ⊢
      obtain ⟨b1, b2⟩ := entry k hk (args.isDefined kBoot) ((k * 2 + 0) / 2 / s.par.dimY)
      rw [if_pos (by omega), if_pos (by omega), if_pos (by omega), if_neg (by omega), fillTo_lt _ _ _ _ hk]
      exact .cons (by linarith) (.cons e1 (.cons hN .nil))
  | lafortune s =>
    simp only [LobeObj.bootstrap, LafortuneS.bootstrap] at h
    obtain ⟨t, h1, rfl⟩ := Option.map_eq_some_iff.1 h
    split at h1
    · rename_i n x0 rows hn hr
      split at h1
      · cases h1
      · cases h1
        have hN := lobes n hn
        have hN0 : (0:ℝ) ≤ n := Nat.cast_nonneg n
        have hget : ∀ t : LafortuneS, (LobeObj.lafortune t).toFn.get =
            blocks (t.n * t.par.dimY) fun k => [t.C (k * 3 + 0), t.C (k * 3 + 1), t.C (k * 3 + 2), t.N k] := lafortune_get
        have hlo : ∀ t : LafortuneS, (LobeObj.lafortune t).toFn.lo =
            blocks (t.n * t.par.dimY) fun _ => [-maxDouble, -maxDouble, -maxDouble, -maxDouble] := fun t => by
          show defaultMin (4 * t.n * t.par.dimY) = _
          rw [Nat.mul_assoc, defaultMin_blocks]; rfl
        have hhi : ∀ t : LafortuneS, (LobeObj.lafortune t).toFn.hi =
            blocks (t.n * t.par.dimY) fun _ => [maxDouble, maxDouble, maxDouble, maxDouble] := fun t => by
          show defaultMax (4 * t.n * t.par.dimY) = _
          rw [Nat.mul_assoc, defaultMax_blocks]; rfl
        have s0 := fun x : ℝ => Real.neg_one_le_sin x
        have s1 := fun x : ℝ => Real.sin_le_one x
        have c0 := fun x : ℝ => Real.neg_one_le_cos x
        have c1 := fun x : ℝ => Real.cos_le_one x
        refine key _ ?_ ?_
        · rw [hget, hlo]
          refine below_blocks _ _ _ fun k hk => ?_
          simp only at hk ⊢
          rw [if_pos (by omega), if_neg (by omega), if_pos (by omega), if_neg (by omega), if_pos (by omega),
            if_pos (by omega), fillTo_lt _ _ _ _ hk]
          refine .cons ?_ (.cons ?_ (.cons ?_ (.cons (by linarith) .nil)))
          · linarith [s1 (0.5 * Real.pi * (((k * 3 + 0) / 3 / s.par.dimY : ℕ) : ℝ) / n)]
          · linarith [s1 (0.5 * Real.pi * (((k * 3 + 1) / 3 / s.par.dimY : ℕ) : ℝ) / n)]
          · linarith [c0 (0.5 * Real.pi * (((k * 3 + 2) / 3 / s.par.dimY : ℕ) : ℝ) / n)]
        · rw [hget, hhi]
          refine below_blocks _ _ _ fun k hk => ?_
          simp only at hk ⊢
          rw [if_pos (by omega), if_neg (by omega), if_pos (by omega), if_neg (by omega), if_pos (by omega),
            if_pos (by omega), fillTo_lt _ _ _ _ hk]
          refine .cons ?_ (.cons ?_ (.cons ?_ (.cons hN .nil)))
          · linarith [s0 (0.5 * Real.pi * (((k * 3 + 0) / 3 / s.par.dimY : ℕ) : ℝ) / n)]
          · linarith [s0 (0.5 * Real.pi * (((k * 3 + 1) / 3 / s.par.dimY : ℕ) : ℝ) / n)]
          · linarith [c1 (0.5 * Real.pi * (((k * 3 + 2) / 3 / s.par.dimY : ℕ) : ℝ) / n)]
    · cases h1
  | schlickFresnel s =>
    simp only [LobeObj.bootstrap, Option.some.injEq] at h
    subst h
    obtain ⟨h1, h2⟩ := fill s.par.dimY 0 0.5 1 s.R (by norm_num) (by norm_num)
    refine key _ ?_ ?_ <;> simp only [LobeObj.toFn, Fn.lo, Fn.hi, Fn.get, schlickFresnelCls, OneS.fill, map_const_replicate]
    · exact h1
    · exact h2
  | normalizedSchlick s =>
    simp only [LobeObj.bootstrap, Option.some.injEq] at h
    subst h
    obtain ⟨h1, h2⟩ := fill s.par.dimY 1e-10 0.5 1 s.R (by norm_num) (by norm_num)
    refine key _ ?_ ?_ <;> simp only [LobeObj.toFn, Fn.lo, Fn.hi, Fn.get, normalizedSchlickCls, OneS.fill, map_const_replicate]
    · exact h1
    · exact h2
  | retroSchlick s =>
    simp only [LobeObj.bootstrap, Option.some.injEq] at h
    subst h
    obtain ⟨h1, h2⟩ := fill s.par.dimY 0 0.5 1 s.R (by norm_num) (by norm_num)
    refine key _ ?_ ?_ <;> simp only [LobeObj.toFn, Fn.lo, Fn.hi, Fn.get, retroSchlickCls, OneS.fill, map_const_replicate]
    · exact h1
    · exact h2
  | schlickMasking s =>
    simp only [LobeObj.bootstrap, Option.some.injEq] at h
    subst h
    obtain ⟨h1, h2⟩ := fill s.par.dimY 0 0 maxDouble s.R (by norm_num) z
    refine key _ ?_ ?_ <;> simp only [LobeObj.toFn, Fn.lo, Fn.hi, Fn.get, schlickMaskingCls, OneS.fill, map_const_replicate]
    · exact h1
    · exact h2
  | smith s =>
    simp only [LobeObj.bootstrap, Option.some.injEq] at h
    subst h
    obtain ⟨h1, h2⟩ := fill s.par.dimY 0 1 maxDouble s.R (by norm_num) e1
    refine key _ ?_ ?_ <;> simp only [LobeObj.toFn, Fn.lo, Fn.hi, Fn.get, smithCls, OneS.fill, map_const_replicate]
    · exact h1
    · exact h2
  | walterSmith s =>
    simp only [LobeObj.bootstrap, Option.some.injEq] at h
    subst h
    obtain ⟨h1, h2⟩ := fill s.par.dimY 1e-6 1 maxDouble s.R (by norm_num) e1
    refine key _ ?_ ?_ <;> simp only [LobeObj.toFn, Fn.lo, Fn.hi, Fn.get, walterSmithCls, OneS.fill, map_const_replicate]
    · exact h1
    · exact h2

/-- C59: without the option `bootstrap`, a function that can be started, whatever the data, starts within
    its bounds.  (Not with an sgd lobe, which keeps the coefficients found in memory, C58.) -/
theorem start_within_bounds (files : Str → Option Str) (d : Data) (args : SMap) (f f' : FT LobeObj) (hw : f.toFn.WF)
    (ha : args.isDefined kBoot = false) (hf : f.Free)
    (hp : ∀ x ∈ f.parts args, x.2.isSgd = false ∧ x.2.ScaleInside ∧ x.1.getInt "lobes".toList 1 ≤ 2147483647)
    (h : f.bootstrap files d args = some f') : WithinBounds f'.toFn f'.toFn.params := by
  have hk := FT.bootstrap_parts files d f args f' ha hf h
  have hb : ∀ x ∈ f.parts args, x.1.isDefined kBoot = false := FT.parts_free f args ha hf
  refine Fn.Inside.within (FT.inside_of_parts f' args (FT.kept_WF f f' (FT.bootstrap_kept files d f args f' h) hw) ?_)
    (FT.bounds f').2
  intro y hy
  obtain ⟨i, hi, rfl⟩ := List.getElem_of_mem hy
  have hl := hk.length_eq
  have h1 := List.Forall₂.get hk (by omega : i < (f.parts args).length) hi
  simp only [List.get_eq_getElem] at h1
  obtain ⟨p1, p2, p3⟩ := hp _ (List.getElem_mem (show i < (f.parts args).length by omega))
  exact LobeObj.start_inside files d _ _ _ (hb _ (List.getElem_mem (show i < (f.parts args).length by omega))) p1 p2 p3 h1.2

/-- Limit: a vector given with the option `bootstrap` is not checked: with `--bootstrap [-1, 1]` a Beckmann
    lobe starts with a negative coefficient, out of its bounds. -/
theorem vector_not_checked (files : Str → Option Str) (d : Data) (s : BeckmannS) (hd : s.par.dimY = 1) :
    ∃ l', (FT.leaf (.beckmann s)).bootstrap files d [(kBoot, bracketed [['-', '1'], ['1']])] = some (.leaf l') ∧
      ¬ WithinBounds l'.toFn l'.toFn.params := by
  have hnb : (LobeObj.beckmann s).toFn.nb = 2 := by
    show 2 * s.par.dimY = 2
    rw [hd]
  obtain ⟨l', h1, h2⟩ := bootstrap_vector_lobe files d [(kBoot, bracketed [['-', '1'], ['1']])] (.beckmann s)
    (Or.inl ⟨s, rfl⟩) [([], ⟨true, [1], [], none⟩), ([], ⟨false, [1], [], none⟩)]
    ⟨by simp, by decide, by simp, by simp⟩ (by rw [hnb]; rfl)
  refine ⟨l', h1, fun hw => ?_⟩
  have hk := FT.bootstrap_kept files d _ _ _ h1
  obtain ⟨hc, -, hY, -⟩ := hk
  obtain ⟨t, rfl⟩ : ∃ t : BeckmannS, l' = .beckmann t := by
    cases l' with
    | beckmann t => exact ⟨t, rfl⟩
    | _ => simp [LobeObj.ctorIdx] at hc
  have hY' : t.par.dimY = 1 := by
    have : t.par.dimY = s.par.dimY := hY
    rw [this, hd]
  have h3 := (hw 0 (by show 0 < 2 * t.par.dimY; omega)).1
  rw [h2] at h3
  have h4 : arr (LobeObj.beckmann t).toFn.lo 0 = 0 := by
    show arr (blocks t.par.dimY fun _ => [0, 0]) 0 = 0
    rw [hY']; rfl
  rw [h4] at h3
  simp [arr, Decimal.value, digitsNum] at h3
  norm_num at h3

end
end Alta
