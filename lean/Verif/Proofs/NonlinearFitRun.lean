import Verif.Spec.NonlinearFitRun
import Verif.Props.Bounds
/-
Lemmas about the runs of the external solvers and the states of the function during a fit.
-/
namespace Alta
noncomputable section

/-! ### Functions with the same parts -/

theorem LobeObj.eq_of_toFn (l m : LobeObj) (hc : m.ctorIdx = l.ctorIdx) (h : l.toFn = m.toFn) : l = m := by
  cases l <;> cases m <;> first
    | (exfalso; simp [LobeObj.ctorIdx] at hc; done)
    | (simp only [LobeObj.toFn, Fn.leaf.injEq, heq_eq_eq, true_and] at h; rw [h])

mutual
theorem FT.eq_of_toFn : ∀ f g : FT LobeObj, f.Kept g → f.toFn = g.toFn → f = g
  | .leaf l, .leaf m, hk, h => by rw [LobeObj.eq_of_toFn l m hk.1 h]
  | .compound p fs, .compound q gs, hk, h => by
    obtain ⟨rfl, hk⟩ := hk
    simp only [FT.toFn, Fn.compound.injEq, true_and] at h
    rw [FTs.eq_of_toFns fs gs hk h]
  | .product p f g a b, .product q f' g' a' b', hk, h => by
    obtain ⟨rfl, rfl, rfl, h1, h2⟩ := hk
    simp only [FT.toFn, Fn.product.injEq, true_and, and_true] at h
    rw [FT.eq_of_toFn f f' h1 h.1, FT.eq_of_toFn g g' h2 h.2]
  | .leaf _, .compound _ _, hk, _ => hk.elim
  | .leaf _, .product _ _ _ _ _, hk, _ => hk.elim
  | .compound _ _, .leaf _, hk, _ => hk.elim
  | .compound _ _, .product _ _ _ _ _, hk, _ => hk.elim
  | .product _ _ _ _ _, .leaf _, hk, _ => hk.elim
  | .product _ _ _ _ _, .compound _ _, hk, _ => hk.elim
theorem FTs.eq_of_toFns : ∀ fs gs : FTs LobeObj, fs.Kept gs → fs.toFns = gs.toFns → fs = gs
  | .nil, .nil, _, _ => rfl
  | .cons a f r, .cons b g r', hk, h => by
    obtain ⟨rfl, h1, h2⟩ := hk
    simp only [FTs.toFns, Fns.cons.injEq, true_and] at h
    rw [FT.eq_of_toFn f g h1 h.1, FTs.eq_of_toFns r r' h2 h.2]
  | .nil, .cons _ _ _, hk, _ => hk.elim
  | .cons _ _ _, .nil, hk, _ => hk.elim
end

theorem LobeObj.isAbc_iff (l : LobeObj) : l.IsAbc ↔ l.ctorIdx = 5 := by
  cases l <;> simp [LobeObj.IsAbc, LobeObj.ctorIdx]

theorem LobeObj.Kept.trans {a b c : LobeObj} (h1 : a.Kept b) (h2 : b.Kept c) : a.Kept c :=
  ⟨h2.1.trans h1.1, h2.2.1.trans h1.2.1, h2.2.2.1.trans h1.2.2.1, h2.2.2.2.1.trans h1.2.2.2.1, fun h =>
    (h2.2.2.2.2 (by rw [b.isAbc_iff, h1.1, ← a.isAbc_iff]; exact h)).trans (h1.2.2.2.2 h)⟩

theorem LobeObj.Kept.symm {a b : LobeObj} (h1 : a.Kept b) : b.Kept a :=
  ⟨h1.1.symm, h1.2.1.symm, h1.2.2.1.symm, h1.2.2.2.1.symm, fun h =>
    (h1.2.2.2.2 (by rw [a.isAbc_iff, ← h1.1, ← b.isAbc_iff]; exact h)).symm⟩

mutual
theorem FT.Kept.trans : ∀ a b c : FT LobeObj, a.Kept b → b.Kept c → a.Kept c
  | .leaf _, .leaf _, .leaf _, h1, h2 => LobeObj.Kept.trans h1 h2
  | .compound _ fs, .compound _ gs, .compound _ hs, h1, h2 =>
    ⟨h1.1.trans h2.1, FTs.Kept.trans fs gs hs h1.2 h2.2⟩
  | .product _ f g _ _, .product _ f' g' _ _, .product _ f'' g'' _ _, h1, h2 =>
    ⟨h1.1.trans h2.1, h1.2.1.trans h2.2.1, h1.2.2.1.trans h2.2.2.1,
      FT.Kept.trans f f' f'' h1.2.2.2.1 h2.2.2.2.1, FT.Kept.trans g g' g'' h1.2.2.2.2 h2.2.2.2.2⟩
  | .leaf _, .compound _ _, _, h1, _ => h1.elim
  | .leaf _, .product _ _ _ _ _, _, h1, _ => h1.elim
  | .compound _ _, .leaf _, _, h1, _ => h1.elim
  | .compound _ _, .product _ _ _ _ _, _, h1, _ => h1.elim
  | .product _ _ _ _ _, .leaf _, _, h1, _ => h1.elim
  | .product _ _ _ _ _, .compound _ _, _, h1, _ => h1.elim
  | .leaf _, .leaf _, .compound _ _, _, h2 => h2.elim
  | .leaf _, .leaf _, .product _ _ _ _ _, _, h2 => h2.elim
  | .compound _ _, .compound _ _, .leaf _, _, h2 => h2.elim
  | .compound _ _, .compound _ _, .product _ _ _ _ _, _, h2 => h2.elim
  | .product _ _ _ _ _, .product _ _ _ _ _, .leaf _, _, h2 => h2.elim
  | .product _ _ _ _ _, .product _ _ _ _ _, .compound _ _, _, h2 => h2.elim
theorem FTs.Kept.trans : ∀ a b c : FTs LobeObj, a.Kept b → b.Kept c → a.Kept c
  | .nil, .nil, .nil, _, _ => trivial
  | .cons _ f r, .cons _ g r', .cons _ h r'', h1, h2 =>
    ⟨h1.1.trans h2.1, FT.Kept.trans f g h h1.2.1 h2.2.1, FTs.Kept.trans r r' r'' h1.2.2 h2.2.2⟩
  | .nil, .cons _ _ _, _, h1, _ => h1.elim
  | .cons _ _ _, .nil, _, h1, _ => h1.elim
  | .nil, .nil, .cons _ _ _, _, h2 => h2.elim
  | .cons _ _ _, .cons _ _ _, .nil, _, h2 => h2.elim
end

mutual
theorem FT.Kept.symm : ∀ a b : FT LobeObj, a.Kept b → b.Kept a
  | .leaf _, .leaf _, h => LobeObj.Kept.symm h
  | .compound _ fs, .compound _ gs, h => ⟨h.1.symm, FTs.Kept.symm fs gs h.2⟩
  | .product _ f g _ _, .product _ f' g' _ _, h =>
    ⟨h.1.symm, h.2.1.symm, h.2.2.1.symm, FT.Kept.symm f f' h.2.2.2.1, FT.Kept.symm g g' h.2.2.2.2⟩
  | .leaf _, .compound _ _, h => h.elim
  | .leaf _, .product _ _ _ _ _, h => h.elim
  | .compound _ _, .leaf _, h => h.elim
  | .compound _ _, .product _ _ _ _ _, h => h.elim
  | .product _ _ _ _ _, .leaf _, h => h.elim
  | .product _ _ _ _ _, .compound _ _, h => h.elim
theorem FTs.Kept.symm : ∀ a b : FTs LobeObj, a.Kept b → b.Kept a
  | .nil, .nil, _ => trivial
  | .cons _ f r, .cons _ g r', h => ⟨h.1.symm, FT.Kept.symm f g h.2.1, FTs.Kept.symm r r' h.2.2⟩
  | .nil, .cons _ _ _, h => h.elim
  | .cons _ _ _, .nil, h => h.elim
end

theorem FT.set_nb (f : FT LobeObj) (p : List ℝ) : (f.set p).nb = f.nb := by
  rw [FT.toFn_nb, FT.toFn_nb]; exact (FT.bounds_set f p).2.2

/-- `setParameters` twice. -/
theorem FT.set_set (f : FT LobeObj) (hw : f.toFn.WF) (p q : List ℝ) (hp : p.length = f.nb) (hq : q.length = f.nb) :
    (f.set p).set q = f.set q := by
  refine FT.eq_of_toFn _ _ ?_ ?_
  · exact FT.Kept.trans _ _ _ (FT.Kept.symm _ _ ((f.set p).set_kept q))
      (FT.Kept.trans _ _ _ (FT.Kept.symm _ _ (f.set_kept p)) (f.set_kept q))
  · rw [FT.toFn_set, FT.toFn_set, FT.toFn_set, Fn.set_set f.toFn hw p q (by rw [hp, FT.toFn_nb]) (by rw [hq, FT.toFn_nb])]

/-- `setParameters(parameters())`. -/
theorem FT.set_params (f : FT LobeObj) (hw : f.toFn.WF) : f.set f.toFn.params = f := by
  refine (FT.eq_of_toFn _ _ (f.set_kept _) ?_).symm
  rw [FT.toFn_set, Fn.set_params _ hw]

theorem LobeObj.get_length (l : LobeObj) (h : 0 < l.toFn.nb) : l.toFn.get.length = l.toFn.nb := by
  obtain ⟨h1, h2, h3, h4, h5, h6, h7, h8, h9, h10, h11, h12, h13, h14, h15, h16⟩ := lobe_parameters_round_trip
  cases l with
  | blinn s => exact h1.size s
  | retroblinn s => exact h2.size s
  | beckmann s => exact h3.size s
  | retrobeckmann s => exact h4.size s
  | ward s => exact h5.size s
  | abc s => exact h6.size s
  | diffuse s => exact absurd h (lt_irrefl _)
  | sg s => exact h7.size s
  | isoLafortune s => exact h8.size s
  | lafortune s => exact h9.size s
  | sgd s => exact h10.size s
  | schlickFresnel s => exact h11.size s
  | normalizedSchlick s => exact h12.size s
  | retroSchlick s => exact h13.size s
  | schlickMasking s => exact h14.size s
  | smith s => exact h15.size s
  | walterSmith s => exact h16.size s

/-- `parameters()` has `nbParameters()` entries when there are parameters. -/
theorem FT.get_params (f : FT LobeObj) (hw : f.toFn.WF) (h : f.nb ≠ 0) : f.toFn.get = f.toFn.params := by
  have : f.toFn.get.length = f.toFn.nb := by
    rw [FT.toFn_nb] at h
    cases f with
    | leaf l => exact l.get_length (Nat.pos_of_ne_zero h)
    | compound p fs => exact composition_parameters_length _ hw (by intros; simp [FT.toFn])
    | product p f g a b => exact composition_parameters_length _ hw (by intros; simp [FT.toFn])
  rw [Fn.params, ← this, List.take_length]

theorem firstOf_length (n : ℕ) (x : ℕ → ℝ) : (firstOf n x).length = n := by simp [firstOf]

theorem arr_firstOf (n : ℕ) (x : ℕ → ℝ) (i : ℕ) (hi : i < n) : arr (firstOf n x) i = x i := arr_map_range' _ _ _ hi

theorem firstOf_congr (n : ℕ) (x y : ℕ → ℝ) (h : SameFirst n x y) : firstOf n x = firstOf n y :=
  List.map_congr_left fun i hi => h i (List.mem_range.1 hi)

theorem firstOf_arr (p : List ℝ) : firstOf p.length (arr p) = p := range_map_arr p

/-- The vector `parameters()` with the answer of the solver. -/
theorem overwrite_eq (f : FT LobeObj) (hw : f.toFn.WF) (h : f.nb ≠ 0) (x : ℕ → ℝ) :
    overwrite f.toFn.get f.nb x = firstOf f.nb x := by
  have hl : f.toFn.get.length = f.nb := by
    rw [FT.get_params f hw h, Fn.params_length _ hw, FT.toFn_nb]
  unfold overwrite firstOf
  rw [hl]
  exact List.map_congr_left fun i hi => by rw [if_pos (List.mem_range.1 hi)]

/-! ### Runs -/

variable {Q A R σ : Type}

theorem CallingSolver.run_dialogue (eval : Q → σ → Option (A × σ)) : ∀ (s : CallingSolver Q A R) (st : σ) (r : R) (tr : List (Q × A))
    (st' : σ), s.run eval st = some (r, tr, st') → s.Dialogue tr r
  | .stop r, st, r', tr, st', h => by
    simp only [CallingSolver.run, Option.some.injEq, Prod.mk.injEq] at h
    exact ⟨h.2.1.symm, h.1.symm⟩
  | .call q next, st, r', tr, st', h => by
    simp only [CallingSolver.run] at h
    split at h
    · cases h
    · rename_i a s1 he
      split at h
      · cases h
      · rename_i r2 tr2 s2 hr
        simp only [Option.some.injEq, Prod.mk.injEq] at h
        obtain ⟨rfl, rfl, rfl⟩ := h
        exact ⟨a, tr2, rfl, CallingSolver.run_dialogue eval (next a) s1 _ _ _ hr⟩

/-- An invariant of the calls holds at the end, and at each call. -/
theorem CallingSolver.run_invariant (eval : Q → σ → Option (A × σ)) (P : σ → Prop)
    (hP : ∀ q s a s', P s → eval q s = some (a, s') → P s') :
    ∀ (s : CallingSolver Q A R) (st : σ) (r : R) (tr : List (Q × A)) (st' : σ), P st → s.run eval st = some (r, tr, st') →
      P st' ∧ ∀ qa ∈ tr, ∃ s1 s2, P s1 ∧ eval qa.1 s1 = some (qa.2, s2)
  | .stop r, st, r', tr, st', hp, h => by
    simp only [CallingSolver.run, Option.some.injEq, Prod.mk.injEq] at h
    obtain ⟨-, rfl, rfl⟩ := h
    exact ⟨hp, by simp⟩
  | .call q next, st, r', tr, st', hp, h => by
    simp only [CallingSolver.run] at h
    split at h
    · cases h
    · rename_i a s1 he
      split at h
      · cases h
      · rename_i r2 tr2 s2 hr
        simp only [Option.some.injEq, Prod.mk.injEq] at h
        obtain ⟨rfl, rfl, rfl⟩ := h
        obtain ⟨h1, h2⟩ := CallingSolver.run_invariant eval P hP (next a) s1 _ _ _ (hP _ _ _ _ hp he) hr
        refine ⟨h1, fun qa hqa => ?_⟩
        rcases List.mem_cons.1 hqa with rfl | hqa
        · exact ⟨st, s1, hp, he⟩
        · exact h2 qa hqa

/-- A run ends when each call returns. -/
theorem CallingSolver.run_isSome (eval : Q → σ → Option (A × σ)) (P : σ → Prop)
    (hP : ∀ q s, P s → ∃ a s', eval q s = some (a, s') ∧ P s') :
    ∀ (s : CallingSolver Q A R) (st : σ), P st → ∃ r tr st', s.run eval st = some (r, tr, st')
  | .stop r, st, hp => ⟨r, [], st, rfl⟩
  | .call q next, st, hp => by
    obtain ⟨a, s1, he, h1⟩ := hP q st hp
    obtain ⟨r, tr, st', h2⟩ := CallingSolver.run_isSome eval P hP (next a) s1 h1
    exact ⟨r, (q, a) :: tr, st', by simp only [CallingSolver.run, he, h2]⟩

/-- The states of the function during a fit. -/
def FT.Reached (f0 g : FT LobeObj) : Prop := ∃ p : List ℝ, p.length = f0.nb ∧ g = f0.set p

theorem FT.reached_self (f0 : FT LobeObj) (hw : f0.toFn.WF) : f0.Reached f0 :=
  ⟨f0.toFn.params, by rw [Fn.params_length _ hw, FT.toFn_nb], (FT.set_params f0 hw).symm⟩

theorem FT.Reached.nb {f0 g : FT LobeObj} (h : f0.Reached g) : g.nb = f0.nb := by
  obtain ⟨p, hp, rfl⟩ := h
  exact FT.set_nb f0 p

theorem FT.Reached.set {f0 g : FT LobeObj} (hw : f0.toFn.WF) (h : f0.Reached g) (p : List ℝ) (hp : p.length = f0.nb) :
    g.set p = f0.set p := by
  obtain ⟨q, hq, rfl⟩ := h
  exact FT.set_set f0 hw q p hq hp

theorem FT.Reached.next {f0 g : FT LobeObj} (hw : f0.toFn.WF) (h : f0.Reached g) (x : ℕ → ℝ) :
    f0.Reached (g.set (firstOf g.nb x)) :=
  ⟨firstOf f0.nb x, firstOf_length _ _, by rw [h.nb, h.set hw _ (firstOf_length _ _)]⟩

theorem FT.Reached.kept {f0 g : FT LobeObj} (h : f0.Reached g) : f0.Kept g := by
  obtain ⟨p, -, rfl⟩ := h
  exact f0.set_kept p

end
end Alta
