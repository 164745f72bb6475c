import Verif.Props.RationalFitLeast
/-
The shape of the functions that the fitters of rational functions leave: every channel is allocated, on the domain of the
data.
-/
namespace Alta
noncomputable section

/-- A function fitted to data: its domain is that of the data, and all of its channels are allocated. -/
structure RatFn.FittedOn (f : RatFn) (d : Segments) : Prop where
  dimX : f.dimX = d.store.dimX
  dimY : f.dimY = d.store.dimY
  lo : f.lo = d.min
  hi : f.hi = d.max
  len : f.rs.length = f.dimY
  chan : ∀ m < f.dimY, ∃ r, f.rs[m]? = some (some r) ∧ r.dimX = f.dimX ∧ r.q ≠ [] ∧ r.Standard ∧
    (r.lo, r.hi) = inflate f.lo f.hi

/-- `r'` is `r` with other coefficients. -/
def Rat1.Keeps (r r' : Rat1) : Prop := r'.Standard ∧ r'.dimX = r.dimX ∧ r'.lo = r.lo ∧ r'.hi = r.hi ∧ r'.q ≠ []

theorem update_keeps (junk : ℝ) (r : Rat1) (h : r.Standard) (a b : List ℝ) (ha : a.length = r.p.length)
    (hb : b.length = r.q.length) (r' : Rat1) (hr : r.update junk a b = some r') : r.Keeps r' := by
  have hne : b ≠ [] := by
    rintro rfl
    simp [Rat1.update] at hr
  obtain ⟨r1, u1, u2, u3, u4, u5, -, c, -, -, uQ, -⟩ := update_value junk r h a b hne ha hb
  rw [u1] at hr
  cases hr
  refine ⟨u2, u3, u4, u5, ?_⟩
  intro hq
  rw [Rat1.getQ, hq] at uQ
  simp at uQ
  exact hne uQ

theorem smallestEigen_mem (l : List (ℝ × List ℝ)) : smallestEigen l = (maxDouble, []) ∨ smallestEigen l ∈ l := by
  have key : ∀ (l : List (ℝ × List ℝ)) (s : ℝ × List ℝ),
      l.foldl (fun s e => if 0 ≤ e.1 ∧ e.1 < s.1 then e else s) s = s ∨
      l.foldl (fun s e => if 0 ≤ e.1 ∧ e.1 < s.1 then e else s) s ∈ l := by
    intro l
    induction l with
    | nil => intro s; exact Or.inl rfl
    | cons e l ih =>
      intro s
      rw [List.foldl_cons]
      by_cases hc : 0 ≤ e.1 ∧ e.1 < s.1
      · rw [if_pos hc]
        rcases ih e with h | h
        · right; rw [h]; exact List.mem_cons_self
        · right; exact List.mem_cons_of_mem _ h
      · rw [if_neg hc]
        rcases ih s with h | h
        · left; exact h
        · right; exact List.mem_cons_of_mem _ h
  exact key l (maxDouble, [])

theorem eigenChannel_keeps (solve : EigenSystem) (hs : solve.Sound) (junk : ℝ) (d : Store ℝ) (np nq ny : ℕ) (r : Rat1)
    (h : r.Standard) (hp : r.p.length = np) (hq : r.q.length = nq) (r' : Rat1)
    (hr : eigenChannel solve junk d np nq ny r = some (true, r')) : r.Keeps r' := by
  unfold eigenChannel at hr
  obtain ⟨cols, -, hr⟩ := Option.bind_eq_some_iff.1 hr
  cases hl : solve (np + nq) (gram cols) with
  | none => rw [hl] at hr; simp at hr
  | some l =>
    rw [hl] at hr
    simp only [] at hr
    split at hr
    · simp at hr
    · rename_i hne
      split at hr
      · cases hr
      · obtain ⟨r1, h1, h2⟩ := Option.map_eq_some_iff.1 hr
        simp only [Prod.mk.injEq, true_and] at h2
        subst h2
        have hlen : (smallestEigen l).2.length = np + nq := by
          rcases smallestEigen_mem l with h | h
          · rw [h] at hne; exact absurd rfl hne
          · exact ((hs _ _ _ (gram_symm _) hl).2.1 _ h).1
        exact update_keeps junk r h _ _ (by rw [List.length_take]; omega) (by rw [List.length_drop]; omega) _ h1

theorem leastChannel_keeps (solve : LeastSquares) (hs : solve.Sound) (junk : ℝ) (d : Store ℝ) (np nq maxIter ny : ℕ)
    (r : Rat1) (h : r.Standard) (hd : r.dimX = d.dimX) (hp : r.p.length = np) (hq : r.q.length = nq) (ok : Bool) (r' : Rat1)
    (hr : leastChannel solve junk d np nq maxIter ny r = some (ok, r')) : r.Keeps r' := by
  unfold leastChannel at hr
  split at hr
  · cases hr
  · rw [leastRows_eq d r h np nq ny hp hq, Option.bind_some] at hr
    obtain ⟨⟨a, b⟩, h1, hr⟩ := Option.bind_eq_some_iff.1 hr
    obtain ⟨r1, h2, hr⟩ := Option.map_eq_some_iff.1 hr
    rw [Prod.mk.injEq] at hr
    obtain ⟨-, rfl⟩ := hr
    have hlen : a.length = np ∧ b.length = nq := by
      cases maxIter with
      | zero =>
        rw [leastIterations] at h1
        cases h1
        simp
      | succ n =>
        obtain ⟨g1, g2, -⟩ := leastIterations_spec solve hs d r hd np nq ny n (constantOne np) _ (by simp [constantOne]) a b h1
        exact ⟨g1, g2⟩
    exact update_keeps junk r h a b (by rw [hlen.1, hp]) (by rw [hlen.2, hq]) _ h2

theorem fitChannel_keeps (solve : Solver) (hsound : solve.Sound) (junk delta : ℝ) (d : Store ℝ) (np nq ny : ℕ) (r : Rat1)
    (h : r.Standard) (hd : r.dimX = d.dimX) (hp : r.p.length = np) (hq : r.q.length = nq) (r' : Rat1)
    (hr : fitChannel solve junk delta d np nq ny r = some (true, r')) : r.Keeps r' := by
  obtain ⟨prog, h1, h2, -⟩ := program_spec d r h np nq ny delta hd hp hq
  unfold fitChannel at hr
  rw [← Option.bind_assoc, h1, Option.bind_some] at hr
  cases hs : solve (np + nq) prog with
  | none => rw [hs] at hr; simp at hr
  | some x =>
    rw [hs] at hr
    simp only [] at hr
    obtain ⟨r1, u1, u2⟩ := Option.map_eq_some_iff.1 hr
    rw [Prod.mk.injEq] at u2
    obtain ⟨-, rfl⟩ := u2
    obtain ⟨hx, -⟩ := hsound (np + nq) prog x h2 hs
    exact update_keeps junk r h _ _ (by rw [List.length_take]; omega) (by rw [List.length_drop]; omega) _ u1

/-! ### All the channels -/

theorem get_frame (junk : ℝ) (f f' : RatFn) (j : ℕ) (r : Rat1) (h : f.get junk j = some (r, f')) :
    f'.dimX = f.dimX ∧ f'.dimY = f.dimY ∧ f'.lo = f.lo ∧ f'.hi = f.hi ∧ f'.rs.length = f.rs.length := by
  unfold RatFn.get at h
  split at h
  · split at h
    · cases h
    · cases h; exact ⟨rfl, rfl, rfl, rfl, rfl⟩
    · cases h; exact ⟨rfl, rfl, rfl, rfl, by simp⟩
  · cases h

theorem fitEach_frame (fit : ℕ → Rat1 → Option (Bool × Rat1)) (junk : ℝ) : ∀ (k j : ℕ) (f : RatFn) (ok : Bool) (f' : RatFn),
    fitEach fit junk k j f = some (ok, f') →
    f'.dimX = f.dimX ∧ f'.dimY = f.dimY ∧ f'.lo = f.lo ∧ f'.hi = f.hi ∧ f'.rs.length = f.rs.length := by
  intro k
  induction k with
  | zero => intro j f ok f' h; cases h; exact ⟨rfl, rfl, rfl, rfl, rfl⟩
  | succ k ih =>
    intro j f ok f' h
    rw [fitEach] at h
    split at h
    · cases h
    · rename_i rs f1 hg
      obtain ⟨g1, g2, g3, g4, g5⟩ := get_frame junk f f1 j rs hg
      split at h
      · cases h
      · rename_i ok' rs' _
        split at h
        · obtain ⟨i1, i2, i3, i4, i5⟩ := ih _ _ _ _ h
          refine ⟨i1.trans g1, i2.trans g2, i3.trans g3, i4.trans g4, i5.trans ?_⟩
          rw [List.length_set, g5]
        · cases h
          exact ⟨g1, g2, g3, g4, by rw [List.length_set, g5]⟩

/-- The loop on the channels, from a function of the sizes of the data. -/
theorem fitEach_fitted (fit : ℕ → Rat1 → Option (Bool × Rat1)) (junk : ℝ) (d : Segments) (np nq : ℕ) (f f' : RatFn)
    (hf : RationalReady d f) (hlo : f.lo = d.min) (hhi : f.hi = d.max)
    (hk : ∀ m r r', r.Standard → r.dimX = d.store.dimX → r.p.length = np → r.q.length = nq → fit m r = some (true, r') →
      r.Keeps r')
    (h : fitEach fit junk d.store.dimY 0 (RatFn.setSize f np nq) = some (true, f')) : f'.FittedOn d := by
  obtain ⟨g1, g2, -, g4⟩ := (fitEach_spec fit junk d.store.dimY d.store.dimY 0 (RatFn.setSize f np nq) (by omega) hf.output
    (by simp [RatFn.setSize, hf.output]) (by
      intro m _ hm
      have : m < f.dimY := by rw [hf.output]; exact hm
      simp [RatFn.setSize, this])).1 f' h
  obtain ⟨i1, i2, i3, i4, i5⟩ := fitEach_frame fit junk _ _ _ _ _ h
  have hlo' : f'.lo = d.min := i3.trans hlo
  have hhi' : f'.hi = d.max := i4.trans hhi
  refine ⟨i1.trans hf.input, i2.trans hf.output, hlo', hhi', ?_, ?_⟩
  · rw [i5, i2]; simp [RatFn.setSize]
  · intro m hm
    obtain ⟨r', c1, c2⟩ := g4 m (Nat.zero_le _) (by rw [← g2]; exact hm)
    have hdom := resize_dom junk ⟨f.dimX, [], [], (inflate f.lo f.hi).1, (inflate f.lo f.hi).2⟩ np nq
    obtain ⟨s1, s2, s3⟩ := mkRat1_standard junk f.dimX np nq (inflate f.lo f.hi).1 (inflate f.lo f.hi).2
      (by rw [hf.input]; exact hf.dims)
    obtain ⟨k1, k2, k3, k4, k5⟩ := hk m _ r' s1 (hdom.1.trans hf.input) s2 s3 c1
    refine ⟨r', c2, ?_, k5, k1, ?_⟩
    · rw [k2, i1]; exact hdom.1
    · have e1 : r'.lo = (inflate f.lo f.hi).1 := k3.trans hdom.2.1
      have e2 : r'.hi = (inflate f.lo f.hi).2 := k4.trans hdom.2.2
      rw [e1, e2, i3, i4]
      rfl

theorem eigenFit_fitted (solve : EigenSystem) (hs : solve.Sound) (junk : ℝ) (d : Segments) (np nq : ℕ) (f f' : RatFn)
    (hf : RationalReady d f) (h : eigenRationalFit solve junk d np nq f = some (true, f')) : f'.FittedOn d := by
  unfold eigenRationalFit at h
  split at h
  · simp at h
  · exact fitEach_fitted _ junk d np nq { f with lo := d.min, hi := d.max } f' ⟨hf.dims, hf.input, hf.output⟩ rfl rfl
      (fun m r r' h1 h2 h3 h4 h5 => eigenChannel_keeps solve hs junk d.store np nq m r h1 h3 h4 r' h5) h

theorem leastFit_fitted (solve : LeastSquares) (hs : solve.Sound) (junk : ℝ) (d : Segments) (np nq maxIter : ℕ) (f f' : RatFn)
    (hf : RationalReady d f) (h : leastSquareFit solve junk d np nq maxIter f = some (true, f')) : f'.FittedOn d := by
  unfold leastSquareFit at h
  split at h
  · simp at h
  · exact fitEach_fitted _ junk d np nq { f with lo := d.min, hi := d.max } f' ⟨hf.dims, hf.input, hf.output⟩ rfl rfl
      (fun m r r' h1 h2 h3 h4 h5 => leastChannel_keeps solve hs junk d.store np nq maxIter m r h1 h2 h3 h4 _ r' h5) h

theorem fitChannels_eq (solve : Solver) (junk delta : ℝ) (d : Store ℝ) (np nq : ℕ) : ∀ (k j : ℕ) (f : RatFn),
    fitChannels solve junk delta d np nq k j f =
      fitEach (fun j r => fitChannel solve junk delta d np nq j (r.resize junk np nq)) junk k j f := by
  intro k
  induction k with
  | zero => intro j f; rfl
  | succ k ih =>
    intro j f
    rw [fitChannels, fitEach]
    cases f.get junk j with
    | none => rfl
    | some c =>
      obtain ⟨rs, f1⟩ := c
      simp only []
      cases fitChannel solve junk delta d np nq j (rs.resize junk np nq) with
      | none => rfl
      | some c =>
        obtain ⟨ok, rs'⟩ := c
        simp only []
        cases ok <;> simp [ih]

theorem fitSizes_fitted (solve : Solver) (hsound : solve.Sound) (junk delta : ℝ) (d : Segments) (maxNp maxNq : ℕ) :
    ∀ (n np nq : ℕ) (f f' : RatFn), (maxNp - np) + (maxNq - nq) = n → RationalReady d f → f.lo = d.min → f.hi = d.max →
    fitSizes solve junk delta d.store maxNp maxNq np nq f = some (true, f') → f'.FittedOn d := by
  intro n
  induction n using Nat.strong_induction_on with
  | _ n ih =>
    intro np nq f f' hn hf hlo hhi h
    rw [fitSizes] at h
    split at h
    · rename_i hc
      split at h
      · cases h
      · rename_i f1 h1
        cases h
        rw [fitChannels_eq] at h1
        refine fitEach_fitted _ junk d np nq f f' hf hlo hhi ?_ h1
        intro m r r' q1 q2 q3 q4 q5
        obtain ⟨t1, t2, t3⟩ := resize_standard junk r q1 np nq
        have hdom := resize_dom junk r np nq
        obtain ⟨k1, k2, k3, k4, k5⟩ := fitChannel_keeps solve hsound junk delta d.store np nq m _ t1 (hdom.1.trans q2) t2 t3 r' q5
        exact ⟨k1, k2.trans hdom.1, k3.trans hdom.2.1, k4.trans hdom.2.2, k5⟩
      · rename_i f1 h1
        split at h
        · cases h
        · rename_i hend
          split at h
          · rename_i hlt
            rw [fitChannels_eq] at h1
            obtain ⟨i1, i2, i3, i4, -⟩ := fitEach_frame _ junk _ _ _ _ _ h1
            have hm : (maxNp - (if np < maxNp then np + 1 else np)) + (maxNq - (if nq < maxNq then nq + 1 else nq)) < n := by
              split <;> split <;> omega
            exact ih _ hm _ _ f1 f' rfl ⟨hf.dims, i1.trans hf.input, i2.trans hf.output⟩ (i3.trans hlo) (i4.trans hhi) h
          · cases h
    · cases h

theorem quadprogFit_fitted (solve : Solver) (hsound : solve.Sound) (junk delta : ℝ) (d : Segments) (np nq : ℕ)
    (minNp minNq : Option ℕ) (f f' : RatFn) (hf : RationalReady d f)
    (h : quadprogFit solve junk delta d np nq minNp minNq f = some (true, f')) : f'.FittedOn d := by
  unfold quadprogFit at h
  split at h
  · cases h
  · exact fitSizes_fitted solve hsound junk delta d _ _ _ _ _ { f with lo := d.min, hi := d.max } f' rfl ⟨hf.dims, hf.input, hf.output⟩ rfl rfl h

/-- The channels of a fitted function. -/
theorem RatFn.FittedOn.channels {f : RatFn} {d : Segments} (h : f.FittedOn d) : ∃ cs : List Rat1, f.rs = cs.map some ∧
    cs.length = f.dimY ∧ ∀ r ∈ cs, r.dimX = f.dimX ∧ r.q ≠ [] ∧ r.Standard ∧ (r.lo, r.hi) = inflate f.lo f.hi := by
  have hex : ∀ m : Fin f.rs.length, ∃ r, f.rs[m] = some r ∧ r.dimX = f.dimX ∧ r.q ≠ [] ∧ r.Standard ∧
      (r.lo, r.hi) = inflate f.lo f.hi := by
    intro m
    obtain ⟨r, h1, h2⟩ := h.chan m (by rw [← h.len]; exact m.2)
    refine ⟨r, ?_, h2⟩
    rw [List.getElem?_eq_getElem m.2] at h1
    exact Option.some.inj h1
  choose g hg using hex
  refine ⟨List.ofFn g, ?_, by rw [List.length_ofFn, h.len], ?_⟩
  · apply List.ext_getElem
    · simp
    · intro i h1 h2
      rw [List.getElem_map, List.getElem_ofFn]
      exact (hg ⟨i, h1⟩).1
  · intro r hr
    obtain ⟨m, rfl⟩ := (List.mem_ofFn' g r).1 hr
    exact (hg m).2

end
end Alta
