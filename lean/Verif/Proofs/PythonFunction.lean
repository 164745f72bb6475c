import Verif.Spec.PythonFunction
import Verif.Props.Function
/-
Helpers on the plugin objects reached from the function objects of a script.
-/
namespace Alta
noncomputable section

/-- the function of a plugin object -/
def PluginObj.toFn (o : PluginObj) : Fn := .leaf o.cls o.state

theorem PyStore.at_set (st : PyStore) (a b : ℕ) (o : PluginObj) :
    PyStore.at (st.set a o) b = if a = b ∧ b < st.length then o else st.at b := by
  unfold PyStore.at
  by_cases h : a = b
  · subst h
    by_cases hl : a < st.length
    · simp [List.getD, hl]
    · simp [List.getD, hl]
  · simp [List.getD, h]

theorem PyStore.at_append (st t : PyStore) (b : ℕ) (h : b < st.length) : PyStore.at (st ++ t) b = st.at b := by
  unfold PyStore.at
  simp [List.getD, List.getElem?_append_left h]

mutual
theorem PyFn.set_length : ∀ (o : PyFn) (v : List ℝ) (st : PyStore), (o.setParameters v st).length = st.length
  | .leaf a, v, st => by simp [PyFn.setParameters]
  | .compound p fs, v, st => by simpa [PyFn.setParameters] using PyFns.set_length fs v st
  | .product p f g a b, v, st => by
    cases a <;> cases b <;> simp [PyFn.setParameters, PyFn.set_length f, PyFn.set_length g]
theorem PyFns.set_length : ∀ (o : PyFns) (v : List ℝ) (st : PyStore), (o.setParameters v st).length = st.length
  | .nil, v, st => rfl
  | .cons b f r, v, st => by
    unfold PyFns.setParameters
    split
    · rw [PyFns.set_length r, PyFn.set_length f]
    · exact PyFns.set_length r v st
end

mutual
theorem PyFn.set_at : ∀ (o : PyFn) (v : List ℝ) (st : PyStore) (b : ℕ), b ∉ o.parts →
    (o.setParameters v st).at b = st.at b
  | .leaf a, v, st, b, h => by
    simp only [PyFn.parts, List.mem_singleton] at h
    rw [PyFn.setParameters, PyStore.at_set, if_neg (by tauto)]
  | .compound p fs, v, st, b, h => by
    simpa [PyFn.setParameters] using PyFns.set_at fs v st b h
  | .product p f g x y, v, st, b, h => by
    simp only [PyFn.parts, List.mem_append, not_or] at h
    have hf := fun v st => PyFn.set_at f v st b h.1
    have hg := fun v st => PyFn.set_at g v st b h.2
    cases x <;> cases y <;> simp [PyFn.setParameters, hf, hg]
theorem PyFns.set_at : ∀ (o : PyFns) (v : List ℝ) (st : PyStore) (b : ℕ), b ∉ o.parts →
    (o.setParameters v st).at b = st.at b
  | .nil, _, _, _, _ => rfl
  | .cons x f r, v, st, b, h => by
    simp only [PyFns.parts, List.mem_append, not_or] at h
    unfold PyFns.setParameters
    split
    · rw [PyFns.set_at r _ _ b h.2, PyFn.set_at f _ _ b h.1]
    · exact PyFns.set_at r v st b h.2
end

mutual
theorem PyFn.tree_congr : ∀ (o : PyFn) (st st' : PyStore), (∀ a ∈ o.parts, st.at a = st'.at a) →
    o.tree st = o.tree st'
  | .leaf a, st, st', h => by
    have := h a (by simp [PyFn.parts])
    show PluginObj.toFn (st.at a) = PluginObj.toFn (st'.at a)
    rw [this]
  | .compound p fs, st, st', h => by simp only [PyFn.tree, PyFns.tree_congr fs st st' h]
  | .product p f g x y, st, st', h => by
    simp only [PyFn.tree]
    rw [PyFn.tree_congr f st st' (fun a ha => h a (by simp [PyFn.parts, ha])),
      PyFn.tree_congr g st st' (fun a ha => h a (by simp [PyFn.parts, ha]))]
theorem PyFns.tree_congr : ∀ (o : PyFns) (st st' : PyStore), (∀ a ∈ o.parts, st.at a = st'.at a) →
    o.tree st = o.tree st'
  | .nil, _, _, _ => rfl
  | .cons x f r, st, st', h => by
    simp only [PyFns.tree]
    rw [PyFn.tree_congr f st st' (fun a ha => h a (by simp [PyFns.parts, ha])),
      PyFns.tree_congr r st st' (fun a ha => h a (by simp [PyFns.parts, ha]))]
end

/-- a function without part in common is not changed -/
theorem PyFn.tree_set_apart (o q : PyFn) (v : List ℝ) (st : PyStore) (h : q.parts.Disjoint o.parts) :
    q.tree (o.setParameters v st) = q.tree st :=
  q.tree_congr _ _ fun _ ha => o.set_at v st _ (fun hb => h ha hb)

theorem PyFns.tree_set_apart (o : PyFn) (q : PyFns) (v : List ℝ) (st : PyStore) (h : q.parts.Disjoint o.parts) :
    q.tree (o.setParameters v st) = q.tree st :=
  q.tree_congr _ _ fun _ ha => o.set_at v st _ (fun hb => h ha hb)

theorem PyFn.tree_sets_apart (o : PyFns) (q : PyFn) (v : List ℝ) (st : PyStore) (h : q.parts.Disjoint o.parts) :
    q.tree (o.setParameters v st) = q.tree st :=
  q.tree_congr _ _ fun _ ha => o.set_at v st _ (fun hb => h ha hb)

mutual
/-- without sharing, `setParameters` through pointers is `setParameters` of the function -/
theorem PyFn.tree_set : ∀ (o : PyFn) (v : List ℝ) (st : PyStore), o.parts.Nodup →
    (∀ a ∈ o.parts, a < st.length) → o.tree (o.setParameters v st) = (o.tree st).set v
  | .leaf a, v, st, _, hl => by
    have := hl a (by simp [PyFn.parts])
    simp only [PyFn.tree, PyFn.setParameters, Fn.set]
    rw [PyStore.at_set, if_pos ⟨rfl, this⟩]
  | .compound p fs, v, st, hn, hl => by
    simp only [PyFn.tree, PyFn.setParameters, Fn.set]
    rw [PyFns.tree_set fs v st hn hl]
  | .product p f g x y, v, st, hn, hl => by
    simp only [PyFn.parts, List.nodup_append'] at hn
    have hlf : ∀ a ∈ f.parts, a < st.length := fun a ha => hl a (by simp [PyFn.parts, ha])
    have hlg : ∀ a ∈ g.parts, a < st.length := fun a ha => hl a (by simp [PyFn.parts, ha])
    have hf := fun v => PyFn.tree_set f v st hn.1 hlf
    have e1 := fun v st => PyFn.tree_set_apart f g v st hn.2.2.symm
    have e2 := fun v st => PyFn.tree_set_apart g f v st hn.2.2
    have hg := fun v (st' : PyStore) (h : st'.length = st.length) =>
      PyFn.tree_set g v st' hn.2.1 (fun a ha => h ▸ hlg a ha)
    cases x <;> cases y <;> simp [PyFn.tree, PyFn.setParameters, Fn.set, e1, e2, hf, hg, PyFn.set_length]
theorem PyFns.tree_set : ∀ (o : PyFns) (v : List ℝ) (st : PyStore), o.parts.Nodup →
    (∀ a ∈ o.parts, a < st.length) → o.tree (o.setParameters v st) = (o.tree st).set v
  | .nil, _, _, _, _ => rfl
  | .cons x f r, v, st, hn, hl => by
    simp only [PyFns.parts, List.nodup_append'] at hn
    have hlf : ∀ a ∈ f.parts, a < st.length := fun a ha => hl a (by simp [PyFns.parts, ha])
    have hlr : ∀ a ∈ r.parts, a < st.length := fun a ha => hl a (by simp [PyFns.parts, ha])
    have e2 := fun v st => PyFn.tree_sets_apart r f v st hn.2.2
    have e1 := fun v st => PyFns.tree_set_apart f r v st hn.2.2.symm
    simp only [PyFns.setParameters, PyFns.tree, Fns.set]
    split
    · rw [e2, PyFn.tree_set f _ st hn.1 hlf, PyFns.tree_set r _ _ hn.2.1
        (fun a ha => by rw [PyFn.set_length]; exact hlr a ha), e1]
    · rw [e2, PyFns.tree_set r v st hn.2.1 hlr]
end

/-- the plugin objects are the results of `setParameters` on those of before -/
inductive PyStore.Updated : PyStore → PyStore → Prop
  | refl (st) : PyStore.Updated st st
  | step (st st' : PyStore) (a : ℕ) (v : List ℝ) (h : PyStore.Updated st st') :
      PyStore.Updated st (st'.set a ⟨(st'.at a).cls, (st'.at a).cls.set (st'.at a).state v⟩)

theorem PyStore.Updated.trans {st st' st'' : PyStore} (h : st.Updated st') (h' : st'.Updated st'') :
    st.Updated st'' := by
  induction h' with
  | refl => exact h
  | step st1 a v _ ih => exact .step _ _ a v ih

mutual
theorem PyFn.set_updated : ∀ (o : PyFn) (v : List ℝ) (st : PyStore), st.Updated (o.setParameters v st)
  | .leaf a, v, st => .step st st a v (.refl st)
  | .compound p fs, v, st => by
    rw [PyFn.setParameters]; exact PyFns.set_updated fs v st
  | .product p f g x y, v, st => by
    have hf := fun v st => PyFn.set_updated f v st
    have hg := fun v st => PyFn.set_updated g v st
    cases x <;> cases y <;> simp only [PyFn.setParameters, Bool.not_true, Bool.not_false, if_true,
      Bool.false_eq_true, if_false]
    · exact (hf _ _).trans (hg _ _)
    · exact hf _ _
    · exact hg _ _
    · exact .refl st
theorem PyFns.set_updated : ∀ (o : PyFns) (v : List ℝ) (st : PyStore), st.Updated (o.setParameters v st)
  | .nil, _, st => .refl st
  | .cons x f r, v, st => by
    unfold PyFns.setParameters
    split
    · exact (PyFn.set_updated f _ st).trans (PyFns.set_updated r _ _)
    · exact PyFns.set_updated r v st
end

/-- the contract at one address -/
def PyStore.LawfulAt (st : PyStore) (a : ℕ) : Prop := (st.at a).cls.Lawful

theorem PyStore.step_at (st : PyStore) (a b : ℕ) (v : List ℝ) :
    PyStore.at (st.set a ⟨(st.at a).cls, (st.at a).cls.set (st.at a).state v⟩) b = st.at b ∨
    (a = b ∧ PyStore.at (st.set a ⟨(st.at a).cls, (st.at a).cls.set (st.at a).state v⟩) b =
      ⟨(st.at b).cls, (st.at b).cls.set (st.at b).state v⟩) := by
  rw [PyStore.at_set]
  by_cases h : a = b ∧ b < st.length
  · rw [if_pos h]
    obtain ⟨rfl, _⟩ := h
    exact Or.inr ⟨rfl, rfl⟩
  · rw [if_neg h]; exact Or.inl rfl

theorem PyStore.Updated.lawful {st st' : PyStore} (h : st.Updated st') (a : ℕ) (ha : st.LawfulAt a) :
    st'.LawfulAt a := by
  induction h with
  | refl => exact ha
  | step st1 b v _ ih =>
    unfold PyStore.LawfulAt
    rcases PyStore.step_at st1 b a v with h | ⟨_, h⟩
    · rw [h]; exact ih
    · rw [h]; exact ih

theorem PyStore.Updated.par {st st' : PyStore} (h : st.Updated st') (a : ℕ) (ha : st.LawfulAt a) :
    (st'.at a).cls.par (st'.at a).state = (st.at a).cls.par (st.at a).state ∧
    (st'.at a).cls.nb (st'.at a).state = (st.at a).cls.nb (st.at a).state := by
  induction h with
  | refl => exact ⟨rfl, rfl⟩
  | step st1 b v hu ih =>
    have hl := hu.lawful a ha
    rcases PyStore.step_at st1 b a v with h | ⟨_, h⟩
    · rw [h]; exact ih
    · rw [h]
      unfold PyStore.LawfulAt at hl
      exact ⟨(hl.par_set _ v).trans ih.1, (hl.nb_set _ v).trans ih.2⟩

theorem PyStore.Updated.length {st st' : PyStore} (h : st.Updated st') : st'.length = st.length := by
  induction h with
  | refl => rfl
  | step st1 b v _ ih => rw [List.length_set, ih]

mutual
/-- parametrization and number of parameters are not changed -/
theorem PyFn.tree_updated : ∀ (o : PyFn) (st st' : PyStore), st.Updated st' → (∀ a ∈ o.parts, st.LawfulAt a) →
    (o.tree st').par = (o.tree st).par ∧ (o.tree st').nb = (o.tree st).nb
  | .leaf a, st, st', h, hl => by
    have := h.par a (hl a (by simp [PyFn.parts]))
    exact ⟨this.1, this.2⟩
  | .compound p fs, st, st', h, hl => ⟨rfl, by
      simpa [PyFn.tree, Fn.nb] using PyFns.tree_updated fs st st' h hl⟩
  | .product p f g x y, st, st', h, hl => ⟨rfl, by
      have h1 := (PyFn.tree_updated f st st' h (fun a ha => hl a (by simp [PyFn.parts, ha]))).2
      have h2 := (PyFn.tree_updated g st st' h (fun a ha => hl a (by simp [PyFn.parts, ha]))).2
      simp only [PyFn.tree, Fn.nb, h1, h2]⟩
theorem PyFns.tree_updated : ∀ (o : PyFns) (st st' : PyStore), st.Updated st' → (∀ a ∈ o.parts, st.LawfulAt a) →
    (o.tree st').nb = (o.tree st).nb
  | .nil, _, _, _, _ => rfl
  | .cons x f r, st, st', h, hl => by
    have h1 := (PyFn.tree_updated f st st' h (fun a ha => hl a (by simp [PyFns.parts, ha]))).2
    have h2 := PyFns.tree_updated r st st' h (fun a ha => hl a (by simp [PyFns.parts, ha]))
    simp only [PyFns.tree, Fns.nb, h1, h2]
end

/-! ### New objects -/

mutual
theorem alloc_spec : ∀ (f : Fn) (st : PyStore), ∃ new : PyStore,
    (st.alloc f).1 = st ++ new ∧ (st.alloc f).2.parts = List.range' st.length new.length ∧
    (st.alloc f).2.tree (st ++ new) = f ∧ (f.WF → ∀ a ∈ (st.alloc f).2.parts, (st ++ new).LawfulAt a)
  | .leaf c s, st => by
    have e : PyStore.at (st ++ [⟨c, s⟩]) st.length = ⟨c, s⟩ := by simp [PyStore.at, List.getD]
    refine ⟨[⟨c, s⟩], rfl, by simp [PyStore.alloc, PyFn.parts], ?_, ?_⟩
    · show PluginObj.toFn (PyStore.at (st ++ [⟨c, s⟩]) st.length) = PluginObj.toFn ⟨c, s⟩
      rw [e]
    · intro h a ha
      simp only [PyStore.alloc, PyFn.parts, List.mem_singleton] at ha
      subst ha
      unfold PyStore.LawfulAt
      rw [e]; exact h
  | .compound p fs, st => by
    obtain ⟨new, h1, h2, h3, h4⟩ := allocs_spec fs st
    refine ⟨new, by simpa [PyStore.alloc] using h1, by simpa [PyStore.alloc, PyFn.parts] using h2, ?_, ?_⟩
    · simp only [PyStore.alloc, PyFn.tree, h3]
    · intro h a ha
      exact h4 p.dimY h a (by simpa [PyStore.alloc, PyFn.parts] using ha)
  | .product p f g x y, st => by
    obtain ⟨n1, h1, h2, h3, h4⟩ := alloc_spec f st
    obtain ⟨n2, k1, k2, k3, k4⟩ := alloc_spec g (st.alloc f).1
    rw [h1] at k1 k2 k3 k4
    have hlt : ∀ a ∈ (st.alloc f).2.parts, a < (st ++ n1).length := by
      intro a ha
      rw [h2, List.mem_range'_1] at ha
      simp; omega
    refine ⟨n1 ++ n2, ?_, ?_, ?_, ?_⟩
    · simp only [PyStore.alloc, h1, k1, List.append_assoc]
    · simp only [PyStore.alloc, PyFn.parts, h2, h1, k2]
      rw [List.length_append, List.length_append, ← List.range'_append (step := 1)]; simp
    · simp only [PyStore.alloc, PyFn.tree, h1, ← List.append_assoc]
      rw [k3, PyFn.tree_congr _ (st ++ n1 ++ n2) (st ++ n1) (fun a ha => PyStore.at_append _ _ _ (hlt a ha)), h3]
    · intro h a ha
      simp only [PyStore.alloc, PyFn.parts, h1, List.mem_append] at ha
      rw [← List.append_assoc]
      rcases ha with ha | ha
      · unfold PyStore.LawfulAt
        rw [PyStore.at_append _ _ _ (hlt a ha)]
        exact h4 h.1 a ha
      · exact k4 h.2.1 a ha
theorem allocs_spec : ∀ (f : Fns) (st : PyStore), ∃ new : PyStore,
    (st.allocs f).1 = st ++ new ∧ (st.allocs f).2.parts = List.range' st.length new.length ∧
    (st.allocs f).2.tree (st ++ new) = f ∧ (∀ d, f.WF d → ∀ a ∈ (st.allocs f).2.parts, (st ++ new).LawfulAt a)
  | .nil, st => ⟨[], by simp [PyStore.allocs], by simp [PyStore.allocs, PyFns.parts], rfl, by
      intro d _ a ha
      simp [PyStore.allocs, PyFns.parts] at ha⟩
  | .cons x f r, st => by
    obtain ⟨n1, h1, h2, h3, h4⟩ := alloc_spec f st
    obtain ⟨n2, k1, k2, k3, k4⟩ := allocs_spec r (st.alloc f).1
    rw [h1] at k1 k2 k3 k4
    have hlt : ∀ a ∈ (st.alloc f).2.parts, a < (st ++ n1).length := by
      intro a ha
      rw [h2, List.mem_range'_1] at ha
      simp; omega
    refine ⟨n1 ++ n2, ?_, ?_, ?_, ?_⟩
    · simp only [PyStore.allocs, h1, k1, List.append_assoc]
    · simp only [PyStore.allocs, PyFns.parts, h2, h1, k2]
      rw [List.length_append, List.length_append, ← List.range'_append (step := 1)]; simp
    · simp only [PyStore.allocs, PyFns.tree, h1, ← List.append_assoc]
      rw [k3, PyFn.tree_congr _ (st ++ n1 ++ n2) (st ++ n1) (fun a ha => PyStore.at_append _ _ _ (hlt a ha)), h3]
    · intro d h a ha
      simp only [PyStore.allocs, PyFns.parts, h1, List.mem_append] at ha
      rw [← List.append_assoc]
      rcases ha with ha | ha
      · unfold PyStore.LawfulAt
        rw [PyStore.at_append _ _ _ (hlt a ha)]
        exact h4 h.1.1 a ha
      · exact k4 d h.2 a ha
end

end
end Alta
