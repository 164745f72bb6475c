import Verif.Proofs.PythonFunction
import Verif.Props.FunctionFileFlow
import Verif.Props.GeomConvert
import Verif.Props.LobesLawful
/-
C75: function objects of the Python binding, for all scripts.
-/
namespace Alta
noncomputable section

/-! ### The state of a script -/

/-- the parts of a function exist and respect the contract -/
def PyFn.Sound (st : PyStore) (o : PyFn) : Prop := ∀ a ∈ o.parts, a < st.length ∧ st.LawfulAt a

/-- the parts of all objects exist and respect the contract -/
def PySession.Sound (s : PySession) : Prop := ∀ i o, s.obj i = some o → o.Sound s.store

/-- what a later session keeps of an earlier one -/
structure PySession.Kept (s s' : PySession) : Prop where
  objects : s.objects <+: s'.objects
  sound : ∀ o : PyFn, o.Sound s.store → o.Sound s'.store
  tree : ∀ o : PyFn, o.Sound s.store →
    (o.tree s'.store).par = (o.tree s.store).par ∧ (o.tree s'.store).nb = (o.tree s.store).nb

theorem PySession.Kept.refl (s : PySession) : s.Kept s :=
  ⟨List.prefix_refl _, fun _ h => h, fun _ _ => ⟨rfl, rfl⟩⟩

theorem PySession.Kept.trans {s s' s'' : PySession} (h : s.Kept s') (h' : s'.Kept s'') : s.Kept s'' :=
  ⟨h.objects.trans h'.objects, fun o ho => h'.sound o (h.sound o ho), fun o ho =>
    ⟨(h'.tree o (h.sound o ho)).1.trans (h.tree o ho).1, (h'.tree o (h.sound o ho)).2.trans (h.tree o ho).2⟩⟩

theorem PySession.obj_prefix (s s' : PySession) (h : s.objects <+: s'.objects) (i : ℕ)
    (hi : i < s.objects.length) : s'.obj i = s.obj i := by
  obtain ⟨t, ht⟩ := h
  unfold PySession.obj
  rw [← ht, List.getElem?_append_left hi]

theorem PySession.obj_lt (s : PySession) (i : ℕ) (o : PyFn) (h : s.obj i = some o) : i < s.objects.length := by
  by_contra hn
  unfold PySession.obj at h
  rw [List.getElem?_eq_none (by omega)] at h
  simp at h

theorem PySession.obj_new (objs : List PyObject) (st : PyStore) (o : PyObject) :
    PySession.obj ⟨objs ++ [o], st⟩ objs.length = o := by
  simp [PySession.obj]

theorem PySession.obj_push (objs : List PyObject) (st st' : PyStore) (o : PyObject) (i : ℕ) :
    PySession.obj ⟨objs ++ [o], st'⟩ i =
      if i < objs.length then PySession.obj ⟨objs, st⟩ i else if i = objs.length then o else none := by
  unfold PySession.obj
  by_cases h : i < objs.length
  · rw [if_pos h, List.getElem?_append_left h]
  · rw [if_neg h]
    by_cases h2 : i = objs.length
    · simp [h2]
    · rw [if_neg h2, List.getElem?_eq_none (by simp; omega)]; rfl

theorem PySession.push_kept (s : PySession) (o : PyObject) : s.Kept ⟨s.objects ++ [o], s.store⟩ :=
  ⟨List.prefix_append _ _, fun _ h => h, fun _ _ => ⟨rfl, rfl⟩⟩

theorem PyFn.Sound.append {st : PyStore} {o : PyFn} (h : o.Sound st) (new : PyStore) :
    o.Sound (st ++ new) ∧ o.tree (st ++ new) = o.tree st := by
  refine ⟨fun a ha => ⟨by have := (h a ha).1; simp; omega, ?_⟩, ?_⟩
  · unfold PyStore.LawfulAt
    rw [PyStore.at_append _ _ _ (h a ha).1]
    exact (h a ha).2
  · exact o.tree_congr _ _ fun a ha => PyStore.at_append _ _ _ (h a ha).1

theorem PyFn.Sound.updated {st st' : PyStore} {o : PyFn} (h : o.Sound st) (hu : st.Updated st') : o.Sound st' :=
  fun a ha => ⟨by rw [hu.length]; exact (h a ha).1, hu.lawful a (h a ha).2⟩

theorem setFunctionParams_updated (st : PyStore) (f : PyObject) (v : List ℝ) :
    st.Updated (setFunctionParams st f v) := by
  unfold setFunctionParams
  split
  · split
    · exact PyFn.set_updated _ _ _
    · exact .refl _
  · exact .refl _

theorem PySession.sound_push (s : PySession) (hs : s.Sound) (o : PyObject) (ho : ∀ f, o = some f → f.Sound s.store) :
    PySession.Sound ⟨s.objects ++ [o], s.store⟩ := by
  intro i q h
  rw [PySession.obj_push s.objects s.store s.store] at h
  split at h
  · exact hs i q h
  · split at h
    · exact ho q h
    · cases h

/-- one call keeps the objects made before, and their parametrization and number of parameters -/
theorem PySession.step_kept (s s' : PySession) (c : PyCmd) (hs : s.Sound) (hc : c.Lawful)
    (h : s.step c = some s') : s'.Sound ∧ s.Kept s' := by
  cases c with
  | make f =>
    obtain ⟨new, h1, h2, h3, h4⟩ := alloc_spec f s.store
    simp only [PySession.step, Option.some.injEq] at h
    subst h
    rw [h1]
    refine ⟨?_, List.prefix_append _ _, fun o ho => (ho.append new).1, fun o ho => ?_⟩
    · intro i q hq
      rw [PySession.obj_push s.objects s.store] at hq
      split at hq
      · exact (PyFn.Sound.append (hs i q hq) new).1
      · split at hq
        · cases hq
          intro a ha
          refine ⟨?_, h4 hc a ha⟩
          rw [h2, List.mem_range'_1] at ha
          simp; omega
        · cases hq
    · rw [(ho.append new).2]; exact ⟨rfl, rfl⟩
  | other =>
    simp only [PySession.step, Option.some.injEq] at h
    subst h
    exact ⟨s.sound_push hs none (fun _ h => by cases h), s.push_kept none⟩
  | add i j =>
    simp only [PySession.step, Option.map_eq_some_iff] at h
    obtain ⟨o, h1, rfl⟩ := h
    refine ⟨s.sound_push hs o ?_, s.push_kept o⟩
    intro q hq
    subst hq
    unfold addFunction at h1
    split at h1
    · next f g hf hg =>
      simp only [Option.map_eq_some_iff, Option.some.injEq] at h1
      obtain ⟨p, _, h1⟩ := h1
      subst h1
      intro a ha
      simp only [PyFn.parts, PyFns.parts, List.mem_append, List.not_mem_nil, or_false] at ha
      exact ha.elim (hs i f hf a) (hs j g hg a)
    · cases h1
  | mul i j =>
    simp only [PySession.step, Option.some.injEq] at h
    subst h
    refine ⟨s.sound_push hs _ ?_, s.push_kept _⟩
    intro q hq
    unfold multFunction at hq
    split at hq
    · next f g hf hg =>
      simp only [Option.some.injEq] at hq
      subst hq
      intro a ha
      simp only [PyFn.parts, List.mem_append] at ha
      exact ha.elim (hs i f hf a) (hs j g hg a)
    · cases hq
  | set i v =>
    simp only [PySession.step, Option.some.injEq] at h
    subst h
    have hu := setFunctionParams_updated s.store (s.obj i) v
    refine ⟨?_, List.prefix_refl _, fun o ho => ho.updated hu, fun o ho =>
      o.tree_updated _ _ hu (fun a ha => (ho a ha).2)⟩
    intro k q hq
    exact PyFn.Sound.updated (hs k q hq) hu

theorem PySession.run_kept (cs : List PyCmd) : ∀ (s s' : PySession), s.Sound → (∀ c ∈ cs, c.Lawful) →
    s.run cs = some s' → s'.Sound ∧ s.Kept s' := by
  induction cs with
  | nil =>
    intro s s' hs _ h
    simp only [PySession.run, List.foldlM_nil, Option.pure_def, Option.some.injEq] at h
    subst h
    exact ⟨hs, .refl s⟩
  | cons c cs ih =>
    intro s s' hs hc h
    simp only [PySession.run, List.foldlM_cons, Option.bind_eq_bind, Option.bind_eq_some_iff] at h
    obtain ⟨s1, h1, h2⟩ := h
    obtain ⟨k1, k2⟩ := s.step_kept s1 c hs (hc c (by simp)) h1
    obtain ⟨k3, k4⟩ := ih s1 s' k1 (fun c hc' => hc c (by simp [hc'])) h2
    exact ⟨k3, k2.trans k4⟩

theorem PySession.empty_sound : PySession.empty.Sound := by
  intro i o h
  simp [PySession.obj, PySession.empty] at h

theorem Script.sound {cs : List PyCmd} {s : PySession} (h : Script cs s) : s.Sound :=
  (PySession.run_kept cs _ s PySession.empty_sound h.1 h.2).1

theorem Later.kept {s s' : PySession} (h : Later s s') (hs : s.Sound) : s'.Sound ∧ s.Kept s' := by
  obtain ⟨more, h1, h2⟩ := h
  exact PySession.run_kept more s s' hs h1 h2

theorem PySession.fn_some (s : PySession) (i : ℕ) (f : Fn) (h : s.fn i = some f) :
    ∃ o, s.obj i = some o ∧ o.tree s.store = f := by
  unfold PySession.fn at h
  simpa [Option.map_eq_some_iff] using h

mutual
theorem PyFn.nb_le : ∀ (o : PyFn) (st : PyStore), (∀ a ∈ o.parts, st.LawfulAt a) →
    (o.tree st).nb ≤ (o.tree st).get.length
  | .leaf a, st, h => by
    have hl : (st.at a).cls.Lawful := h a (by simp [PyFn.parts])
    exact hl.nb_le _
  | .compound p fs, st, h => by
    simpa [PyFn.tree, Fn.get, Fn.nb] using (PyFns.nb_eq_get fs st h).ge
  | .product p f g x y, st, h => by
    have h1 := PyFn.nb_le f st (fun a ha => h a (by simp [PyFn.parts, ha]))
    have h2 := PyFn.nb_le g st (fun a ha => h a (by simp [PyFn.parts, ha]))
    cases x <;> cases y <;> simp [PyFn.tree, Fn.get, Fn.nb, h1, h2]
theorem PyFns.nb_eq_get : ∀ (o : PyFns) (st : PyStore), (∀ a ∈ o.parts, st.LawfulAt a) →
    (o.tree st).get.length = (o.tree st).nb
  | .nil, _, _ => rfl
  | .cons x f r, st, h => by
    have h1 := PyFn.nb_le f st (fun a ha => h a (by simp [PyFns.parts, ha]))
    have h2 := PyFns.nb_eq_get r st (fun a ha => h a (by simp [PyFns.parts, ha]))
    rcases Nat.eq_zero_or_pos (f.tree st).nb with h0 | h0
    · simp [PyFns.tree, Fns.get, Fns.nb, h0, h2]
    · cases x <;> simp [PyFns.tree, Fns.get, Fns.nb, h0, h1, h2]
end

/-! ### Sums and products -/

theorem two_sum (p : Par) (f g : Fn) (hf : f.nb ≤ f.get.length) (hg : g.nb ≤ g.get.length)
    (hp : p.dimY = f.par.dimY) :
    (Fn.compound p (.cons false f (.cons false g .nil))).IsSum f g := by
  have hnb : (Fn.compound p (.cons false f (.cons false g .nil))).nb = f.nb + g.nb := by
    simp [Fn.nb, Fns.nb]
  have hget : (Fn.compound p (.cons false f (.cons false g .nil))).get = f.params ++ g.params := by
    rcases Nat.eq_zero_or_pos f.nb with h0 | h0 <;> rcases Nat.eq_zero_or_pos g.nb with h1 | h1 <;>
      simp [Fn.get, Fns.get, Fn.params, h0, h1]
  refine ⟨hnb, ?_, hp, ?_⟩
  · rw [Fn.params, hget, hnb, List.take_of_length_le]
    simp [Fn.params]; omega
  · intro x xf xg u w h1 h2 h3 h4 h5 h6
    have h1' : convertInput (arr x) p.input f.par.input = some xf := h1
    have h3' : convertInput (arr x) p.input g.par.input = some xg := h3
    refine ⟨List.zipWith (· + ·) (List.zipWith (· + ·) (List.replicate p.dimY 0) u) w, ?_, ?_, ?_⟩
    · simp [Fn.value, Fns.valueLoop, h1', h2, h3', h4, vecAdd, h5, h6, hp]
    · simp [h5, h6, hp]
    · intro y
      rw [arr_zipWith_add _ _ (by simp [h5, h6, hp]), arr_zipWith_add _ _ (by simp [h5, hp])]
      have : arr (List.replicate p.dimY (0 : ℝ)) y = 0 := by
        unfold arr
        rcases Nat.lt_or_ge y p.dimY with hy | hy <;> simp [List.getD, hy]
      rw [this, zero_add]

theorem two_product (p : Par) (f g : Fn) (hf : f.nb ≤ f.get.length) (hg : g.nb ≤ g.get.length)
    (hp : p.dimY = f.par.dimY) : (Fn.product p f g false false).IsProduct f g := by
  have hnb : (Fn.product p f g false false).nb = f.nb + g.nb := by simp [Fn.nb]
  have hget : (Fn.product p f g false false).get = f.params ++ g.params := by simp [Fn.get, Fn.params]
  refine ⟨hnb, ?_, hp, ?_⟩
  · rw [Fn.params, hget, hnb, List.take_of_length_le]
    simp [Fn.params]; omega
  · intro x xf xg u w h1 h2 h3 h4 h5 h6
    have h1' : convertInput (arr x) p.input f.par.input = some xf := h1
    have h3' : convertInput (arr x) p.input g.par.input = some xg := h3
    have e : (Fn.product p f g false false).value x = vecProduct u w := by
      simp [Fn.value, h1', h2, h3', h4]
    rw [e]
    unfold vecProduct
    rw [h5, h6]
    split
    · next h =>
      refine ⟨_, rfl, by simp [h6, h], fun y hy => ?_⟩
      have : y = 0 := by omega
      subst this
      simp only [arr, List.getD, List.getElem?_map]
      cases w[0]? <;> simp [mul_comm]
    · rw [if_pos rfl]
      exact ⟨_, rfl, by simp [h5, h6], fun y _ => arr_zipWith_mul _ _ (h5.trans h6.symm) y⟩

theorem compoundPar_two (a b p : Par) (h : compoundPar [a, b] = some p) :
    p.dimY = a.dimY ∧ (a.input = b.input → p.input = a.input) ∧
    (a.input ≠ b.input → a.input ≠ .UNKNOWN_INPUT → p.input = .CARTESIAN) := by
  obtain ⟨ax, ay, ai, ao⟩ := a
  obtain ⟨bx, bY, bi, bo⟩ := b
  by_cases h1 : ai = .UNKNOWN_INPUT <;> by_cases h2 : ai = bi <;> by_cases h3 : ao = .UNKNOWN_OUTPUT <;>
    by_cases h4 : ao = bo <;> simp_all [compoundPar, compoundParLoop]
  all_goals (subst h; simp_all)

/-- C75 (sum).  At any time after `k = f + g` in a script, whatever was set in between, `k` is the sum
    of what `f` and `g` are now: its parameters are those of `f` followed by those of `g`, and its
    values are the sums of their values at the point expressed in their parametrization. -/
theorem python_sum (cs : List PyCmd) (s s' s'' : PySession) (i j : ℕ) (f g : Fn) (h : Script cs s)
    (hi : (s.fn i).isSome) (hj : (s.fn j).isSome) (h1 : s.step (.add i j) = some s')
    (h2 : Later s' s'') (hf : s''.fn i = some f) (hg : s''.fn j = some g) :
    ∃ F, s''.fn s.objects.length = some F ∧ F.IsSum f g ∧
      (f.par.input = g.par.input → F.par.input = f.par.input) ∧
      (f.par.input ≠ g.par.input → f.par.input ≠ .UNKNOWN_INPUT → F.par.input = .CARTESIAN) := by
  obtain ⟨f0, hf0⟩ := Option.isSome_iff_exists.1 hi
  obtain ⟨g0, hg0⟩ := Option.isSome_iff_exists.1 hj
  obtain ⟨nf, e1, _⟩ := s.fn_some i f0 hf0
  obtain ⟨ng, e2, _⟩ := s.fn_some j g0 hg0
  have hs := h.sound
  obtain ⟨hs', _⟩ := s.step_kept s' (.add i j) hs trivial h1
  simp only [PySession.step, e1, e2, addFunction, Option.map_map, Option.map_eq_some_iff,
    Function.comp_apply] at h1
  obtain ⟨p, hp, rfl⟩ := h1
  obtain ⟨hs'', hk⟩ := h2.kept hs'
  have nfs := hs i nf e1
  have ngs := hs j ng e2
  have t1 : f = nf.tree s''.store := by
    have : s''.obj i = some nf := by
      rw [PySession.obj_prefix _ _ hk.objects i (by have := s.obj_lt i nf e1; simp; omega),
        PySession.obj_push s.objects s.store, if_pos (s.obj_lt i nf e1)]
      exact e1
    unfold PySession.fn at hf
    rw [this] at hf
    simpa using hf.symm
  have t2 : g = ng.tree s''.store := by
    have : s''.obj j = some ng := by
      rw [PySession.obj_prefix _ _ hk.objects j (by have := s.obj_lt j ng e2; simp; omega),
        PySession.obj_push s.objects s.store, if_pos (s.obj_lt j ng e2)]
      exact e2
    unfold PySession.fn at hg
    rw [this] at hg
    simpa using hg.symm
  have t3 : s''.obj s.objects.length = some (.compound p (.cons false nf (.cons false ng .nil))) := by
    rw [PySession.obj_prefix _ _ hk.objects _ (by simp), PySession.obj_new]
  have p1 : f.par = (nf.tree s.store).par := by rw [t1]; exact (hk.tree nf nfs).1
  have p2 : g.par = (ng.tree s.store).par := by rw [t2]; exact (hk.tree ng ngs).1
  rw [← p1, ← p2] at hp
  obtain ⟨q1, q2, q3⟩ := compoundPar_two _ _ p hp
  refine ⟨.compound p (.cons false f (.cons false g .nil)), ?_, ?_, q2, q3⟩
  · unfold PySession.fn
    rw [t3, t1, t2]
    rfl
  · apply two_sum p f g _ _ q1
    · rw [t1]; exact nf.nb_le _ (fun a ha => (hk.sound nf nfs a ha).2)
    · rw [t2]; exact ng.nb_le _ (fun a ha => (hk.sound ng ngs a ha).2)

/-- C75 (product).  The same for `k = f * g`. -/
theorem python_product (cs : List PyCmd) (s s' s'' : PySession) (i j : ℕ) (f g : Fn) (h : Script cs s)
    (hi : (s.fn i).isSome) (hj : (s.fn j).isSome) (h1 : s.step (.mul i j) = some s')
    (h2 : Later s' s'') (hf : s''.fn i = some f) (hg : s''.fn j = some g) :
    ∃ F, s''.fn s.objects.length = some F ∧ F.IsProduct f g ∧
      (f.par.input = g.par.input → F.par.input = f.par.input) ∧
      (f.par.input ≠ g.par.input → F.par.input = .CARTESIAN) := by
  obtain ⟨f0, hf0⟩ := Option.isSome_iff_exists.1 hi
  obtain ⟨g0, hg0⟩ := Option.isSome_iff_exists.1 hj
  obtain ⟨nf, e1, _⟩ := s.fn_some i f0 hf0
  obtain ⟨ng, e2, _⟩ := s.fn_some j g0 hg0
  have hs := h.sound
  obtain ⟨hs', _⟩ := s.step_kept s' (.mul i j) hs trivial h1
  simp only [PySession.step, e1, e2, multFunction, Option.some.injEq] at h1
  subst h1
  obtain ⟨hs'', hk⟩ := h2.kept hs'
  have nfs := hs i nf e1
  have ngs := hs j ng e2
  have t1 : f = nf.tree s''.store := by
    have : s''.obj i = some nf := by
      rw [PySession.obj_prefix _ _ hk.objects i (by have := s.obj_lt i nf e1; simp; omega),
        PySession.obj_push s.objects s.store, if_pos (s.obj_lt i nf e1)]
      exact e1
    unfold PySession.fn at hf
    rw [this] at hf
    simpa using hf.symm
  have t2 : g = ng.tree s''.store := by
    have : s''.obj j = some ng := by
      rw [PySession.obj_prefix _ _ hk.objects j (by have := s.obj_lt j ng e2; simp; omega),
        PySession.obj_push s.objects s.store, if_pos (s.obj_lt j ng e2)]
      exact e2
    unfold PySession.fn at hg
    rw [this] at hg
    simpa using hg.symm
  have t3 : s''.obj s.objects.length = some (.product (productPar (nf.tree s.store).par (ng.tree s.store).par)
      nf ng false false) := by
    rw [PySession.obj_prefix _ _ hk.objects _ (by simp), PySession.obj_new]
  have p1 : f.par = (nf.tree s.store).par := by rw [t1]; exact (hk.tree nf nfs).1
  have p2 : g.par = (ng.tree s.store).par := by rw [t2]; exact (hk.tree ng ngs).1
  rw [← p1, ← p2] at t3
  obtain ⟨q1, _, q2, q3⟩ := product_parametrization f.par g.par
  refine ⟨.product (productPar f.par g.par) f g false false, ?_, ?_, fun h => congrArg Par.input (q2 h),
    fun h => (q3 h).1⟩
  · unfold PySession.fn
    rw [t3, Option.map_some, PyFn.tree, ← t1, ← t2]
  · apply two_product _ f g _ _ q1
    · rw [t1]; exact nf.nb_le _ (fun a ha => (hk.sound nf nfs a ha).2)
    · rw [t2]; exact ng.nb_le _ (fun a ha => (hk.sound ng ngs a ha).2)

/-- C75 (sum of functions of the same parametrization).  The value is the sum of the values at the
    same point. -/
theorem python_sum_same (F f g : Fn) (x u w : List ℝ) (h : F.IsSum f g) (hn : f.par.input.Named)
    (hF : F.par.input = f.par.input) (hfg : f.par.input = g.par.input)
    (hx : (x.length : ℤ) = inputDim f.par.input) (hu : f.value x = some u) (hw : g.value x = some w)
    (hul : u.length = f.par.dimY) (hwl : w.length = f.par.dimY) :
    ∃ v, F.value x = some v ∧ v.length = f.par.dimY ∧ ∀ y, arr v y = arr u y + arr w y := by
  have e : convertInput (arr x) f.par.input f.par.input = some x := by
    obtain ⟨o, h1, h2, h3⟩ := convertInput_self (arr x) f.par.input hn
    rw [h1]
    congr 1
    apply List.ext_getElem (by omega)
    intro n hn1 hn2
    rw [h3 n hn1, arr]
    simp [hn2]
  refine h.value x x x u w ?_ hu ?_ hw hul hwl
  · rw [hF]; exact e
  · rw [hF, ← hfg]; exact e

/-! ### `set` and `get` -/

/-- C75 (what a call leaves as it is).  Making objects changes no function made before; `set` on one
    object changes no function that shares no plugin object with it. -/
theorem python_frame (cs : List PyCmd) (s s' : PySession) (c : PyCmd) (j : ℕ) (h : Script cs s)
    (hc : c.Lawful) (h1 : s.step c = some s') (hj : j < s.objects.length)
    (hs : ∀ i v, c = .set i v → s.Apart j i) : s'.fn j = s.fn j := by
  have hk := (s.step_kept s' c h.sound hc h1).2
  have e := PySession.obj_prefix _ _ hk.objects j hj
  unfold PySession.fn
  rw [e]
  cases ho : s.obj j with
  | none => rfl
  | some o =>
    have so := h.sound j o ho
    simp only [Option.map_some, Option.some.injEq]
    cases c with
    | make f =>
      simp only [PySession.step, Option.some.injEq] at h1
      obtain ⟨new, k1, -⟩ := alloc_spec f s.store
      rw [← h1, k1]
      exact (so.append new).2
    | other =>
      simp only [PySession.step, Option.some.injEq] at h1
      rw [← h1]
    | add i k =>
      simp only [PySession.step, Option.map_eq_some_iff] at h1
      obtain ⟨_, _, h1⟩ := h1
      rw [← h1]
    | mul i k =>
      simp only [PySession.step, Option.some.injEq] at h1
      rw [← h1]
    | set i v =>
      simp only [PySession.step, Option.some.injEq] at h1
      have ha := hs i v rfl
      rw [← h1]
      unfold setFunctionParams
      split
      · next q hq =>
        split
        · apply PyFn.tree_set_apart
          simpa [PySession.Apart, PySession.parts, ho, hq] using ha
        · rfl
      · rfl

/-- C75 (set).  `set` with a vector of the size of the parameter vector gives these parameters to the
    function, when no plugin object is used twice in it. -/
theorem python_set_get (cs : List PyCmd) (s : PySession) (i : ℕ) (f : Fn) (v : List ℝ) (h : Script cs s)
    (hf : s.fn i = some f) (hw : f.WF) (hn : s.NoSharing i) (hv : v.length = f.nb) :
    ∃ s', s.step (.set i v) = some s' ∧ s'.fn i = some (f.set v) ∧ (f.set v).params = v ∧
      (s'.get i).take f.nb = v := by
  obtain ⟨o, e1, e2⟩ := s.fn_some i f hf
  have so := h.sound i o e1
  have hnd : o.parts.Nodup := by
    unfold PySession.NoSharing PySession.parts at hn
    rwa [e1] at hn
  have et := o.tree_set v s.store hnd (fun a ha => (so a ha).1)
  rw [e2] at et
  have ep := f.params_set hw v hv
  have hst : s.step (.set i v) = some ⟨s.objects, o.setParameters v s.store⟩ := by
    simp only [PySession.step, e1, setFunctionParams, e2, if_pos hv.symm]
  refine ⟨⟨s.objects, o.setParameters v s.store⟩, hst, ?_, ep, ?_⟩
  · have e1' : PySession.obj ⟨s.objects, o.setParameters v s.store⟩ i = some o := e1
    unfold PySession.fn
    rw [e1', Option.map_some, et]
  · have e1' : PySession.obj ⟨s.objects, o.setParameters v s.store⟩ i = some o := e1
    unfold PySession.get getFunctionParams
    rw [e1']
    simp only [et]
    rw [Fn.params, f.set_nb hw] at ep
    exact ep

/-- C75 (set, wrong size or wrong object).  Nothing changes. -/
theorem python_set_refused (s : PySession) (i : ℕ) (v : List ℝ)
    (h : s.fn i = none ∨ ∃ f, s.fn i = some f ∧ v.length ≠ f.nb) : s.step (.set i v) = some s := by
  have : setFunctionParams s.store (s.obj i) v = s.store := by
    unfold setFunctionParams
    rcases h with h | ⟨f, hf, hn⟩
    · unfold PySession.fn at h
      simp only [Option.map_eq_none_iff] at h
      rw [h]
    · obtain ⟨o, e1, e2⟩ := s.fn_some i f hf
      rw [e1]
      simp only [e2]
      rw [if_neg (fun h => hn h.symm)]
  simp only [PySession.step, this]

/-- C75 (a new function).  A function given by a plugin shares nothing with the objects of before. -/
theorem python_make (cs : List PyCmd) (s : PySession) (f : Fn) (h : Script cs s) :
    ∃ s', s.step (.make f) = some s' ∧ s'.fn s.objects.length = some f ∧ s'.NoSharing s.objects.length ∧
      ∀ j < s.objects.length, s'.Apart j s.objects.length ∧ s'.fn j = s.fn j ∧ s'.parts j = s.parts j := by
  obtain ⟨new, h1, h2, h3, _⟩ := alloc_spec f s.store
  refine ⟨⟨s.objects ++ [some (s.store.alloc f).2], (s.store.alloc f).1⟩, rfl, ?_, ?_, ?_⟩
  · unfold PySession.fn
    rw [PySession.obj_new, Option.map_some, h1, h3]
  · unfold PySession.NoSharing PySession.parts
    rw [PySession.obj_new]
    simp only [h2]
    exact List.nodup_range'
  · intro j hj
    have e : PySession.obj ⟨s.objects ++ [some (s.store.alloc f).2], (s.store.alloc f).1⟩ j = s.obj j := by
      rw [PySession.obj_push s.objects s.store, if_pos hj]
    refine ⟨?_, ?_, ?_⟩
    · unfold PySession.Apart PySession.parts
      rw [e, PySession.obj_new]
      simp only [h2]
      cases ho : s.obj j with
      | none => simp
      | some o =>
        intro a ha hb
        have := (h.sound j o ho a ha).1
        rw [List.mem_range'_1] at hb
        omega
    · unfold PySession.fn
      rw [e]
      cases ho : s.obj j with
      | none => rfl
      | some o =>
        simp only [Option.map_some, Option.some.injEq]
        rw [h1]
        exact (PyFn.Sound.append (h.sound j o ho) new).2
    · unfold PySession.parts
      rw [e]

/-- C75 (parts).  A sum or a product is made of the plugin objects of its operands. -/
theorem python_parts (s s' : PySession) (i j : ℕ) (c : PyCmd) (hc : c = .add i j ∨ c = .mul i j)
    (hi : (s.fn i).isSome) (hj : (s.fn j).isSome) (h1 : s.step c = some s') :
    s'.parts s.objects.length = s.parts i ++ s.parts j ∧ ∀ k < s.objects.length, s'.parts k = s.parts k := by
  obtain ⟨f0, hf0⟩ := Option.isSome_iff_exists.1 hi
  obtain ⟨g0, hg0⟩ := Option.isSome_iff_exists.1 hj
  obtain ⟨nf, e1, _⟩ := s.fn_some i f0 hf0
  obtain ⟨ng, e2, _⟩ := s.fn_some j g0 hg0
  have key : ∃ o : PyFn, s' = ⟨s.objects ++ [some o], s.store⟩ ∧ o.parts = nf.parts ++ ng.parts := by
    rcases hc with rfl | rfl
    · simp only [PySession.step, e1, e2, addFunction, Option.map_map, Option.map_eq_some_iff,
        Function.comp_apply] at h1
      obtain ⟨p, _, h1⟩ := h1
      exact ⟨_, h1.symm, by simp [PyFn.parts, PyFns.parts]⟩
    · simp only [PySession.step, e1, e2, multFunction, Option.some.injEq] at h1
      exact ⟨_, h1.symm, by simp [PyFn.parts]⟩
  obtain ⟨o, rfl, ho⟩ := key
  constructor
  · unfold PySession.parts
    rw [PySession.obj_new, e1, e2]
    exact ho
  · intro k hk
    unfold PySession.parts
    rw [PySession.obj_push s.objects s.store, if_pos hk]

/-- C75 (a sum follows its terms).  After `k = f + g` and `f.set(v)`, `k` is the sum of the function
    `f` with the parameters `v` and of the function `g` as it was. -/
theorem python_sum_follows (cs : List PyCmd) (s s' : PySession) (i j : ℕ) (f g : Fn) (v : List ℝ)
    (h : Script cs s) (hf : s.fn i = some f) (hg : s.fn j = some g) (hw : f.WF) (hn : s.NoSharing i)
    (ha : s.Apart j i) (hv : v.length = f.nb) (h1 : s.step (.add i j) = some s') :
    ∃ s'' F, s'.step (.set i v) = some s'' ∧ s''.fn i = some (f.set v) ∧ s''.fn j = some g ∧
      s''.fn s.objects.length = some F ∧ F.IsSum (f.set v) g := by
  obtain ⟨o, e1, _⟩ := s.fn_some i f hf
  obtain ⟨q, e2, _⟩ := s.fn_some j g hg
  have li := s.obj_lt i o e1
  have lj := s.obj_lt j q e2
  have h' : Script (cs ++ [.add i j]) s' := by
    refine ⟨?_, ?_⟩
    · intro c hc
      rcases List.mem_append.1 hc with hc | hc
      · exact h.1 c hc
      · simp only [List.mem_singleton] at hc
        subst hc; trivial
    · unfold PySession.run
      rw [List.foldlM_append]
      have := h.2
      unfold PySession.run at this
      rw [this]
      simp [h1]
  have f1 : s'.fn i = some f := by
    rw [python_frame cs s s' (.add i j) i h trivial h1 li (by simp), hf]
  have f2 : s'.fn j = some g := by
    rw [python_frame cs s s' (.add i j) j h trivial h1 lj (by simp), hg]
  have hp := (python_parts s s' i j (.add i j) (Or.inl rfl) (by simp [hf]) (by simp [hg]) h1).2
  have hn' : s'.NoSharing i := by
    unfold PySession.NoSharing
    rw [hp i li]; exact hn
  obtain ⟨s'', k1, k2, -⟩ := python_set_get _ s' i f v h' f1 hw hn' hv
  have len : s'.objects.length = s.objects.length + 1 := by
    simp only [PySession.step, Option.map_eq_some_iff] at h1
    obtain ⟨_, _, h1⟩ := h1
    rw [← h1]; simp
  have k3 : s''.fn j = some g := by
    rw [python_frame _ s' s'' (.set i v) j h' trivial k1 (by omega) ?_, f2]
    intro i' v' he
    cases he
    unfold PySession.Apart
    rw [hp i li, hp j lj]; exact ha
  obtain ⟨F, m1, m2, -⟩ := python_sum cs s s' s'' i j (f.set v) g h (by simp [hf]) (by simp [hg]) h1
    ⟨[.set i v], by simp [PyCmd.Lawful], by simp [PySession.run, k1]⟩ k2 k3
  exact ⟨s'', F, k1, k2, k3, m1, m2⟩

/-- C75 (when a sum ends the program).  Functions whose values are known to be of different kinds
    cannot be added; an object that is not a nonlinear function gives `None`. -/
theorem python_add_outcome (s : PySession) (i j : ℕ) :
    (∀ f g, s.fn i = some f → s.fn j = some g → f.par.input ≠ .UNKNOWN_INPUT → g.par.input ≠ .UNKNOWN_INPUT →
      f.par.output ≠ .UNKNOWN_OUTPUT → g.par.output ≠ .UNKNOWN_OUTPUT →
      ((s.step (.add i j)).isSome ↔ f.par.output = g.par.output)) ∧
    (s.fn i = none ∨ s.fn j = none →
      s.step (.add i j) = some ⟨s.objects ++ [none], s.store⟩ ∧
      s.step (.mul i j) = some ⟨s.objects ++ [none], s.store⟩) := by
  constructor
  · intro f g hf hg i1 i2 o1 o2
    obtain ⟨nf, e1, t1⟩ := s.fn_some i f hf
    obtain ⟨ng, e2, t2⟩ := s.fn_some j g hg
    obtain ⟨c1, c2, c3⟩ := compound_parametrization f.par [g.par] (by simp [i1, i2]) (by simp [o1, o2])
    simp only [List.mem_singleton, forall_eq] at c1 c2 c3
    have e : (s.step (.add i j)).isSome = (compoundPar [f.par, g.par]).isSome := by
      simp [PySession.step, e1, e2, addFunction, t1, t2]
    rw [e]
    by_cases ho : f.par.output = g.par.output
    · by_cases hin : g.par.input = f.par.input
      · rw [c1 ho.symm hin]; simp [ho]
      · rw [c2 ho.symm hin]; simp [ho]
    · rw [c3 (fun h => ho h.symm)]; simp [ho]
  · intro h
    have : s.obj i = none ∨ s.obj j = none := by
      rcases h with h | h
      · left; simpa [PySession.fn] using h
      · right; simpa [PySession.fn] using h
    rcases this with h | h
    · simp [PySession.step, addFunction, multFunction, h]
    · cases hi : s.obj i <;> simp [PySession.step, addFunction, multFunction, h, hi]

/-- C75 (sharing).  In `k = f + f` both terms are one object: after `k.set(v ++ w)` it has the
    parameters `w`, and `k.get()` is `w ++ w`. -/
theorem python_shared_sum (cs : List PyCmd) (s s' : PySession) (i : ℕ) (f : Fn) (v w : List ℝ) (h : Script cs s)
    (hf : s.fn i = some f) (hW : f.WF) (hn : s.NoSharing i) (h0 : 0 < f.nb)
    (h1 : s.step (.add i i) = some s') (hv : v.length = f.nb) (hw : w.length = f.nb) :
    ∃ s'', s'.step (.set s.objects.length (v ++ w)) = some s'' ∧
      s''.fn i = some (f.set w) ∧ s''.get s.objects.length = w ++ w := by
  obtain ⟨o, e1, e2⟩ := s.fn_some i f hf
  have so := h.sound i o e1
  have hnd : o.parts.Nodup := by
    unfold PySession.NoSharing PySession.parts at hn
    rwa [e1] at hn
  simp only [PySession.step, e1, addFunction, Option.map_map, Option.map_eq_some_iff,
    Function.comp_apply] at h1
  obtain ⟨p, _, rfl⟩ := h1
  have et := fun u => o.tree_set u s.store hnd (fun a ha => (so a ha).1)
  rw [e2] at et
  have et2 := fun u z => o.tree_set z (o.setParameters u s.store) hnd
    (fun a ha => by rw [o.set_length]; exact (so a ha).1)
  simp only [et] at et2
  have hset : PyFn.setParameters (.compound p (.cons false o (.cons false o .nil))) (v ++ w) s.store =
      o.setParameters w (o.setParameters v s.store) := by
    have n1 : ((o.tree s.store).nb > 0 && !false) = true := by simp [e2, h0]
    have n2 : ((o.tree (o.setParameters v s.store)).nb > 0 && !false) = true := by
      simp [et, f.set_nb hW, h0]
    have d1 : (v ++ w).take (o.tree s.store).nb = v := by rw [e2, ← hv]; simp
    have d2 : (v ++ w).drop (o.tree s.store).nb = w := by rw [e2, ← hv]; simp
    have d3 : w.take (o.tree (o.setParameters v s.store)).nb = w := by
      rw [et, f.set_nb hW, ← hw]; simp
    rw [PyFn.setParameters, PyFns.setParameters, if_pos n1, d1, d2, PyFns.setParameters, if_pos n2, d3,
      PyFns.setParameters]
  have hnb : (PyFn.tree s.store (.compound p (.cons false o (.cons false o .nil)))).nb = (v ++ w).length := by
    simp [PyFn.tree, PyFns.tree, Fn.nb, Fns.nb, e2, hv, hw]
  refine ⟨⟨s.objects ++ [some (.compound p (.cons false o (.cons false o .nil)))],
    o.setParameters w (o.setParameters v s.store)⟩, ?_, ?_, ?_⟩
  · simp only [PySession.step, PySession.obj_new, setFunctionParams, hnb, if_true, hset]
  · unfold PySession.fn
    rw [PySession.obj_push s.objects s.store, if_pos (s.obj_lt i o e1)]
    have e1' : PySession.obj ⟨s.objects, s.store⟩ i = some o := e1
    rw [e1', Option.map_some, et2 v w, f.set_set hW v w hv hw]
  · unfold PySession.get getFunctionParams
    rw [PySession.obj_new]
    have k : (f.set w).get.take f.nb = w := by
      have := f.params_set hW w hw
      rwa [Fn.params, f.set_nb hW] at this
    simp only [PyFn.tree, PyFns.tree, Fn.get, Fns.get, et2, f.set_set hW v w hv hw, f.set_nb hW, k, List.append_nil]
    simp [h0]

/-! ### A script with two lobes -/

/-- the lobe of the examples, with one channel -/
def pyBlinn (ks N : ℝ) : Fn := .leaf blinnCls ⟨⟨1, 1, .COS_TH, .INV_STERADIAN⟩, fun _ => ks, fun _ => N⟩

theorem pyBlinn_wf (ks N : ℝ) : (pyBlinn ks N).WF := blinn_lawful

/-- the script `a = get_function(...); b = get_function(...)` -/
theorem pyScript : ∃ s, Script [.make (pyBlinn 1 2), .make (pyBlinn 3 4)] s ∧ s.objects.length = 2 ∧
    s.fn 0 = some (pyBlinn 1 2) ∧ s.fn 1 = some (pyBlinn 3 4) ∧ s.NoSharing 0 ∧ s.NoSharing 1 ∧ s.Apart 1 0 := by
  refine ⟨⟨[some (.leaf 0), some (.leaf 1)], [⟨blinnCls, _⟩, ⟨blinnCls, _⟩]⟩, ⟨?_, rfl⟩, rfl, rfl, rfl, ?_, ?_, ?_⟩
  · intro c hc
    simp only [List.mem_cons, List.not_mem_nil, or_false] at hc
    rcases hc with rfl | rfl
    · exact blinn_lawful
    · exact blinn_lawful
  · simp [PySession.NoSharing, PySession.parts, PySession.obj, PyFn.parts]
  · simp [PySession.NoSharing, PySession.parts, PySession.obj, PyFn.parts]
  · simp [PySession.Apart, PySession.parts, PySession.obj, PyFn.parts]

/-- `c = a + b; a.set([5, 6])`: `c` is the sum of the changed lobe and of the other -/
example : ∃ s s' s'' F, Script [.make (pyBlinn 1 2), .make (pyBlinn 3 4)] s ∧ s.step (.add 0 1) = some s' ∧
    s'.step (.set 0 [5, 6]) = some s'' ∧ s''.fn 2 = some F ∧
    F.IsSum ((pyBlinn 1 2).set [5, 6]) (pyBlinn 3 4) ∧ F.value [1 / 2] = some [5 * (1 / 2) ^ (6 : ℝ) + 3 * (1 / 2) ^ (4 : ℝ)] := by
  obtain ⟨s, h, hl, h0, h1, n0, n1, ap⟩ := pyScript
  have hadd := ((python_add_outcome s 0 1).1 _ _ h0 h1 (by simp [pyBlinn, Fn.par, blinnCls])
    (by simp [pyBlinn, Fn.par, blinnCls]) (by simp [pyBlinn, Fn.par, blinnCls])
    (by simp [pyBlinn, Fn.par, blinnCls])).2 (by simp [pyBlinn, Fn.par, blinnCls])
  obtain ⟨s', h1'⟩ := Option.isSome_iff_exists.1 hadd
  obtain ⟨s'', F, k1, k2, k3, k4, k5⟩ := python_sum_follows _ s s' 0 1 _ _ [5, 6] h h0 h1 (pyBlinn_wf 1 2) n0 ap
    (by simp [pyBlinn, Fn.nb, blinnCls]) h1'
  obtain ⟨F', m1, m2, m3, -⟩ := python_sum _ s s' s'' 0 1 _ _ h (by simp [h0]) (by simp [h1]) h1'
    ⟨[.set 0 [5, 6]], by simp [PyCmd.Lawful], by simp [PySession.run, k1]⟩ k2 k3
  rw [hl] at k4 m1
  have : F' = F := by rw [k4] at m1; simpa using m1.symm
  subst this
  refine ⟨s, s', s'', F', h, h1', k1, k4, k5, ?_⟩
  obtain ⟨v, v1, v2, v3⟩ := python_sum_same F' _ _ [1 / 2] [5 * (1 / 2) ^ (6 : ℝ)] [3 * (1 / 2) ^ (4 : ℝ)] m2
    (by simp only [pyBlinn, Fn.set, Fn.par, blinnCls]; unfold Input.Named; decide) (m3 (by simp [pyBlinn, Fn.set, Fn.par, blinnCls]))
    (by simp [pyBlinn, Fn.set, Fn.par, blinnCls])
    (by simp only [pyBlinn, Fn.set, Fn.par, blinnCls]; decide +kernel)
    (by simp [pyBlinn, Fn.set, Fn.value, blinnCls, readInto, arr])
    (by simp [pyBlinn, Fn.value, blinnCls, arr]) (by simp [pyBlinn, Fn.set, Fn.par, blinnCls])
    (by simp [pyBlinn, Fn.set, Fn.par, blinnCls])
  rw [v1]
  have l : v.length = 1 := by rw [v2]; simp [pyBlinn, Fn.set, Fn.par, blinnCls]
  obtain ⟨y, rfl⟩ := List.length_eq_one_iff.1 l
  have := v3 0
  simp only [arr, List.getD_cons_zero] at this
  rw [this]

/-- `d = a + a; d.set([1, 2, 3, 4])`: `d.get()` is `[3, 4, 3, 4]` -/
example : ∃ s s' s'', Script [.make (pyBlinn 1 2), .make (pyBlinn 3 4)] s ∧ s.step (.add 0 0) = some s' ∧
    s'.step (.set 2 [1, 2, 3, 4]) = some s'' ∧ s''.get 2 = [3, 4, 3, 4] := by
  obtain ⟨s, h, hl, h0, h1, n0, n1, ap⟩ := pyScript
  have hadd := ((python_add_outcome s 0 0).1 _ _ h0 h0 (by simp [pyBlinn, Fn.par, blinnCls])
    (by simp [pyBlinn, Fn.par, blinnCls]) (by simp [pyBlinn, Fn.par, blinnCls])
    (by simp [pyBlinn, Fn.par, blinnCls])).2 rfl
  obtain ⟨s', h1'⟩ := Option.isSome_iff_exists.1 hadd
  obtain ⟨s'', k1, k2, k3⟩ := python_shared_sum _ s s' 0 _ [1, 2] [3, 4] h h0 (pyBlinn_wf 1 2) n0
    (by simp [pyBlinn, Fn.nb, blinnCls]) h1' (by simp [pyBlinn, Fn.nb, blinnCls]) (by simp [pyBlinn, Fn.nb, blinnCls])
  rw [hl] at k1 k3
  exact ⟨s, s', s'', h, h1', k1, k3⟩

end
end Alta
