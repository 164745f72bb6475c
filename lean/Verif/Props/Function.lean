import Verif.Spec.Function
import Mathlib.Tactic.Linarith
import Mathlib.Tactic.Ring
import Mathlib.Analysis.Calculus.Deriv.Add
import Mathlib.Analysis.Calculus.Deriv.Mul
/-
Compositions of nonlinear functions: parameter vectors (C29), values (C28, C31).
-/
namespace Alta
noncomputable section

/-! ### `setParameters` changes neither the shape nor the parametrization -/

mutual
theorem Fn.set_nb : ∀ (f : Fn) (_ : f.WF) (p : List ℝ), (f.set p).nb = f.nb
  | .leaf c s, h, p => by simpa [Fn.set, Fn.nb] using (show c.Lawful from h).nb_set s p
  | .compound q fs, h, p => by simpa [Fn.set, Fn.nb] using Fns.set_nb fs q.dimY h p
  | .product q f g a b, h, p => by
    cases a <;> cases b <;> simp [Fn.set, Fn.nb, Fn.set_nb f h.1, Fn.set_nb g h.2.1]
theorem Fns.set_nb : ∀ (fs : Fns) (d : ℕ) (_ : fs.WF d) (p : List ℝ), (fs.set p).nb = fs.nb
  | .nil, _, _, _ => rfl
  | .cons b f rest, d, h, p => by
    unfold Fns.set
    split
    · simp [Fns.nb, Fn.set_nb f h.1.1, Fns.set_nb rest d h.2]
    · simp [Fns.nb, Fns.set_nb rest d h.2]
end

theorem Fn.set_par (f : Fn) (hf : f.WF) (p : List ℝ) : (f.set p).par = f.par := by
  cases f with
  | leaf c s => simpa [Fn.set, Fn.par] using (show c.Lawful from hf).par_set s p
  | compound q fs => simp [Fn.set, Fn.par]
  | product q f g a b => simp [Fn.set, Fn.par]

mutual
theorem Fn.set_WF : ∀ (f : Fn) (_ : f.WF) (p : List ℝ), (f.set p).WF
  | .leaf c s, h, p => h
  | .compound q fs, h, p => Fns.set_WF fs q.dimY h p
  | .product q f g a b, h, p => by
    cases a <;> cases b <;>
      simp [Fn.set, Fn.WF, Fn.set_WF f h.1, Fn.set_WF g h.2.1, Fn.set_par f h.1, Fn.set_par g h.2.1,
        h.1, h.2.1, h.2.2.1, h.2.2.2]
theorem Fns.set_WF : ∀ (fs : Fns) (d : ℕ) (_ : fs.WF d) (p : List ℝ), (fs.set p).WF d
  | .nil, _, _, _ => trivial
  | .cons b f rest, d, h, p => by
    unfold Fns.set
    split
    · simp [Fns.WF, Fn.set_WF f h.1.1, Fns.set_WF rest d h.2, Fn.set_par f h.1.1, h.1.2]
    · simp [Fns.WF, Fns.set_WF rest d h.2, h.1]
end

mutual
theorem Fn.set_DefAt : ∀ (f : Fn) (_ : f.WF) (p x : List ℝ), f.DefAt x → (f.set p).DefAt x
  | .leaf c s, h, p, x, hd => by
    have hl : c.Lawful := h
    show (c.value (c.set s p) x).isSome
    rw [hl.value_def]; exact hd
  | .compound q fs, h, p, x, hd => Fns.set_DefAt fs q.dimY h p q.input x hd
  | .product q f g a b, h, p, x, hd => by
    obtain ⟨⟨xf, h1, h2⟩, xg, h3, h4⟩ := hd
    refine ⟨⟨xf, ?_, ?_⟩, xg, ?_, ?_⟩ <;> cases a <;> cases b <;>
      simp [Fn.set_par f h.1, Fn.set_par g h.2.1, h1, h3, h2, h4,
        Fn.set_DefAt f h.1 _ _ h2, Fn.set_DefAt g h.2.1 _ _ h4]
theorem Fns.set_DefAt : ∀ (fs : Fns) (d : ℕ) (_ : fs.WF d) (p : List ℝ) (i : Input) (x : List ℝ),
    fs.DefAt i x → (fs.set p).DefAt i x
  | .nil, _, _, _, _, _, _ => trivial
  | .cons b f rest, d, h, p, i, x, hd => by
    obtain ⟨⟨xf, h1, h2⟩, h3⟩ := hd
    unfold Fns.set
    split
    · exact ⟨⟨xf, by rw [Fn.set_par f h.1.1]; exact h1, Fn.set_DefAt f h.1.1 _ _ h2⟩,
        Fns.set_DefAt rest d h.2 _ _ _ h3⟩
    · exact ⟨⟨xf, h1, h2⟩, Fns.set_DefAt rest d h.2 _ _ _ h3⟩
end

/-! ### Sizes of the parameter vectors -/

mutual
theorem Fn.nb_le_get : ∀ (f : Fn) (_ : f.WF), f.nb ≤ f.get.length
  | .leaf c s, h => (show c.Lawful from h).nb_le s
  | .compound q fs, h => by simpa [Fn.get, Fn.nb] using (Fns.get_length fs q.dimY h).ge
  | .product q f g a b, h => by
    have h1 := Fn.nb_le_get f h.1
    have h2 := Fn.nb_le_get g h.2.1
    cases a <;> cases b <;> simp [Fn.get, Fn.nb, h1, h2]
theorem Fns.get_length : ∀ (fs : Fns) (d : ℕ) (_ : fs.WF d), fs.get.length = fs.nb
  | .nil, _, _ => rfl
  | .cons b f rest, d, h => by
    have h1 := Fn.nb_le_get f h.1.1
    have h2 := Fns.get_length rest d h.2
    rcases Nat.eq_zero_or_pos f.nb with h0 | h0
    · simp [Fns.get, Fns.nb, h0, h2]
    · cases b <;> simp [Fns.get, Fns.nb, h0, h1, h2]
end

theorem Fn.params_length (f : Fn) (hf : f.WF) : f.params.length = f.nb := by
  simp [Fn.params, f.nb_le_get hf]

theorem Fn.get_length_product (q : Par) (f g : Fn) (a b : Bool) (h : (Fn.product q f g a b).WF) :
    (Fn.product q f g a b).get.length = (Fn.product q f g a b).nb := by
  have h1 := f.nb_le_get h.1
  have h2 := g.nb_le_get h.2.1
  cases a <;> cases b <;> simp [Fn.get, Fn.nb, h1, h2]

/-- C29 (sizes).  `parameters()` of a compound or of a product has `nbParameters()` entries. -/
theorem composition_parameters_length (f : Fn) (hf : f.WF)
    (hc : ∀ (σ : Type) (c : Cls σ) (s : σ), f ≠ .leaf c s) : f.get.length = f.nb := by
  cases f with
  | leaf c s => exact absurd rfl (hc _ c s)
  | compound q fs => exact Fns.get_length fs q.dimY hf
  | product q f g a b => exact Fn.get_length_product q f g a b hf

theorem composition_params (f : Fn) (hf : f.WF)
    (hc : ∀ (σ : Type) (c : Cls σ) (s : σ), f ≠ .leaf c s) : f.params = f.get := by
  rw [Fn.params, ← composition_parameters_length f hf hc, List.take_length]

/-! ### C29: parameter vector round trips -/

mutual
theorem Fn.params_set : ∀ (f : Fn) (_ : f.WF) (p : List ℝ), p.length = f.nb → (f.set p).params = p
  | .leaf c s, h, p, hp => by
    have hl : c.Lawful := h
    show ((c.get (c.set s p)).take (c.nb (c.set s p))) = p
    rw [hl.nb_set]; exact hl.get_set s p hp
  | .compound q fs, h, p, hp => by
    have e : ((Fn.compound q fs).set p).params = (fs.set p).get := by
      rw [composition_params _ (Fn.set_WF _ h p) (by intro σ c s; simp [Fn.set])]
      simp [Fn.set, Fn.get]
    rw [e]; exact Fns.get_set fs q.dimY h p hp
  | .product q f g a b, h, p, hp => by
    have h1 := fun p hp => Fn.params_set f h.1 p hp
    have h2 := fun p hp => Fn.params_set g h.2.1 p hp
    rw [composition_params _ (Fn.set_WF _ h p) (by intro σ c s; simp [Fn.set])]
    cases a <;> cases b <;> simp only [Fn.set, Fn.get, Fn.nb, Bool.not_true, Bool.not_false, if_true,
      Bool.false_eq_true, if_false, List.nil_append, List.append_nil, Nat.zero_add, Nat.add_zero,
      List.drop_zero] at hp ⊢
    · have e1 := h1 (p.take f.nb) (by simp [hp])
      have e2 := h2 ((p.drop f.nb).take g.nb) (by simp [hp])
      rw [Fn.params] at e1 e2
      rw [e1, e2, List.take_of_length_le (l := p.drop f.nb) (by simp [hp]), List.take_append_drop]
    · have e1 := h1 (p.take f.nb) (by simp [hp])
      rw [Fn.params] at e1
      rw [e1, List.take_of_length_le (by simp [hp])]
    · have e2 := h2 (p.take g.nb) (by simp [hp])
      rw [Fn.params] at e2
      rw [e2, List.take_of_length_le (by simp [hp])]
    · exact (List.eq_nil_of_length_eq_zero hp).symm
theorem Fns.get_set : ∀ (fs : Fns) (d : ℕ) (_ : fs.WF d) (p : List ℝ), p.length = fs.nb →
    (fs.set p).get = p
  | .nil, _, _, p, hp => (List.eq_nil_of_length_eq_zero hp).symm
  | .cons b f rest, d, h, p, hp => by
    by_cases hb : b = true
    · subst hb
      have := Fns.get_set rest d h.2 p (by simpa [Fns.nb] using hp)
      simpa [Fns.set, Fns.get] using this
    · have hb' : b = false := by simpa using hb
      subst hb'
      have hp' : p.length = f.nb + rest.nb := by simpa [Fns.nb] using hp
      rcases Nat.eq_zero_or_pos f.nb with h0 | h0
      · have := Fns.get_set rest d h.2 p (by omega)
        simpa [Fns.set, Fns.get, h0] using this
      · have h2 := Fns.get_set rest d h.2 (p.drop f.nb) (by simp [hp'])
        have h1 := Fn.params_set f h.1.1 (p.take f.nb) (by simp [hp'])
        rw [Fn.params] at h1
        have e := Fn.set_nb f h.1.1 (p.take f.nb)
        rw [e] at h1
        simp [Fns.set, Fns.get, h0, h1, h2, e]
end

mutual
theorem Fn.set_params : ∀ (f : Fn) (_ : f.WF), f.set f.params = f
  | .leaf c s, h => by
    have hl : c.Lawful := h
    show Fn.leaf c (c.set s ((c.get s).take (c.nb s))) = _
    rw [hl.set_get]
  | .compound q fs, h => by
    rw [composition_params _ h (by intro σ c s; simp)]
    simp only [Fn.set, Fn.get]
    rw [Fns.set_get fs q.dimY h]
  | .product q f g a b, h => by
    have h1 := Fn.set_params f h.1
    have h2 := Fn.set_params g h.2.1
    have l1 := Fn.params_length f h.1
    have l2 := Fn.params_length g h.2.1
    rw [composition_params _ h (by intro σ c s; simp)]
    rw [Fn.params] at h1 h2 l1 l2
    cases a <;> cases b <;> simp [Fn.set, Fn.get, h1, l1]
    all_goals (rw [List.take_take, Nat.min_self]; assumption)
theorem Fns.set_get : ∀ (fs : Fns) (d : ℕ) (_ : fs.WF d), fs.set fs.get = fs
  | .nil, _, _ => rfl
  | .cons b f rest, d, h => by
    have h1 := Fn.set_params f h.1.1
    have h2 := Fns.set_get rest d h.2
    have l1 := Fn.params_length f h.1.1
    rw [Fn.params] at h1 l1
    unfold Fns.set
    by_cases hc : (f.nb > 0 && !b) = true
    · have e1 : List.take f.nb (Fns.get (.cons b f rest)) = f.get.take f.nb := by
        rw [Fns.get, if_pos hc, List.take_append_of_le_length l1.ge, List.take_take, Nat.min_self]
      have e2 : List.drop f.nb (Fns.get (.cons b f rest)) = rest.get := by
        rw [Fns.get, if_pos hc]
        exact List.drop_left' l1
      rw [if_pos hc, e1, e2, h1, h2]
    · rw [if_neg hc, Fns.get, if_neg hc, List.nil_append, h2]
end

/-- number of entries of a member in the vector -/
def fs_nb_aux (b : Bool) (n : ℕ) : ℕ := if !b then n else 0

mutual
theorem Fn.set_set : ∀ (f : Fn) (_ : f.WF) (p q : List ℝ), p.length = f.nb → q.length = f.nb →
    (f.set p).set q = f.set q
  | .leaf c s, h, p, q, hp, hq => by
    have hl : c.Lawful := h
    show Fn.leaf c (c.set (c.set s p) q) = _
    rw [hl.set_set s p q hp hq]; rfl
  | .compound r fs, h, p, q, hp, hq => by
    simp only [Fn.set]; rw [Fns.set_set fs r.dimY h p q hp hq]
  | .product r f g a b, h, p, q, hp, hq => by
    have h1 := fun p q hp hq => Fn.set_set f h.1 p q hp hq
    have h2 := fun p q hp hq => Fn.set_set g h.2.1 p q hp hq
    cases a <;> cases b <;> simp only [Fn.set, Fn.nb, Bool.not_true, Bool.not_false, if_true,
      Bool.false_eq_true, if_false, Nat.zero_add, Nat.add_zero, List.drop_zero,
      Fn.set_nb f h.1, Fn.set_nb g h.2.1] at hp hq ⊢
    · rw [h1 _ _ (by simp [hp]) (by simp [hq]), h2 _ _ (by simp [hp]) (by simp [hq])]
    · rw [h1 _ _ (by simp [hp]) (by simp [hq])]
    · rw [h2 _ _ (by simp [hp]) (by simp [hq])]
theorem Fns.set_set : ∀ (fs : Fns) (d : ℕ) (_ : fs.WF d) (p q : List ℝ), p.length = fs.nb →
    q.length = fs.nb → (fs.set p).set q = fs.set q
  | .nil, _, _, _, _, _, _ => rfl
  | .cons b f rest, d, h, p, q, hp, hq => by
    by_cases hc : (f.nb > 0 && !b) = true
    · have hb : b = false := by revert hc; cases b <;> simp
      subst hb
      have hp' : p.length = f.nb + rest.nb := by simpa [Fns.nb] using hp
      have hq' : q.length = f.nb + rest.nb := by simpa [Fns.nb] using hq
      have h1 := Fn.set_set f h.1.1 (p.take f.nb) (q.take f.nb) (by simp [hp']) (by simp [hq'])
      have h2 := Fns.set_set rest d h.2 (p.drop f.nb) (q.drop f.nb) (by simp [hp']) (by simp [hq'])
      simp only [Fns.set, if_pos hc]
      simp only [Fn.set_nb f h.1.1, if_pos hc, h1, h2]
    · have e : fs_nb_aux b f.nb = 0 := by
        revert hc; cases b <;> simp [fs_nb_aux]
      have hp' : p.length = rest.nb := by
        have := hp; simp only [Fns.nb] at this; unfold fs_nb_aux at e; omega
      have hq' : q.length = rest.nb := by
        have := hq; simp only [Fns.nb] at this; unfold fs_nb_aux at e; omega
      have h2 := Fns.set_set rest d h.2 p q hp' hq'
      simp only [Fns.set, if_neg hc, h2]
end

/-! ### Where the parameters of a member are in the vector of the compound -/

/-- The number of parameters of the members that come first and are not fixed. -/
def offset (pre : List (Bool × Fn)) : ℕ := (pre.map fun m => if m.1 then 0 else m.2.nb).sum

theorem Fns.nb_eq (fs : Fns) : fs.nb = offset fs.toList := by
  induction fs using Fns.rec (motive_1 := fun _ => True) with
  | leaf | compound | product => trivial
  | nil => rfl
  | cons b f rest _ ih => cases b <;> simp [Fns.nb, Fns.toList, offset, ih]

theorem Fns.toList_cons_inv (fs : Fns) (m : Bool × Fn) (l : List (Bool × Fn)) (h : fs.toList = m :: l) :
    ∃ rest, fs = .cons m.1 m.2 rest ∧ rest.toList = l := by
  cases fs with
  | nil => simp [Fns.toList] at h
  | cons b f rest =>
    simp only [Fns.toList, List.cons.injEq] at h
    exact ⟨rest, by rw [← h.1], h.2⟩

theorem Fn.set_no_params (m : Fn) (hm : m.WF) (h0 : m.nb = 0) : m.set [] = m := by
  have h := m.set_params hm
  have e : m.params = [] := List.eq_nil_of_length_eq_zero (by rw [m.params_length hm, h0])
  rwa [e] at h

theorem Fns.get_slice (fs : Fns) (d : ℕ) (hf : fs.WF d) (pre post : List (Bool × Fn)) (m : Fn)
    (h : fs.toList = pre ++ (false, m) :: post) :
    (fs.get.drop (offset pre)).take m.nb = m.params := by
  induction pre generalizing fs with
  | nil =>
    obtain ⟨rest, rfl, h2⟩ := fs.toList_cons_inv _ _ h
    have l := m.params_length hf.1.1
    rcases Nat.eq_zero_or_pos m.nb with h0 | h0
    · rw [h0] at l ⊢
      rw [List.take_zero, List.eq_nil_of_length_eq_zero l]
    · simp only [offset, List.map_nil, List.sum_nil, List.drop_zero]
      rw [Fns.get, if_pos (by simp [h0])]
      show List.take m.nb (m.params ++ rest.get) = m.params
      exact List.take_left' l
  | cons k pre ih =>
    obtain ⟨rest, rfl, h2⟩ := fs.toList_cons_inv k _ h
    have := ih rest hf.2 h2
    have l := k.2.params_length hf.1.1
    rcases Bool.eq_false_or_eq_true k.1 with hk | hk
    · simpa [Fns.get, hk, offset] using this
    · rcases Nat.eq_zero_or_pos k.2.nb with h0 | h0
      · simpa [Fns.get, hk, h0, offset] using this
      · have e : offset (k :: pre) = k.2.nb + offset pre := by simp [offset, hk]
        rw [e, ← List.drop_drop, Fns.get, if_pos (by simp [h0, hk])]
        have e2 : List.drop k.2.nb (List.take k.2.nb k.2.get ++ rest.get) = rest.get :=
          List.drop_left' l
        rw [e2, this]

theorem Fns.set_slice (fs : Fns) (d : ℕ) (hf : fs.WF d) (pre post : List (Bool × Fn)) (b : Bool)
    (m : Fn) (h : fs.toList = pre ++ (b, m) :: post) (p : List ℝ) :
    (fs.set p).toList[pre.length]? =
      some (b, if b then m else m.set ((p.drop (offset pre)).take m.nb)) := by
  induction pre generalizing fs p with
  | nil =>
    obtain ⟨rest, rfl, h2⟩ := fs.toList_cons_inv _ _ h
    rcases Nat.eq_zero_or_pos m.nb with h0 | h0
    · cases b <;> simp [Fns.set, h0, Fns.toList, offset, m.set_no_params hf.1.1 h0]
    · cases b <;> simp [Fns.set, h0, Fns.toList, offset]
  | cons k pre ih =>
    obtain ⟨rest, rfl, h2⟩ := fs.toList_cons_inv k _ h
    rcases Bool.eq_false_or_eq_true k.1 with hk | hk
    · have := ih rest hf.2 h2 p
      simpa [Fns.set, hk, offset, Fns.toList] using this
    · rcases Nat.eq_zero_or_pos k.2.nb with h0 | h0
      · have := ih rest hf.2 h2 p
        simpa [Fns.set, hk, h0, offset, Fns.toList] using this
      · have := ih rest hf.2 h2 (p.drop k.2.nb)
        have e : offset (k :: pre) = k.2.nb + offset pre := by simp [offset, hk]
        rw [e, ← List.drop_drop]
        simpa [Fns.set, hk, h0, Fns.toList] using this

theorem Fns.set_toList_length (fs : Fns) (p : List ℝ) : (fs.set p).toList.length = fs.toList.length := by
  induction fs using Fns.rec (motive_1 := fun _ => True) generalizing p with
  | leaf | compound | product => trivial
  | nil => rfl
  | cons b f rest _ ih =>
    unfold Fns.set
    split <;> simp [Fns.toList, ih]

/-- C29.  For every composition of plugin objects that respect the contract of the
    interface, however nested and whatever is fixed:
    `setParameters(parameters())` leaves the function unchanged;
    after `setParameters(v)` with a vector of `nbParameters()` entries `parameters()` is `v`;
    and a second `setParameters` makes the first one forgotten. -/
theorem parameters_round_trip (f : Fn) (hf : f.WF) :
    f.set f.params = f ∧
    (∀ v : List ℝ, v.length = f.nb → (f.set v).params = v ∧ (f.set v).nb = f.nb ∧
      (f.set v).par = f.par) ∧
    (∀ v w : List ℝ, v.length = f.nb → w.length = f.nb → (f.set v).set w = f.set w) :=
  ⟨f.set_params hf, fun v hv => ⟨f.params_set hf v hv, f.set_nb hf v, f.set_par hf v⟩,
    fun v w => f.set_set hf v w⟩

/-- C29.  In a compound, `setParameters(v)` leaves a fixed member as it is, and gives to
    each other member the part of `v` at the position where `parameters()` has its parameters:
    after the parameters of the members before it that are not fixed. -/
theorem compound_members (q : Par) (fs : Fns) (hf : (Fn.compound q fs).WF) (v : List ℝ) :
    ∃ gs : Fns, (Fn.compound q fs).set v = .compound q gs ∧ gs.toList.length = fs.toList.length ∧
      ∀ pre post b m, fs.toList = pre ++ (b, m) :: post →
        (b = true → gs.toList[pre.length]? = some (true, m)) ∧
        (b = false →
          gs.toList[pre.length]? = some (false, m.set ((v.drop (offset pre)).take m.nb)) ∧
          (((Fn.compound q fs).get).drop (offset pre)).take m.nb = m.params) := by
  refine ⟨fs.set v, rfl, fs.set_toList_length v, ?_⟩
  intro pre post b m h
  have h1 := fs.set_slice q.dimY hf pre post b m h v
  refine ⟨fun hb => by simpa [hb] using h1, fun hb => ⟨by simpa [hb] using h1, ?_⟩⟩
  subst hb
  exact fs.get_slice q.dimY hf pre post m h

/-- C31 (parameters).  The parameter vector of a product is the parameter vector of the first
    factor followed by that of the second, a fixed factor being left out; `setParameters`
    splits the vector in the same way and leaves a fixed factor as it is. -/
theorem product_parameters (q : Par) (f g : Fn) (a b : Bool) (v : List ℝ) :
    (Fn.product q f g a b).get = (if a then [] else f.params) ++ (if b then [] else g.params) ∧
    (Fn.product q f g a b).nb = (if a then 0 else f.nb) + (if b then 0 else g.nb) ∧
    (Fn.product q f g a b).set v =
      .product q (if a then f else f.set (v.take f.nb))
        (if b then g else g.set ((v.drop (if a then 0 else f.nb)).take g.nb)) a b := by
  cases a <;> cases b <;> simp [Fn.get, Fn.nb, Fn.set, Fn.params]

/-! ### C28: value of a compound -/

theorem arr_zipWith_add (a b : List ℝ) (h : a.length = b.length) (y : ℕ) :
    arr (List.zipWith (· + ·) a b) y = arr a y + arr b y := by
  unfold arr
  rcases Nat.lt_or_ge y a.length with hy | hy
  · simp [List.getD, hy, h ▸ hy]
  · simp [List.getD, hy, h ▸ hy]

theorem arr_zipWith_mul (a b : List ℝ) (h : a.length = b.length) (y : ℕ) :
    arr (List.zipWith (· * ·) a b) y = arr a y * arr b y := by
  unfold arr
  rcases Nat.lt_or_ge y a.length with hy | hy
  · simp [List.getD, hy, h ▸ hy]
  · simp [List.getD, hy, h ▸ hy]

/-- the sum of the values of the members -/
def Fns.sumAt (fs : Fns) (input : Input) (x : List ℝ) (y : ℕ) : ℝ :=
  (fs.toList.map fun m => m.2.partValue input x y).sum

mutual
theorem Fn.value_def : ∀ (f : Fn) (_ : f.WF) (x : List ℝ), f.DefAt x →
    ∃ v, f.value x = some v ∧ v.length = f.par.dimY
  | .leaf c s, h, x, hd => by
    obtain ⟨v, hv⟩ := Option.isSome_iff_exists.1 (show (c.value s x).isSome from hd)
    exact ⟨v, hv, (show c.Lawful from h).value_length s x v hv⟩
  | .compound q fs, h, x, hd => by
    obtain ⟨v, h1, h2, _⟩ := Fns.value_def fs q.dimY h q.input x hd (List.replicate q.dimY 0) (by simp)
    exact ⟨v, by simpa [Fn.value] using h1, h2⟩
  | .product q f g a b, h, x, hd => by
    obtain ⟨⟨xf, h1, h2⟩, xg, h3, h4⟩ := hd
    obtain ⟨vf, h5, h6⟩ := Fn.value_def f h.1 xf h2
    obtain ⟨vg, h7, h8⟩ := Fn.value_def g h.2.1 xg h4
    have l6 : vf.length = q.dimY := h6.trans h.2.2.1
    have l8 : vg.length = q.dimY := h8.trans h.2.2.2
    simp only [Fn.value, h1, h5, h3, h7, vecProduct]
    split
    · exact ⟨_, rfl, by simp [l8, Fn.par]⟩
    · split
      · exact ⟨_, rfl, by simp [l6, Fn.par]⟩
      · rw [if_pos (l6.trans l8.symm)]
        exact ⟨_, rfl, by simp [l6, l8, Fn.par]⟩
theorem Fns.value_def : ∀ (fs : Fns) (d : ℕ) (_ : fs.WF d) (input : Input) (x : List ℝ),
    fs.DefAt input x → ∀ res : List ℝ, res.length = d →
    ∃ v, fs.valueLoop input x res = some v ∧ v.length = d ∧
      ∀ y, arr v y = arr res y + fs.sumAt input x y
  | .nil, d, _, input, x, _, res, hr => ⟨res, rfl, hr, by simp [Fns.sumAt, Fns.toList]⟩
  | .cons b f rest, d, h, input, x, hd, res, hr => by
    obtain ⟨⟨xf, h1, h2⟩, h3⟩ := hd
    obtain ⟨vf, h5, h6⟩ := Fn.value_def f h.1.1 xf h2
    have l6 : vf.length = d := h6.trans h.1.2
    obtain ⟨v, h7, h8, h9⟩ := Fns.value_def rest d h.2 input x h3 (List.zipWith (· + ·) res vf)
      (by simp [hr, l6])
    refine ⟨v, ?_, h8, ?_⟩
    · simp only [Fns.valueLoop, h1, h5, vecAdd]
      rw [if_pos (hr.trans l6.symm)]
      exact h7
    · intro y
      rw [h9, arr_zipWith_add _ _ (hr.trans l6.symm)]
      have e : f.partValue input x y = arr vf y := by simp [Fn.partValue, h1, h5]
      simp only [Fns.sumAt, Fns.toList, List.map_cons, List.sum_cons, e]
      ring
end

/-- C28.  `value(x)` of a compound has one entry per output channel, and each is the sum of
    the values of the members at `x` expressed in their parametrization; `nbParameters()` is
    the sum over the members that are not fixed. -/
theorem compound_value (q : Par) (fs : Fns) (hf : (Fn.compound q fs).WF) (x : List ℝ)
    (hd : (Fn.compound q fs).DefAt x) :
    (∃ v, (Fn.compound q fs).value x = some v ∧ v.length = q.dimY ∧
      ∀ y, arr v y = (fs.toList.map fun m => m.2.partValue q.input x y).sum) ∧
    (Fn.compound q fs).nb = ((fs.toList.filter fun m => !m.1).map fun m => m.2.nb).sum := by
  constructor
  · obtain ⟨v, h1, h2, h3⟩ := Fns.value_def fs q.dimY hf q.input x hd (List.replicate q.dimY 0) (by simp)
    refine ⟨v, by simpa [Fn.value] using h1, h2, fun y => ?_⟩
    have e : arr (List.replicate q.dimY (0 : ℝ)) y = 0 := by
      unfold arr
      rcases Nat.lt_or_ge y q.dimY with hy | hy <;> simp [List.getD, hy]
    rw [h3, e, zero_add]; rfl
  · rw [Fn.nb, Fns.nb_eq]
    unfold offset
    induction fs.toList with
    | nil => rfl
    | cons m l ih =>
      rcases Bool.eq_false_or_eq_true m.1 with hm | hm <;> simp [hm, ih]

theorem Fn.valueAt_eq (f : Fn) (x v : List ℝ) (h : f.value x = some v) (y : ℕ) :
    f.valueAt x y = arr v y := by simp [Fn.valueAt, h]

/-- C31 (value).  Each entry of the value of a product is the product of the entries of
    the values of the factors at `x` expressed in their parametrization. -/
theorem product_value (q : Par) (f g : Fn) (a b : Bool) (hf : (Fn.product q f g a b).WF) (x : List ℝ)
    (hd : (Fn.product q f g a b).DefAt x) :
    ∃ v, (Fn.product q f g a b).value x = some v ∧ v.length = q.dimY ∧
      ∀ y < q.dimY, arr v y = f.partValue q.input x y * g.partValue q.input x y := by
  obtain ⟨⟨xf, h1, h2⟩, xg, h3, h4⟩ := hd
  obtain ⟨vf, h5, h6⟩ := Fn.value_def f hf.1 xf h2
  obtain ⟨vg, h7, h8⟩ := Fn.value_def g hf.2.1 xg h4
  have l6 : vf.length = q.dimY := h6.trans hf.2.2.1
  have l8 : vg.length = q.dimY := h8.trans hf.2.2.2
  have ef : ∀ y, f.partValue q.input x y = arr vf y := fun y => by simp [Fn.partValue, h1, h5]
  have eg : ∀ y, g.partValue q.input x y = arr vg y := fun y => by simp [Fn.partValue, h3, h7]
  have key : ∃ v, vecProduct vf vg = some v ∧ v.length = q.dimY ∧
      ∀ y < q.dimY, arr v y = arr vf y * arr vg y := by
    unfold vecProduct
    rw [l6, l8]
    split
    · next h => 
      refine ⟨_, rfl, by simp [l8], fun y hy => ?_⟩
      have : y = 0 := by omega
      subst this
      simp only [arr, List.getD, List.getElem?_map]
      cases vg[0]? <;> simp [mul_comm]
    · rw [if_pos rfl]
      exact ⟨_, rfl, by simp [l6, l8], fun y hy => arr_zipWith_mul _ _ (l6.trans l8.symm) y⟩
  obtain ⟨v, k1, k2, k3⟩ := key
  refine ⟨v, by simp [Fn.value, h1, h5, h3, h7, k1], k2, fun y hy => ?_⟩
  rw [ef, eg]; exact k3 y hy

/-- C31 (value of a grey function times a coloured one).  A factor with one channel scales
    every channel of the other. -/
theorem product_value_grey (q : Par) (f g : Fn) (a b : Bool) (x xf xg u v : List ℝ)
    (hxf : convertInput (arr x) q.input f.par.input = some xf) (hu : f.value xf = some u)
    (hxg : convertInput (arr x) q.input g.par.input = some xg) (hv : g.value xg = some v)
    (h1 : u.length = 1 ∨ v.length = 1) :
    ∃ w, (Fn.product q f g a b).value x = some w ∧
      (u.length = 1 → w.length = v.length ∧ ∀ y, arr w y = arr u 0 * arr v y) ∧
      (v.length = 1 → w.length = u.length ∧ ∀ y, arr w y = arr u y * arr v 0) := by
  have key : ∀ (l : List ℝ) (c : ℝ) (y : ℕ), arr (l.map (· * c)) y = arr l y * c := by
    intro l c y
    unfold arr
    rcases Nat.lt_or_ge y l.length with hy | hy <;> simp [List.getD, hy]
  have e : (Fn.product q f g a b).value x = vecProduct u v := by
    simp [Fn.value, hxf, hu, hxg, hv]
  rw [e]; unfold vecProduct
  by_cases hu1 : u.length = 1
  · rw [if_pos hu1]
    refine ⟨_, rfl, fun _ => ⟨by simp, fun y => ?_⟩, fun hv1 => ⟨by simp [hu1, hv1], fun y => ?_⟩⟩
    · rw [key]; simp [arr, mul_comm]
    · rw [key]
      rcases Nat.eq_zero_or_pos y with h0 | h0
      · subst h0; simp [arr, mul_comm]
      · have : arr u y = 0 := by simp [arr, List.getD, List.getElem?_eq_none (l := u) (i := y) (by omega)]
        have : arr v y = 0 := by simp [arr, List.getD, List.getElem?_eq_none (l := v) (i := y) (by omega)]
        simp [*]
  · have hv1 : v.length = 1 := by tauto
    rw [if_neg hu1, if_pos hv1]
    exact ⟨_, rfl, fun h => absurd h hu1, fun _ => ⟨by simp, fun y => by rw [key]; simp [arr]⟩⟩

/-! ### Parametrization of a composition -/

theorem compoundParLoop_spec (fs : List Par) (r : Par)
    (hi : ∀ g ∈ fs, g.input ≠ .UNKNOWN_INPUT) (ho : ∀ g ∈ fs, g.output ≠ .UNKNOWN_OUTPUT)
    (hri : r.input ≠ .UNKNOWN_INPUT) (hro : r.output ≠ .UNKNOWN_OUTPUT) :
    ((∀ g ∈ fs, g.output = r.output) → (∀ g ∈ fs, g.input = r.input) →
      compoundParLoop fs r = some r) ∧
    ((∀ g ∈ fs, g.output = r.output) → (¬ ∀ g ∈ fs, g.input = r.input) →
      compoundParLoop fs r = some { r with dimX := 6, input := .CARTESIAN }) ∧
    ((¬ ∀ g ∈ fs, g.output = r.output) → compoundParLoop fs r = none) := by
  induction fs generalizing r with
  | nil => simp [compoundParLoop]
  | cons f fs ih =>
    have hi' : ∀ g ∈ fs, g.input ≠ .UNKNOWN_INPUT := fun g hg => hi g (by simp [hg])
    have ho' : ∀ g ∈ fs, g.output ≠ .UNKNOWN_OUTPUT := fun g hg => ho g (by simp [hg])
    by_cases h1 : r.input = f.input
    · by_cases h2 : r.output = f.output
      · have e : compoundParLoop (f :: fs) r = compoundParLoop fs r := by
          simp [compoundParLoop, hri, h1, h1 ▸ hri, hro, h2, h2 ▸ hro]
        have := ih r hi' ho' hri hro
        rw [e]; simpa [h1.symm, h2.symm] using this
      · have e : compoundParLoop (f :: fs) r = none := by
          simp [compoundParLoop, hri, h1, h1 ▸ hri, hro, h2]
        rw [e]
        have h2' : ¬ f.output = r.output := fun h => h2 h.symm
        simp [h2']
    · by_cases h2 : r.output = f.output
      · have e : compoundParLoop (f :: fs) r =
            compoundParLoop fs { r with dimX := 6, input := .CARTESIAN } := by
          simp [compoundParLoop, hri, h1, hro, h2, h2 ▸ hro]
        obtain ⟨i1, i2, i3⟩ := ih { r with dimX := 6, input := .CARTESIAN } hi' ho' (by simp) hro
        have h1' : ¬ f.input = r.input := fun h => h1 h.symm
        rw [e]
        refine ⟨fun _ h => absurd (h f (by simp)) h1', fun h3 _ => ?_, fun h3 => i3 ?_⟩
        · have h4 : ∀ g ∈ fs, g.output = r.output := fun g hg => h3 g (by simp [hg])
          by_cases h5 : ∀ g ∈ fs, g.input = .CARTESIAN
          · exact i1 h4 h5
          · exact i2 h4 h5
        · simpa [h2.symm] using h3
      · have e : compoundParLoop (f :: fs) r = none := by
          simp [compoundParLoop, hri, h1, hro, h2]
        rw [e]
        have h2' : ¬ f.output = r.output := fun h => h2 h.symm
        simp [h2']

/-- C28 (parametrization).  A compound of functions with known parametrizations is created
    exactly when they all have the same output parametrization; it has their common input
    parametrization, and is CARTESIAN with 6 coordinates when they do not have one. -/
theorem compound_parametrization (f : Par) (fs : List Par)
    (hi : ∀ g ∈ f :: fs, g.input ≠ .UNKNOWN_INPUT) (ho : ∀ g ∈ f :: fs, g.output ≠ .UNKNOWN_OUTPUT) :
    ((∀ g ∈ fs, g.output = f.output) → (∀ g ∈ fs, g.input = f.input) →
      compoundPar (f :: fs) = some f) ∧
    ((∀ g ∈ fs, g.output = f.output) → (¬ ∀ g ∈ fs, g.input = f.input) →
      compoundPar (f :: fs) = some { f with dimX := 6, input := .CARTESIAN }) ∧
    ((¬ ∀ g ∈ fs, g.output = f.output) → compoundPar (f :: fs) = none) := by
  have := compoundParLoop_spec (f :: fs) f hi ho (hi f (by simp)) (ho f (by simp))
  simpa [compoundPar] using this

/-- C31 (parametrization). -/
theorem product_parametrization (f g : Par) :
    (productPar f g).dimY = f.dimY ∧ (productPar f g).output = f.output ∧
    (f.input = g.input → productPar f g = f) ∧
    (f.input ≠ g.input → (productPar f g).input = .CARTESIAN ∧ (productPar f g).dimX = 6) := by
  unfold productPar
  split <;> simp_all

end
end Alta
