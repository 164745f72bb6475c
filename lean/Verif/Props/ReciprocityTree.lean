import Verif.Props.Reciprocity
import Verif.Spec.FunctionFile
/-
C63: Helmholtz reciprocity of sums and products.
-/
namespace Alta
open Real
noncomputable section

theorem convert_swap_isSome (c : Cart) (hc : c.Above) (p : Input) :
    (convertInput (arr c.swap.toList) .CARTESIAN p).isSome = (convertInput (arr c.toList) .CARTESIAN p).isSome := by
  by_cases hp : p = .CARTESIAN
  · subst hp; rfl
  rw [convert_from_cartesian _ _ hp, convert_from_cartesian _ _ hp, fromCartesian_eq _ _ hc.sum,
    fromCartesian_eq _ _ hc.swap.sum]
  cases p <;> simp only [fromCartesianSwitch] <;> (repeat' split) <;> rfl

/-- a part of a composition that is evaluated on the directions, or on the coordinates of the
    composition, has its own value for the pair of directions -/
theorem part_reflect (f : Fn) (i : Input) (hi : i = .CARTESIAN ∨ (f.par.input = i ∧ i.Named)) (c : Cart)
    (x : List ℝ) (hx : convertInput (arr c.toList) .CARTESIAN i = some x) :
    (convertInput (arr x) i f.par.input).bind f.value = f.reflect c := by
  rcases hi with rfl | ⟨rfl, hn⟩
  · obtain rfl : c.toList = x := Option.some.inj hx
    rfl
  · unfold Fn.reflect
    obtain ⟨o, ho, hol, hoe⟩ := convertInput_self (arr x) _ hn
    have hl := convertInput_length _ _ _ hn _ hx
    have : o = x := by
      apply List.ext_getElem
      · have := hol.trans hl.symm; exact_mod_cast this
      · intro k h1 h2
        rw [hoe k h1]
        simp [arr, List.getD, h2]
    rw [ho, hx, this]

theorem part_swap (f : Fn) (i : Input) (hi : i = .CARTESIAN ∨ (f.par.input = i ∧ i.Named)) (c : Cart)
    (hf : f.ReciprocalAt c) (x x' : List ℝ) (hx : convertInput (arr c.toList) .CARTESIAN i = some x)
    (hx' : convertInput (arr c.swap.toList) .CARTESIAN i = some x') :
    (convertInput (arr x') i f.par.input).bind f.value = (convertInput (arr x) i f.par.input).bind f.value := by
  rw [part_reflect f i hi c x hx, part_reflect f i hi c.swap x' hx', hf]

theorem valueLoop_bind (b : Bool) (f : Fn) (rest : Fns) (i : Input) (x res : List ℝ) :
    (Fns.cons b f rest).valueLoop i x res =
      ((convertInput (arr x) i f.par.input).bind f.value).bind fun v =>
        (vecAdd res v).bind fun r => rest.valueLoop i x r := by
  rw [Fns.valueLoop]
  cases convertInput (arr x) i f.par.input with
  | none => rfl
  | some xf =>
    cases h : f.value xf with
    | none => simp [h]
    | some v => simp only [Option.bind_some, h]; cases vecAdd res v <;> rfl

theorem product_bind (p : Par) (f g : Fn) (a b : Bool) (x : List ℝ) :
    (Fn.product p f g a b).value x =
      ((convertInput (arr x) p.input f.par.input).bind f.value).bind fun u =>
        ((convertInput (arr x) p.input g.par.input).bind g.value).bind fun v => vecProduct u v := by
  rw [Fn.value]
  cases convertInput (arr x) p.input f.par.input with
  | none => rfl
  | some xf =>
    cases h : f.value xf with
    | none => simp [h]
    | some u =>
      simp only [Option.bind_some, h]
      cases convertInput (arr x) p.input g.par.input with
      | none => rfl
      | some xg => cases h2 : g.value xg <;> simp [h2]

/-- the two values of a function of the coordinates of a pair of directions and of the exchanged pair -/
theorem reflect_of_coordinates (f : Fn) (c : Cart) (hc : c.Above)
    (h : ∀ x x', convertInput (arr c.toList) .CARTESIAN f.par.input = some x →
      convertInput (arr c.swap.toList) .CARTESIAN f.par.input = some x' → f.value x' = f.value x) :
    f.ReciprocalAt c := by
  have hs := convert_swap_isSome c hc f.par.input
  unfold Fn.ReciprocalAt Fn.reflect
  cases hx : convertInput (arr c.toList) .CARTESIAN f.par.input with
  | none =>
    rw [hx] at hs
    cases hx' : convertInput (arr c.swap.toList) .CARTESIAN f.par.input with
    | none => rfl
    | some x' => rw [hx'] at hs; simp at hs
  | some x =>
    rw [hx] at hs
    cases hx' : convertInput (arr c.swap.toList) .CARTESIAN f.par.input with
    | none => rw [hx'] at hs; simp at hs
    | some x' => exact h x x' hx hx'

mutual
/-- C63.  A sum or product of objects that are meant to be reciprocal is reciprocal. -/
theorem composition_reciprocal (f : FT LobeObj) (c : Cart) (hc : c.Above)
    (hf : f.AllObjects (LobeObj.MeantReciprocal c)) (hs : f.toFn.SharedInput) : f.toFn.ReciprocalAt c := by
  match f with
  | .leaf l => exact lobe_reciprocal l c hc hf
  | .compound p fs =>
    apply reflect_of_coordinates _ c hc
    intro x x' hx hx'
    exact members_swap fs c hc p.input hf hs x x' hx hx' _
  | .product p f g a b =>
    apply reflect_of_coordinates _ c hc
    intro x x' hx hx'
    simp only [FT.toFn]
    rw [product_bind, product_bind,
      part_swap f.toFn p.input hs.1.2 c (composition_reciprocal f c hc hf.1 hs.1.1) x x' hx hx',
      part_swap g.toFn p.input hs.2.2 c (composition_reciprocal g c hc hf.2 hs.2.1) x x' hx hx']
/-- for the members of a sum -/
theorem members_swap (fs : FTs LobeObj) (c : Cart) (hc : c.Above) (i : Input)
    (hf : fs.AllObjects (LobeObj.MeantReciprocal c)) (hs : fs.toFns.SharedInput i) (x x' : List ℝ)
    (hx : convertInput (arr c.toList) .CARTESIAN i = some x)
    (hx' : convertInput (arr c.swap.toList) .CARTESIAN i = some x') (res : List ℝ) :
    fs.toFns.valueLoop i x' res = fs.toFns.valueLoop i x res := by
  match fs with
  | .nil => rfl
  | .cons a f rest =>
    simp only [FTs.toFns]
    rw [valueLoop_bind, valueLoop_bind,
      part_swap f.toFn i hs.1.2 c (composition_reciprocal f c hc hf.1 hs.1.1) x x' hx hx']
    have hr := members_swap rest c hc i hf.2 hs.2 x x' hx hx'
    simp only [hr]
end

/-- C63.  The product of two functions has parts on the directions or on its own coordinates. -/
theorem made_product_shared (f g : Fn) (a b : Bool) (hf : f.SharedInput) (hg : g.SharedInput)
    (hn : f.par.input.Named) : (makeProduct f g a b).SharedInput := by
  unfold makeProduct productPar
  by_cases h : f.par.input = g.par.input
  · rw [if_neg (by simpa using h)]
    exact ⟨⟨hf, .inr ⟨rfl, hn⟩⟩, hg, .inr ⟨h.symm, hn⟩⟩
  · rw [if_pos h]
    exact ⟨⟨hf, .inl rfl⟩, hg, .inl rfl⟩

theorem compoundParLoop_shared (ps : List Par) (r q : Par) (h : compoundParLoop ps r = some q)
    (hr : r.input ≠ .UNKNOWN_INPUT) :
    q.input = .CARTESIAN ∨ (q.input = r.input ∧ ∀ p ∈ ps, p.input = r.input) := by
  induction ps generalizing r with
  | nil =>
    obtain rfl : r = q := Option.some.inj h
    exact .inr ⟨rfl, by simp⟩
  | cons p ps ih =>
    simp only [compoundParLoop] at h
    rw [if_neg hr] at h
    have key : ∀ r1 : Par, (r1.input = r.input ∧ p.input = r.input ∨ r1.input = .CARTESIAN) →
        (if r1.output = .UNKNOWN_OUTPUT then compoundParLoop ps { r1 with output := p.output }
          else if r1.output ≠ p.output then none else compoundParLoop ps r1) = some q →
        q.input = .CARTESIAN ∨ (q.input = r.input ∧ ∀ p' ∈ p :: ps, p'.input = r.input) := by
      intro r1 h1 h2
      have hne : r1.input ≠ .UNKNOWN_INPUT := by
        rcases h1 with h1 | h1
        · rw [h1.1]; exact hr
        · rw [h1]; decide
      have fin : (q.input = .CARTESIAN ∨ (q.input = r1.input ∧ ∀ p' ∈ ps, p'.input = r1.input)) →
          q.input = .CARTESIAN ∨ (q.input = r.input ∧ ∀ p' ∈ p :: ps, p'.input = r.input) := by
        intro h3
        rcases h1 with ⟨e1, e2⟩ | e
        · rcases h3 with h3 | ⟨h3, h4⟩
          · exact .inl h3
          · refine .inr ⟨h3.trans e1, ?_⟩
            intro p' hp'
            rcases List.mem_cons.mp hp' with rfl | hp'
            · exact e2
            · exact (h4 p' hp').trans e1
        · rcases h3 with h3 | ⟨h3, -⟩
          · exact .inl h3
          · exact .inl (h3.trans e)
      split at h2
      · exact fin (ih { r1 with output := p.output } h2 hne)
      · split at h2
        · exact absurd h2 (by simp)
        · exact fin (ih _ h2 hne)
    by_cases he : r.input ≠ p.input
    · rw [if_pos he] at h
      exact key _ (.inr rfl) h
    · rw [if_neg he] at h
      exact key r (.inl ⟨rfl, (not_not.mp he).symm⟩) h

/-- C63.  The sum of functions with a registered parametrization has parts on the directions or on its own
    coordinates. -/
theorem made_compound_shared (fs : List (Bool × Fn)) (f : Fn) (h : makeCompound fs = some f)
    (hfs : ∀ p ∈ fs, p.2.SharedInput ∧ p.2.par.input.Named) : f.SharedInput := by
  unfold makeCompound at h
  cases hc : compoundPar (fs.map fun p => p.2.par) with
  | none => rw [hc] at h; simp at h
  | some q =>
    rw [hc] at h
    obtain rfl := Option.some.inj h
    have hq : q.input = .CARTESIAN ∨ ∀ p ∈ fs, p.2.par.input = q.input := by
      cases fs with
      | nil => simp [compoundPar] at hc
      | cons p ps =>
        rcases compoundParLoop_shared _ _ _ hc (hfs p (by simp)).2.2.2.2.2.2 with h1 | ⟨h1, h2⟩
        · exact .inl h1
        · refine .inr fun p' hp' => ?_
          rw [h1]
          exact h2 p'.2.par (List.mem_map.mpr (⟨p', hp', rfl⟩ : ∃ a ∈ p :: ps, a.2.par = p'.2.par))
    have : ∀ gs : List (Bool × Fn), (∀ p ∈ gs, p ∈ fs) → (Fns.ofList gs).SharedInput q.input := by
      intro gs
      induction gs with
      | nil => intro _; exact True.intro
      | cons p gs ih =>
        intro hg
        have hp := hg p (by simp)
        exact ⟨⟨(hfs p hp).1, hq.imp_right fun (h : ∀ p ∈ fs, p.2.par.input = q.input) => ⟨h p hp, h p hp ▸ (hfs p hp).2⟩⟩, ih fun p' h' => hg p' (by simp [h'])⟩
    exact this fs fun _ h => h

end
end Alta
