import Verif.Props.NonNegative
import Verif.Props.ReciprocityLimits
/-
C64: from the bounds of a composition to those of its parts; limits of the code; examples.
-/
namespace Alta
open Real
noncomputable section

theorem within_below {f : Fn} (h : WithinBounds f f.params) (hp : f.params.length = f.nb) (hl : f.lo.length = f.nb)
    (hh : f.hi.length = f.nb) : f.Inside := by
  have mk : ∀ a b : List ℝ, a.length = b.length → (∀ i < a.length, arr a i ≤ arr b i) → Below a b := by
    intro a b hab h
    apply List.forall₂_iff_get.mpr
    refine ⟨hab, fun i h1 h2 => ?_⟩
    have := h i h1
    simpa [arr, List.getD, h1, h2] using this
  exact ⟨mk _ _ (by omega) fun i hi => (h i (by omega)).1, mk _ _ (by omega) fun i hi => (h i (by omega)).2⟩

theorem below_append {a b c d : List ℝ} (h : Below (a ++ b) (c ++ d)) (hl : a.length = c.length) :
    Below a c ∧ Below b d := by
  induction a generalizing c with
  | nil =>
    obtain rfl : c = [] := List.length_eq_zero_iff.mp hl.symm
    exact ⟨.nil, h⟩
  | cons x a ih =>
    cases c with
    | nil => simp at hl
    | cons y c =>
      rcases h with _ | ⟨h1, h2⟩
      obtain ⟨h3, h4⟩ := ih h2 (by simpa using hl)
      exact ⟨.cons h1 h3, h4⟩

mutual
theorem inside_parts (f : FT LobeObj) (hw : f.toFn.WF) (hn : f.NothingFixed) (h : f.toFn.Inside) :
    f.AllObjects fun o => o.InBounds := by
  match f with
  | .leaf l => exact h.within l.bounds.2
  | .compound p fs =>
    unfold Fn.Inside at h
    rw [composition_params _ hw (by intro σ c s e; cases e)] at h
    exact insides_parts fs p.dimY hw hn h
  | .product p f g a b =>
    obtain ⟨⟨rfl, hnf⟩, rfl, hng⟩ := hn
    obtain ⟨f1, f2⟩ := FT.bounds f
    obtain ⟨g1, g2⟩ := FT.bounds g
    have f3 := f1.length_eq
    have g3 := g1.length_eq
    have f4 := Fn.params_length f.toFn hw.1
    unfold Fn.Inside at h
    rw [composition_params _ hw (by intro σ c s e; cases e)] at h
    simp only [FT.toFn, Fn.lo, Fn.hi, Fn.get, Fns.take_all _ _ f2, Fns.take_all _ _ g2,
      Fns.take_all f.toFn f.toFn.hi (by omega), Fns.take_all g.toFn g.toFn.hi (by omega), Bool.not_false, if_true] at h
    obtain ⟨hlo, hhi⟩ := h
    have l1 : f.toFn.lo.length = (f.toFn.get.take f.toFn.nb).length := f2.trans f4.symm
    have l2 : (f.toFn.get.take f.toFn.nb).length = f.toFn.hi.length := f4.trans (f2.symm.trans f3)
    obtain ⟨a1, a2⟩ := below_append hlo l1
    obtain ⟨b1, b2⟩ := below_append hhi l2
    exact ⟨inside_parts f hw.1 hnf ⟨a1, b1⟩, inside_parts g hw.2.1 hng ⟨a2, b2⟩⟩
theorem insides_parts (fs : FTs LobeObj) (n : ℕ) (hw : fs.toFns.WF n) (hn : fs.NothingFixed) (h : fs.toFns.Inside) :
    fs.AllObjects fun o => o.InBounds := by
  match fs with
  | .nil => exact True.intro
  | .cons a f rest =>
    obtain ⟨⟨ha, hnf⟩, hnr⟩ := hn
    obtain ⟨f1, f2⟩ := FT.bounds f
    have f3 := f1.length_eq
    have f4 := Fn.params_length f.toFn hw.1.1
    have hw' := hw.1.1
    unfold Fns.Inside at h
    simp only [FTs.toFns, Fns.lo, Fns.hi, Fns.get, ha, Fns.take_all _ _ f2,
      Fns.take_all f.toFn f.toFn.hi (by omega), Bool.not_false, Bool.and_true, decide_eq_true_eq] at h
    rcases Nat.eq_zero_or_pos f.toFn.nb with h0 | h0
    · simp only [h0, lt_irrefl, if_false, List.nil_append, gt_iff_lt] at h
      refine ⟨inside_parts f hw' hnf ?_, insides_parts rest n hw.2 hnr h⟩
      have e1 : f.toFn.lo = [] := List.length_eq_zero_iff.mp (by omega)
      have e2 : f.toFn.hi = [] := List.length_eq_zero_iff.mp (by omega)
      have e3 : f.toFn.params = [] := List.length_eq_zero_iff.mp (by omega)
      unfold Fn.Inside
      rw [e1, e2, e3]
      exact ⟨.nil, .nil⟩
    · simp only [h0, if_true, gt_iff_lt] at h
      obtain ⟨hlo, hhi⟩ := h
      have l1 : f.toFn.lo.length = (f.toFn.get.take f.toFn.nb).length := f2.trans f4.symm
      have l2 : (f.toFn.get.take f.toFn.nb).length = f.toFn.hi.length := f4.trans (f2.symm.trans f3)
      obtain ⟨a1, a2⟩ := below_append hlo l1
      obtain ⟨b1, b2⟩ := below_append hhi l2
      exact ⟨inside_parts f hw' hnf ⟨a1, b1⟩, insides_parts rest n hw.2 hnr ⟨a2, b2⟩⟩
end

mutual
theorem all_and (P Q : LobeObj → Prop) (f : FT LobeObj) (h1 : f.AllObjects P) (h2 : f.AllObjects Q) :
    f.AllObjects fun o => P o ∧ Q o := by
  match f with
  | .leaf l => exact ⟨h1, h2⟩
  | .compound p fs => exact alls_and P Q fs h1 h2
  | .product p f g a b => exact ⟨all_and P Q f h1.1 h2.1, all_and P Q g h1.2 h2.2⟩
theorem alls_and (P Q : LobeObj → Prop) (fs : FTs LobeObj) (h1 : fs.AllObjects P) (h2 : fs.AllObjects Q) :
    fs.AllObjects fun o => P o ∧ Q o := by
  match fs with
  | .nil => exact True.intro
  | .cons a f rest => exact ⟨all_and P Q f h1.1 h2.1, alls_and P Q rest h1.2 h2.2⟩
end

/-- C64.  A composition without fixed part whose parameters are within the bounds that it reports is
    not negative, as soon as the factors that the bounds do not cover are not. -/
theorem bounded_nonnegative (f : FT LobeObj) (hw : f.toFn.WF) (hn : f.NothingFixed)
    (hb : WithinBounds f.toFn f.toFn.params) (hf : f.AllObjects NonNegativeFactors) (hs : f.toFn.SharedInput)
    (c : Cart) (hc : c.Above) : f.toFn.NonNegativeAt c := by
  obtain ⟨f1, f2⟩ := FT.bounds f
  have hi := within_below hb (Fn.params_length _ hw) f2 (f1.length_eq.symm.trans f2)
  exact composition_nonnegative f (all_and _ _ f (inside_parts f hw hn hi) hf) hs c hc

/-! ### Limits of the code -/

/-- C64 (limit): the bounds of the Blinn lobe do not keep it from being negative. -/
theorem blinn_negative :
    ∃ (o : LobeObj) (c : Cart), o = .blinn (mkBlinn ⟨1, 1, .COS_TH, .INV_STERADIAN⟩ (fun _ => -1) (fun _ => 1)) ∧
      o.InBounds ∧ c.Above ∧ ¬ o.toFn.NonNegativeAt c := by
  have hm := maxDouble_large
  refine ⟨_, ⟨⟨0, 0, 1⟩, ⟨0, 0, 1⟩⟩, rfl, ?_, ⟨⟨?_, ?_⟩, ?_, ?_⟩, ?_⟩
  · intro i hi
    have hi' : i < 2 := hi
    interval_cases i
    · show -maxDouble ≤ -1 ∧ -1 ≤ maxDouble
      constructor <;> linarith
    · show -maxDouble ≤ 1 ∧ 1 ≤ maxDouble
      constructor <;> linarith
  · unfold V3.IsUnit; norm_num
  · unfold V3.IsUnit; norm_num
  · norm_num
  · norm_num
  · intro h
    have hv : (LobeObj.blinn (mkBlinn ⟨1, 1, .COS_TH, .INV_STERADIAN⟩ (fun _ => -1) (fun _ => 1))).toFn.reflect
        ⟨⟨0, 0, 1⟩, ⟨0, 0, 1⟩⟩ = some [-1] := by
      unfold Fn.reflect
      show (convertInput _ .CARTESIAN .COS_TH).bind _ = _
      rw [convert_from_cartesian _ _ (by decide), fromCartesian_eq _ _ (by norm_num)]
      have hh : (halfVector ⟨⟨0, 0, 1⟩, ⟨0, 0, 1⟩⟩).z = 1 := by
        unfold halfVector
        norm_num
        rw [show (4:ℝ) = 2 ^ 2 by norm_num, sqrt_sq (by norm_num)]
        norm_num
      simp only [fromCartesianSwitch, hh, Option.bind_some, LobeObj.toFn, Fn.value, blinnCls, mkBlinn, arr]
      norm_num
    have := h _ hv (-1) (by simp)
    linarith

/-- C64 (limit): nor do those of the shifted gamma lobe. -/
theorem sgd_negative :
    ∃ (o : LobeObj) (c : Cart), o = .sgd ⟨oneChannel, fun k _ => if k = 8 then -1 else 0⟩ ∧
      o.InBounds ∧ c.Above ∧ ¬ o.toFn.NonNegativeAt c := by
  have hm := maxDouble_large
  refine ⟨_, ⟨⟨0, 0, 1⟩, ⟨0, 0, 1⟩⟩, rfl, ?_, ⟨⟨?_, ?_⟩, ?_, ?_⟩, ?_⟩
  · intro i hi
    have hi' : i < 11 := hi
    interval_cases i
    all_goals
      simp only [LobeObj.toFn, Fn.lo, Fn.hi, Fn.params, Fn.get, Fn.nb, sgdCls, oneChannel, defaultMin, defaultMax, blocks,
        List.range_succ, List.range_zero, arr]
      simp
      try constructor
      all_goals linarith
  · unfold V3.IsUnit; norm_num
  · unfold V3.IsUnit; norm_num
  · norm_num
  · norm_num
  · intro h
    have hv : (LobeObj.sgd ⟨oneChannel, fun k _ => if k = 8 then -1 else 0⟩).toFn.reflect
        ⟨⟨0, 0, 1⟩, ⟨0, 0, 1⟩⟩ = some [-onePi] := by
      rw [reflect_cartesian _ rfl]
      simp only [LobeObj.toFn, Fn.value, sgdCls, oneChannel, List.range_one, List.map_cons, List.map_nil, sgdChannel]
      norm_num [Cart.toList, arr]
    have := h _ hv (-onePi) (by simp)
    unfold onePi at this
    norm_num at this

/-! ### Example -/

/-- the composition of C63 is not negative -/
example (c : Cart) (hc : c.Above) : reciprocalSum.toFn.NonNegativeAt c := by
  have hm := maxDouble_large
  have one : ∀ (a b r : ℝ), a ≤ r → r ≤ b → ∀ i < 1, arr [a] i ≤ arr [r] i ∧ arr [r] i ≤ arr [b] i := by
    intro a b r h1 h2 i hi
    interval_cases i
    exact ⟨h1, h2⟩
  refine composition_nonnegative reciprocalSum ?_ ?_ c hc
  · refine ⟨⟨?_, ?_⟩, ⟨⟨?_, ?_⟩, ⟨?_, ?_⟩, ?_, ?_⟩, True.intro⟩
    · intro i hi; exact absurd hi (Nat.not_lt_zero _)
    · intro i _; norm_num
    · exact one 0 1 (1 / 2) (by norm_num) (by norm_num)
    · exact True.intro
    · intro i hi
      have hi' : i < 2 := hi
      interval_cases i
      · show (0:ℝ) ≤ 1 ∧ 1 ≤ maxDouble
        constructor <;> linarith
      · show (0:ℝ) ≤ 1 / 3 ∧ 1 / 3 ≤ maxDouble
        constructor <;> linarith
    · intro i _; norm_num
    · exact one 1e-6 maxDouble (1 / 3) (by norm_num) (by linarith)
    · exact rfl
  · simp only [reciprocalSum, FT.toFn, FTs.toFns, Fn.SharedInput, Fns.SharedInput, and_true]
    exact ⟨⟨trivial, .inl rfl⟩, ⟨⟨trivial, .inl rfl⟩, ⟨⟨trivial, .inl rfl⟩, trivial, .inl rfl⟩, .inl rfl⟩, .inl rfl⟩

end
end Alta
