import Verif.Props.FunctionFileFlow
import Verif.Props.GeomConvert
/-
Property C56: what a `load` that fails leaves, and what the files do not keep.
-/
namespace Alta
noncomputable section

/-! ### A `load` that fails changes nothing -/

theorem readBlock_false {σ : Type} (name : Str) (olds : List ℝ) (store : List ℝ → σ) (s : σ) (st : Stream)
    (h : (readBlock name olds store s st).1 = false) : (readBlock name olds store s st).2.1 = s := by
  unfold readBlock at h ⊢
  simp only at h ⊢
  split at h
  · cases h
  · rename_i hh; rw [if_neg hh]

theorem LobeObj.load_false (l : LobeObj) (st : Stream) (h : (l.load st).1 = false) : (l.load st).2.1 = l := by
  cases l
  case retrobeckmann s =>
    simp only [LobeObj.load, wrap, RetroBeckmannS.load] at h ⊢
    split at h
    · rename_i h1
      split at h
      · cases h
      · rename_i h2; rw [if_pos h1, if_neg h2]
    · rename_i h1; rw [if_neg h1]
  case abc s =>
    simp only [LobeObj.load, wrap, AbcS.load] at h ⊢
    split at h
    · rename_i h1
      split at h
      · cases h
      · rename_i h2; rw [if_pos h1, if_neg h2]
    · rename_i h1; rw [if_neg h1]
  case isoLafortune s =>
    simp only [LobeObj.load, wrap, IsoLafortuneS.load] at h ⊢
    split at h
    · rename_i h1
      split at h
      · cases h
      · rename_i h2; rw [if_pos h1, if_neg h2]
    · rename_i h1; rw [if_neg h1]
  case lafortune s =>
    simp only [LobeObj.load, wrap, LafortuneS.load] at h ⊢
    split at h
    · cases h
    · rename_i h1; rw [if_neg h1]
  all_goals
    simp only [LobeObj.load, wrap, OneS.load, SgdS.load] at h ⊢
    rw [readBlock_false _ _ _ _ _ h]

mutual
/-- C56: a `load` that returns false leaves the function as it was, whatever the stream. -/
theorem FT.load_false : ∀ (f : FT LobeObj) (st : Stream), (f.load st).1 = false → (f.load st).2.1 = f
  | .leaf l, st, h => by
    simp only [FT.load] at h ⊢
    rw [l.load_false st h]
  | .compound p fs, st, h => by
    simp only [FT.load, decide_eq_false_iff_not, not_lt, Nat.le_zero] at h ⊢
    rw [FTs.load_zero fs st h]
  | .product p f g a b, st, h => by
    simp only [FT.load, Bool.or_eq_false_iff] at h ⊢
    rw [f.load_false st h.1]
    rw [g.load_false _ h.2]
theorem FTs.load_zero : ∀ (fs : FTs LobeObj) (st : Stream), (fs.load st).1 = 0 → (fs.load st).2.1 = fs
  | .nil, _, _ => by simp only [FTs.load]
  | .cons a f rest, st, h => by
    simp only [FTs.load] at h ⊢
    cases hf : (f.load st).1 with
    | true => rw [hf] at h; simp at h
    | false =>
      rw [hf] at h
      simp only [Bool.false_eq_true, if_false] at h ⊢
      rw [f.load_false st hf, rest.load_zero _ h]
end

/-! ### Limits -/

/-- Limit: a function with a part of the class sgd cannot be saved, which ends the program; all the others are. -/
theorem sgd_not_saved (fmt : ℝ → Decimal) (args : SMap) :
    (∀ s : SgdS, saveFunction fmt args (.leaf (.sgd s)) = none) ∧
    (∀ (p : Par) (fs : FTs LobeObj), saveFunction fmt args (.compound p fs) = none ↔ fs.saves = false) ∧
    (∀ (a : SMap) (s : SgdS) (r : FTs LobeObj), (FTs.cons a (.leaf (.sgd s)) r).saves = false) ∧
    (∀ (a : SMap) (f : FT LobeObj) (r : FTs LobeObj), r.saves = false → (FTs.cons a f r).saves = false) ∧
    ∀ (p : Par) (f g : FT LobeObj) (a b : Bool), saveFunction fmt args (.product p f g a b) = none ↔
      saveFunction fmt args f = none ∨ saveFunction fmt args g = none := by
  have key : ∀ f, saveFunction fmt args f = none ↔ f.saves = false := by
    intro f
    unfold saveFunction
    cases f.saves <;> simp
  refine ⟨fun s => rfl, fun p fs => key _, fun a s r => rfl, fun a f r h => ?_, fun p f g a b => ?_⟩
  · simp only [FTs.saves, h, Bool.and_false]
  · rw [key, key, key]
    simp only [FT.saves, Bool.and_eq_false_iff]

/-- Limit: an object of another class can be saved. -/
theorem lobe_saved (fmt : ℝ → Decimal) (args : SMap) (l : LobeObj) :
    saveFunction fmt args (.leaf l) = none ↔ ∃ s, l = .sgd s := by
  cases l <;> simp [saveFunction, FT.saves, LobeObj.saves]

/-- Limit: the kind of a retro-Beckmann lobe is inverted by its file: `BACK` is written for the back
    vector, and read as its contrary.  The coefficients are read. -/
theorem retrobeckmann_inverted (fmt : ℝ → Decimal) (hf : PrintsDigits fmt) (s0 s : RetroBeckmannS)
    (h : s0.par = s.par) (pre rest : Str) (hp : Skippable pre) :
    ∃ s1 ws', LobeObj.load (.retrobeckmann s0) (some (pre ++ (LobeObj.saveCall fmt (.retrobeckmann s) ++ rest))) =
        (true, .retrobeckmann s1, some (ws' ++ rest)) ∧
      s1.useBack = !s.useBack ∧
      Fn.Same (.leaf retrobeckmannCls { s1 with useBack := s.useBack })
        (.leaf retrobeckmannCls { s with ks := fun i => printed fmt (s.ks i), a := fun i => printed fmt (s.a i) }) := by
  have hd : s0.par.dimY = s.par.dimY := congrArg Par.dimY h
  let pairs : ℕ → List (Str × ℝ) := fun i => [("Ks ".toList, s.ks i), ("a  ".toList, s.a i)]
  have ec := channelLines_eq fmt s.par.dimY (fun i => line fmt "Ks ".toList (s.ks i) ++ line fmt "a  ".toList (s.a i))
    pairs (fun i => keyLines_two _ _ _ _ _)
  let ty : Str := if s.useBack then "BACK".toList else "RETRO".toList
  have hty : IsWord ty := by
    simp only [ty]; split <;> exact ⟨by decide, by decide⟩
  have e : LobeObj.saveCall fmt (.retrobeckmann s) ++ rest = funcLine "nonlinear_function_retrobeckmann".toList ++
      ("#TYPE".toList ++ ([' '] ++ (ty ++ ('\n' ::
        (keyLines fmt ((List.range s.par.dimY).flatMap pairs) ++ ('\n' :: rest)))))) := by
    simp only [LobeObj.saveCall]
    rw [ec]
    have : "#TYPE ".toList = "#TYPE".toList ++ [' '] := by decide
    rw [this]
    simp only [List.append_assoc, List.cons_append, List.nil_append, ty]
  obtain ⟨ws', h1, h2⟩ := readFields_lines fmt hf ((List.range s.par.dimY).flatMap pairs)
    (blocks s0.par.dimY fun i => [s0.ks i, s0.a i]) ['\n'] ('\n' :: rest) newlines_one
    (by rw [blocks_length _ 2 _ (fun _ _ => rfl), pairs_length _ 2 _ (fun _ => rfl), hd])
    (by intro p hp
        obtain ⟨i, _, hi⟩ := List.mem_flatMap.1 hp
        exact keys_two _ _ _ _ key_Ks key_a p hi)
  rw [vals_eq, List.singleton_append] at h2
  refine ⟨⟨s0.par, readInto s0.par.dimY (blocks s.par.dimY fun i => (pairs i).map fun p => printed fmt p.2) (fun i => i * 2 + 0) s0.ks,
    readInto s0.par.dimY (blocks s.par.dimY fun i => (pairs i).map fun p => printed fmt p.2) (fun i => i * 2 + 1) s0.a,
    !s.useBack⟩, ws' ++ ['\n'], ?_, rfl, ?_⟩
  · have t1 := readToken_word "#TYPE".toList ['\n'] "#TYPE".toList
      ([' '] ++ (ty ++ ('\n' :: (keyLines fmt ((List.range s.par.dimY).flatMap pairs) ++ ('\n' :: rest)))))
      newlines_one.spaces ⟨by decide, by decide⟩ (spaceAhead_cons _ _ (by decide))
    rw [List.singleton_append] at t1
    have t2 := readToken_word "RETRO".toList [' '] ty
      ('\n' :: (keyLines fmt ((List.range s.par.dimY).flatMap pairs) ++ ('\n' :: rest)))
      (by unfold Spaces; decide) hty (spaceAhead_cons _ _ (by decide))
    have hh := readHead_saved hp "nonlinear_function_retrobeckmann".toList "nonlinear_function_retrobeckmann".toList
      ("#TYPE".toList ++ ([' '] ++ (ty ++ ('\n' ::
        (keyLines fmt ((List.range s.par.dimY).flatMap pairs) ++ ('\n' :: rest)))))) ⟨by decide, by decide⟩
    have hb : decide (ty = "RETRO".toList) = !s.useBack := by
      rcases Bool.eq_false_or_eq_true s.useBack with h | h
      · have e3 : ty = "BACK".toList := by simp only [ty, h, if_true]
        rw [e3, h]; decide
      · have e3 : ty = "RETRO".toList := by simp only [ty, h, Bool.false_eq_true, if_false]
        rw [e3, h]; decide
    rw [e]
    simp only [LobeObj.load, RetroBeckmannS.load, hh, t1, t2, h2, hb, decide_true, if_true, wrap]
    rw [List.append_assoc]
    rfl
  · have key := fun old i (hi : i < s0.par.dimY) => arr_two s0.par.dimY s.par.dimY hd (fun i => printed fmt (s.ks i))
      (fun i => printed fmt (s.a i)) old i hi
    apply retrobeckmann_same
    · exact h
    · rfl
    · intro i hi; exact (key s0.ks i hi).1
    · intro i hi; exact (key s0.a i hi).2

/-- Limit: all the lobes of the class lafortune are given the exponents of the last one (two lobes, one
    channel). -/
theorem lafortune_exponents_lost (fmt : ℝ → Decimal) (hf : PrintsDigits fmt) (s0 s : LafortuneS)
    (h : s0.par = s.par) (hn : s.n = 2) (hd : s.par.dimY = 1) (hN : printed fmt (s.N 0) ≠ printed fmt (s.N 1))
    (pre rest : Str) (hp : Skippable pre) :
    ∃ s1 ws', LobeObj.load (.lafortune s0) (some (pre ++ (LobeObj.saveCall fmt (.lafortune s) ++ rest))) =
        (true, .lafortune s1, some (ws' ++ rest)) ∧
      ¬ Fn.Same (.leaf lafortuneCls s1) (LobeObj.rounded fmt (.lafortune s)).toFn := by
  obtain ⟨s1, ws', -, h2, h3, h4, -, -, h7⟩ := lafortune_load_saved fmt hf s0 s h pre rest hp
  refine ⟨s1, ws', h2, ?_⟩
  rintro ⟨-, -, h8, -⟩
  have e1 : (Fn.leaf lafortuneCls s1).params =
      [s1.C 0, s1.C 1, s1.C 2, s1.N 0, s1.C 3, s1.C 4, s1.C 5, s1.N 1] := by
    simp [Fn.params, Fn.nb, Fn.get, lafortuneCls, h3, h4, hn, hd, blocks, List.range_succ]
  have e2 : (LobeObj.rounded fmt (.lafortune s)).toFn.params =
      [printed fmt (s.C 0), printed fmt (s.C 1), printed fmt (s.C 2), printed fmt (s.N 0),
       printed fmt (s.C 3), printed fmt (s.C 4), printed fmt (s.C 5), printed fmt (s.N 1)] := by
    simp [LobeObj.rounded, LobeObj.toFn, Fn.params, Fn.nb, Fn.get, lafortuneCls, hn, hd, blocks, List.range_succ]
  rw [e1, e2] at h8
  simp only [List.cons.injEq] at h8
  have h9 := h7 0
  rw [if_pos ⟨by omega, by omega⟩, hn, hd] at h9
  exact hN (h8.2.2.2.1.symm.trans h9)

/-- Limit: the type of a spherical gaussian is not in its file; the object that reads keeps its own
    (`Mirror` for a new object), which gives other values. -/
theorem sg_type_not_kept (fmt : ℝ → Decimal) (s : SgS) (h1 : s.type ≠ .Moment) (t : SgType) (h2 : t ≠ .Moment) :
    LobeObj.saveCall fmt (.sg s) = LobeObj.saveCall fmt (.sg { s with type := t }) := by
  simp only [LobeObj.saveCall, if_neg h1, if_neg h2]

/-- Limit: a compound of which only one member was found in the file is loaded; the others keep their
    coefficients. -/
theorem compound_partly_loaded (fmt : ℝ → Decimal) (hf : PrintsDigits fmt) (p : Par) (a b : SMap) (s0 s : BlinnS)
    (d : DiffuseS) (h : s0.par = s.par) (pre : Str) (hp : Skippable pre) :
    ∃ l1 st, FT.load (.compound p (.cons a (.leaf (.blinn s0)) (.cons b (.leaf (.diffuse d)) .nil)))
        (some (pre ++ (LobeObj.saveCall fmt (.blinn s) ++ []))) =
      (true, .compound p (.cons a (.leaf l1) (.cons b (.leaf (.diffuse d)) .nil)), st) ∧
      Fn.Same l1.toFn (LobeObj.rounded fmt (.blinn s)).toFn := by
  obtain ⟨l1, ws', h1, h2, h3⟩ := blinn_readsBack fmt hf s0 s h pre [] hp
  have hd : ((LobeObj.diffuse d).load (some (ws' ++ []))).1 = false := by
    have hs : skipLines (ws' ++ []) = .failed := by
      rw [skipLines_skippable h1.skippable, skipLines.eq_def]
    have hh : readHead "nonlinear_function_diffuse".toList (some (ws' ++ [])) = (false, none) := by
      simp only [readHead, hs]
    simp only [LobeObj.load, wrap, readBlock, hh, Bool.false_eq_true, if_false]
  have hd2 := LobeObj.load_false _ _ hd
  refine ⟨l1, seekBack (some (ws' ++ [])) ((LobeObj.diffuse d).load (some (ws' ++ []))).2.2, ?_, h3⟩
  simp only [FT.load, FTs.load, h2, if_true, hd, hd2, Bool.false_eq_true, if_false]
  rfl

/-! ### Files that end too early -/

theorem readHead_no_name (name ws : Str) (hw : Spaces ws) :
    readHead name (some ("#FUNC".toList ++ ws)) = (false, none) := by
  have h1 : skipLines ("#FUNC".toList ++ ws) = .found ("#FUNC".toList ++ ws) := by
    rw [skipLines.eq_def]
    rfl
  have h2 : readWord ("#FUNC".toList ++ ws) = ("#FUNC".toList, ws) := by
    have := readWord_word [] "#FUNC".toList ws (by simp) ⟨by decide, by decide⟩ (by
      intro c r h
      exact hw c (by rw [h]; simp))
    simpa using this
  have h3 : (readWord ws).1 = [] := by
    unfold readWord
    have : ws.dropWhile isSpace = [] := by
      rw [List.dropWhile_eq_nil_iff]
      exact hw
    simp [this]
  have h4 : ("#FUNC".toList : Str) ≠ [] := by decide
  simp only [readHead, h1, readToken, h2, if_neg h4, decide_true, if_true, h3]

/-- C56: a file that ends before the name of the function is not loaded, and the object is not changed. -/
theorem no_name_not_loaded (l : LobeObj) (ws : Str) (hw : Spaces ws) :
    (l.load (some ("#FUNC".toList ++ ws))).1 = false ∧ (l.load (some ("#FUNC".toList ++ ws))).2.1 = l := by
  have h : (l.load (some ("#FUNC".toList ++ ws))).1 = false := by
    cases l <;> simp only [LobeObj.load, wrap, readBlock, OneS.load, RetroBeckmannS.load, AbcS.load, IsoLafortuneS.load,
      LafortuneS.load, SgdS.load, readHead_no_name _ ws hw, Bool.false_eq_true, if_false]
  exact ⟨h, l.load_false _ h⟩

theorem readFields_failed (olds : List ℝ) : readFields olds none = (olds, none) := by
  induction olds with
  | nil => rfl
  | cons v vs ih => simp only [readFields, readField, ih]

theorem readFields_blank (olds : List ℝ) (ws : Str) (hw : Spaces ws) : (readFields olds (some ws)).1 = olds := by
  cases olds with
  | nil => rfl
  | cons v vs =>
    have h3 : (readWord ws).1 = [] := by
      unfold readWord
      have : ws.dropWhile isSpace = [] := by
        rw [List.dropWhile_eq_nil_iff]
        exact hw
      simp [this]
    simp only [readFields, readField, h3, if_true, readFields_failed]

/-- Limit: a file that ends after the name is loaded with success, and the object keeps its coefficients. -/
theorem no_numbers_loaded (s : BlinnS) :
    ∃ s1, (LobeObj.load (.blinn s) (some (funcLine "nonlinear_function_blinn".toList))).1 = true ∧
      (LobeObj.load (.blinn s) (some (funcLine "nonlinear_function_blinn".toList))).2.1 = .blinn s1 ∧
      s1.par = s.par ∧ (∀ i < s.par.dimY, s1.ks i = s.ks i) ∧ ∀ i < s.par.dimY, s1.N i = s.N i := by
  have h1 : readHead "nonlinear_function_blinn".toList (some (funcLine "nonlinear_function_blinn".toList)) =
      (true, some ['\n']) := by decide +kernel
  have h2 := readFields_blank (blocks s.par.dimY fun i => [s.ks i, s.N i]) ['\n'] (by unfold Spaces; decide)
  have key := fun old i (hi : i < s.par.dimY) => arr_two s.par.dimY s.par.dimY rfl s.ks s.N old i hi
  simp only [LobeObj.load, wrap, readBlock, h1, if_true, h2]
  exact ⟨_, trivial, rfl, rfl, fun i hi => (key s.ks i hi).1, fun i hi => (key s.N i hi).2⟩

end
end Alta
