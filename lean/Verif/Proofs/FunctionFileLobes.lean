import Verif.Props.FunctionFile
/-
Reading back the lobes of the plugins lafortune and isotropic lafortune.
-/
namespace Alta
noncomputable section

theorem readFields_groups (fmt : ℝ → Decimal) (hf : PrintsDigits fmt) (gs : List (List (Str × ℝ))) :
    ∀ (olds : List ℝ) (ws rest : Str), Newlines ws → olds.length = gs.flatten.length →
    (∀ l ∈ gs, ∀ p ∈ l, GoodKey p.1) →
    ∃ ws', Newlines ws' ∧
      readFields olds (some (ws ++ ((gs.flatMap fun l => keyLines fmt l ++ ['\n']) ++ rest))) =
        (gs.flatten.map fun p => printed fmt p.2, some (ws' ++ rest)) := by
  induction gs with
  | nil =>
    intro olds ws rest hw hl _
    rw [List.flatten_nil, List.length_nil, List.length_eq_zero_iff] at hl
    subst hl
    exact ⟨ws, hw, rfl⟩
  | cons l gs ih =>
    intro olds ws rest hw hl hk
    rw [List.flatten_cons, List.length_append] at hl
    obtain ⟨w1, h1, e1⟩ := readFields_lines fmt hf l (olds.take l.length) ws
      ('\n' :: ((gs.flatMap fun l => keyLines fmt l ++ ['\n']) ++ rest)) hw
      (by rw [List.length_take]; omega) (hk l (by simp))
    obtain ⟨w2, h2, e2⟩ := ih (olds.drop l.length) (w1 ++ ['\n']) rest (h1.append newlines_one)
      (by rw [List.length_drop]; omega) (fun l' hl' => hk l' (by simp [hl']))
    refine ⟨w2, h2, ?_⟩
    have e : ws ++ (((l :: gs).flatMap fun l => keyLines fmt l ++ ['\n']) ++ rest) =
        ws ++ (keyLines fmt l ++ ('\n' :: ((gs.flatMap fun l => keyLines fmt l ++ ['\n']) ++ rest))) := by
      simp
    rw [List.append_assoc, List.singleton_append] at e2
    rw [e, ← List.take_append_drop l.length olds, readFields_append, e1]
    simp only
    rw [e2]
    simp

theorem readFields_lobes (fmt : ℝ → Decimal) (hf : PrintsDigits fmt) (m d K : ℕ) (f : ℕ → ℕ → Str)
    (pairs : ℕ → List (Str × ℝ)) (h : ∀ n i, f n i = keyLines fmt (pairs (n * d + i)))
    (hlen : ∀ k, (pairs k).length = K) (hk : ∀ k, ∀ p ∈ pairs k, GoodKey p.1)
    (olds : List ℝ) (hl : olds.length = m * d * K) (ws rest : Str) (hw : Newlines ws) :
    ∃ ws', Newlines ws' ∧
      readFields olds (some (ws ++ (((List.range m).flatMap fun n => channelLines d (f n)) ++ rest))) =
        (blocks (m * d) fun k => (pairs k).map fun p => printed fmt p.2, some (ws' ++ rest)) := by
  let gs : List (List (Str × ℝ)) := (List.range m).map fun n => (List.range d).flatMap fun i => pairs (n * d + i)
  have hb : (gs.flatten.map fun p => printed fmt p.2) =
      blocks (m * d) fun k => (pairs k).map fun p => printed fmt p.2 := by
    rw [← blocks_blocks m d fun k => (pairs k).map fun p => printed fmt p.2]
    simp only [gs, blocks, List.flatten_eq_flatMap, List.flatMap_map, List.map_flatMap, id]
  have hlen2 : gs.flatten.length = m * d * K := by
    have := congrArg List.length hb
    rw [List.length_map, blocks_length _ K _ (fun k _ => by rw [List.length_map, hlen])] at this
    exact this
  obtain ⟨ws', h1, h2⟩ := readFields_groups fmt hf gs olds ws rest hw (by rw [hl, hlen2])
    (by
      intro l hl p hp
      obtain ⟨n, _, rfl⟩ := List.mem_map.1 hl
      obtain ⟨i, _, hi⟩ := List.mem_flatMap.1 hp
      exact hk _ p hi)
  refine ⟨ws', h1, ?_⟩
  rw [hb] at h2
  rw [← h2]
  congr 4
  simp only [gs, List.flatMap_map]
  congr 1
  funext n
  rw [channelLines_eq fmt d (f n) (fun i => pairs (n * d + i)) (h n)]

theorem isoLafortune_readsBack (fmt : ℝ → Decimal) (hf : PrintsDigits fmt) (s0 s : IsoLafortuneS)
    (h : s0.par = s.par) : LobeObj.ReadsBack fmt (.isoLafortune s0) (.isoLafortune s) := by
  intro pre rest hp
  let pairs : ℕ → List (Str × ℝ) := fun k =>
    [("Cxy ".toList, s.C (k * 2 + 0)), ("Cz  ".toList, s.C (k * 2 + 1)), ("N   ".toList, s.N k)]
  let f : ℕ → ℕ → Str := fun n i =>
        line fmt "Cxy ".toList (s.C ((n * s.par.dimY + i) * 2 + 0)) ++
        line fmt "Cz  ".toList (s.C ((n * s.par.dimY + i) * 2 + 1)) ++
        line fmt "N   ".toList (s.N (n * s.par.dimY + i))
  obtain ⟨ws', h1, h2⟩ := readFields_lobes fmt hf s.n s.par.dimY 3 f pairs
    (fun n i => keyLines_three _ _ _ _ _ _ _) (fun _ => rfl)
    (fun k => keys_three _ _ _ _ _ _ key_Cxy key_Cz' key_N')
    (isoLafortuneCls.get { s0 with n := s.n })
    (by rw [isoLafortune_get, blocks_length _ 3 _ (fun _ _ => rfl), h]) ['\n'] rest newlines_one
  have e : LobeObj.saveCall fmt (.isoLafortune s) ++ rest = funcLine "nonlinear_function_lafortune".toList ++
      ("#NB_LOBES".toList ++ ([' '] ++ (showNat s.n ++ (['\n'] ++
        (((List.range s.n).flatMap fun n => channelLines s.par.dimY (f n)) ++ rest))))) := by
    simp only [LobeObj.saveCall]
    have : "#NB_LOBES ".toList = "#NB_LOBES".toList ++ [' '] := by decide
    rw [this]
    simp only [f, List.append_assoc]
  refine ⟨.isoLafortune ⟨s0.par, s.n,
    isoLafC (s.n * s0.par.dimY) (blocks (s.n * s.par.dimY) fun k => (pairs k).map fun p => printed fmt p.2) s0.C,
    readInto (s.n * s0.par.dimY) (blocks (s.n * s.par.dimY) fun k => (pairs k).map fun p => printed fmt p.2)
      (fun k => k * 3 + 2) s0.N⟩, ws', h1, ?_, ?_⟩
  · rw [e]
    simp only [LobeObj.load, IsoLafortuneS.load]
    rw [readHead_saved hp _ _ _ ⟨by decide, by decide⟩]
    simp only [decide_true, if_true]
    have t1 := readToken_word "#NB_LOBES".toList ['\n'] "#NB_LOBES".toList
      ([' '] ++ (showNat s.n ++ (['\n'] ++
        (((List.range s.n).flatMap fun n => channelLines s.par.dimY (f n)) ++ rest))))
      newlines_one.spaces ⟨by decide, by decide⟩ (spaceAhead_cons _ _ (by decide))
    rw [List.singleton_append] at t1
    rw [t1]
    simp only [decide_true, if_true]
    have t3 := readNat_showNat [' '] (['\n'] ++
        (((List.range s.n).flatMap fun n => channelLines s.par.dimY (f n)) ++ rest)) s.n (by unfold Spaces; decide)
        (noDigit_space _ _ (by decide))
    rw [t3]
    simp only
    rw [h2]
    rfl
  · apply isoLafortune_same
    · exact h
    · rfl
    · intro i hi
      change i < s.n * s0.par.dimY * 2 at hi
      change isoLafC _ _ _ i = printed fmt (s.C i)
      unfold isoLafC
      rw [if_pos hi, arr_blocks _ 3 _ (fun _ _ => rfl) (i / 2) (i % 2) (by rw [← h]; omega) (by omega)]
      have hm : i = i / 2 * 2 + i % 2 := by omega
      rcases Nat.mod_two_eq_zero_or_one i with hz | hz
      · rw [hz]; conv_rhs => rw [hm, hz]
        rfl
      · rw [hz]; conv_rhs => rw [hm, hz]
        rfl
    · intro i hi
      change i < s.n * s0.par.dimY at hi
      refine (readInto_lt (s.n * s0.par.dimY) _ (fun k => k * 3 + 2) s0.N i hi).trans ?_
      rw [arr_blocks _ 3 _ (fun _ _ => rfl) i 2 (by rw [← h]; exact hi) (by norm_num)]
      rfl

theorem keys_four (a b c d : Str) (x y z w : ℝ) (ha : GoodKey a) (hb : GoodKey b) (hc : GoodKey c) (hd : GoodKey d) :
    ∀ p ∈ [(a, x), (b, y), (c, z), (d, w)], GoodKey p.1 := by
  intro p hp
  simp only [List.mem_cons, List.not_mem_nil, or_false] at hp
  rcases hp with rfl | rfl | rfl | rfl
  · exact ha
  · exact hb
  · exact hc
  · exact hd

theorem keyLines_four (fmt : ℝ → Decimal) (a b c d : Str) (x y z w : ℝ) :
    line fmt a x ++ line fmt b y ++ line fmt c z ++ line fmt d w =
      keyLines fmt [(a, x), (b, y), (c, z), (d, w)] := by
  simp [keyLines]

/-- What the `load` of lafortune gives for any number of lobes: the exponents are those of the last
    lobe. -/
theorem lafortune_load_saved (fmt : ℝ → Decimal) (hf : PrintsDigits fmt) (s0 s : LafortuneS)
    (h : s0.par = s.par) (pre rest : Str) (hp : Skippable pre) :
    ∃ s1 ws', Newlines ws' ∧
      LobeObj.load (.lafortune s0) (some (pre ++ (LobeObj.saveCall fmt (.lafortune s) ++ rest))) =
        (true, .lafortune s1, some (ws' ++ rest)) ∧
      s1.par = s.par ∧ s1.n = s.n ∧ s1.kd = s0.kd ∧
      (∀ i < s.n * s.par.dimY * 3, s1.C i = printed fmt (s.C i)) ∧
      (∀ i, s1.N i = if s.n ≠ 0 ∧ i < s.par.dimY then printed fmt (s.N ((s.n - 1) * s.par.dimY + i)) else s0.N i) := by
  let pairs : ℕ → List (Str × ℝ) := fun k =>
    [("Cx ".toList, s.C (k * 3 + 0)), ("Cx ".toList, s.C (k * 3 + 1)), ("Cz ".toList, s.C (k * 3 + 2)),
     ("N  ".toList, s.N k)]
  let f : ℕ → ℕ → Str := fun n i =>
        line fmt "Cx ".toList (s.C ((n * s.par.dimY + i) * 3 + 0)) ++
        line fmt "Cx ".toList (s.C ((n * s.par.dimY + i) * 3 + 1)) ++
        line fmt "Cz ".toList (s.C ((n * s.par.dimY + i) * 3 + 2)) ++
        line fmt "N  ".toList (s.N (n * s.par.dimY + i))
  obtain ⟨ws', h1, h2⟩ := readFields_lobes fmt hf s.n s.par.dimY 4 f pairs
    (fun n i => keyLines_four _ _ _ _ _ _ _ _ _) (fun _ => rfl)
    (fun k => keys_four _ _ _ _ _ _ _ _ key_Cx key_Cx key_Cz key_N)
    (lafortuneCls.get { s0 with n := s.n })
    (by rw [lafortune_get, blocks_length _ 4 _ (fun _ _ => rfl), h]) ['\n'] rest newlines_one
  have e : LobeObj.saveCall fmt (.lafortune s) ++ rest = funcLine "nonlinear_function_lafortune".toList ++
      ("#NB_LOBES".toList ++ ([' '] ++ (showNat s.n ++ (['\n'] ++
        (((List.range s.n).flatMap fun n => channelLines s.par.dimY (f n)) ++ rest))))) := by
    simp only [LobeObj.saveCall]
    have : "#NB_LOBES ".toList = "#NB_LOBES".toList ++ [' '] := by decide
    rw [this]
    simp only [f, List.append_assoc]
  let v := blocks (s.n * s.par.dimY) fun k => (pairs k).map fun p => printed fmt p.2
  refine ⟨{ s0 with n := s.n, C := lafC (s.n * s0.par.dimY) v s0.C
                    N := fun i => if s.n ≠ 0 ∧ i < s0.par.dimY then
                      arr v (((s.n - 1) * s0.par.dimY + i) * 4 + 3) else s0.N i }, ws', h1, ?_, h, rfl, rfl, ?_, ?_⟩
  · rw [e]
    have tc : readCount 0 (some ('\n' :: ("#NB_LOBES".toList ++ ([' '] ++ (showNat s.n ++ (['\n'] ++
        (((List.range s.n).flatMap fun n => channelLines s.par.dimY (f n)) ++ rest))))))) =
        (s.n, some (['\n'] ++ (((List.range s.n).flatMap fun n => channelLines s.par.dimY (f n)) ++ rest))) := by
      have t1 := readWord_word ['\n'] "#NB_LOBES".toList
        ([' '] ++ (showNat s.n ++ (['\n'] ++
          (((List.range s.n).flatMap fun n => channelLines s.par.dimY (f n)) ++ rest))))
        newlines_one.spaces ⟨by decide, by decide⟩ (spaceAhead_cons _ _ (by decide))
      rw [List.singleton_append] at t1
      have t3 := readNat_showNat [' '] (['\n'] ++
        (((List.range s.n).flatMap fun n => channelLines s.par.dimY (f n)) ++ rest)) s.n (by unfold Spaces; decide)
        (noDigit_space _ _ (by decide))
      simp only [readCount, t1, t3, if_neg (show "#NB_LOBES".toList ≠ [] by decide)]
    have hh := readHead_saved hp "nonlinear_function_lafortune".toList "nonlinear_function_lafortune".toList
      ("#NB_LOBES".toList ++ ([' '] ++ (showNat s.n ++ (['\n'] ++
        (((List.range s.n).flatMap fun n => channelLines s.par.dimY (f n)) ++ rest)))))
      ⟨by decide, by decide⟩
    simp only [LobeObj.load, LafortuneS.load, hh, decide_true, if_true, tc, h2]
    rfl
  · intro i hi
    change lafC _ _ _ i = _
    unfold lafC
    rw [if_pos (by rw [h]; exact hi), arr_blocks _ 4 _ (fun _ _ => rfl) (i / 3) (i % 3) (by omega) (by omega)]
    have hm : i = i / 3 * 3 + i % 3 := by omega
    have h3 : i % 3 = 0 ∨ i % 3 = 1 ∨ i % 3 = 2 := by omega
    rcases h3 with hz | hz | hz
    all_goals
      rw [hz]; conv_rhs => rw [hm, hz]
      rfl
  · intro i
    change (if s.n ≠ 0 ∧ i < s0.par.dimY then _ else _) = _
    rw [h]
    split
    · rename_i hi
      have hlt := lobe_index s.n s.par.dimY (s.n - 1) i (by omega) hi.2
      rw [arr_blocks _ 4 _ (fun _ _ => rfl) ((s.n - 1) * s.par.dimY + i) 3 hlt (by norm_num)]
      rfl
    · rfl

theorem lafortune_readsBack (fmt : ℝ → Decimal) (hf : PrintsDigits fmt) (s0 s : LafortuneS)
    (h : s0.par = s.par) (hkd : s0.kd = s.kd) (hn : s.n = 1) :
    LobeObj.ReadsBack fmt (.lafortune s0) (.lafortune s) := by
  intro pre rest hp
  obtain ⟨s1, ws', h1, h2, h3, h4, h5, h6, h7⟩ := lafortune_load_saved fmt hf s0 s h pre rest hp
  refine ⟨_, ws', h1, h2, ?_⟩
  apply lafortune_same
  · exact h3
  · exact h4
  · intro i hi; rw [h3, h4] at hi; exact h6 i hi
  · intro i hi
    rw [h3, h4, hn] at hi
    have hi' : i < s.par.dimY := by omega
    rw [h7, if_pos ⟨by omega, hi'⟩, hn]
    simp
  · rw [h5]; exact hkd

/-- Every class of plugin that `CanRead` allows. -/
theorem readsBack_of_canRead (fmt : ℝ → Decimal) (hf : PrintsDigits fmt) (l0 l : LobeObj) (h : l0.CanRead l) :
    LobeObj.ReadsBack fmt l0 l := by
  cases l0 <;> cases l <;> simp only [LobeObj.CanRead] at h
  · exact blinn_readsBack fmt hf _ _ h
  · exact retroblinn_readsBack fmt hf _ _ h
  · exact beckmann_readsBack fmt hf _ _ h
  · exact ward_readsBack fmt hf _ _ h
  · exact abc_readsBack fmt hf _ _ h.1 h.2
  · exact diffuse_readsBack fmt hf _ _ h
  · exact sg_readsBack fmt hf _ _ h.1 h.2
  · exact isoLafortune_readsBack fmt hf _ _ h
  · exact lafortune_readsBack fmt hf _ _ h.1 h.2.1 h.2.2
  · exact schlickFresnel_readsBack fmt hf _ _ h
  · exact normalizedSchlick_readsBack fmt hf _ _ h
  · exact retroSchlick_readsBack fmt hf _ _ h
  · exact schlickMasking_readsBack fmt hf _ _ h
  · exact smith_readsBack fmt hf _ _ h
  · exact walterSmith_readsBack fmt hf _ _ h

mutual
/-- Reading back a function in a function built in the same way. -/
theorem FT.load_saved (fmt : ℝ → Decimal) (hf : PrintsDigits fmt) : ∀ (f0 f : FT LobeObj), f0.CanRead f →
    ∀ pre rest : Str, Skippable pre → ∃ f1 ws', Skippable ws' ∧
      f0.load (some (pre ++ (f.saveCall fmt ++ rest))) = (true, f1, some (ws' ++ rest)) ∧
      f1.LeafSame (f.rounded fmt)
  | .leaf l0, .leaf l, h, pre, rest, hp => by
    simp only [FT.CanRead] at h
    obtain ⟨l1, ws', h1, h2, h3⟩ := readsBack_of_canRead fmt hf l0 l h pre rest hp
    refine ⟨.leaf l1, ws', h1.skippable, ?_, ?_⟩
    · simp only [FT.load, FT.saveCall, h2]
    · simpa only [FT.rounded, FT.LeafSame] using h3
  | .compound p0 fs0, .compound p fs, h, pre, rest, hp => by
    simp only [FT.CanRead] at h
    obtain ⟨rfl, hne, hc⟩ := h
    obtain ⟨k, fs1, ws', h1, h2, h3, h4⟩ := FTs.load_saved fmt hf fs0 fs hc pre rest hp
    refine ⟨.compound p0 fs1, ws', h1, ?_, ?_⟩
    · simp only [FT.load, FT.saveCall, h2]
      rw [decide_eq_true (h4 hne)]
    · simpa only [FT.rounded, FT.LeafSame, true_and] using h3
  | .product p0 f0 g0 a0 b0, .product p f g a b, h, pre, rest, hp => by
    simp only [FT.CanRead] at h
    obtain ⟨rfl, rfl, rfl, hF, hG⟩ := h
    obtain ⟨f1, w1, h1, e1, s1⟩ := FT.load_saved fmt hf f0 f hF pre (g.saveCall fmt ++ rest) hp
    obtain ⟨g1, w2, h2, e2, s2⟩ := FT.load_saved fmt hf g0 g hG w1 rest h1
    refine ⟨.product p0 f1 g1 a0 b0, w2, h2, ?_, ?_⟩
    · simp only [FT.load, FT.saveCall, List.append_assoc, e1, if_true, e2]
      simp
    · simp only [FT.rounded, FT.LeafSame]
      exact ⟨trivial, trivial, trivial, s1, s2⟩
  | .leaf _, .compound _ _, h, _, _, _ => by simp only [FT.CanRead] at h
  | .leaf _, .product _ _ _ _ _, h, _, _, _ => by simp only [FT.CanRead] at h
  | .compound _ _, .leaf _, h, _, _, _ => by simp only [FT.CanRead] at h
  | .compound _ _, .product _ _ _ _ _, h, _, _, _ => by simp only [FT.CanRead] at h
  | .product _ _ _ _ _, .leaf _, h, _, _, _ => by simp only [FT.CanRead] at h
  | .product _ _ _ _ _, .compound _ _, h, _, _, _ => by simp only [FT.CanRead] at h
theorem FTs.load_saved (fmt : ℝ → Decimal) (hf : PrintsDigits fmt) : ∀ (fs0 fs : FTs LobeObj), fs0.CanRead fs →
    ∀ pre rest : Str, Skippable pre → ∃ k fs1 ws', Skippable ws' ∧
      fs0.load (some (pre ++ (fs.saveCall fmt ++ rest))) = (k, fs1, some (ws' ++ rest)) ∧
      fs1.LeafSame (fs.rounded fmt) ∧ (fs ≠ .nil → 0 < k)
  | .nil, .nil, _, pre, rest, hp => by
    refine ⟨0, .nil, pre, hp, ?_, ?_, fun h => absurd rfl h⟩
    · simp only [FTs.load, FTs.saveCall, List.nil_append]
    · simp only [FTs.rounded, FTs.LeafSame]
  | .cons a0 f0 r0, .cons a f r, h, pre, rest, hp => by
    simp only [FTs.CanRead] at h
    obtain ⟨ha, hF, hR⟩ := h
    obtain ⟨f1, w1, h1, e1, s1⟩ := FT.load_saved fmt hf f0 f hF pre (r.saveCall fmt ++ rest) hp
    obtain ⟨k, r1, w2, h2, e2, s2, _⟩ := FTs.load_saved fmt hf r0 r hR w1 rest h1
    refine ⟨k + 1, .cons a0 f1 r1, w2, h2, ?_, ?_, fun _ => by omega⟩
    · simp only [FTs.load, FTs.saveCall, List.append_assoc, e1, if_true, e2]
    · simp only [FTs.rounded, FTs.LeafSame]
      exact ⟨ha, s1, s2⟩
  | .nil, .cons _ _ _, h, _, _, _ => by simp only [FTs.CanRead] at h
  | .cons _ _ _, .nil, h, _, _, _ => by simp only [FTs.CanRead] at h
end

end
end Alta
