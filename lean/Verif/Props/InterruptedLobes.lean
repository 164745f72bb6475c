import Verif.Props.InterruptedFunction
/-
Property C92 for the files of the nonlinear functions, cut anywhere after the line that names the function.
-/
namespace Alta
noncomputable section

/-- The name in the files of the classes whose `load` tests nothing else. -/
def LobeObj.nameOnly : LobeObj → Option Str
  | .blinn _ => some "nonlinear_function_blinn".toList
  | .retroblinn _ => some "nonlinear_function_retroblinn".toList
  | .beckmann _ => some "nonlinear_function_beckmann".toList
  | .ward _ => some "nonlinear_function_ward".toList
  | .diffuse _ => some "nonlinear_function_diffuse".toList
  | .sg _ => some "nonlinear_function_spherical_gaussian".toList
  | .schlickFresnel _ => some "nonlinear_fresnel_schlick".toList
  | .normalizedSchlick _ => some "nonlinear_fresnel_normalized_schlick".toList
  | .retroSchlick _ => some "nonlinear_fresnel_retro_schlick".toList
  | .schlickMasking _ => some "nonlinear_masking_schlick".toList
  | .smith _ => some "nonlinear_fresnel_smith".toList
  | .walterSmith _ => some "nonlinear_shadowing_walter_smith".toList
  | _ => none

theorem load_nameOnly (l : LobeObj) (nm : Str) (h : l.nameOnly = some nm) (st : Stream)
    (hh : (readHead nm st).1 = true) : (l.load st).1 = true := by
  cases l <;> simp only [LobeObj.nameOnly, Option.some.injEq, reduceCtorEq] at h <;>
    (subst h; simp only [LobeObj.load, OneS.load, wrap, readBlock, hh, if_true])

theorem saveCall_nameOnly (fmt : ℝ → Decimal) (l : LobeObj) (nm : Str) (h : l.nameOnly = some nm) :
    IsWord nm ∧ (∃ b, l.saveCall fmt = funcLine nm ++ b) ∧ l.saves = true ∧ l.saveBody = [] := by
  cases l <;> simp only [LobeObj.nameOnly, Option.some.injEq, reduceCtorEq] at h <;> subst h <;>
    refine ⟨⟨by decide, by decide⟩, ⟨_, by simp only [LobeObj.saveCall, List.append_assoc]; rfl⟩, rfl, rfl⟩

/-- C92, functions: when the writing of a function was interrupted anywhere after the line that names it, the file is
    loaded without an error. -/
theorem interrupted_function_loads (fmt : ℝ → Decimal) (dir : Str) (env : Option Str)
    (fs : Str → Option (Symbols (Provider LobeObj))) (args : SMap) (ho : args.Ordered) (ha : CmdMap args)
    (name : Str) (hn : args.find kFunc = some name) (hv : '[' ∉ name) (hfr : args.find kFresnel = none)
    (make : Par → LobeObj) (hpr : libraryOf dir env fs name = some ⟨true, make⟩)
    (l : LobeObj) (nm : Str) (hl : l.nameOnly = some nm) (hmk : ∀ p, (make p).nameOnly = some nm)
    (hin : l.par.input.Named) :
    ∃ t n0, saveFunction fmt args (.leaf l) = some t ∧ n0 < t.length ∧
      ∀ n, n0 ≤ n → ∃ l1, loadFunction dir env fs (t.take n) = some (some (.leaf l1)) := by
  obtain ⟨hw, ⟨b, hb⟩, hs, hbody⟩ := saveCall_nameOnly fmt l nm hl
  obtain ⟨u, hu⟩ : ∃ u, u = saveHeader args.getCmd l.par ++ funcLine nm := ⟨_, rfl⟩
  have et : savedText fmt args (.leaf l) = u ++ (b ++ ['\n']) := by
    simp only [savedText, FT.saveBody, FT.saveCall, FT.par, hbody, hb, List.append_nil, hu, List.append_assoc]
  have hget : getFunction dir env fs LobeObj.par args (l.par.withOutput .UNKNOWN_OUTPUT) =
      some (.nonlinear (.leaf (make (l.par.withOutput .UNKNOWN_OUTPUT)))) := by
    apply getFunction_leaf dir env fs LobeObj.par args _ name hn hv hfr
    unfold leafOf; rw [hpr]; rfl
  have hp : (⟨(l.par.dimX : ℤ).toNat, (l.par.dimY : ℤ).toNat, l.par.input, .UNKNOWN_OUTPUT⟩ : Par) =
      l.par.withOutput .UNKNOWN_OUTPUT := by simp [Par.withOutput]
  refine ⟨_, u.length, saveFunction_saves fmt _ _ (by simpa only [FT.saves] using hs), ?_, fun n hn => ?_⟩
  · rw [et, List.length_append, List.length_append, List.length_singleton]; omega
  rw [et, List.take_append, List.take_of_length_le hn]
  set rest := (b ++ ['\n']).take (n - u.length)
  obtain ⟨l2, m, h1, h2, h3, h4, h5, h6⟩ := header_saved args ho ha l.par (funcLine nm ++ rest) hin
  have hhead : (readHead nm (some ('\n' :: (funcLine nm ++ rest)))).1 = true := by
    have := readHead_saved (pre := ['\n']) newlines_one.skippable nm nm rest hw
    rw [show ['\n'] ++ (funcLine nm ++ rest) = '\n' :: (funcLine nm ++ rest) from rfl] at this
    rw [this]; simp
  have hld := load_nameOnly (make (l.par.withOutput .UNKNOWN_OUTPUT)) nm (hmk _) _ hhead
  refine ⟨((make (l.par.withOutput .UNKNOWN_OUTPUT)).load (some ('\n' :: (funcLine nm ++ rest)))).2.1, ?_⟩
  rw [hu, List.append_assoc]
  unfold loadFunction
  simp only [h1, h2, h3, h4, h5, h6, hp, hget, ne_eq, not_true_eq_false, if_false, FT.load, hld, if_true]

/-- The hypotheses are met (retro-Schlick). -/
example : ∃ t n0, saveFunction exampleFmt [(kFunc, ['n', '.', 's', 'o'])]
      (.leaf (.retroSchlick ⟨⟨6, 1, .CARTESIAN, .UNKNOWN_OUTPUT⟩, fun _ => 2⟩)) = some t ∧ n0 < t.length ∧
    ∀ n, n0 ≤ n → ∃ l1, loadFunction ['/', 'l'] none fsAlta (t.take n) = some (some (.leaf l1)) :=
  interrupted_function_loads exampleFmt ['/', 'l'] none fsAlta
    [(kFunc, ['n', '.', 's', 'o'])] (by simp [SMap.Ordered])
    (by
      intro e he; rw [List.mem_singleton.1 he]
      exact ⟨⟨by decide, by decide⟩, .word _ ⟨by decide, by decide⟩ (by intro r h; cases h) (by rintro ⟨r, h⟩; cases h)⟩)
    ['n', '.', 's', 'o'] rfl (by decide) (by decide +kernel) _ lib_n
    (.retroSchlick ⟨⟨6, 1, .CARTESIAN, .UNKNOWN_OUTPUT⟩, fun _ => 2⟩) _ rfl (fun _ => rfl)
    (by show Input.CARTESIAN.Named; unfold Input.Named; decide)

/-! ### The numbers -/

theorem arr_cut (A B : List ℝ) (k j : ℕ) (hl : A.length = B.length) (hk : k ≤ A.length) :
    arr (A.take k ++ B.drop k) j = if j < k then arr A j else arr B j := by
  unfold arr
  simp only [List.getD_eq_getElem?_getD]
  split
  · rename_i h
    rw [List.getElem?_append_left (by rw [List.length_take]; omega), List.getElem?_take_of_lt h]
  · rename_i h
    rw [List.getElem?_append_right (by rw [List.length_take]; omega), List.getElem?_drop, List.length_take,
      min_eq_left hk]
    congr 2
    omega

theorem readFields_cut (fmt : ℝ → Decimal) (hf : PrintsDigits fmt) (l : List (Str × ℝ)) (olds : List ℝ)
    (hl : l.length ≤ olds.length) (hk : ∀ p ∈ l, GoodKey p.1) :
    (readFields olds (some ('\n' :: keyLines fmt l))).1 = l.map (fun p => printed fmt p.2) ++ olds.drop l.length := by
  obtain ⟨ws', h1, h2⟩ := readFields_lines fmt hf l (olds.take l.length) ['\n'] [] newlines_one
    (by rw [List.length_take, min_eq_left hl]) hk
  simp only [List.append_nil, List.singleton_append] at h2
  conv_lhs => rw [← List.take_append_drop l.length olds]
  rw [readFields_append, h2]
  simp only [readFields_blank _ ws' h1.spaces]

/-- C92, functions (Beckmann): when `k` numbers were written before the interruption, the first `k` numbers of the
    function that is loaded are the ones that were written, and the others those of a new object. -/
theorem interrupted_beckmann (fmt : ℝ → Decimal) (hf : PrintsDigits fmt) (dir : Str) (env : Option Str)
    (fs : Str → Option (Symbols (Provider LobeObj))) (args : SMap) (ho : args.Ordered) (ha : CmdMap args)
    (name : Str) (hn : args.find kFunc = some name) (hv : '[' ∉ name) (hfr : args.find kFresnel = none)
    (make : Par → BeckmannS) (hpr : libraryOf dir env fs name = some ⟨true, fun p => .beckmann (make p)⟩)
    (hmake : ∀ p, (make p).par.dimY = p.dimY)
    (s : BeckmannS) (hin : s.par.input.Named) (k : ℕ) (hk : k ≤ s.par.dimY * 2) :
    ∃ t n s1, saveFunction fmt args (.leaf (.beckmann s)) = some t ∧ n < t.length ∧
      loadFunction dir env fs (t.take n) = some (some (.leaf (.beckmann s1))) ∧
      ∀ i < s.par.dimY,
        s1.ks i = (if i * 2 < k then printed fmt (s.ks i) else (make (s.par.withOutput .UNKNOWN_OUTPUT)).ks i) ∧
        s1.a i = if i * 2 + 1 < k then printed fmt (s.a i) else (make (s.par.withOutput .UNKNOWN_OUTPUT)).a i := by
  let nm : Str := "nonlinear_function_beckmann".toList
  let pairs : ℕ → List (Str × ℝ) := fun i => [("Ks ".toList, s.ks i), ("a  ".toList, s.a i)]
  obtain ⟨L, hL⟩ : ∃ L, L = (List.range s.par.dimY).flatMap pairs := ⟨_, rfl⟩
  obtain ⟨u, hu⟩ : ∃ u, u = saveHeader args.getCmd s.par ++ funcLine nm := ⟨_, rfl⟩
  have hpos : ∀ a : Str, 0 < (a ++ ['\n']).length := by intro a; simp
  have hch : channelLines s.par.dimY (fun i => line fmt "Ks ".toList (s.ks i) ++ line fmt "a  ".toList (s.a i)) =
      keyLines fmt L ++ ['\n'] := by
    unfold channelLines keyLines
    rw [hL, List.flatMap_assoc]
    congr 1
    apply List.flatMap_congr
    intro i _
    simp [pairs]
  have et : savedText fmt args (.leaf (.beckmann s)) =
      (u ++ keyLines fmt (L.take k)) ++ (keyLines fmt (L.drop k) ++ ['\n'] ++ ['\n']) := by
    have : u ++ keyLines fmt (L.take k) ++ (keyLines fmt (L.drop k) ++ ['\n'] ++ ['\n']) =
        u ++ (keyLines fmt L ++ ['\n'] ++ ['\n']) := by
      conv_rhs => rw [← List.take_append_drop k L, keyLines_append]
      simp only [List.append_assoc]
    rw [this, ← hch]
    simp only [savedText, FT.saveBody, FT.saveCall, FT.par, LobeObj.par, LobeObj.saveBody, LobeObj.saveCall, LobeObj.toFn,
      List.append_nil, hu, nm, List.append_assoc]
    rfl
  have hget : getFunction dir env fs LobeObj.par args (s.par.withOutput .UNKNOWN_OUTPUT) =
      some (.nonlinear (.leaf (.beckmann (make (s.par.withOutput .UNKNOWN_OUTPUT))))) := by
    apply getFunction_leaf dir env fs LobeObj.par args _ name hn hv hfr
    unfold leafOf; rw [hpr]; rfl
  have hp : (⟨(s.par.dimX : ℤ).toNat, (s.par.dimY : ℤ).toNat, s.par.input, .UNKNOWN_OUTPUT⟩ : Par) =
      s.par.withOutput .UNKNOWN_OUTPUT := by simp [Par.withOutput]
  set g := make (s.par.withOutput .UNKNOWN_OUTPUT) with hg
  have hdim : g.par.dimY = s.par.dimY := by rw [hg, hmake]; rfl
  obtain ⟨l2, m, h1, h2, h3, h4, h5, h6⟩ := header_saved args ho ha s.par (funcLine nm ++ keyLines fmt (L.take k)) hin
  have hhead : readHead nm (some ('\n' :: (funcLine nm ++ keyLines fmt (L.take k)))) =
      (true, some ('\n' :: keyLines fmt (L.take k))) := by
    have := readHead_saved (pre := ['\n']) newlines_one.skippable nm nm (keyLines fmt (L.take k)) ⟨by decide, by decide⟩
    rw [show ['\n'] ++ (funcLine nm ++ keyLines fmt (L.take k)) = '\n' :: (funcLine nm ++ keyLines fmt (L.take k)) from rfl] at this
    rw [this]; simp
  have hLlen : L.length = s.par.dimY * 2 := by
    rw [hL, List.length_flatMap]; simp [pairs]
  have holen : (blocks g.par.dimY fun i => [g.ks i, g.a i]).length = s.par.dimY * 2 := by
    rw [blocks_length _ 2 _ (fun _ _ => rfl), hdim]
  have hkeys : ∀ p ∈ L.take k, GoodKey p.1 := by
    intro p hp
    have hp := List.mem_of_mem_take hp
    rw [hL, List.mem_flatMap] at hp
    obtain ⟨i, -, hi⟩ := hp
    simp only [pairs, List.mem_cons, List.not_mem_nil, or_false] at hi
    rcases hi with rfl | rfl
    · exact key_Ks
    · exact key_a
  have hLt : (L.take k).length = k := by rw [List.length_take, hLlen, min_eq_left hk]
  have hf1 := readFields_cut fmt hf (L.take k) (blocks g.par.dimY fun i => [g.ks i, g.a i])
    (by rw [hLt, holen]; exact hk) hkeys
  have hLm : (L.take k).map (fun p => printed fmt p.2) =
      (blocks s.par.dimY fun i => [printed fmt (s.ks i), printed fmt (s.a i)]).take k := by
    rw [List.map_take, hL, List.map_flatMap]; rfl
  rw [hLm, hLt] at hf1
  have hA : (blocks s.par.dimY fun i => [printed fmt (s.ks i), printed fmt (s.a i)]).length = s.par.dimY * 2 :=
    blocks_length _ 2 _ (fun _ _ => rfl)
  have hcut := arr_cut (blocks s.par.dimY fun i => [printed fmt (s.ks i), printed fmt (s.a i)])
    (blocks g.par.dimY fun i => [g.ks i, g.a i]) k
  have hload : ∃ s1 : BeckmannS, (LobeObj.load (.beckmann g) (some ('\n' :: (funcLine nm ++ keyLines fmt (L.take k))))).1 = true ∧
      (LobeObj.load (.beckmann g) (some ('\n' :: (funcLine nm ++ keyLines fmt (L.take k))))).2.1 = .beckmann s1 ∧
      ∀ i < s.par.dimY, s1.ks i = (if i * 2 < k then printed fmt (s.ks i) else g.ks i) ∧
        s1.a i = if i * 2 + 1 < k then printed fmt (s.a i) else g.a i := by
    simp only [LobeObj.load, wrap, readBlock, show readHead "nonlinear_function_beckmann".toList _ = _ from hhead,
      if_true, hf1]
    refine ⟨_, trivial, rfl, fun i hi => ?_⟩
    have hi' : i < g.par.dimY := by rw [hdim]; exact hi
    have a0 := (arr_two s.par.dimY s.par.dimY rfl (fun i => printed fmt (s.ks i)) (fun i => printed fmt (s.a i)) s.ks i hi)
    have b0 := (arr_two g.par.dimY g.par.dimY rfl g.ks g.a g.ks i hi')
    rw [readInto_lt _ _ _ _ _ hi, readInto_lt _ _ _ _ _ hi] at a0
    rw [readInto_lt _ _ _ _ _ hi', readInto_lt _ _ _ _ _ hi'] at b0
    constructor
    · exact (readInto_lt _ _ _ _ _ hi').trans ((hcut (i * 2 + 0) (by rw [hA, holen]) (by rw [hA]; exact hk)).trans
        (by rw [a0.1, b0.1]; rfl))
    · have e := hcut (i * 2 + 1) (by rw [hA, holen]) (by rw [hA]; exact hk)
      rw [a0.2, b0.2] at e
      exact (readInto_lt g.par.dimY _ (fun i => i * 2 + 1) g.a i hi').trans e
  obtain ⟨s1, k1, k2, k3⟩ := hload
  refine ⟨_, (u ++ keyLines fmt (L.take k)).length, s1, saveFunction_saves fmt _ _ rfl, ?_, ?_, k3⟩
  · rw [et, List.length_append (as := u ++ keyLines fmt (L.take k))]
    exact Nat.lt_add_of_pos_right (hpos _)
  · rw [et, List.take_left, hu, List.append_assoc]
    unfold loadFunction
    simp only [h1, h2, h3, h4, h5, h6, hp, hget, ne_eq, not_true_eq_false, if_false, FT.load, k1, k2, if_true]

/-- The hypotheses are met: of the two numbers of a function with one channel, the first was written. -/
example : ∃ t n s1, saveFunction exampleFmt [(kFunc, ['b', '.', 's', 'o'])]
      (.leaf (.beckmann ⟨⟨6, 1, .CARTESIAN, .UNKNOWN_OUTPUT⟩, fun _ => 2, fun _ => 3⟩)) = some t ∧ n < t.length ∧
    loadFunction ['/', 'l'] none fsAlta (t.take n) = some (some (.leaf (.beckmann s1))) ∧ s1.ks 0 = 2 ∧ s1.a 0 ≠ 3 := by
  obtain ⟨t, n, s1, h1, h2, h3, h4⟩ := interrupted_beckmann exampleFmt exampleFmt_digits ['/', 'l'] none fsAlta
    [(kFunc, ['b', '.', 's', 'o'])] (by simp [SMap.Ordered])
    (by
      intro e he; rw [List.mem_singleton.1 he]
      exact ⟨⟨by decide, by decide⟩, .word _ ⟨by decide, by decide⟩ (by intro r h; cases h) (by rintro ⟨r, h⟩; cases h)⟩)
    ['b', '.', 's', 'o'] rfl (by decide) (by decide +kernel) _ lib_b (fun p => rfl)
    ⟨⟨6, 1, .CARTESIAN, .UNKNOWN_OUTPUT⟩, fun _ => 2, fun _ => 3⟩ (by unfold Input.Named; decide) 1 (by show 1 ≤ 1 * 2; norm_num)
  obtain ⟨h5, h6⟩ := h4 0 (by show (0 : ℕ) < 1; norm_num)
  refine ⟨t, n, s1, h1, h2, h3, ?_, ?_⟩
  · rw [h5]; simp [exampleFmt_values.2.2.1]
  · rw [h6]; norm_num

end
end Alta
