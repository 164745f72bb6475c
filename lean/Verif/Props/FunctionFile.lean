import Verif.Proofs.FunctionSame
import Verif.Props.ParamNames
/-
Property C56: the file of a nonlinear function, read back, gives the function that was saved.
-/
namespace Alta
noncomputable section

theorem keyLines_append (fmt : ℝ → Decimal) (a b : List (Str × ℝ)) :
    keyLines fmt (a ++ b) = keyLines fmt a ++ keyLines fmt b := by simp [keyLines]

theorem channelLines_eq (fmt : ℝ → Decimal) (n : ℕ) (f : ℕ → Str) (pairs : ℕ → List (Str × ℝ))
    (h : ∀ i, f i = keyLines fmt (pairs i)) :
    channelLines n f = keyLines fmt ((List.range n).flatMap pairs) ++ ['\n'] := by
  have : f = fun i => keyLines fmt (pairs i) := funext h
  subst this
  simp only [channelLines, keyLines, List.flatMap_assoc]

theorem vals_eq (fmt : ℝ → Decimal) (n : ℕ) (pairs : ℕ → List (Str × ℝ)) :
    (((List.range n).flatMap pairs).map fun p => printed fmt p.2) =
      blocks n fun i => (pairs i).map fun p => printed fmt p.2 := by
  simp [blocks, List.map_flatMap]

theorem pairs_length (n K : ℕ) (pairs : ℕ → List (Str × ℝ)) (h : ∀ i, (pairs i).length = K) :
    ((List.range n).flatMap pairs).length = n * K := by
  induction n with
  | zero => simp
  | succ n ih => rw [List.range_succ, List.flatMap_append, List.length_append, ih]; simp [h]; ring

theorem block_saved {σ : Type} (fmt : ℝ → Decimal) (hf : PrintsDigits fmt) (name : Str) (hn : IsWord name)
    (n K : ℕ) (f : ℕ → Str) (pairs : ℕ → List (Str × ℝ)) (h : ∀ i, f i = keyLines fmt (pairs i))
    (hlen : ∀ i, (pairs i).length = K) (hk : ∀ i, ∀ p ∈ pairs i, GoodKey p.1)
    (olds : List ℝ) (hl : olds.length = n * K) (store : List ℝ → σ) (s : σ)
    {pre : Str} (hp : Skippable pre) (rest : Str) :
    ∃ ws', Newlines ws' ∧
      readBlock name olds store s (some (pre ++ ((funcLine name ++ channelLines n f) ++ rest))) =
        (true, store (blocks n fun i => (pairs i).map fun p => printed fmt p.2), some (ws' ++ rest)) := by
  obtain ⟨ws', h1, h2⟩ := readBlock_saved fmt hf name hn ((List.range n).flatMap pairs)
    (by intro p hp; obtain ⟨i, _, hi⟩ := List.mem_flatMap.1 hp; exact hk i p hi) olds
    (by rw [hl, pairs_length n K pairs hlen]) store s hp ['\n'] rest newlines_one
  refine ⟨ws', h1, ?_⟩
  rw [vals_eq] at h2
  rw [← h2, channelLines_eq fmt n f pairs h]
  simp

theorem keys_two (a b : Str) (x y : ℝ) (ha : GoodKey a) (hb : GoodKey b) :
    ∀ p ∈ [(a, x), (b, y)], GoodKey p.1 := by
  intro p hp
  simp only [List.mem_cons, List.not_mem_nil, or_false] at hp
  rcases hp with rfl | rfl
  · exact ha
  · exact hb

theorem keys_three (a b c : Str) (x y z : ℝ) (ha : GoodKey a) (hb : GoodKey b) (hc : GoodKey c) :
    ∀ p ∈ [(a, x), (b, y), (c, z)], GoodKey p.1 := by
  intro p hp
  simp only [List.mem_cons, List.not_mem_nil, or_false] at hp
  rcases hp with rfl | rfl | rfl
  · exact ha
  · exact hb
  · exact hc

theorem keys_one (a : Str) (x : ℝ) (ha : GoodKey a) : ∀ p ∈ [(a, x)], GoodKey p.1 := by
  intro p hp
  simp only [List.mem_cons, List.not_mem_nil, or_false] at hp
  rw [hp]; exact ha

theorem keyLines_one (fmt : ℝ → Decimal) (a : Str) (x : ℝ) : line fmt a x = keyLines fmt [(a, x)] := by
  simp [keyLines]
theorem keyLines_two (fmt : ℝ → Decimal) (a b : Str) (x y : ℝ) :
    line fmt a x ++ line fmt b y = keyLines fmt [(a, x), (b, y)] := by simp [keyLines]
theorem keyLines_three (fmt : ℝ → Decimal) (a b c : Str) (x y z : ℝ) :
    line fmt a x ++ line fmt b y ++ line fmt c z = keyLines fmt [(a, x), (b, y), (c, z)] := by
  simp [keyLines]

theorem key_Ks : GoodKey "Ks ".toList := ⟨"Ks".toList, [' '], by decide, ⟨by decide, by decide⟩, by unfold Spaces; decide, by decide⟩
theorem key_N : GoodKey "N  ".toList := ⟨"N".toList, [' ', ' '], by decide, ⟨by decide, by decide⟩, by unfold Spaces; decide, by decide⟩
theorem key_a : GoodKey "a  ".toList := ⟨"a".toList, [' ', ' '], by decide, ⟨by decide, by decide⟩, by unfold Spaces; decide, by decide⟩
theorem key_b : GoodKey "b  ".toList := ⟨"b".toList, [' ', ' '], by decide, ⟨by decide, by decide⟩, by unfold Spaces; decide, by decide⟩
theorem key_c : GoodKey "c  ".toList := ⟨"c".toList, [' ', ' '], by decide, ⟨by decide, by decide⟩, by unfold Spaces; decide, by decide⟩
theorem key_ax : GoodKey "ax ".toList := ⟨"ax".toList, [' '], by decide, ⟨by decide, by decide⟩, by unfold Spaces; decide, by decide⟩
theorem key_ay : GoodKey "ay ".toList := ⟨"ay".toList, [' '], by decide, ⟨by decide, by decide⟩, by unfold Spaces; decide, by decide⟩
theorem key_kd : GoodKey "kd ".toList := ⟨"kd".toList, [' '], by decide, ⟨by decide, by decide⟩, by unfold Spaces; decide, by decide⟩
theorem key_R : GoodKey "R ".toList := ⟨"R".toList, [' '], by decide, ⟨by decide, by decide⟩, by unfold Spaces; decide, by decide⟩
theorem key_K : GoodKey "K ".toList := ⟨"K".toList, [' '], by decide, ⟨by decide, by decide⟩, by unfold Spaces; decide, by decide⟩
theorem key_alpha : GoodKey "alpha ".toList :=
  ⟨"alpha".toList, [' '], by decide, ⟨by decide, by decide⟩, by unfold Spaces; decide, by decide⟩
theorem key_Cx : GoodKey "Cx ".toList := ⟨"Cx".toList, [' '], by decide, ⟨by decide, by decide⟩, by unfold Spaces; decide, by decide⟩
theorem key_Cz : GoodKey "Cz ".toList := ⟨"Cz".toList, [' '], by decide, ⟨by decide, by decide⟩, by unfold Spaces; decide, by decide⟩
theorem key_Cxy : GoodKey "Cxy ".toList := ⟨"Cxy".toList, [' '], by decide, ⟨by decide, by decide⟩, by unfold Spaces; decide, by decide⟩
theorem key_Cz' : GoodKey "Cz  ".toList := ⟨"Cz".toList, [' ', ' '], by decide, ⟨by decide, by decide⟩, by unfold Spaces; decide, by decide⟩
theorem key_N' : GoodKey "N   ".toList :=
  ⟨"N".toList, [' ', ' ', ' '], by decide, ⟨by decide, by decide⟩, by unfold Spaces; decide, by decide⟩

/-- What reading back one block gives. -/
def LobeObj.ReadsBack (fmt : ℝ → Decimal) (l0 l : LobeObj) : Prop :=
  ∀ pre rest : Str, Skippable pre → ∃ l1 ws', Newlines ws' ∧
    l0.load (some (pre ++ (l.saveCall fmt ++ rest))) = (true, l1, some (ws' ++ rest)) ∧
    Fn.Same l1.toFn (l.rounded fmt).toFn

theorem arr_two (n m : ℕ) (hnm : n = m) (a b : ℕ → ℝ) (old : ℕ → ℝ) (i : ℕ) (hi : i < n) :
    readInto n (blocks m fun i => [a i, b i]) (fun i => i * 2 + 0) old i = a i ∧
    readInto n (blocks m fun i => [a i, b i]) (fun i => i * 2 + 1) old i = b i := by
  subst hnm
  rw [readInto_lt _ _ _ _ _ hi, readInto_lt _ _ _ _ _ hi,
    arr_blocks n 2 _ (fun _ _ => rfl) i 0 hi (by norm_num), arr_blocks n 2 _ (fun _ _ => rfl) i 1 hi (by norm_num)]
  exact ⟨rfl, rfl⟩

theorem arr_three (n m : ℕ) (hnm : n = m) (a b c : ℕ → ℝ) (old : ℕ → ℝ) (i : ℕ) (hi : i < n) :
    readInto n (blocks m fun i => [a i, b i, c i]) (fun i => i * 3 + 0) old i = a i ∧
    readInto n (blocks m fun i => [a i, b i, c i]) (fun i => i * 3 + 1) old i = b i ∧
    readInto n (blocks m fun i => [a i, b i, c i]) (fun i => i * 3 + 2) old i = c i := by
  subst hnm
  rw [readInto_lt _ _ _ _ _ hi, readInto_lt _ _ _ _ _ hi, readInto_lt _ _ _ _ _ hi,
    arr_blocks n 3 _ (fun _ _ => rfl) i 0 hi (by norm_num), arr_blocks n 3 _ (fun _ _ => rfl) i 1 hi (by norm_num),
    arr_blocks n 3 _ (fun _ _ => rfl) i 2 hi (by norm_num)]
  exact ⟨rfl, rfl, rfl⟩

theorem arr_one (n m : ℕ) (hnm : n = m) (a : ℕ → ℝ) (old : ℕ → ℝ) (i : ℕ) (hi : i < n) :
    readInto n (blocks m fun i => [a i]) (fun i => i) old i = a i := by
  subst hnm
  rw [readInto_lt _ _ _ _ _ hi]
  have := arr_blocks n 1 (fun i => [a i]) (fun _ _ => rfl) i 0 hi (by norm_num)
  simpa [arr] using this

theorem blinn_readsBack (fmt : ℝ → Decimal) (hf : PrintsDigits fmt) (s0 s : BlinnS) (h : s0.par = s.par) :
    LobeObj.ReadsBack fmt (.blinn s0) (.blinn s) := by
  intro pre rest hp
  obtain ⟨ws', h1, h2⟩ := block_saved fmt hf "nonlinear_function_blinn".toList ⟨by decide, by decide⟩ s.par.dimY 2 _
    _ (fun i => keyLines_two fmt "Ks ".toList "N  ".toList (s.ks i) (s.N i)) (fun _ => rfl)
    (fun i => keys_two _ _ _ _ key_Ks key_N) (blocks s0.par.dimY fun i => [s0.ks i, s0.N i])
    (by rw [blocks_length _ 2 _ (fun _ _ => rfl), h])
    (fun v => { s0 with ks := readInto s0.par.dimY v (fun i => i * 2 + 0) s0.ks
                        N := readInto s0.par.dimY v (fun i => i * 2 + 1) s0.N }) s0 hp rest
  refine ⟨_, ws', h1, congrArg (wrap LobeObj.blinn) h2, ?_⟩
  apply blinn_same
  · exact h
  · intro i hi
    exact (arr_two s0.par.dimY s.par.dimY (congrArg Par.dimY h) (fun i => printed fmt (s.ks i)) (fun i => printed fmt (s.N i)) s0.ks i hi).1
  · intro i hi
    exact (arr_two s0.par.dimY s.par.dimY (congrArg Par.dimY h) (fun i => printed fmt (s.ks i)) (fun i => printed fmt (s.N i)) s0.N i hi).2

theorem retroblinn_readsBack (fmt : ℝ → Decimal) (hf : PrintsDigits fmt) (s0 s : BlinnS) (h : s0.par = s.par) :
    LobeObj.ReadsBack fmt (.retroblinn s0) (.retroblinn s) := by
  intro pre rest hp
  obtain ⟨ws', h1, h2⟩ := block_saved fmt hf "nonlinear_function_retroblinn".toList ⟨by decide, by decide⟩ s.par.dimY 2 _
    _ (fun i => keyLines_two fmt "Ks ".toList "N  ".toList (s.ks i) (s.N i)) (fun _ => rfl)
    (fun i => keys_two _ _ _ _ key_Ks key_N) (blocks s0.par.dimY fun i => [s0.ks i, s0.N i])
    (by rw [blocks_length _ 2 _ (fun _ _ => rfl), h])
    (fun v => { s0 with ks := readInto s0.par.dimY v (fun i => i * 2 + 0) s0.ks
                        N := readInto s0.par.dimY v (fun i => i * 2 + 1) s0.N }) s0 hp rest
  refine ⟨_, ws', h1, congrArg (wrap LobeObj.retroblinn) h2, ?_⟩
  apply retroblinn_same
  · exact h
  · intro i hi
    exact (arr_two s0.par.dimY s.par.dimY (congrArg Par.dimY h) (fun i => printed fmt (s.ks i)) (fun i => printed fmt (s.N i)) s0.ks i hi).1
  · intro i hi
    exact (arr_two s0.par.dimY s.par.dimY (congrArg Par.dimY h) (fun i => printed fmt (s.ks i)) (fun i => printed fmt (s.N i)) s0.N i hi).2

theorem beckmann_readsBack (fmt : ℝ → Decimal) (hf : PrintsDigits fmt) (s0 s : BeckmannS) (h : s0.par = s.par) :
    LobeObj.ReadsBack fmt (.beckmann s0) (.beckmann s) := by
  intro pre rest hp
  obtain ⟨ws', h1, h2⟩ := block_saved fmt hf "nonlinear_function_beckmann".toList ⟨by decide, by decide⟩ s.par.dimY 2 _
    _ (fun i => keyLines_two fmt "Ks ".toList "a  ".toList (s.ks i) (s.a i)) (fun _ => rfl)
    (fun i => keys_two _ _ _ _ key_Ks key_a) (blocks s0.par.dimY fun i => [s0.ks i, s0.a i])
    (by rw [blocks_length _ 2 _ (fun _ _ => rfl), h])
    (fun v => { s0 with ks := readInto s0.par.dimY v (fun i => i * 2 + 0) s0.ks
                        a := readInto s0.par.dimY v (fun i => i * 2 + 1) s0.a }) s0 hp rest
  refine ⟨_, ws', h1, congrArg (wrap LobeObj.beckmann) h2, ?_⟩
  apply beckmann_same
  · exact h
  · intro i hi
    exact (arr_two s0.par.dimY s.par.dimY (congrArg Par.dimY h) (fun i => printed fmt (s.ks i)) (fun i => printed fmt (s.a i)) s0.ks i hi).1
  · intro i hi
    exact (arr_two s0.par.dimY s.par.dimY (congrArg Par.dimY h) (fun i => printed fmt (s.ks i)) (fun i => printed fmt (s.a i)) s0.a i hi).2

theorem ward_readsBack (fmt : ℝ → Decimal) (hf : PrintsDigits fmt) (s0 s : WardS) (h : s0.par = s.par) :
    LobeObj.ReadsBack fmt (.ward s0) (.ward s) := by
  intro pre rest hp
  obtain ⟨ws', h1, h2⟩ := block_saved fmt hf "nonlinear_function_ward".toList ⟨by decide, by decide⟩ s.par.dimY 3 _
    _ (fun i => keyLines_three fmt "Ks ".toList "ax ".toList "ay ".toList (s.ks i) (s.ax i) (s.ay i)) (fun _ => rfl)
    (fun i => keys_three _ _ _ _ _ _ key_Ks key_ax key_ay) (blocks s0.par.dimY fun i => [s0.ks i, s0.ax i, s0.ay i])
    (by rw [blocks_length _ 3 _ (fun _ _ => rfl), h])
    (fun v => { s0 with ks := readInto s0.par.dimY v (fun i => i * 3 + 0) s0.ks
                        ax := readInto s0.par.dimY v (fun i => i * 3 + 1) s0.ax
                        ay := readInto s0.par.dimY v (fun i => i * 3 + 2) s0.ay }) s0 hp rest
  refine ⟨_, ws', h1, congrArg (wrap LobeObj.ward) h2, ?_⟩
  have key := fun old i (hi : i < s0.par.dimY) => arr_three s0.par.dimY s.par.dimY (congrArg Par.dimY h) (fun i => printed fmt (s.ks i))
    (fun i => printed fmt (s.ax i)) (fun i => printed fmt (s.ay i)) old i hi
  apply ward_same
  · exact h
  · intro i hi; exact (key s0.ks i hi).1
  · intro i hi; exact (key s0.ax i hi).2.1
  · intro i hi; exact (key s0.ay i hi).2.2

theorem diffuse_readsBack (fmt : ℝ → Decimal) (hf : PrintsDigits fmt) (s0 s : DiffuseS) (h : s0.par = s.par) :
    LobeObj.ReadsBack fmt (.diffuse s0) (.diffuse s) := by
  intro pre rest hp
  obtain ⟨ws', h1, h2⟩ := block_saved fmt hf "nonlinear_function_diffuse".toList ⟨by decide, by decide⟩ s.par.dimY 1 _
    _ (fun i => keyLines_one fmt "kd ".toList (s.kd i)) (fun _ => rfl)
    (fun i => keys_one _ _ key_kd) ((List.range s0.par.dimY).map s0.kd)
    (by simp [h])
    (fun v => { s0 with kd := readInto s0.par.dimY v (fun i => i) s0.kd }) s0 hp rest
  refine ⟨_, ws', h1, congrArg (wrap LobeObj.diffuse) h2, ?_⟩
  apply diffuse_same
  · exact h
  · intro i hi
    exact arr_one s0.par.dimY s.par.dimY (congrArg Par.dimY h) (fun i => printed fmt (s.kd i)) s0.kd i hi

theorem schlickFresnel_readsBack (fmt : ℝ → Decimal) (hf : PrintsDigits fmt) (s0 s : OneS) (h : s0.par = s.par) :
    LobeObj.ReadsBack fmt (.schlickFresnel s0) (.schlickFresnel s) := by
  intro pre rest hp
  obtain ⟨ws', h1, h2⟩ := block_saved fmt hf "nonlinear_fresnel_schlick".toList ⟨by decide, by decide⟩ s.par.dimY 1 _
    _ (fun i => keyLines_one fmt "R ".toList (s.R i)) (fun _ => rfl)
    (fun i => keys_one _ _ key_R) ((List.range s0.par.dimY).map s0.R)
    (by simp [h])
    (fun v => { s0 with R := readInto s0.par.dimY v (fun i => i) s0.R }) s0 hp rest
  refine ⟨_, ws', h1, congrArg (wrap LobeObj.schlickFresnel) h2, ?_⟩
  apply schlickFresnel_same
  · exact h
  · intro i hi
    exact arr_one s0.par.dimY s.par.dimY (congrArg Par.dimY h) (fun i => printed fmt (s.R i)) s0.R i hi

theorem normalizedSchlick_readsBack (fmt : ℝ → Decimal) (hf : PrintsDigits fmt) (s0 s : OneS) (h : s0.par = s.par) :
    LobeObj.ReadsBack fmt (.normalizedSchlick s0) (.normalizedSchlick s) := by
  intro pre rest hp
  obtain ⟨ws', h1, h2⟩ := block_saved fmt hf "nonlinear_fresnel_normalized_schlick".toList ⟨by decide, by decide⟩ s.par.dimY 1 _
    _ (fun i => keyLines_one fmt "R ".toList (s.R i)) (fun _ => rfl)
    (fun i => keys_one _ _ key_R) ((List.range s0.par.dimY).map s0.R)
    (by simp [h])
    (fun v => { s0 with R := readInto s0.par.dimY v (fun i => i) s0.R }) s0 hp rest
  refine ⟨_, ws', h1, congrArg (wrap LobeObj.normalizedSchlick) h2, ?_⟩
  apply normalizedSchlick_same
  · exact h
  · intro i hi
    exact arr_one s0.par.dimY s.par.dimY (congrArg Par.dimY h) (fun i => printed fmt (s.R i)) s0.R i hi

theorem retroSchlick_readsBack (fmt : ℝ → Decimal) (hf : PrintsDigits fmt) (s0 s : OneS) (h : s0.par = s.par) :
    LobeObj.ReadsBack fmt (.retroSchlick s0) (.retroSchlick s) := by
  intro pre rest hp
  obtain ⟨ws', h1, h2⟩ := block_saved fmt hf "nonlinear_fresnel_retro_schlick".toList ⟨by decide, by decide⟩ s.par.dimY 1 _
    _ (fun i => keyLines_one fmt "R ".toList (s.R i)) (fun _ => rfl)
    (fun i => keys_one _ _ key_R) ((List.range s0.par.dimY).map s0.R)
    (by simp [h])
    (fun v => { s0 with R := readInto s0.par.dimY v (fun i => i) s0.R }) s0 hp rest
  refine ⟨_, ws', h1, congrArg (wrap LobeObj.retroSchlick) h2, ?_⟩
  apply retroSchlick_same
  · exact h
  · intro i hi
    exact arr_one s0.par.dimY s.par.dimY (congrArg Par.dimY h) (fun i => printed fmt (s.R i)) s0.R i hi

theorem schlickMasking_readsBack (fmt : ℝ → Decimal) (hf : PrintsDigits fmt) (s0 s : OneS) (h : s0.par = s.par) :
    LobeObj.ReadsBack fmt (.schlickMasking s0) (.schlickMasking s) := by
  intro pre rest hp
  obtain ⟨ws', h1, h2⟩ := block_saved fmt hf "nonlinear_masking_schlick".toList ⟨by decide, by decide⟩ s.par.dimY 1 _
    _ (fun i => keyLines_one fmt "K ".toList (s.R i)) (fun _ => rfl)
    (fun i => keys_one _ _ key_K) ((List.range s0.par.dimY).map s0.R)
    (by simp [h])
    (fun v => { s0 with R := readInto s0.par.dimY v (fun i => i) s0.R }) s0 hp rest
  refine ⟨_, ws', h1, congrArg (wrap LobeObj.schlickMasking) h2, ?_⟩
  apply schlickMasking_same
  · exact h
  · intro i hi
    exact arr_one s0.par.dimY s.par.dimY (congrArg Par.dimY h) (fun i => printed fmt (s.R i)) s0.R i hi

theorem smith_readsBack (fmt : ℝ → Decimal) (hf : PrintsDigits fmt) (s0 s : OneS) (h : s0.par = s.par) :
    LobeObj.ReadsBack fmt (.smith s0) (.smith s) := by
  intro pre rest hp
  obtain ⟨ws', h1, h2⟩ := block_saved fmt hf "nonlinear_fresnel_smith".toList ⟨by decide, by decide⟩ s.par.dimY 1 _
    _ (fun i => keyLines_one fmt "R ".toList (s.R i)) (fun _ => rfl)
    (fun i => keys_one _ _ key_R) ((List.range s0.par.dimY).map s0.R)
    (by simp [h])
    (fun v => { s0 with R := readInto s0.par.dimY v (fun i => i) s0.R }) s0 hp rest
  refine ⟨_, ws', h1, congrArg (wrap LobeObj.smith) h2, ?_⟩
  apply smith_same
  · exact h
  · intro i hi
    exact arr_one s0.par.dimY s.par.dimY (congrArg Par.dimY h) (fun i => printed fmt (s.R i)) s0.R i hi

theorem walterSmith_readsBack (fmt : ℝ → Decimal) (hf : PrintsDigits fmt) (s0 s : OneS) (h : s0.par = s.par) :
    LobeObj.ReadsBack fmt (.walterSmith s0) (.walterSmith s) := by
  intro pre rest hp
  obtain ⟨ws', h1, h2⟩ := block_saved fmt hf "nonlinear_shadowing_walter_smith".toList ⟨by decide, by decide⟩ s.par.dimY 1 _
    _ (fun i => keyLines_one fmt "alpha ".toList (s.R i)) (fun _ => rfl)
    (fun i => keys_one _ _ key_alpha) ((List.range s0.par.dimY).map s0.R)
    (by simp [h])
    (fun v => { s0 with R := readInto s0.par.dimY v (fun i => i) s0.R }) s0 hp rest
  refine ⟨_, ws', h1, congrArg (wrap LobeObj.walterSmith) h2, ?_⟩
  apply walterSmith_same
  · exact h
  · intro i hi
    exact arr_one s0.par.dimY s.par.dimY (congrArg Par.dimY h) (fun i => printed fmt (s.R i)) s0.R i hi

theorem arr_append_lt (a b : List ℝ) (i : ℕ) (h : i < a.length) : arr (a ++ b) i = arr a i := by
  simp [arr, List.getElem?_append_left h]

theorem arr_append_len (a : List ℝ) (x : ℝ) : arr (a ++ [x]) a.length = x := by
  simp [arr]

theorem sg_readsBack (fmt : ℝ → Decimal) (hf : PrintsDigits fmt) (s0 s : SgS) (h : s0.par = s.par)
    (ht : s0.type = s.type) : LobeObj.ReadsBack fmt (.sg s0) (.sg s) := by
  intro pre rest hp
  have hd : s0.par.dimY = s.par.dimY := congrArg Par.dimY h
  let pairs : ℕ → List (Str × ℝ) := fun i => [("Ks ".toList, s.ks i), ("N  ".toList, s.n i)]
  let extra : List (Str × ℝ) := if s.type = .Moment then [("a  ".toList, s.a)] else []
  let tl : Str := if s.type = .Moment then [] else ['\n']
  have ep : ((List.range s.par.dimY).flatMap fun i =>
      line fmt "Ks ".toList (s.ks i) ++ line fmt "N  ".toList (s.n i)) =
      keyLines fmt ((List.range s.par.dimY).flatMap pairs) := by
    have e0 : (fun i => line fmt "Ks ".toList (s.ks i) ++ line fmt "N  ".toList (s.n i)) =
        fun i => keyLines fmt (pairs i) := funext fun i => keyLines_two _ _ _ _ _
    rw [e0]
    simp only [keyLines, List.flatMap_assoc]
  have e : LobeObj.saveCall fmt (.sg s) ++ rest = funcLine "nonlinear_function_spherical_gaussian".toList ++
      (keyLines fmt ((List.range s.par.dimY).flatMap pairs ++ extra) ++ (tl ++ rest)) := by
    simp only [LobeObj.saveCall]
    rw [ep, keyLines_append]
    by_cases hm : s.type = .Moment
    · simp only [extra, tl, if_pos hm, ← keyLines_one, line]
      simp only [List.append_assoc, List.nil_append]
    · simp only [extra, tl, if_neg hm]
      simp [keyLines]
  obtain ⟨ws', h1, h2⟩ := readBlock_saved fmt hf "nonlinear_function_spherical_gaussian".toList
    ⟨by decide, by decide⟩ ((List.range s.par.dimY).flatMap pairs ++ extra)
    (by
      intro p hp
      rcases List.mem_append.1 hp with hp | hp
      · obtain ⟨i, _, hi⟩ := List.mem_flatMap.1 hp
        exact keys_two _ _ _ _ key_Ks key_N p hi
      · simp only [extra] at hp
        split at hp
        · exact keys_one _ _ key_a p hp
        · cases hp)
    ((blocks s0.par.dimY fun i => [s0.ks i, s0.n i]) ++ (if s0.type = .Moment then [s0.a] else []))
    (by
      rw [List.length_append, List.length_append, blocks_length _ 2 _ (fun _ _ => rfl),
        pairs_length _ 2 _ (fun _ => rfl), hd, ht]
      simp only [extra]
      split <;> rfl)
    (fun v => { s0 with ks := readInto s0.par.dimY v (fun i => i * 2 + 0) s0.ks
                        n := readInto s0.par.dimY v (fun i => i * 2 + 1) s0.n
                        a := if s0.type = .Moment then arr v (2 * s0.par.dimY) else s0.a }) s0 hp tl rest
    (by simp only [tl]; split
        · exact newlines_nil
        · exact newlines_one)
  rw [List.map_append, vals_eq] at h2
  refine ⟨_, ws', h1, (congrArg (fun t => LobeObj.load (.sg s0) (some (pre ++ t))) e).trans
    (congrArg (wrap LobeObj.sg) h2), ?_⟩
  · have hlen : (blocks s.par.dimY fun i => (pairs i).map fun p => printed fmt p.2).length = s.par.dimY * 2 :=
      blocks_length _ 2 _ (fun _ _ => rfl)
    have key := fun old i (hi : i < s0.par.dimY) => arr_two s0.par.dimY s.par.dimY hd (fun i => printed fmt (s.ks i))
      (fun i => printed fmt (s.n i)) old i hi
    have app : ∀ (old : ℕ → ℝ) (idx : ℕ → ℕ) {i : ℕ}, i < s0.par.dimY → idx i < s.par.dimY * 2 →
        readInto s0.par.dimY ((blocks s.par.dimY fun i => (pairs i).map fun p => printed fmt p.2) ++
          extra.map fun p => printed fmt p.2) idx old i =
        readInto s0.par.dimY (blocks s.par.dimY fun i => (pairs i).map fun p => printed fmt p.2) idx old i := by
      intro old idx i h1 h2
      rw [readInto_lt _ _ _ _ _ h1, readInto_lt _ _ _ _ _ h1]
      exact arr_append_lt _ _ _ (by rw [hlen]; exact h2)
    apply sg_same
    · exact h
    · exact ht
    · intro i hi
      change i < s0.par.dimY at hi
      refine Eq.trans ?_ (key s0.ks i hi).1
      exact app s0.ks (fun i => i * 2 + 0) hi (by show i * 2 + 0 < _; omega)
    · intro i hi
      change i < s0.par.dimY at hi
      refine Eq.trans ?_ (key s0.n i hi).2
      exact app s0.n (fun i => i * 2 + 1) hi (by show i * 2 + 1 < _; omega)
    · intro hm
      have hm' : s.type = .Moment := ht ▸ hm
      change (if s0.type = .Moment then arr _ (2 * s0.par.dimY) else s0.a) = printed fmt s.a
      rw [if_pos hm]
      simp only [extra, if_pos hm', List.map_cons, List.map_nil]
      have e2 : 2 * s0.par.dimY = (blocks s.par.dimY fun i => (pairs i).map fun p => printed fmt p.2).length := by
        rw [hlen, hd]; ring
      rw [e2]
      exact arr_append_len _ _

theorem isWord_inputName (p : Input) : IsWord (inputName p).toList := by
  cases p <;> exact ⟨by decide, by decide⟩

theorem abc_readsBack (fmt : ℝ → Decimal) (hf : PrintsDigits fmt) (s0 s : AbcS)
    (h : { s0.par with input := s.par.input } = s.par) (hi : s.par.input.Named) : LobeObj.ReadsBack fmt (.abc s0) (.abc s) := by
  intro pre rest hp
  have hd : s0.par.dimY = s.par.dimY := (congrArg Par.dimY h : { s0.par with input := s.par.input }.dimY = _)
  let pairs : ℕ → List (Str × ℝ) := fun i => [("a  ".toList, s.a i), ("b  ".toList, s.b i), ("c  ".toList, s.c i)]
  have ec := channelLines_eq fmt s.par.dimY (fun i => line fmt "a  ".toList (s.a i) ++ line fmt "b  ".toList (s.b i) ++
    line fmt "c  ".toList (s.c i)) pairs (fun i => keyLines_three _ _ _ _ _ _ _)
  have e : LobeObj.saveCall fmt (.abc s) ++ rest = funcLine "nonlinear_function_abc".toList ++
      ("#PARAM".toList ++ ([' '] ++ ((inputName s.par.input).toList ++ ('\n' ::
        (keyLines fmt ((List.range s.par.dimY).flatMap pairs) ++ ('\n' :: rest)))))) := by
    simp only [LobeObj.saveCall]
    rw [ec]
    have : "#PARAM ".toList = "#PARAM".toList ++ [' '] := by decide
    rw [this]
    simp only [List.append_assoc, List.cons_append, List.nil_append]
  obtain ⟨ws', h1, h2⟩ := readFields_lines fmt hf ((List.range s.par.dimY).flatMap pairs)
    (blocks s0.par.dimY fun i => [s0.a i, s0.b i, s0.c i]) ['\n'] ('\n' :: rest) newlines_one
    (by rw [blocks_length _ 3 _ (fun _ _ => rfl), pairs_length _ 3 _ (fun _ => rfl), hd])
    (by intro p hp
        obtain ⟨i, _, hi⟩ := List.mem_flatMap.1 hp
        exact keys_three _ _ _ _ _ _ key_a key_b key_c p hi)
  rw [vals_eq] at h2
  have hname := parseInput_inputName s.par.input hi
  refine ⟨.abc ⟨{ s0.par with input := s.par.input },
    readInto s0.par.dimY (blocks s.par.dimY fun i => (pairs i).map fun p => printed fmt p.2) (fun i => i * 3 + 0) s0.a,
    readInto s0.par.dimY (blocks s.par.dimY fun i => (pairs i).map fun p => printed fmt p.2) (fun i => i * 3 + 1) s0.b,
    readInto s0.par.dimY (blocks s.par.dimY fun i => (pairs i).map fun p => printed fmt p.2) (fun i => i * 3 + 2) s0.c⟩,
    ws' ++ ['\n'], h1.append newlines_one, ?_, ?_⟩
  · rw [e]
    simp only [LobeObj.load, AbcS.load]
    rw [readHead_saved hp _ _ _ ⟨by decide, by decide⟩]
    simp only [decide_true, if_true]
    have t1 := readToken_word "#PARAM".toList ['\n'] "#PARAM".toList
      ([' '] ++ ((inputName s.par.input).toList ++ ('\n' ::
        (keyLines fmt ((List.range s.par.dimY).flatMap pairs) ++ ('\n' :: rest)))))
      newlines_one.spaces ⟨by decide, by decide⟩ (spaceAhead_cons _ _ (by decide))
    rw [List.singleton_append] at t1
    rw [t1]
    simp only [decide_true, if_true]
    have t2 : readAny "#PARAM".toList (some ([' '] ++ ((inputName s.par.input).toList ++ ('\n' ::
        (keyLines fmt ((List.range s.par.dimY).flatMap pairs) ++ ('\n' :: rest)))))) =
        ((inputName s.par.input).toList, some ('\n' ::
        (keyLines fmt ((List.range s.par.dimY).flatMap pairs) ++ ('\n' :: rest)))) := by
      unfold readAny
      simp only [readWord_word [' '] _ _ (by intro c hc; simp at hc; rw [hc]; decide)
        (isWord_inputName s.par.input) (spaceAhead_cons '\n' _ (by decide)),
        if_neg (isWord_inputName s.par.input).1]
    rw [t2]
    rw [List.singleton_append] at h2
    simp only [h2, wrap, String.ofList_toList, hname]
    rw [List.append_assoc]
    rfl
  · have key := fun old i (hi : i < s0.par.dimY) => arr_three s0.par.dimY s.par.dimY hd (fun i => printed fmt (s.a i))
      (fun i => printed fmt (s.b i)) (fun i => printed fmt (s.c i)) old i hi
    apply abc_same
    · exact h
    · intro i hi; exact (key s0.a i hi).1
    · intro i hi; exact (key s0.b i hi).2.1
    · intro i hi; exact (key s0.c i hi).2.2

end
end Alta
