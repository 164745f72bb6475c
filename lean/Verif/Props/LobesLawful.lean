import Verif.Proofs.Lobe
import Mathlib.Tactic.IntervalCases
/-
C41: the parameter vector of each nonlinear function plugin.

`Cls.Lawful` (Verif/Spec/Function.lean) contains the claim: after `setParameters(v)` with a
vector of `nbParameters()` entries, `parameters()` is `v`; `setParameters(parameters())` changes
nothing; `parameters()` has `nbParameters()` entries (at least: see `diffuse_parameters_size`);
and the value has one entry per channel.
-/
namespace Alta
noncomputable section

theorem get_of_blocks (n K : ℕ) (hK : 0 < K) (f : ℕ → List ℝ) (p : List ℝ) (hl : p.length = K * n)
    (hf : ∀ i < n, (f i).length = K) (h : ∀ i < n, ∀ a < K, arr (f i) a = arr p (i * K + a)) :
    (blocks n f).take (K * n) = p := by
  rw [list_eq_blocks p n K hK f (by rw [hl, mul_comm]) hf h, List.take_of_length_le (by omega)]

theorem arr_take_blocks (n K : ℕ) (f : ℕ → List ℝ) (hf : ∀ i < n, (f i).length = K) (i a : ℕ) (hi : i < n)
    (ha : a < K) : arr ((blocks n f).take (K * n)) (i * K + a) = arr (f i) a := by
  have : (blocks n f).take (K * n) = blocks n f :=
    List.take_of_length_le (by rw [blocks_length n K f hf, mul_comm])
  rw [this, arr_blocks n K f hf i a hi ha]

theorem blinn_lawful : blinnCls.Lawful where
  par_set _ _ := rfl
  nb_set _ _ := rfl
  nb_le s := by simp [blinnCls, blocks_length _ 2, mul_comm]
  get_set s p hp := by
    apply get_of_blocks _ 2 (by norm_num) _ _ hp (fun _ _ => rfl)
    intro i hi a ha
    interval_cases a <;> simp [blinnCls, readInto, hi, arr]
  set_get s := by
    refine BlinnS.ext (by rfl) ?_ ?_
    · apply readInto_self; intro i hi
      exact arr_take_blocks _ 2 _ (fun _ _ => rfl) _ 0 hi (by norm_num)
    · apply readInto_self; intro i hi
      exact arr_take_blocks _ 2 _ (fun _ _ => rfl) _ 1 hi (by norm_num)
  set_set s p q _ _ := by
    refine BlinnS.ext (by rfl) ?_ ?_ <;> exact readInto_readInto _ _ _ _ _
  value_length s x v h := by
    simp only [blinnCls, Option.some.injEq] at h ⊢; subst h; simp
  value_def _ _ _ := rfl

theorem retroblinn_lawful : retroblinnCls.Lawful where
  par_set _ _ := rfl
  nb_set _ _ := rfl
  nb_le s := by simp [retroblinnCls, blocks_length _ 2, mul_comm]
  get_set s p hp := by
    apply get_of_blocks _ 2 (by norm_num) _ _ hp (fun _ _ => rfl)
    intro i hi a ha
    interval_cases a <;> simp [retroblinnCls, readInto, hi, arr]
  set_get s := by
    refine BlinnS.ext (by rfl) ?_ ?_
    · apply readInto_self; intro i hi
      exact arr_take_blocks _ 2 _ (fun _ _ => rfl) _ 0 hi (by norm_num)
    · apply readInto_self; intro i hi
      exact arr_take_blocks _ 2 _ (fun _ _ => rfl) _ 1 hi (by norm_num)
  set_set s p q _ _ := by
    refine BlinnS.ext (by rfl) ?_ ?_ <;> exact readInto_readInto _ _ _ _ _
  value_length s x v h := by
    simp only [retroblinnCls, Option.some.injEq] at h ⊢; subst h; simp
  value_def _ _ _ := rfl

theorem beckmann_lawful : beckmannCls.Lawful where
  par_set _ _ := rfl
  nb_set _ _ := rfl
  nb_le s := by simp [beckmannCls, blocks_length _ 2, mul_comm]
  get_set s p hp := by
    apply get_of_blocks _ 2 (by norm_num) _ _ hp (fun _ _ => rfl)
    intro i hi a ha
    interval_cases a <;> simp [beckmannCls, readInto, hi, arr]
  set_get s := by
    refine BeckmannS.ext (by rfl) ?_ ?_
    · apply readInto_self; intro i hi
      exact arr_take_blocks _ 2 _ (fun _ _ => rfl) _ 0 hi (by norm_num)
    · apply readInto_self; intro i hi
      exact arr_take_blocks _ 2 _ (fun _ _ => rfl) _ 1 hi (by norm_num)
  set_set s p q _ _ := by
    refine BeckmannS.ext (by rfl) ?_ ?_ <;> exact readInto_readInto _ _ _ _ _
  value_length s x v h := by
    simp only [beckmannCls, Option.map_eq_some_iff] at h ⊢
    obtain ⟨h', _, rfl⟩ := h; simp
  value_def _ _ _ := by simp [beckmannCls]

theorem retrobeckmann_lawful : retrobeckmannCls.Lawful where
  par_set _ _ := rfl
  nb_set _ _ := rfl
  nb_le s := by simp [retrobeckmannCls, blocks_length _ 2, mul_comm]
  get_set s p hp := by
    apply get_of_blocks _ 2 (by norm_num) _ _ hp (fun _ _ => rfl)
    intro i hi a ha
    interval_cases a <;> simp [retrobeckmannCls, readInto, hi, arr]
  set_get s := by
    refine RetroBeckmannS.ext (by rfl) ?_ ?_ (by rfl)
    · apply readInto_self; intro i hi
      exact arr_take_blocks _ 2 _ (fun _ _ => rfl) _ 0 hi (by norm_num)
    · apply readInto_self; intro i hi
      exact arr_take_blocks _ 2 _ (fun _ _ => rfl) _ 1 hi (by norm_num)
  set_set s p q _ _ := by
    refine RetroBeckmannS.ext (by rfl) ?_ ?_ (by rfl) <;> exact readInto_readInto _ _ _ _ _
  value_length s x v h := by
    simp only [retrobeckmannCls, Option.map_eq_some_iff] at h ⊢
    obtain ⟨h', _, rfl⟩ := h; simp
  value_def _ _ _ := by simp [retrobeckmannCls]

theorem ward_lawful : wardCls.Lawful where
  par_set _ _ := rfl
  nb_set _ _ := rfl
  nb_le s := by simp [wardCls, blocks_length _ 3, mul_comm]
  get_set s p hp := by
    apply get_of_blocks _ 3 (by norm_num) _ _ hp (fun _ _ => rfl)
    intro i hi a ha
    interval_cases a <;> simp [wardCls, readInto, hi, arr]
  set_get s := by
    refine WardS.ext (by rfl) ?_ ?_ ?_
    · apply readInto_self; intro i hi
      exact arr_take_blocks _ 3 _ (fun _ _ => rfl) _ 0 hi (by norm_num)
    · apply readInto_self; intro i hi
      exact arr_take_blocks _ 3 _ (fun _ _ => rfl) _ 1 hi (by norm_num)
    · apply readInto_self; intro i hi
      exact arr_take_blocks _ 3 _ (fun _ _ => rfl) _ 2 hi (by norm_num)
  set_set s p q _ _ := by
    refine WardS.ext (by rfl) ?_ ?_ ?_ <;> exact readInto_readInto _ _ _ _ _
  value_length s x v h := by
    simp only [wardCls, Option.map_eq_some_iff] at h ⊢
    obtain ⟨h', _, rfl⟩ := h; simp
  value_def _ _ _ := by simp [wardCls]

theorem abc_lawful : abcCls.Lawful where
  par_set _ _ := rfl
  nb_set _ _ := rfl
  nb_le s := by simp [abcCls, blocks_length _ 3, mul_comm]
  get_set s p hp := by
    apply get_of_blocks _ 3 (by norm_num) _ _ hp (fun _ _ => rfl)
    intro i hi a ha
    interval_cases a <;> simp [abcCls, readInto, hi, arr]
  set_get s := by
    refine AbcS.ext (by rfl) ?_ ?_ ?_
    · apply readInto_self; intro i hi
      exact arr_take_blocks _ 3 _ (fun _ _ => rfl) _ 0 hi (by norm_num)
    · apply readInto_self; intro i hi
      exact arr_take_blocks _ 3 _ (fun _ _ => rfl) _ 1 hi (by norm_num)
    · apply readInto_self; intro i hi
      exact arr_take_blocks _ 3 _ (fun _ _ => rfl) _ 2 hi (by norm_num)
  set_set s p q _ _ := by
    refine AbcS.ext (by rfl) ?_ ?_ ?_ <;> exact readInto_readInto _ _ _ _ _
  value_length s x v h := by
    simp only [abcCls, Option.some.injEq] at h ⊢; subst h; simp
  value_def _ _ _ := rfl

theorem diffuse_lawful : diffuseCls.Lawful where
  par_set _ _ := rfl
  nb_set _ _ := rfl
  nb_le s := by simp [diffuseCls]
  get_set s p hp := by
    have : p = [] := List.length_eq_zero_iff.mp hp
    simp [diffuseCls, this]
  set_get s := rfl
  set_set s p q _ _ := rfl
  value_length s x v h := by
    simp only [diffuseCls, Option.some.injEq] at h ⊢; subst h; simp
  value_def _ _ _ := rfl

/-- C41 (limit).  The diffuse plugin has no parameter, but the vectors returned by `parameters()`
    and `parametersJacobian()` have one entry, which is not initialised. -/
theorem diffuse_parameters_size (s : DiffuseS) (x : List ℝ) :
    diffuseCls.nb s = 0 ∧ (diffuseCls.get s).length = 1 ∧
    ∃ j, diffuseCls.jac s x = some j ∧ j.length = 1 := ⟨rfl, rfl, _, rfl, rfl⟩

/-- the classes with one coefficient per channel -/
theorem one_get_set (n : ℕ) (old : ℕ → ℝ) (p : List ℝ) (hp : p.length = n) :
    ((List.range n).map (readInto n p (fun i => i) old)).take n = p := by
  rw [List.take_of_length_le (by simp)]
  apply list_ext_arr
  · simp [hp]
  · intro i hi
    have hi' : i < n := by simpa using hi
    rw [arr_map_range _ _ _ hi', readInto_lt _ _ _ _ _ hi']

theorem one_set_get (n : ℕ) (R : ℕ → ℝ) :
    readInto n (((List.range n).map R).take n) (fun i => i) R = R := by
  rw [List.take_of_length_le (by simp)]
  apply readInto_self
  intro i hi
  rw [arr_map_range _ _ _ hi]

theorem schlickFresnel_lawful : schlickFresnelCls.Lawful where
  par_set _ _ := rfl
  nb_set _ _ := rfl
  nb_le s := by simp [schlickFresnelCls]
  get_set s p hp := one_get_set _ _ _ hp
  set_get s := OneS.ext rfl (one_set_get _ _)
  set_set s p q _ _ := OneS.ext rfl (readInto_readInto _ _ _ _ _)
  value_length s x v h := by
    simp only [schlickFresnelCls, Option.map_eq_some_iff] at h ⊢
    obtain ⟨h', _, rfl⟩ := h; simp
  value_def _ _ _ := by simp [schlickFresnelCls]

theorem normalizedSchlick_lawful : normalizedSchlickCls.Lawful where
  par_set _ _ := rfl
  nb_set _ _ := rfl
  nb_le s := by simp [normalizedSchlickCls]
  get_set s p hp := one_get_set _ _ _ hp
  set_get s := OneS.ext rfl (one_set_get _ _)
  set_set s p q _ _ := OneS.ext rfl (readInto_readInto _ _ _ _ _)
  value_length s x v h := by
    simp only [normalizedSchlickCls, Option.map_eq_some_iff] at h ⊢
    obtain ⟨h', _, rfl⟩ := h; simp
  value_def _ _ _ := by simp [normalizedSchlickCls]

theorem retroSchlick_lawful : retroSchlickCls.Lawful where
  par_set _ _ := rfl
  nb_set _ _ := rfl
  nb_le s := by simp [retroSchlickCls]
  get_set s p hp := one_get_set _ _ _ hp
  set_get s := OneS.ext rfl (one_set_get _ _)
  set_set s p q _ _ := OneS.ext rfl (readInto_readInto _ _ _ _ _)
  value_length s x v h := by
    simp only [retroSchlickCls, Option.map_eq_some_iff] at h ⊢
    obtain ⟨h', _, rfl⟩ := h; simp
  value_def _ _ _ := by simp [retroSchlickCls]

theorem schlickMasking_lawful : schlickMaskingCls.Lawful where
  par_set _ _ := rfl
  nb_set _ _ := rfl
  nb_le s := by simp [schlickMaskingCls]
  get_set s p hp := one_get_set _ _ _ hp
  set_get s := OneS.ext rfl (one_set_get _ _)
  set_set s p q _ _ := OneS.ext rfl (readInto_readInto _ _ _ _ _)
  value_length s x v h := by
    simp only [schlickMaskingCls, Option.some.injEq] at h ⊢; subst h; simp
  value_def _ _ _ := rfl

theorem smith_lawful : smithCls.Lawful where
  par_set _ _ := rfl
  nb_set _ _ := rfl
  nb_le s := by simp [smithCls]
  get_set s p hp := one_get_set _ _ _ hp
  set_get s := OneS.ext rfl (one_set_get _ _)
  set_set s p q _ _ := OneS.ext rfl (readInto_readInto _ _ _ _ _)
  value_length s x v h := by
    simp only [smithCls, Option.some.injEq] at h ⊢; subst h; simp
  value_def _ _ _ := by simp [smithCls]

theorem walterSmith_lawful : walterSmithCls.Lawful where
  par_set _ _ := rfl
  nb_set _ _ := rfl
  nb_le s := by simp [walterSmithCls]
  get_set s p hp := one_get_set _ _ _ hp
  set_get s := OneS.ext rfl (one_set_get _ _)
  set_set s p q _ _ := OneS.ext rfl (readInto_readInto _ _ _ _ _)
  value_length s x v h := by
    simp only [walterSmithCls, Option.some.injEq] at h ⊢; subst h; simp
  value_def _ _ _ := rfl

theorem sgd_lawful : sgdCls.Lawful where
  par_set _ _ := rfl
  nb_set _ _ := rfl
  nb_le s := by simp [sgdCls, blocks_length 11 s.par.dimY]
  get_set s p hp := by
    have hp' : p.length = 11 * s.par.dimY := hp
    rcases Nat.eq_zero_or_pos s.par.dimY with h0 | h0
    · have : p = [] := List.length_eq_zero_iff.mp (by rw [hp', h0])
      simp [sgdCls, this, h0]
    · have e : blocks 11 (fun k => (List.range s.par.dimY).map fun i => (sgdCls.set s p).v k i) = p := by
        apply list_eq_blocks p 11 s.par.dimY h0 _ hp' (by simp)
        intro k hk i hi
        rw [arr_map_range _ _ _ hi]
        simp only [sgdCls]
        rw [if_pos ⟨hk, hi⟩, add_comm]
      have e2 : sgdCls.get (sgdCls.set s p) = p := e
      rw [e2]
      exact List.take_of_length_le (by rw [hp])
  set_get s := by
    refine SgdS.ext (by rfl) ?_
    funext k i
    simp only [sgdCls]
    split
    · rename_i h
      rw [List.take_of_length_le (by rw [blocks_length 11 s.par.dimY _ (by simp)]), add_comm i,
        arr_blocks 11 s.par.dimY _ (by simp) k i h.1 h.2, arr_map_range _ _ _ h.2]
    · rfl
  set_set s p q _ _ := by
    refine SgdS.ext (by rfl) ?_
    funext k i
    simp only [sgdCls]
    split <;> rfl
  value_length s x v h := by
    simp only [sgdCls, Option.some.injEq] at h ⊢; subst h; simp
  value_def _ _ _ := rfl

theorem sg_lawful : sgCls.Lawful where
  par_set _ _ := rfl
  nb_set _ _ := rfl
  nb_le s := by
    have hl : (blocks s.par.dimY fun i => [s.ks i, s.n i]).length = s.par.dimY * 2 :=
      blocks_length _ 2 _ (fun _ _ => rfl)
    simp only [sgCls, List.length_append, hl]
    split <;> simp [mul_comm]
  get_set s p hp := by
    have e : (blocks s.par.dimY fun i =>
        [(sgCls.set s p).ks i, (sgCls.set s p).n i]) = p.take (2 * s.par.dimY) := by
      have hl : (p.take (2 * s.par.dimY)).length = s.par.dimY * 2 := by
        have hp' : p.length = if s.type = .Moment then 2 * s.par.dimY + 1 else 2 * s.par.dimY := hp
        rw [List.length_take]; split at hp' <;> omega
      apply list_eq_blocks _ _ 2 (by norm_num) _ hl (fun _ _ => rfl)
      intro i hi a ha
      have hlt : i * 2 + a < 2 * s.par.dimY := by omega
      have e1 : arr (p.take (2 * s.par.dimY)) (i * 2 + a) = arr p (i * 2 + a) := by
        simp [arr, List.getD, List.getElem?_take_of_lt hlt]
      rw [e1]
      interval_cases a <;> simp [sgCls, readInto, hi, arr]
    have hp' : p.length = if s.type = .Moment then 2 * s.par.dimY + 1 else 2 * s.par.dimY := hp
    have e2 : sgCls.get (sgCls.set s p) =
        p.take (2 * s.par.dimY) ++ (if s.type = .Moment then [(sgCls.set s p).a] else []) := by
      rw [← e]; rfl
    have e3 : sgCls.get (sgCls.set s p) = p := by
      rw [e2]
      by_cases ht : s.type = .Moment
      · rw [if_pos ht] at hp' ⊢
        have : [(sgCls.set s p).a] = p.drop (2 * s.par.dimY) := by
          have : (sgCls.set s p).a = arr p (2 * s.par.dimY) := by simp [sgCls, ht]
          rw [this]
          rw [List.drop_eq_getElem_cons (by omega), List.drop_of_length_le (by omega)]
          simp [arr, List.getD, hp']
        rw [this, List.take_append_drop]
      · rw [if_neg ht] at hp' ⊢
        rw [List.append_nil, List.take_of_length_le (by omega)]
    rw [e3]
    exact List.take_of_length_le (by rw [hp])
  set_get s := by
    have hl : (blocks s.par.dimY fun i => [s.ks i, s.n i]).length = s.par.dimY * 2 :=
      blocks_length _ 2 _ (fun _ _ => rfl)
    have ht : (sgCls.get s).take (sgCls.nb s) =
        (blocks s.par.dimY fun i => [s.ks i, s.n i]) ++ (if s.type = .Moment then [s.a] else []) := by
      apply List.take_of_length_le
      simp only [sgCls, List.length_append, hl]
      split <;> simp [mul_comm]
    rw [ht]
    have hb : ∀ i < s.par.dimY, ∀ a < 2,
        arr ((blocks s.par.dimY fun i => [s.ks i, s.n i]) ++ (if s.type = .Moment then [s.a] else []))
          (i * 2 + a) = arr [s.ks i, s.n i] a := by
      intro i hi a ha
      rw [← arr_blocks s.par.dimY 2 (fun i => [s.ks i, s.n i]) (fun _ _ => rfl) i a hi ha]
      unfold arr
      rw [List.getD, List.getElem?_append_left (by omega), List.getD]
    refine SgS.ext (by rfl) ?_ ?_ ?_ (by rfl)
    · apply readInto_self; intro i hi; exact hb i hi 0 (by norm_num)
    · apply readInto_self; intro i hi; exact hb i hi 1 (by norm_num)
    · simp only [sgCls]
      split
      · have : 2 * s.par.dimY = (blocks s.par.dimY fun i => [s.ks i, s.n i]).length := by rw [hl, mul_comm]
        rw [this]
        simp [arr, List.getD]
      · rfl
  set_set s p q _ _ := by
    refine SgS.ext (by rfl) ?_ ?_ ?_ (by rfl)
    · exact readInto_readInto _ _ _ _ _
    · exact readInto_readInto _ _ _ _ _
    · simp only [sgCls]; split <;> rfl
  value_length s x v h := by
    simp only [sgCls, Option.map_eq_some_iff] at h ⊢
    obtain ⟨h', _, rfl⟩ := h; simp
  value_def s p x := by
    simp only [sgCls, Option.isSome_map]
    have turn : ∀ f g : ℝ → ℝ, (sgTurn f x).isSome = (sgTurn g x).isSome := by
      intro f g
      simp only [sgTurn]
      cases convertInput (arr x) .CARTESIAN .SPHERICAL_TL_PL_TV_PV with
      | none => rfl
      | some sp => simp [convertInput, toCartesian]
    cases ht : s.type <;> simp only [sgDot]
    exact turn _ _

/-- the lobes and the channels make one range of indices -/
theorem blocks_blocks (n m : ℕ) (f : ℕ → List ℝ) :
    (blocks n fun i => blocks m fun j => f (i * m + j)) = blocks (n * m) f := by
  induction n with
  | zero => simp [blocks]
  | succ n ih =>
    rw [blocks_succ, ih, Nat.add_mul, one_mul]
    have e : ∀ l, (blocks (n * m + l) f) = blocks (n * m) f ++ blocks l fun j => f (n * m + j) := by
      intro l
      induction l with
      | zero => simp [blocks]
      | succ l ih2 => rw [← Nat.add_assoc, blocks_succ, ih2, blocks_succ, List.append_assoc]
    exact (e m).symm

theorem isoLafortune_get (s : IsoLafortuneS) : isoLafortuneCls.get s =
    blocks (s.n * s.par.dimY) fun k => [s.C (k * 2 + 0), s.C (k * 2 + 1), s.N k] :=
  blocks_blocks s.n s.par.dimY fun k => [s.C (k * 2 + 0), s.C (k * 2 + 1), s.N k]

theorem lafortune_get (s : LafortuneS) : lafortuneCls.get s =
    blocks (s.n * s.par.dimY) fun k => [s.C (k * 3 + 0), s.C (k * 3 + 1), s.C (k * 3 + 2), s.N k] :=
  blocks_blocks s.n s.par.dimY fun k => [s.C (k * 3 + 0), s.C (k * 3 + 1), s.C (k * 3 + 2), s.N k]

theorem isoLafortune_lawful : isoLafortuneCls.Lawful where
  par_set _ _ := rfl
  nb_set _ _ := rfl
  nb_le s := by
    rw [isoLafortune_get, blocks_length _ 3 _ (fun _ _ => rfl)]
    simp only [isoLafortuneCls]; exact le_of_eq (by ring)
  get_set s p hp := by
    have hp' : p.length = 3 * (s.n * s.par.dimY) := by rw [← mul_assoc]; exact hp
    rw [isoLafortune_get, show isoLafortuneCls.nb s = 3 * (s.n * s.par.dimY) from mul_assoc _ _ _]
    apply get_of_blocks _ 3 (by norm_num) _ _ hp' (fun _ _ => rfl)
    intro k hk a ha
    have hk' : k < s.n * s.par.dimY := hk
    have e1 : ∀ c < 2, k * 2 + c < s.n * s.par.dimY * 2 := by intro c hc; omega
    have e2 : ∀ c < 2, (k * 2 + c) / 2 * 3 + (k * 2 + c) % 2 = k * 3 + c := by intro c hc; omega
    have h0 : (isoLafortuneCls.set s p).C (k * 2 + 0) = arr p (k * 3 + 0) := by
      simp only [isoLafortuneCls, isoLafC, if_pos (e1 0 (by norm_num)), e2 0 (by norm_num)]
    have h1 : (isoLafortuneCls.set s p).C (k * 2 + 1) = arr p (k * 3 + 1) := by
      simp only [isoLafortuneCls, isoLafC, if_pos (e1 1 (by norm_num)), e2 1 (by norm_num)]
    have h2 : (isoLafortuneCls.set s p).N k = arr p (k * 3 + 2) := by
      simp only [isoLafortuneCls, readInto, if_pos hk']
    rw [h0, h1, h2]
    interval_cases a <;> simp [arr]
  set_get s := by
    have ht : (isoLafortuneCls.get s).take (isoLafortuneCls.nb s) =
        blocks (s.n * s.par.dimY) fun k => [s.C (k * 2 + 0), s.C (k * 2 + 1), s.N k] := by
      rw [isoLafortune_get]
      apply List.take_of_length_le
      rw [blocks_length _ 3 _ (fun _ _ => rfl)]
      simp only [isoLafortuneCls]; exact le_of_eq (by ring)
    rw [ht]
    refine IsoLafortuneS.ext (by rfl) (by rfl) ?_ ?_
    · funext k
      simp only [isoLafortuneCls, isoLafC]
      split
      · rw [arr_blocks _ 3 _ (fun _ _ => rfl) _ _ (by omega) (by omega)]
        have e : k = k / 2 * 2 + k % 2 := by omega
        have h2 : k % 2 < 2 := Nat.mod_lt _ (by norm_num)
        generalize hq : k / 2 = q at *
        generalize hr : k % 2 = r at *
        subst e
        interval_cases r <;> simp [arr]
      · rfl
    · apply readInto_self; intro i hi
      exact arr_blocks _ 3 _ (fun _ _ => rfl) _ 2 hi (by norm_num)
  set_set s p q _ _ := by
    refine IsoLafortuneS.ext (by rfl) (by rfl) ?_ ?_
    · funext k; simp only [isoLafortuneCls, isoLafC]; split <;> rfl
    · exact readInto_readInto _ _ _ _ _
  value_length s x v h := by
    simp only [isoLafortuneCls, Option.some.injEq] at h ⊢; subst h; simp
  value_def _ _ _ := by simp [isoLafortuneCls]

theorem lafortune_lawful : lafortuneCls.Lawful where
  par_set _ _ := rfl
  nb_set _ _ := rfl
  nb_le s := by
    rw [lafortune_get, blocks_length _ 4 _ (fun _ _ => rfl)]
    simp only [lafortuneCls]; exact le_of_eq (by ring)
  get_set s p hp := by
    have hp' : p.length = 4 * (s.n * s.par.dimY) := by rw [← mul_assoc]; exact hp
    rw [lafortune_get, show lafortuneCls.nb s = 4 * (s.n * s.par.dimY) from mul_assoc _ _ _]
    apply get_of_blocks _ 4 (by norm_num) _ _ hp' (fun _ _ => rfl)
    intro k hk a ha
    have hk' : k < s.n * s.par.dimY := hk
    have e1 : ∀ c < 3, k * 3 + c < s.n * s.par.dimY * 3 := by intro c hc; omega
    have e2 : ∀ c < 3, (k * 3 + c) / 3 * 4 + (k * 3 + c) % 3 = k * 4 + c := by intro c hc; omega
    have h0 : (lafortuneCls.set s p).C (k * 3 + 0) = arr p (k * 4 + 0) := by
      simp only [lafortuneCls, lafC, if_pos (e1 0 (by norm_num)), e2 0 (by norm_num)]
    have h1 : (lafortuneCls.set s p).C (k * 3 + 1) = arr p (k * 4 + 1) := by
      simp only [lafortuneCls, lafC, if_pos (e1 1 (by norm_num)), e2 1 (by norm_num)]
    have h2 : (lafortuneCls.set s p).C (k * 3 + 2) = arr p (k * 4 + 2) := by
      simp only [lafortuneCls, lafC, if_pos (e1 2 (by norm_num)), e2 2 (by norm_num)]
    have h3 : (lafortuneCls.set s p).N k = arr p (k * 4 + 3) := by
      simp only [lafortuneCls, readInto, if_pos hk']
    rw [h0, h1, h2, h3]
    interval_cases a <;> simp [arr]
  set_get s := by
    have ht : (lafortuneCls.get s).take (lafortuneCls.nb s) =
        blocks (s.n * s.par.dimY) fun k => [s.C (k * 3 + 0), s.C (k * 3 + 1), s.C (k * 3 + 2), s.N k] := by
      rw [lafortune_get]
      apply List.take_of_length_le
      rw [blocks_length _ 4 _ (fun _ _ => rfl)]
      simp only [lafortuneCls]; exact le_of_eq (by ring)
    rw [ht]
    refine LafortuneS.ext (by rfl) (by rfl) ?_ ?_ (by rfl)
    · funext k
      simp only [lafortuneCls, lafC]
      split
      · rw [arr_blocks _ 4 _ (fun _ _ => rfl) _ _ (by omega) (by omega)]
        have e : k = k / 3 * 3 + k % 3 := by omega
        have h2 : k % 3 < 3 := Nat.mod_lt _ (by norm_num)
        generalize hq : k / 3 = q at *
        generalize hr : k % 3 = r at *
        subst e
        interval_cases r <;> simp [arr]
      · rfl
    · apply readInto_self; intro i hi
      exact arr_blocks _ 4 _ (fun _ _ => rfl) _ 3 hi (by norm_num)
  set_set s p q _ _ := by
    refine LafortuneS.ext (by rfl) (by rfl) ?_ ?_ (by rfl)
    · funext k; simp only [lafortuneCls, lafC]; split <;> rfl
    · exact readInto_readInto _ _ _ _ _
  value_length s x v h := by
    simp only [lafortuneCls, Option.some.injEq] at h ⊢; subst h; simp
  value_def _ _ _ := by simp [lafortuneCls]

theorem Cls.Lawful.roundTrip {σ : Type} {c : Cls σ} (h : c.Lawful) (hs : ∀ s, (c.get s).length = c.nb s) :
    c.ParametersRoundTrip where
  size := hs
  read_back s v hv := by
    have := h.get_set s v hv
    rwa [List.take_of_length_le (by rw [hs, h.nb_set])] at this
  unchanged s := by
    have := h.set_get s
    rwa [List.take_of_length_le (by rw [hs])] at this

/-- C41.  For each nonlinear function plugin with parameters, whatever the number of channels
    (and of lobes): the parameter vector has `nbParameters()` entries, is what was last given to
    `setParameters`, and giving it back changes nothing. -/
theorem lobe_parameters_round_trip :
    blinnCls.ParametersRoundTrip ∧ retroblinnCls.ParametersRoundTrip ∧
    beckmannCls.ParametersRoundTrip ∧ retrobeckmannCls.ParametersRoundTrip ∧
    wardCls.ParametersRoundTrip ∧ abcCls.ParametersRoundTrip ∧
    sgCls.ParametersRoundTrip ∧ isoLafortuneCls.ParametersRoundTrip ∧
    lafortuneCls.ParametersRoundTrip ∧ sgdCls.ParametersRoundTrip ∧
    schlickFresnelCls.ParametersRoundTrip ∧ normalizedSchlickCls.ParametersRoundTrip ∧
    retroSchlickCls.ParametersRoundTrip ∧ schlickMaskingCls.ParametersRoundTrip ∧
    smithCls.ParametersRoundTrip ∧ walterSmithCls.ParametersRoundTrip := by
  refine ⟨blinn_lawful.roundTrip fun s => ?_, retroblinn_lawful.roundTrip fun s => ?_,
    beckmann_lawful.roundTrip fun s => ?_, retrobeckmann_lawful.roundTrip fun s => ?_,
    ward_lawful.roundTrip fun s => ?_, abc_lawful.roundTrip fun s => ?_,
    sg_lawful.roundTrip fun s => ?_, isoLafortune_lawful.roundTrip fun s => ?_,
    lafortune_lawful.roundTrip fun s => ?_, sgd_lawful.roundTrip fun s => ?_,
    schlickFresnel_lawful.roundTrip fun s => ?_, normalizedSchlick_lawful.roundTrip fun s => ?_,
    retroSchlick_lawful.roundTrip fun s => ?_, schlickMasking_lawful.roundTrip fun s => ?_,
    smith_lawful.roundTrip fun s => ?_, walterSmith_lawful.roundTrip fun s => ?_⟩
  · simp [blinnCls, blocks_length _ 2, mul_comm]
  · simp [retroblinnCls, blocks_length _ 2, mul_comm]
  · simp [beckmannCls, blocks_length _ 2, mul_comm]
  · simp [retrobeckmannCls, blocks_length _ 2, mul_comm]
  · simp [wardCls, blocks_length _ 3, mul_comm]
  · simp [abcCls, blocks_length _ 3, mul_comm]
  · have hl : (blocks s.par.dimY fun i => [s.ks i, s.n i]).length = s.par.dimY * 2 :=
      blocks_length _ 2 _ (fun _ _ => rfl)
    simp only [sgCls, List.length_append, hl]
    split <;> simp [mul_comm]
  · rw [isoLafortune_get, blocks_length _ 3 _ (fun _ _ => rfl)]
    simp only [isoLafortuneCls]; ring
  · rw [lafortune_get, blocks_length _ 4 _ (fun _ _ => rfl)]
    simp only [lafortuneCls]; ring
  · simp [sgdCls, blocks_length 11 s.par.dimY]
  · simp [schlickFresnelCls]
  · simp [normalizedSchlickCls]
  · simp [retroSchlickCls]
  · simp [schlickMaskingCls]
  · simp [smithCls]
  · simp [walterSmithCls]

/-- three channels, two lobes: reading back a vector of 18 entries -/
example : isoLafortuneCls.get (isoLafortuneCls.set ⟨⟨6, 3, .CARTESIAN, .RGB_COLOR⟩, 2, fun _ => 1, fun _ => 1⟩
    ((List.range 18).map fun i => (i : ℝ))) = (List.range 18).map fun i => (i : ℝ) :=
  lobe_parameters_round_trip.2.2.2.2.2.2.2.1.read_back _ _ (by simp [isoLafortuneCls])

end
end Alta
