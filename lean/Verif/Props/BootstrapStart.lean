import Verif.Props.BootstrapForget
/-
Property C58: the values that the plugins start from.
-/
namespace Alta
noncomputable section

theorem blocks_const (n : ℕ) (f : ℕ → List ℝ) (v : List ℝ) (h : ∀ i < n, f i = v) :
    blocks n f = (List.replicate n v).flatten := by
  rw [blocks_congr n f (fun _ => v) h]
  unfold blocks
  induction n with
  | zero => rfl
  | succ n ih =>
    rw [List.range_succ, List.flatMap_append, ih (fun i hi => h i (by omega)), List.replicate_succ']
    simp

/-- The starting coefficients of a channel, for the classes whose start is the same whatever the data and
    the options. -/
def LobeObj.firstGuess : LobeObj → Option (List ℝ)
  | .blinn _ => some [1, 10]
  | .retroblinn _ => some [1, 1]
  | .retrobeckmann _ => some [1, 1]
  | .ward _ => some [1, 1, 1]
  | .abc _ => some [1, 1, 1]
  | .schlickFresnel _ | .normalizedSchlick _ | .retroSchlick _ => some [1 / 2]
  | .schlickMasking _ => some [0]
  | .smith _ | .walterSmith _ => some [1]
  | _ => none

/-- C58: these classes always start, from one and the same value for all channels: the parameters are
    `firstGuess` repeated for each channel. -/
theorem first_guess (files : Str → Option Str) (d : Data) (args : SMap) (l : LobeObj) (v : List ℝ)
    (hv : l.firstGuess = some v) :
    ∃ l', l.bootstrap files d args = some l' ∧ l'.toFn.par.dimY = l.toFn.par.dimY ∧
      l'.toFn.get = (List.replicate l.toFn.par.dimY v).flatten := by
  have one : ∀ (n : ℕ) (x : ℝ) (R : ℕ → ℝ), (List.range n).map (fillTo n x R) = (List.replicate n [x]).flatten := by
    intro n x R
    have : (List.range n).map (fillTo n x R) = (List.range n).map fun _ => x :=
      List.map_congr_left fun i hi => fillTo_lt _ _ _ _ (List.mem_range.1 hi)
    rw [this]
    simp
  cases l <;> simp only [LobeObj.firstGuess, reduceCtorEq, Option.some.injEq] at hv <;> subst hv <;>
    refine ⟨_, rfl, rfl, ?_⟩
  case abc s =>
    exact blocks_const _ _ _ fun i hi => by simp only [AbcS.bootstrap] at hi ⊢; simp [fillTo, hi]
  case schlickFresnel s => rw [show (1 / 2 : ℝ) = 0.5 by norm_num]; exact one _ _ _
  case normalizedSchlick s => rw [show (1 / 2 : ℝ) = 0.5 by norm_num]; exact one _ _ _
  case retroSchlick s => rw [show (1 / 2 : ℝ) = 0.5 by norm_num]; exact one _ _ _
  case schlickMasking s => exact one _ _ _
  case smith s => exact one _ _ _
  case walterSmith s => exact one _ _ _
  all_goals
    exact blocks_const _ _ _ fun i hi => by simp only at hi; simp [fillTo, hi]

/-- C58: a Beckmann lobe starts, without the option, from 1 and 1 for all channels. -/
theorem first_guess_beckmann (files : Str → Option Str) (d : Data) (args : SMap) (ha : args.isDefined kBoot = false)
    (s : BeckmannS) : ∃ t : BeckmannS, LobeObj.bootstrap files d args (.beckmann s) = some (.beckmann t) ∧
      t.par = s.par ∧ beckmannCls.get t = (List.replicate s.par.dimY [1, 1]).flatten := by
  refine ⟨{ s with ks := fillTo s.par.dimY 1 s.ks, a := fillTo s.par.dimY 1 s.a }, ?_, rfl, ?_⟩
  · simp only [LobeObj.bootstrap, ha, Bool.false_eq_true, if_false]
  · exact blocks_const _ _ _ fun i hi => by simp only at hi; simp [fillTo, hi]

/-- C58: the number of lobes of a Lafortune function is that of the option `lobes`, one without it; each
    lobe of the isotropic function starts from the direction of the mirror, with the number of lobes as
    exponent. -/
theorem first_guess_lafortune (files : Str → Option Str) (d : Data) (args : SMap) (ha : args.isDefined kBoot = false)
    (n : ℕ) (hn : args.getInt "lobes".toList 1 = n) (s : IsoLafortuneS) :
    ∃ t : IsoLafortuneS, LobeObj.bootstrap files d args (.isoLafortune s) = some (.isoLafortune t) ∧
      t.par = s.par ∧ t.n = n ∧ isoLafortuneCls.nb t = 3 * n * s.par.dimY ∧
      isoLafortuneCls.get t = (List.replicate (n * s.par.dimY) [-1, 1, (n : ℝ)]).flatten := by
  have hl : askedLobes args = some n := by
    unfold askedLobes
    simp only [hn]
    simp
  refine ⟨{ s with n := n
                   C := fun k => if k < n * s.par.dimY * 2 then
                      (if k % 2 = 0 then isoCxy (args.isDefined kBoot) (k / 2 / s.par.dimY) else 1) else s.C k
                   N := fillTo (n * s.par.dimY) n s.N }, ?_, rfl, rfl, rfl, ?_⟩
  · simp only [LobeObj.bootstrap, IsoLafortuneS.bootstrap, hl, Option.map_some]
  · rw [isoLafortune_get]
    refine blocks_const _ _ _ fun k hk => ?_
    simp only at hk ⊢
    have h1 : k * 2 + 0 < n * s.par.dimY * 2 := by omega
    have h2 : k * 2 + 1 < n * s.par.dimY * 2 := by omega
    have h3 : (k * 2 + 0) % 2 = 0 := by omega
    have h4 : ¬ (k * 2 + 1) % 2 = 0 := by omega
    simp only [h1, h2, h3, h4, if_true, if_false, isoCxy, ha, Bool.false_eq_true, fillTo, hk]

/-- C58: the (anisotropic) Lafortune function starts with its lobes spread over a quarter of a turn: the lobe `m` of
    `n` has, for each channel, the coefficients `(-sin θ, -sin θ, cos θ)` where `θ = (π/2) m/n`, and `n` as exponent;
    its diffuse term is the lowest value of the data. -/
theorem first_guess_full_lafortune (files : Str → Option Str) (d : Data) (args : SMap)
    (n : ℕ) (hn : args.getInt "lobes".toList 1 = n) (s : LafortuneS) (hd : s.par.dimY = d.dimY) (hr : d.rows ≠ []) :
    ∃ t : LafortuneS, LobeObj.bootstrap files d args (.lafortune s) = some (.lafortune t) ∧
      t.par = s.par ∧ t.n = n ∧ lafortuneCls.nb t = 4 * n * s.par.dimY ∧
      (∀ m < n, ∀ i < s.par.dimY, ∀ θ, θ = Real.pi / 2 * (m / n) →
        ∀ c < 4, arr (lafortuneCls.get t) ((m * s.par.dimY + i) * 4 + c) =
          arr [- Real.sin θ, - Real.sin θ, Real.cos θ, (n : ℝ)] c) ∧
      ∀ j < d.dimY, LowestOf d d.rows j (t.kd j) := by
  have hl : askedLobes args = some n := by
    unfold askedLobes
    simp only [hn]
    simp
  obtain ⟨x0, rows, hx⟩ := List.exists_cons_of_ne_nil hr
  have hlt : ¬ s.par.dimY < d.dimY := by omega
  obtain ⟨t, h1, h2⟩ : ∃ t : LafortuneS, LobeObj.bootstrap files d args (.lafortune s) = some (.lafortune t) ∧
      t = { s with n := n
                   kd := rows.foldl (fun kd row => minInto d.dimY (fun j => arr row (d.dimX + j)) kd)
                      (fun i => if i < d.dimY then arr x0 (d.dimX + i) else s.kd i)
                   C := fun k => if k < n * s.par.dimY * 3 then
                        (if k % 3 = 2 then Real.cos (0.5 * Real.pi * (k / 3 / s.par.dimY : ℕ) / n)
                         else - Real.sin (0.5 * Real.pi * (k / 3 / s.par.dimY : ℕ) / n))
                      else s.C k
                   N := fillTo (n * s.par.dimY) n s.N } :=
    ⟨_, by simp only [LobeObj.bootstrap, LafortuneS.bootstrap, hl, hx, hlt, if_false, Option.map_some], rfl⟩
  refine ⟨t, h1, by rw [h2], by rw [h2], by rw [h2]; rfl, ?_, ?_⟩
  · rw [h2]
    intro m hm i hi θ hθ c hc
    have hk : m * s.par.dimY + i < n * s.par.dimY := by
      have : (m + 1) * s.par.dimY ≤ n * s.par.dimY := Nat.mul_le_mul_right _ hm
      rw [Nat.add_mul, Nat.one_mul] at this
      omega
    rw [lafortune_get]
    generalize hK : m * s.par.dimY + i = k at hk
    have hdiv : k / s.par.dimY = m := by
      rw [← hK, Nat.mul_comm, Nat.mul_add_div (by omega), Nat.div_eq_of_lt hi, Nat.add_zero]
    simp only
    rw [arr_blocks _ 4 _ (by intros; rfl) k c hk hc]
    have h0 : (k * 3 + 0) / 3 = k := by omega
    have h1 : (k * 3 + 1) / 3 = k := by omega
    have h2 : (k * 3 + 2) / 3 = k := by omega
    rw [if_pos (by omega), if_neg (by omega), if_pos (by omega), if_neg (by omega), if_pos (by omega),
      if_pos (by omega), fillTo_lt _ _ _ _ hk, h0, h1, h2, hdiv]
    have : (0.5 : ℝ) * Real.pi * m / n = θ := by rw [hθ]; ring
    rw [this]
  · rw [h2]
    intro j hj
    obtain ⟨⟨h1, h2⟩, h3⟩ := minInto_foldl d rows (fun i => if i < d.dimY then arr x0 (d.dimX + i) else s.kd i) j hj _ rfl
    simp only [hj, if_true] at h1 h3
    refine ⟨?_, ?_⟩
    · rcases h3 with h3 | ⟨row, h3, h4⟩
      · exact ⟨x0, by rw [hx]; simp, h3⟩
      · exact ⟨row, by rw [hx]; simp [h3], h4⟩
    · rintro y ⟨row, hrow, rfl⟩
      rw [hx, List.mem_cons] at hrow
      rcases hrow with rfl | hrow
      · exact h1
      · exact h2 row hrow

/-- C58: a spherical Gaussian starts, for each channel, from an amplitude and an exponent 1 (and a scale 1
    for the type `moment`). -/
theorem first_guess_gaussian (files : Str → Option Str) (d : Data) (args : SMap) (s : SgS) :
    ∃ t : SgS, LobeObj.bootstrap files d args (.sg s) = some (.sg t) ∧ t.par = s.par ∧
      (sgCls.get t).take (2 * s.par.dimY) = (List.replicate s.par.dimY [1, 1]).flatten ∧
      (args.isDefined "sg-type".toList = true → args.get "sg-type".toList = "moment".toList →
        t.type = .Moment ∧ sgCls.get t = (List.replicate s.par.dimY [1, 1]).flatten ++ [1]) := by
  have hb : ∀ t : SgS, t.par = s.par → t.ks = fillTo s.par.dimY 1 s.ks → t.n = fillTo s.par.dimY 1 s.n →
      (blocks t.par.dimY fun i => [t.ks i, t.n i]) = (List.replicate s.par.dimY [1, 1]).flatten := by
    intro t h1 h2 h3
    rw [h1, h2, h3]
    exact blocks_const _ _ _ fun i hi => by simp [fillTo, hi]
  have hp : (s.bootstrap args).par = s.par ∧ (s.bootstrap args).ks = fillTo s.par.dimY 1 s.ks ∧
      (s.bootstrap args).n = fillTo s.par.dimY 1 s.n := by
    unfold SgS.bootstrap
    simp only
    repeat' split
    all_goals exact ⟨rfl, rfl, rfl⟩
  have h1 := hb _ hp.1 hp.2.1 hp.2.2
  refine ⟨s.bootstrap args, rfl, hp.1, ?_, fun ha hm => ?_⟩
  · show ((blocks _ _) ++ _).take _ = _
    rw [h1, List.take_left' (by simp; ring)]
  · have ht : (s.bootstrap args).type = .Moment ∧ (s.bootstrap args).a = 1 := by
      have hg : args.getString "sg-type".toList "half".toList = "moment".toList := by
        unfold SMap.getString
        unfold SMap.isDefined at ha
        unfold SMap.get at hm
        obtain ⟨v, hv⟩ := Option.isSome_iff_exists.1 ha
        rw [hv] at hm ⊢
        exact hm
      have ho : sgTypeOf "moment".toList = some .Moment := by decide
      unfold SgS.bootstrap
      rw [if_pos ha, hg, ho]
      exact ⟨rfl, rfl⟩
    refine ⟨ht.1, ?_⟩
    show (blocks _ _) ++ _ = _
    rw [h1, if_pos ht.1, ht.2]

/-! ### The diffuse term -/

/-- C58: the diffuse term starts, for each channel, from the lowest value of the data. -/
theorem diffuse_start (files : Str → Option Str) (d : Data) (args : SMap) (s : DiffuseS)
    (ha : args.isDefined kBoot = false) (hc : d.output ≠ .INV_STERADIAN_COSINE_FACTOR)
    (hc' : args.isDefined "cos-fit".toList = false) (hd : s.par.dimY = d.dimY) (hr : d.rows ≠ [])
    (hm : ∀ row ∈ d.rows, ∀ j < d.dimY, arr row (d.dimX + j) ≤ maxDouble) :
    ∃ t : DiffuseS, LobeObj.bootstrap files d args (.diffuse s) = some (.diffuse t) ∧ t.par = s.par ∧
      ∀ x j, j < d.dimY → LowestOf d d.rows j ((Fn.leaf diffuseCls t).valueAt x j) := by
  replace hc : isCosineWeighted d.output = false := by
    rw [← Bool.not_eq_true, isCosineWeighted_iff]; exact hc
  refine ⟨{ s with kd := d.rows.foldl (fun kd row => minInto d.dimY (fun j => arr row (d.dimX + j)) kd)
                          (fillTo d.dimY maxDouble s.kd) }, ?_, rfl, ?_⟩
  · simp only [LobeObj.bootstrap, DiffuseS.bootstrap, ha, hc, hc', hd, Bool.or_false, Bool.false_eq_true,
      if_false, lt_irrefl, Option.map_some]
  · intro x j hj
    have hj' : j < s.par.dimY := by omega
    have hval : (Fn.leaf diffuseCls { s with kd := d.rows.foldl (fun kd row =>
          minInto d.dimY (fun j => arr row (d.dimX + j)) kd) (fillTo d.dimY maxDouble s.kd) }).valueAt x j =
        d.rows.foldl (fun kd row => minInto d.dimY (fun j => arr row (d.dimX + j)) kd) (fillTo d.dimY maxDouble s.kd) j := by
      simp only [Fn.valueAt, Fn.value, diffuseCls, Option.getD_some]
      exact arr_map_range' _ _ _ hj'
    obtain ⟨⟨h1, h2⟩, h3⟩ := minInto_foldl d d.rows (fillTo d.dimY maxDouble s.kd) j hj _ rfl
    unfold LowestOf
    rw [hval]
    refine ⟨?_, ?_⟩
    · rcases h3 with h3 | h3
      · cases hrows : d.rows with
        | nil => exact absurd hrows hr
        | cons row rows =>
          rw [← hrows]
          have hmem : row ∈ d.rows := by rw [hrows]; simp
          refine ⟨row, hmem, le_antisymm (h2 row hmem) ?_⟩
          rw [h3, fillTo_lt _ _ _ _ hj]
          exact hm row hmem j hj
      · exact h3
    · rintro y ⟨row, hrow, rfl⟩
      exact h2 row hrow

/-- The values of a channel divided by the cosines of the two directions, for the samples whose two
    directions are above the surface. -/
def cosineValues (d : Data) (rows : List (List ℝ)) (j : ℕ) : Set ℝ :=
  {y | ∃ row ∈ rows, ∃ c, convertInput (arr row) d.input .CARTESIAN = some c ∧ 0 < arr c 2 ∧ 0 < arr c 5 ∧
    y = arr row (d.dimX + j) / (arr c 2 * arr c 5)}

theorem bothCosines_pos (c : List ℝ) : bothCosines c > 0 ↔ 0 < arr c 2 ∧ 0 < arr c 5 := by
  unfold bothCosines
  by_cases h1 : arr c 2 > 0
  · by_cases h2 : arr c 5 > 0
    · rw [if_pos h1, if_pos h2]
      exact ⟨fun _ => ⟨h1, h2⟩, fun _ => mul_pos h1 h2⟩
    · rw [if_neg h2, mul_zero]
      exact ⟨fun h => absurd h (lt_irrefl _), fun h => absurd h.2 h2⟩
  · rw [if_neg h1, zero_mul]
    exact ⟨fun h => absurd h (lt_irrefl _), fun h => absurd h.1 h1⟩

theorem cos_foldlM_spec (d : Data) (rows : List (List ℝ)) : ∀ (kd r : ℕ → ℝ) (j : ℕ), j < d.dimY →
    rows.foldlM (diffuseCosRow d) kd = some r →
      (r j ≤ kd j ∧ ∀ y ∈ cosineValues d rows j, r j ≤ y) ∧ (r j = kd j ∨ r j ∈ cosineValues d rows j) := by
  induction rows with
  | nil =>
    intro kd r j hj h
    have : kd = r := by simpa using h
    subst this
    refine ⟨⟨le_refl _, ?_⟩, Or.inl rfl⟩
    rintro y ⟨row, hrow, -⟩
    cases hrow
  | cons x rows ih =>
    intro kd r j hj h
    simp only [List.foldlM_cons] at h
    unfold diffuseCosRow at h
    cases hc : convertInput (arr x) d.input .CARTESIAN with
    | none => simp [hc] at h
    | some c =>
      simp only [hc, Option.map_some] at h
      by_cases hp : bothCosines c > 0
      · have hp' := (bothCosines_pos c).1 hp
        have hb : bothCosines c = arr c 2 * arr c 5 := by
          unfold bothCosines
          rw [if_pos hp'.1, if_pos hp'.2]
        simp only [hp, if_true] at h
        obtain ⟨⟨h1, h2⟩, h3⟩ := ih _ r j hj h
        simp only [minInto, hj, if_true] at h1 h3
        refine ⟨⟨le_trans h1 (min_le_right _ _), ?_⟩, ?_⟩
        · rintro y ⟨row, hrow, c', e, p1, p2, rfl⟩
          rcases List.mem_cons.1 hrow with rfl | hrow
          · rw [hc] at e
            obtain rfl := Option.some.inj e
            exact le_trans h1 (by rw [hb]; exact min_le_left _ _)
          · exact h2 _ ⟨row, hrow, c', e, p1, p2, rfl⟩
        · rcases h3 with h3 | ⟨row, hrow, h3⟩
          · rcases min_choice (arr x (d.dimX + j) / bothCosines c) (kd j) with h | h
            · exact Or.inr ⟨x, by simp, c, hc, hp'.1, hp'.2, by rw [← hb]; exact h3.trans h⟩
            · exact Or.inl (h3.trans h)
          · exact Or.inr ⟨row, by simp [hrow], h3⟩
      · simp only [hp, if_false] at h
        obtain ⟨⟨h1, h2⟩, h3⟩ := ih _ r j hj h
        refine ⟨⟨h1, ?_⟩, ?_⟩
        · rintro y ⟨row, hrow, c', e, p1, p2, rfl⟩
          rcases List.mem_cons.1 hrow with rfl | hrow
          · rw [hc] at e
            obtain rfl := Option.some.inj e
            exact absurd ((bothCosines_pos c).2 ⟨p1, p2⟩) hp
          · exact h2 _ ⟨row, hrow, c', e, p1, p2, rfl⟩
        · rcases h3 with h3 | ⟨row, hrow, h3⟩
          · exact Or.inl h3
          · exact Or.inr ⟨row, by simp [hrow], h3⟩

/-- C58: for data weighted by the cosines (or with `--cos-fit`), the diffuse term starts, for each
    channel, from the lowest value divided by the cosines, among the samples but the first one. -/
theorem diffuse_start_cosine (files : Str → Option Str) (d : Data) (args : SMap) (s : DiffuseS)
    (ha : args.isDefined kBoot = false)
    (hc : d.output = .INV_STERADIAN_COSINE_FACTOR ∨ args.isDefined "cos-fit".toList = true)
    (hd : s.par.dimY = d.dimY) (hr : ∀ row ∈ d.rows.drop 1, (convertInput (arr row) d.input .CARTESIAN).isSome) :
    ∃ t : DiffuseS, LobeObj.bootstrap files d args (.diffuse s) = some (.diffuse t) ∧ t.par = s.par ∧
      ∀ x j, j < d.dimY → (cosineValues d (d.rows.drop 1) j).Nonempty →
        (∀ y ∈ cosineValues d (d.rows.drop 1) j, y ≤ maxDouble) →
        IsLeast (cosineValues d (d.rows.drop 1) j) ((Fn.leaf diffuseCls t).valueAt x j) := by
  have hst := (startable_iff files d args (.diffuse s)).2 ⟨ha, by omega, fun _ => hr⟩
  obtain ⟨l, hl⟩ := Option.isSome_iff_exists.1 hst
  have hc' : (isCosineWeighted d.output || args.isDefined "cos-fit".toList) = true := by
    rw [Bool.or_eq_true, isCosineWeighted_iff]; exact hc
  have hl' := hl
  simp only [LobeObj.bootstrap, DiffuseS.bootstrap, ha, hd, hc', Bool.false_eq_true, if_false, if_true, lt_irrefl,
    Option.map_map, Option.map_eq_some_iff, Function.comp_apply] at hl'
  obtain ⟨kd, h1, rfl⟩ := hl'
  refine ⟨_, hl, rfl, ?_⟩
  intro x j hj hne hm
  have hj' : j < s.par.dimY := by omega
  have hval : (Fn.leaf diffuseCls { s with kd := kd }).valueAt x j = kd j := by
    simp only [Fn.valueAt, Fn.value, diffuseCls, Option.getD_some]
    exact arr_map_range' _ _ _ hj'
  rw [hval]
  obtain ⟨⟨-, h2⟩, h3⟩ := cos_foldlM_spec d _ _ _ j hj h1
  refine ⟨?_, fun y hy => h2 y hy⟩
  rcases h3 with h3 | h3
  · obtain ⟨y, hy⟩ := hne
    have e : y = kd j := by
      refine le_antisymm ?_ (h2 y hy)
      rw [h3, fillTo_lt _ _ _ _ hj]
      exact hm y hy
    rw [← e]
    exact hy
  · exact h3

/-- Limit: with a single sample weighted by the cosines, the diffuse term starts from the largest double,
    whatever the sample. -/
theorem diffuse_first_ignored (files : Str → Option Str) (d : Data) (args : SMap) (s : DiffuseS) (row : List ℝ)
    (ha : args.isDefined kBoot = false) (hc : d.output = .INV_STERADIAN_COSINE_FACTOR) (hd : s.par.dimY = d.dimY)
    (hr : d.rows = [row]) :
    ∃ t : DiffuseS, LobeObj.bootstrap files d args (.diffuse s) = some (.diffuse t) ∧
      ∀ x j, j < d.dimY → (Fn.leaf diffuseCls t).valueAt x j = maxDouble := by
  replace hc := (isCosineWeighted_iff d.output).2 hc
  refine ⟨{ s with kd := fillTo d.dimY maxDouble s.kd }, ?_, ?_⟩
  · simp [LobeObj.bootstrap, DiffuseS.bootstrap, ha, hc, hd, hr]
  · intro x j hj
    have hj' : j < s.par.dimY := by omega
    simp only [Fn.valueAt, Fn.value, diffuseCls, Option.getD_some]
    rw [arr_map_range' _ _ _ hj', fillTo_lt _ _ _ _ hj]

/-- Limit: the option `bootstrap` ends the program when the function is or contains, in a product, a
    diffuse lobe alone. -/
theorem diffuse_option_ends (files : Str → Option Str) (d : Data) (args : SMap) (s : DiffuseS)
    (ha : args.isDefined kBoot = true) : (FT.leaf (.diffuse s)).bootstrap files d args = none := by
  simp [FT.bootstrap, LobeObj.bootstrap, DiffuseS.bootstrap, ha]

/-! ### What is kept -/

theorem load_kept (l : LobeObj) (st : Stream) : (l.load st).2.1.toFn.par.dimX = l.toFn.par.dimX ∧
    (l.load st).2.1.toFn.par.dimY = l.toFn.par.dimY ∧ (l.load st).2.1.toFn.par.output = l.toFn.par.output ∧
    (¬ l.IsAbc → (l.load st).2.1.toFn.par.input = l.toFn.par.input) := by
  have rb : ∀ {σ : Type} (name : Str) (olds : List ℝ) (store : List ℝ → σ) (s : σ) (st : Stream) (P : σ → Prop),
      (∀ v, P (store v)) → P s → P (readBlock name olds store s st).2.1 := by
    intro σ name olds store s st P h1 h2
    unfold readBlock
    by_cases h : (readHead name st).1 = true
    · simp only [h, if_true]; exact h1 _
    · simp only [h, Bool.false_eq_true, if_false]; exact h2
  cases l <;> simp only [LobeObj.load, wrap, LobeObj.toFn, Fn.par, LobeObj.IsAbc]
  case retrobeckmann s =>
    simp only [RetroBeckmannS.load]
    repeat' split
    all_goals exact ⟨rfl, rfl, rfl, fun _ => rfl⟩
  case abc s =>
    simp only [AbcS.load]
    repeat' split
    all_goals exact ⟨rfl, rfl, rfl, fun h => absurd trivial h⟩
  case isoLafortune s =>
    simp only [IsoLafortuneS.load]
    repeat' split
    all_goals exact ⟨rfl, rfl, rfl, fun _ => rfl⟩
  case lafortune s =>
    simp only [LafortuneS.load]
    repeat' split
    all_goals exact ⟨rfl, rfl, rfl, fun _ => rfl⟩
  case sgd s =>
    exact rb _ _ _ _ _ (fun t : SgdS => t.par.dimX = s.par.dimX ∧ t.par.dimY = s.par.dimY ∧ t.par.output = s.par.output ∧
      ((¬ False) → t.par.input = s.par.input))
      (fun _ => ⟨rfl, rfl, rfl, fun _ => rfl⟩) ⟨rfl, rfl, rfl, fun _ => rfl⟩
  case schlickFresnel s =>
    exact rb _ _ _ _ _ (fun t : OneS => t.par.dimX = s.par.dimX ∧ t.par.dimY = s.par.dimY ∧ t.par.output = s.par.output ∧
      ((¬ False) → t.par.input = s.par.input))
      (fun _ => ⟨rfl, rfl, rfl, fun _ => rfl⟩) ⟨rfl, rfl, rfl, fun _ => rfl⟩
  case normalizedSchlick s =>
    exact rb _ _ _ _ _ (fun t : OneS => t.par.dimX = s.par.dimX ∧ t.par.dimY = s.par.dimY ∧ t.par.output = s.par.output ∧
      ((¬ False) → t.par.input = s.par.input))
      (fun _ => ⟨rfl, rfl, rfl, fun _ => rfl⟩) ⟨rfl, rfl, rfl, fun _ => rfl⟩
  case retroSchlick s =>
    exact rb _ _ _ _ _ (fun t : OneS => t.par.dimX = s.par.dimX ∧ t.par.dimY = s.par.dimY ∧ t.par.output = s.par.output ∧
      ((¬ False) → t.par.input = s.par.input))
      (fun _ => ⟨rfl, rfl, rfl, fun _ => rfl⟩) ⟨rfl, rfl, rfl, fun _ => rfl⟩
  case schlickMasking s =>
    exact rb _ _ _ _ _ (fun t : OneS => t.par.dimX = s.par.dimX ∧ t.par.dimY = s.par.dimY ∧ t.par.output = s.par.output ∧
      ((¬ False) → t.par.input = s.par.input))
      (fun _ => ⟨rfl, rfl, rfl, fun _ => rfl⟩) ⟨rfl, rfl, rfl, fun _ => rfl⟩
  case smith s =>
    exact rb _ _ _ _ _ (fun t : OneS => t.par.dimX = s.par.dimX ∧ t.par.dimY = s.par.dimY ∧ t.par.output = s.par.output ∧
      ((¬ False) → t.par.input = s.par.input))
      (fun _ => ⟨rfl, rfl, rfl, fun _ => rfl⟩) ⟨rfl, rfl, rfl, fun _ => rfl⟩
  case walterSmith s =>
    exact rb _ _ _ _ _ (fun t : OneS => t.par.dimX = s.par.dimX ∧ t.par.dimY = s.par.dimY ∧ t.par.output = s.par.output ∧
      ((¬ False) → t.par.input = s.par.input))
      (fun _ => ⟨rfl, rfl, rfl, fun _ => rfl⟩) ⟨rfl, rfl, rfl, fun _ => rfl⟩
  case blinn s =>
    exact rb _ _ _ _ _ (fun t : BlinnS => t.par.dimX = s.par.dimX ∧ t.par.dimY = s.par.dimY ∧ t.par.output = s.par.output ∧
      ((¬ False) → t.par.input = s.par.input))
      (fun _ => ⟨rfl, rfl, rfl, fun _ => rfl⟩) ⟨rfl, rfl, rfl, fun _ => rfl⟩
  case retroblinn s =>
    exact rb _ _ _ _ _ (fun t : BlinnS => t.par.dimX = s.par.dimX ∧ t.par.dimY = s.par.dimY ∧ t.par.output = s.par.output ∧
      ((¬ False) → t.par.input = s.par.input))
      (fun _ => ⟨rfl, rfl, rfl, fun _ => rfl⟩) ⟨rfl, rfl, rfl, fun _ => rfl⟩
  case beckmann s =>
    exact rb _ _ _ _ _ (fun t : BeckmannS => t.par.dimX = s.par.dimX ∧ t.par.dimY = s.par.dimY ∧ t.par.output = s.par.output ∧
      ((¬ False) → t.par.input = s.par.input))
      (fun _ => ⟨rfl, rfl, rfl, fun _ => rfl⟩) ⟨rfl, rfl, rfl, fun _ => rfl⟩
  case ward s =>
    exact rb _ _ _ _ _ (fun t : WardS => t.par.dimX = s.par.dimX ∧ t.par.dimY = s.par.dimY ∧ t.par.output = s.par.output ∧
      ((¬ False) → t.par.input = s.par.input))
      (fun _ => ⟨rfl, rfl, rfl, fun _ => rfl⟩) ⟨rfl, rfl, rfl, fun _ => rfl⟩
  case diffuse s =>
    exact rb _ _ _ _ _ (fun t : DiffuseS => t.par.dimX = s.par.dimX ∧ t.par.dimY = s.par.dimY ∧ t.par.output = s.par.output ∧
      ((¬ False) → t.par.input = s.par.input))
      (fun _ => ⟨rfl, rfl, rfl, fun _ => rfl⟩) ⟨rfl, rfl, rfl, fun _ => rfl⟩
  case sg s =>
    exact rb _ _ _ _ _ (fun t : SgS => t.par.dimX = s.par.dimX ∧ t.par.dimY = s.par.dimY ∧ t.par.output = s.par.output ∧
      ((¬ False) → t.par.input = s.par.input))
      (fun _ => ⟨rfl, rfl, rfl, fun _ => rfl⟩) ⟨rfl, rfl, rfl, fun _ => rfl⟩

end
end Alta
