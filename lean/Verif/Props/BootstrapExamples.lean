import Verif.Props.Bounds
/-
Properties C58 and C59: cases that meet the hypotheses.
-/
namespace Alta
noncomputable section

/-- Directions of one channel. -/
def bootPar : Par := ⟨6, 1, .CARTESIAN, .INV_STERADIAN⟩

/-- Two samples of the value 3 and 1: the second light direction is at 60 degrees. -/
def bootData : Data := ⟨6, 1, .CARTESIAN, .INV_STERADIAN,
  [[0, 0, 1, 0, 0, 1, 3], [0, 0, 1, 0, 0, 1 / 2, 1]]⟩

/-- A Ward lobe, the product of a Beckmann lobe and a Schlick term, and a diffuse term; the coefficients are
    arbitrary. -/
def bootSum (k a b c e R j kd : ℕ → ℝ) : FT LobeObj :=
  .compound bootPar (.cons [] (.leaf (.ward ⟨bootPar, k, a, b⟩))
    (.cons [] (.product bootPar (.leaf (.beckmann ⟨bootPar, c, e⟩)) (.leaf (.schlickFresnel ⟨bootPar, R⟩)) false false)
      (.cons [] (.leaf (.diffuse ⟨bootPar, kd, j 0⟩)) .nil)))

theorem bootSum_wf (k a b c e R j kd : ℕ → ℝ) : (bootSum k a b c e R j kd).toFn.WF :=
  ⟨⟨ward_lawful, rfl⟩, ⟨⟨beckmann_lawful, schlickFresnel_lawful, rfl, rfl⟩, rfl⟩, ⟨diffuse_lawful, rfl⟩, trivial⟩

theorem bootSum_free (k a b c e R j kd : ℕ → ℝ) : (bootSum k a b c e R j kd).Free :=
  ⟨rfl, trivial, rfl, ⟨trivial, trivial⟩, rfl, trivial, trivial⟩

theorem bootSum_parts (k a b c e R j kd : ℕ → ℝ) (args : SMap) : (bootSum k a b c e R j kd).parts args =
    [([], .ward ⟨bootPar, k, a, b⟩), ([], .beckmann ⟨bootPar, c, e⟩), ([], .schlickFresnel ⟨bootPar, R⟩),
      ([], .diffuse ⟨bootPar, kd, j 0⟩)] := rfl

theorem getInt_empty : SMap.getInt [] "lobes".toList 1 = 1 := rfl

/-- It can be started without options, from the same function whatever its coefficients, within its bounds:
    the parameters are 1, 1, 1 (Ward), 1, 1 (Beckmann), 1/2 (Schlick). -/
example (files : Str → Option Str) (k a b c e R j kd : ℕ → ℝ) :
    ∃ f', (bootSum k a b c e R j kd).bootstrap files bootData [] = some f' ∧
      f'.toFn.params = [1, 1, 1, 1, 1, 1 / 2] ∧ WithinBounds f'.toFn f'.toFn.params := by
  have hst : ∀ x ∈ (bootSum k a b c e R j kd).parts [], x.2.Startable files bootData x.1 := by
    intro x hx
    rw [bootSum_parts] at hx
    simp only [List.mem_cons, List.not_mem_nil, or_false] at hx
    rcases hx with rfl | rfl | rfl | rfl
    · trivial
    · exact Or.inr (Or.inl rfl)
    · trivial
    · refine ⟨rfl, le_refl _, fun h => ?_⟩
      rcases h with h | h <;> cases h
  obtain ⟨f', hf'⟩ := Option.isSome_iff_exists.1
    ((bootstrap_each files bootData _ [] rfl (bootSum_free k a b c e R j kd)).1.2 hst)
  refine ⟨f', hf', ?_, ?_⟩
  · simp only [bootSum, FT.bootstrap, FTs.bootEach, LobeObj.bootstrap, DiffuseS.bootstrap, OneS.fill] at hf'
    have h1 : SMap.isDefined [] kBoot = false := rfl
    have h2 : (isCosineWeighted bootData.output || SMap.isDefined [] "cos-fit".toList) = false := rfl
    have h3 : ¬ bootPar.dimY < bootData.dimY := by decide
    simp only [h1, h2, h3, Bool.false_eq_true, if_false, Option.map_some, Option.some.injEq] at hf'
    subst hf'
    have hY : bootPar.dimY = 1 := rfl
    simp [Fn.params, FT.toFn, FTs.toFns, LobeObj.toFn, Fn.get, Fns.get, Fn.nb, Fns.nb, wardCls, beckmannCls,
      schlickFresnelCls, diffuseCls, hY, blocks, List.range_succ, fillTo, SMap.isDefined, SMap.find]
    norm_num
  · refine start_within_bounds files bootData [] _ f' (bootSum_wf k a b c e R j kd) rfl (bootSum_free k a b c e R j kd) ?_ hf'
    intro x hx
    rw [bootSum_parts] at hx
    simp only [List.mem_cons, List.not_mem_nil, or_false] at hx
    rcases hx with rfl | rfl | rfl | rfl <;> exact ⟨rfl, trivial, by rw [getInt_empty]; norm_num⟩

/-- The starting point does not depend on the coefficients. -/
example (files : Str → Option Str) (k a b c e R j kd k' a' b' c' e' R' kd' : ℕ → ℝ) (f' : FT LobeObj)
    (h : (bootSum k a b c e R j kd).bootstrap files bootData [] = some f') :
    ∃ g', (bootSum k' a' b' c' e' R' j kd').bootstrap files bootData [] = some g' ∧ Fn.Same f'.toFn g'.toFn := by
  refine bootstrap_forgets files bootData _ _ [] ?_ rfl (bootSum_free k a b c e R j kd) ?_ f' h
  · exact ⟨rfl, rfl, rfl, rfl, ⟨rfl, rfl, rfl, rfl, rfl⟩, rfl, rfl, trivial⟩
  · intro x hx
    rw [bootSum_parts] at hx
    simp only [List.mem_cons, List.not_mem_nil, or_false] at hx
    rcases hx with rfl | rfl | rfl | rfl <;> exact ⟨rfl, rfl⟩

/-- The diffuse term starts from 1, the lowest value. -/
example (files : Str → Option Str) (kd : ℕ → ℝ) (j : ℝ) :
    ∃ t : DiffuseS, LobeObj.bootstrap files bootData [] (.diffuse ⟨bootPar, kd, j⟩) = some (.diffuse t) ∧
      ∀ x, (Fn.leaf diffuseCls t).valueAt x 0 = 1 := by
  have hm := maxDouble_large
  obtain ⟨t, h1, -, h2⟩ := diffuse_start files bootData [] ⟨bootPar, kd, j⟩ rfl (by decide) rfl rfl (by simp [bootData]) (by
    intro row hr i hi
    have hi' : i = 0 := by
      have : bootData.dimY = 1 := rfl
      omega
    subst hi'
    simp only [bootData, List.mem_cons, List.not_mem_nil, or_false] at hr
    rcases hr with rfl | rfl <;> simp [arr, bootData] <;> linarith)
  refine ⟨t, h1, fun x => ?_⟩
  have h3 := h2 x 0 (by decide)
  refine le_antisymm (h3.2 ⟨[0, 0, 1, 0, 0, 1 / 2, 1], by simp [bootData], by simp [arr, bootData]⟩) ?_
  obtain ⟨row, hr, e⟩ := h3.1
  rw [e]
  simp only [bootData, List.mem_cons, List.not_mem_nil, or_false] at hr
  rcases hr with rfl | rfl <;> simp [arr, bootData]

/-- With values weighted by the cosines, the second sample gives `1 / (1 * 1/2) = 2`. -/
example (files : Str → Option Str) (kd : ℕ → ℝ) (j : ℝ) :
    ∃ t : DiffuseS, LobeObj.bootstrap files bootData [("cos-fit".toList, [])] (.diffuse ⟨bootPar, kd, j⟩) =
        some (.diffuse t) ∧ ∀ x, (Fn.leaf diffuseCls t).valueAt x 0 = 2 := by
  have hm := maxDouble_large
  have conv : ∀ row : List ℝ, convertInput (arr row) .CARTESIAN .CARTESIAN = some ((List.range 6).map (arr row)) := by
    intro row
    simp [convertInput, (by decide : (inputDim .CARTESIAN).toNat = 6)]
  have hset : cosineValues bootData (bootData.rows.drop 1) 0 = {2} := by
    ext y
    simp only [cosineValues, bootData, List.drop_succ_cons, List.drop_zero, List.mem_singleton, Set.mem_setOf_eq,
      exists_eq_left, conv, Set.mem_singleton_iff, Option.some.injEq]
    simp only [arr, List.range_succ, List.range_zero]
    norm_num
    have a2 : arr [0, 0, 1, 0, 0, 1 / 2, 1] 2 = 1 := rfl
    have a5 : arr [0, 0, 1, 0, 0, 1 / 2, 1] 5 = 1 / 2 := rfl
    rw [a2, a5]
    norm_num
  obtain ⟨t, h1, -, h2⟩ := diffuse_start_cosine files bootData [("cos-fit".toList, [])] ⟨bootPar, kd, j⟩ (by decide)
    (Or.inr (by decide)) rfl (fun row _ => by
      have : bootData.input = .CARTESIAN := rfl
      rw [this, conv]; rfl)
  refine ⟨t, h1, fun x => ?_⟩
  have h3 := h2 x 0 (by decide) (by rw [hset]; exact ⟨2, rfl⟩) (by
    rw [hset]; rintro y rfl; linarith)
  rw [hset] at h3
  exact h3.1

/-- `--bootstrap [2, 3, 1, 0, 1, 1]`: these are the parameters of the sum. -/
example (files : Str → Option Str) (k a b c e R j kd : ℕ → ℝ) (f' : FT LobeObj)
    (h : (bootSum k a b c e R j kd).bootstrap files bootData
      [(kBoot, ['[', '2', ',', '3', ',', '1', ',', '0', ',', '1', ',', '1', ']'])] = some f') :
    f'.toFn.params = [2, 3, 1, 0, 1, 1] := by
  have hd : ∀ n : Fin 10, (⟨false, [n], [], none⟩ : Decimal).value = n.val := by
    intro n; simp [Decimal.value, digitsNum]
  have := (bootstrap_vector_sum files bootData _ _ _ (bootSum_wf k a b c e R j kd)
    ⟨fun h => by simp [FT.toFn, LobeObj.toFn, Fn.nb, wardCls, bootPar] at h,
     fun h => by simp [FT.toFn, LobeObj.toFn, Fn.nb, beckmannCls, schlickFresnelCls, bootPar] at h,
     fun _ => Or.inl ⟨_, rfl⟩, trivial⟩
    ([2, 3, 1, 0, 1, 1].map fun n : Fin 10 => (([] : Str), (⟨false, [n], [], none⟩ : Decimal)))
    ⟨by simp, by decide, by simp, by simp⟩ (by rfl) f' h).2
  rw [this]
  simp only [List.map_cons, List.map_nil, hd]
  norm_num

/-- The file of a sum, read in the same sum with other coefficients. -/
example (fmt : ℝ → Decimal) (hf : PrintsDigits fmt) (d : Data) (k a b c e R j kd k' a' b' c' e' R' kd' : ℕ → ℝ)
    (files : Str → Option Str)
    (hfile : files ['f'] = saveFunction fmt [(kFunc, ['w', '.', 's', 'o'])] (bootSum k a b c e R j kd)) :
    ∃ f1, (bootSum k' a' b' c' e' R' j kd').bootstrap files d [(kBoot, ['f'])] = some f1 ∧
      Fn.Same f1.toFn ((bootSum k a b c e R j kd).rounded fmt).toFn := by
  have := bootstrap_file fmt hf files d [(kBoot, ['f'])] [(kFunc, ['w', '.', 's', 'o'])]
    (by intro e he; rw [List.mem_singleton.1 he]
        exact ⟨⟨by decide, by decide⟩, .word _ ⟨by decide, by decide⟩ (by intro r h; cases h) (by rintro ⟨r, h⟩; cases h)⟩)
    (bootSum k' a' b' c' e' R' j kd') (bootSum k a b c e R j kd) .INV_STERADIAN (by intro l h; cases h)
    (by decide) (by decide) hfile ⟨rfl, by simp [FTs.withOutput], rfl, rfl, rfl, ⟨rfl, rfl, rfl, rfl, rfl⟩, rfl, rfl, trivial⟩
  exact this

end
end Alta
