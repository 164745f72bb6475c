import Verif.Props.Data2MomentsMerl
import Mathlib.Tactic.FieldSimp
/-
C91: the program `data2moments` on data with one value, and examples.
-/
namespace Alta
noncomputable section

/-- The sums of the loop. -/
theorem data2momentsSums_run (d : Interpolant) (samples : List ℕ) (a b : ℕ) (h : MomentsReady d samples a b) :
    ∃ low : List ℝ, (∀ k < d.dimY, d.Lowest k (arr low (d.dimX + k))) ∧
      data2momentsSums d (some samples) (some [a, b]) = some ((List.range d.dimY).map fun k => momentSums
        (fun i => d.weight k (arr low (d.dimX + k)) (d.node (d.counts samples) (sampleIndices (d.counts samples) i)) *
          (d.volume / (d.counts samples).prod))
        (fun i => arr (d.node (d.counts samples) (sampleIndices (d.counts samples) i)) a)
        (fun i => arr (d.node (d.counts samples) (sampleIndices (d.counts samples) i)) b) (d.counts samples).prod) := by
  obtain ⟨low, hl1, hl2⟩ := lowestRow_spec d h.nonempty h.rows
  have hfold := momentSample_fold d low (d.volume / (d.counts samples).prod) (d.counts samples) a b h.values
    (d.counts samples).prod
  refine ⟨low, hl2, ?_⟩
  unfold data2momentsSums
  simp only [Option.getD_some]
  rw [if_neg (by simp [h.perDimension, h.lo, h.hi]), hl1, Option.bind_some, if_neg (by
    push Not; exact h.rows), stepVolume_fold d samples h.perDimension h.positive h.int, Option.bind_some,
    if_neg (by simp [h.dims])]
  simp only [List.getD_cons_zero, List.getD_cons_succ]
  rw [hfold]

theorem momentQuotientLine_zero (fmt : ℝ → Decimal) (name : String) (f : Moments → ℝ) (h : f Moments.zero = 0) :
    momentQuotientLine fmt name f [Moments.zero] = name.toList ++ " = [-nan]\n".toList := by
  have q : quotientText fmt (f Moments.zero) Moments.zero.m0 = "-nan".toList := by
    unfold quotientText
    rw [if_neg (by simp [Moments.zero]), if_pos h]
  unfold momentQuotientLine
  rw [List.map_singleton, q, List.append_assoc, List.append_assoc]
  congr 1

theorem momentsFile_zero (fmt : ℝ → Decimal) : momentsFile fmt [Moments.zero] =
    "\\mu_0 = [".toList ++ (fmt 0).text ++ "]\n".toList ++
      ["\\mu_x", "\\mu_y", "\\mu_{xx}", "\\mu_{xy}", "\\mu_{yy}", "\\mu_{xxx}", "\\mu_{xxy}", "\\mu_{xyy}", "\\mu_{yyy}"].flatMap
        fun name => name.toList ++ " = [-nan]\n".toList := by
  have v : ∀ t : Str, vecCells [t] = '[' :: (t ++ [']']) := by
    intro t
    unfold vecCells
    rw [show List.range [t].length = [0] from rfl, List.flatMap_singleton]
    rw [if_neg (by simp)]
    simp
  have h0 : "\\mu_0 = ".toList ++ vecCells ([Moments.zero].map fun m => (fmt m.m0).text) ++ "\n".toList =
      "\\mu_0 = [".toList ++ (fmt 0).text ++ "]\n".toList := by
    rw [List.map_singleton, v, show "\\mu_0 = [".toList = "\\mu_0 = ".toList ++ ['['] from rfl,
      show "]\n".toList = ']' :: "\n".toList from rfl, show Moments.zero.m0 = 0 from rfl]
    generalize "\\mu_0 = ".toList = u
    generalize "\n".toList = w
    simp
  unfold momentsFile
  rw [h0]
  generalize "\\mu_0 = [".toList ++ (fmt 0).text ++ "]\n".toList = u
  rw [momentQuotientLine_zero fmt _ Moments.mx rfl, momentQuotientLine_zero fmt _ Moments.my rfl,
    momentQuotientLine_zero fmt _ Moments.mxx rfl, momentQuotientLine_zero fmt _ Moments.mxy rfl,
    momentQuotientLine_zero fmt _ Moments.myy rfl, momentQuotientLine_zero fmt _ Moments.mxxx rfl,
    momentQuotientLine_zero fmt _ Moments.mxxy rfl, momentQuotientLine_zero fmt _ Moments.mxyy rfl,
    momentQuotientLine_zero fmt _ Moments.myyy rfl]
  simp only [List.flatMap_cons, List.flatMap_nil, List.append_nil, List.append_assoc]

/-- **C91.**  Data with one value: every moment but that of order 0 is written as `nan`. -/
theorem data2moments_constant_file (fmt : ℝ → Decimal) (dir : Str) (env : Option Str)
    (fs : Str → Option (Symbols (Str → SMap → Option MomentsInput))) (files : Str → Option Str) (writable : Str → Bool)
    (args : SMap) (ha : AsksMoments args writable) (content : Str) (hf : files (args.get "input".toList) = some content)
    (d : Interpolant) (hl : loadMomentsInput dir env fs (args.get "data".toList) content
      (args.update "filename".toList (args.get "input".toList)) = some (some (.other d)))
    (samples : List ℕ) (a b : ℕ) (hs : AsksNumbers args "samples".toList (List.replicate d.dimX 100) samples)
    (hdim : AsksNumbers args "dim".toList [0, 1] [a, b]) (hr : MomentsReady d samples a b) (hy : d.dimY = 1)
    (c : ℝ) (hrows : ∀ row ∈ d.rows, arr row d.dimX = c) (hval : ∀ x y, d.value x = some y → arr y 0 = c) :
    data2momentsMain fmt dir env fs files writable args = some (0, some ("\\mu_0 = [".toList ++ (fmt 0).text ++ "]\n".toList ++
      ["\\mu_x", "\\mu_y", "\\mu_{xx}", "\\mu_{xy}", "\\mu_{yy}", "\\mu_{xxx}", "\\mu_{xxy}", "\\mu_{xyy}", "\\mu_{yyy}"].flatMap
        fun name => name.toList ++ " = [-nan]\n".toList)) := by
  obtain ⟨s, t, e1, e2, e3⟩ := asked_numbers d args samples a b hs hdim
  obtain ⟨low, h1, h2⟩ := data2momentsSums_run d samples a b hr
  obtain ⟨⟨row, hrow, hlow⟩, -⟩ := h1 0 (by omega)
  rw [Nat.add_zero, hrows row hrow] at hlow
  have hw : ∀ i, d.weight 0 (arr low d.dimX) (d.node (d.counts samples) (sampleIndices (d.counts samples) i)) *
      (d.volume / (d.counts samples).prod) = 0 := by
    intro i
    obtain ⟨y, hy', -⟩ := hr.values (d.node (d.counts samples) (sampleIndices (d.counts samples) i)) (node_length _ _ _)
    unfold Interpolant.weight
    rw [hy', Option.getD_some, hval _ y hy', hlow]
    ring
  have hsum : data2momentsSums d (some samples) (some [a, b]) = some [Moments.zero] := by
    rw [h2, hy]
    simp only [List.range_one, List.map_cons, List.map_nil, Nat.add_zero, hw]
    unfold momentSums Moments.zero
    simp
  rw [data2moments_started fmt dir env fs files writable args ha.noHelp ha.input ha.output.1 ha.data content hf _ hl]
  unfold data2momentsWrite
  simp only
  rw [e1, Option.bind_some, e2, Option.bind_some, e3, hsum, Option.map_some, if_pos ha.output.2]
  rw [momentsFile_zero]

/-! ### Examples -/

/-- Two samples per dimension, in the default dimensions. -/
def momentsArgs : SMap :=
  [("data".toList, "plane".toList), ("input".toList, "a".toList), ("output".toList, "o".toList), ("samples".toList, "[2, 2]".toList)]

theorem momentsArgs_asks : AsksMoments momentsArgs (fun _ => true) := by
  refine ⟨by decide, by decide, by decide, by decide⟩

/-- a library with a loader -/
def momentsLibs (path : Str) : Option (Symbols (Str → SMap → Option MomentsInput)) :=
  if path = "/usr/libplane.so".toList then
    some fun s => if s = "load_data".toList then some fun _ _ => some (.other planeData) else none
  else none

theorem momentsLibs_open :
    openLibrary "/usr".toList none momentsLibs (momentsArgs.get "data".toList) "load_data".toList =
      some (some fun _ _ => some (.other planeData)) := by
  rw [openLibrary_spec _ _ _ _ "libplane.so".toList _ _ (by decide)]
  refine ⟨[], "/usr".toList, [], ?_, ?_, by simp⟩
  · rfl
  · exact ⟨_, if_pos (by decide), if_pos rfl⟩

theorem momentsArgs_load (content : Str) (args : SMap) :
    loadMomentsInput "/usr".toList none momentsLibs (momentsArgs.get "data".toList) content args =
      some (some (.other planeData)) := by
  unfold loadMomentsInput
  rw [if_neg (by decide)]
  simp only [momentsLibs_open]
  rfl

theorem momentsArgs_samples : AsksNumbers momentsArgs "samples".toList (List.replicate planeData.dimX 100) [2, 2] := by
  refine Or.inl ⟨"[2, 2]".toList, by decide, "2, 2".toList, by decide, ?_⟩
  rw [show cutAt ',' "2, 2".toList = ["2".toList, " 2".toList] by decide]
  refine .cons ⟨by decide, by norm_num, [], [], ?_, ?_, ?_⟩ (.cons ⟨by decide, by norm_num, [' '], [], ?_, ?_, ?_⟩ .nil)
  · rw [showNat]; rfl
  · intro c hc; cases hc
  · intro c hc; cases hc
  · rw [showNat]; rfl
  · intro c hc
    simp only [List.mem_singleton] at hc
    subst hc
    decide
  · intro c hc; cases hc

/-- The lowest value of the plane. -/
theorem planeData_lowest (low : ℝ) (h : planeData.Lowest 0 low) : low = 5 := by
  obtain ⟨⟨row, hrow, hl⟩, hlb⟩ := h
  have := hlb ⟨[0, 0, 5], by simp [planeData], rfl⟩
  simp only [planeData, List.mem_cons, List.mem_nil_iff, or_false] at hrow
  rcases hrow with rfl | rfl
  · rw [hl]; simp [arr, planeData]
  · rw [hl] at this; simp [arr, planeData] at this; norm_num at this

theorem planeData_sum : planeData.cells [2, 2] (planeData.weight 0 5) = 3 / 2 := by
  obtain ⟨ms, h1, -, h3⟩ := data2moments_spec _ _ _ _ planeData_ready
  simp [Interpolant.cells, gridSum, Interpolant.counts, Interpolant.node, Interpolant.volume, Interpolant.weight, planeData, arr,
    List.range_succ, Finset.sum_range_succ, Finset.prod_range_succ]
  norm_num

/-- the moment of order 0 that is written for the plane is 3/2, as it is printed -/
example : ∃ (file : Str) (m : ℕ → Moments), data2momentsMain exampleFmt "/usr".toList none momentsLibs (fun _ => some []) (fun _ => true)
      momentsArgs = some (0, some file) ∧
    readMoments file = some (printedStats exampleFmt (momentsNamed 1 m)) ∧ (m 0).m0 = 3 / 2 := by
  obtain ⟨file, m, e1, e2, e3⟩ := data2moments_run exampleFmt exampleFmt_digits "/usr".toList none momentsLibs (fun _ => some [])
    (fun _ => true) momentsArgs momentsArgs_asks [] rfl planeData (momentsArgs_load _ _) [2, 2] 0 1 momentsArgs_samples
    (Or.inr ⟨by decide, rfl⟩) planeData_ready (by decide) (by
      intro k hk low hlow
      have : k = 0 := by have : k < 1 := hk; omega
      subst this
      rw [planeData_lowest low hlow, planeData_sum]
      norm_num)
  refine ⟨file, m, e1, e2, ?_⟩
  obtain ⟨low, h1, h2⟩ := e3 0 (by decide)
  rw [h2.m0, planeData_lowest low h1, planeData_sum]

/-- A table where nothing was measured. -/
theorem unmeasured_moment (brdf : List ℝ) (hb : brdf.length = 3 * merlSize) (hv : ∀ j < 3 * merlSize, arr brdf j = -1)
    (samples : List ℕ) (hs : samples.length = 3) (hp : ∀ n ∈ samples, 1 ≤ n) (k : ℕ) (hk : k < 3) (low : ℝ)
    (hlow : IsLeast {v | ∃ i < merlSize, v = arr (merlColour brdf i) k} low) :
    (merlInterpolant brdf).cells samples ((merlInterpolant brdf).weight k low) ≠ 0 := by
  have h0 : 0 < merlSize := by rw [merlSize_eq]; norm_num
  refine (merl_moments_negative brdf hb samples hs hp k low hlow ⟨0, h0, ?_⟩).2.2.ne'
  unfold merlColour
  rw [hv 0 (by omega), hv (0 + merlSize) (by omega), hv (0 + 2 * merlSize) (by omega)]
  match k, hk with
  | 0, _ => show (-1 : ℝ) * (1 / 1500) < 0; norm_num
  | 1, _ => show (-1 : ℝ) * (115 / 150000) < 0; norm_num
  | 2, _ => show (-1 : ℝ) * (166 / 150000) < 0; norm_num

/-- such a file -/
def unmeasured : List Dbl := List.replicate (3 * merlSize) 0

theorem unmeasured_length : unmeasured.length = 3 * merlSize := by
  unfold unmeasured
  rw [List.length_replicate]

/-- the options for a MERL file -/
def merlMomentsArgs : SMap :=
  [("data".toList, "merl".toList), ("dim".toList, "[2,0]".toList), ("input".toList, "a".toList), ("output".toList, "o".toList)]

def merlMomentsLibs (val : Dbl → ℝ) (path : Str) : Option (Symbols (Str → SMap → Option MomentsInput)) :=
  if path = "/usr/libmerl.so".toList then some fun s => if s = "load_data".toList then some (merlMoments val) else none else none

/-- the hypotheses of the theorem on MERL files, for a file where nothing was measured -/
example : ∃ (file : Str) (m : ℕ → Moments), data2momentsMain exampleFmt "/usr".toList none (merlMomentsLibs fun _ => -1)
      (fun _ => some (merlSave unmeasured)) (fun _ => true) merlMomentsArgs = some (0, some file) ∧
    readMoments file = some (printedStats exampleFmt (momentsNamed 3 m)) := by
  have hlib : openLibrary "/usr".toList none (merlMomentsLibs fun _ => -1) (merlMomentsArgs.get "data".toList) "load_data".toList =
      some (some (merlMoments fun _ => -1)) := by
    rw [openLibrary_spec _ _ _ _ "libmerl.so".toList _ _ (by decide)]
    refine ⟨[], "/usr".toList, [], ?_, ?_, by simp⟩
    · rfl
    · exact ⟨_, if_pos (by decide), if_pos rfl⟩
  have hdim : AsksNumbers merlMomentsArgs "dim".toList [0, 1] [2, 0] := by
    refine Or.inl ⟨"[2,0]".toList, by decide, "2,0".toList, by decide, ?_⟩
    rw [show cutAt ',' "2,0".toList = ["2".toList, "0".toList] by decide]
    refine .cons ⟨by decide, by norm_num, [], [], ?_, ?_, ?_⟩ (.cons ⟨by decide, by norm_num, [], [], ?_, ?_, ?_⟩ .nil)
    · rw [showNat]; rfl
    · intro c hc; cases hc
    · intro c hc; cases hc
    · rw [showNat]; rfl
    · intro c hc; cases hc
    · intro c hc; cases hc
  have hl := unmeasured_length
  have hv : ∀ j < 3 * merlSize, arr (unmeasured.map fun _ => (-1 : ℝ)) j = -1 := by
    intro j hj
    rw [← hl] at hj
    simp [arr, List.getD, hj]
  generalize unmeasured = t at hl hv ⊢
  obtain ⟨file, m, h1, h2, -⟩ := data2moments_merl (fun _ => -1) exampleFmt exampleFmt_digits "/usr".toList none
    (merlMomentsLibs fun _ => -1) (fun _ => some (merlSave t)) (fun _ => true) merlMomentsArgs
    ⟨by decide, by decide, by decide, by decide⟩ (by decide) hlib t hl rfl [100, 100, 100] 2 0 (Or.inr ⟨by decide, rfl⟩) hdim rfl
    (by simp) (by norm_num) (by norm_num)
    (fun k hk low hlow => unmeasured_moment _ (by rw [List.length_map, hl]) hv _ rfl (by simp) k hk low hlow)
  exact ⟨file, m, h1, h2⟩

end
end Alta
