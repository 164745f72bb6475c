import Verif.Spec.NonNegative
import Verif.Props.ReciprocityTree
import Verif.Props.Smith
import Verif.Props.Bounds
/-
C64: with parameters within their bounds the plugin objects, their sums and their products are not
negative.
-/
namespace Alta
open Real
noncomputable section

/-- one entry of the parameters of an object within bounds -/
theorem InBounds.entry {o : LobeObj} (h : o.InBounds) (i : ℕ) (hi : i < o.toFn.nb) :
    arr o.toFn.lo i ≤ arr o.toFn.get i ∧ arr o.toFn.get i ≤ arr o.toFn.hi i := by
  have := h i hi
  have e : arr o.toFn.params i = arr o.toFn.get i := by
    unfold Fn.params arr
    simp [List.getD, List.getElem?_take, hi]
  rwa [e] at this

/-- the entry `a` of the block of channel `y`, for the classes with one block per channel and a lower
    bound that is the same for all channels -/
theorem block_bound (n K : ℕ) (lo : List ℝ) (f : ℕ → List ℝ) (get : List ℝ) (hlo : lo.length = K)
    (hf : ∀ i < n, (f i).length = K) (hg : get = blocks n f) (y a : ℕ) (hy : y < n) (ha : a < K)
    (h : arr (blocks n fun _ => lo) (y * K + a) ≤ arr get (y * K + a)) : arr lo a ≤ arr (f y) a := by
  rw [hg, arr_blocks n K f hf y a hy ha, arr_blocks n K (fun _ => lo) (fun _ _ => hlo) y a hy ha] at h
  exact h

theorem block_index {n K y a : ℕ} (hy : y < n) (ha : a < K) : y * K + a < K * n := by
  calc y * K + a < (y + 1) * K := by rw [Nat.add_mul]; omega
    _ ≤ n * K := Nat.mul_le_mul_right K hy
    _ = K * n := Nat.mul_comm _ _

theorem value_entries {n : ℕ} {g : ℕ → ℝ} (h : ∀ i < n, 0 ≤ g i) : ∀ y ∈ (List.range n).map g, 0 ≤ y := by
  intro y hy
  obtain ⟨i, hi, rfl⟩ := List.mem_map.mp hy
  exact h i (List.mem_range.mp hi)

theorem beckmannLobe_nonneg (ks a d : ℝ) (h : 0 ≤ ks) : 0 ≤ beckmannLobe ks a d := by
  unfold beckmannLobe
  have : 0 ≤ 4 * π * (a * a) * (d * d) * (d * d) := by
    have := pi_pos
    have := mul_self_nonneg a
    have := mul_self_nonneg d
    positivity
  positivity

theorem wardLobe_nonneg (ks ax ay : ℝ) (h : List ℝ) (c : ℝ) (h1 : 0 ≤ ks) (h2 : 0 ≤ ax) (h3 : 0 ≤ ay) :
    0 ≤ wardLobe ks ax ay h c := by
  unfold wardLobe
  have := pi_pos
  positivity

theorem sum_of_powers_nonneg (n : ℕ) (d N : ℕ → ℝ) (k : ℝ) (hk : 0 ≤ k) :
    0 ≤ (List.range n).foldl (fun res i => if d i > 0 then res + d i ^ N i else res) k := by
  induction n with
  | zero => exact hk
  | succ n ih =>
    rw [List.range_succ, List.foldl_append]
    simp only [List.foldl_cons, List.foldl_nil]
    split
    · rename_i h
      exact add_nonneg ih (rpow_nonneg h.le _)
    · exact ih

theorem dotRK_le_one (c : Cart) (hc : c.Above) (d : ℝ) (h : dotRK .CARTESIAN c.toList = some d) : d ≤ 1 := by
  have h3 : convertInput (arr c.toList) .CARTESIAN .CARTESIAN = some c.toList := rfl
  unfold dotRK at h
  rw [h3, convert_from_cartesian _ _ (by decide), fromCartesian_eq _ _ hc.sum] at h
  obtain ⟨hv, hl⟩ := hc.unit
  unfold V3.IsUnit at hv hl
  simp only [fromCartesianSwitch] at h
  have hs : √((c.l.x - c.v.x) * (c.l.x - c.v.x) + (c.l.y - c.v.y) * (c.l.y - c.v.y) +
      (c.l.z + c.v.z) * (c.l.z + c.v.z)) ^ 2 = (c.l.x - c.v.x) * (c.l.x - c.v.x) +
      (c.l.y - c.v.y) * (c.l.y - c.v.y) + (c.l.z + c.v.z) * (c.l.z + c.v.z) := by
    rw [sq_sqrt]; nlinarith [mul_self_nonneg (c.l.x - c.v.x), mul_self_nonneg (c.l.y - c.v.y), mul_self_nonneg (c.l.z + c.v.z)]
  generalize √((c.l.x - c.v.x) * (c.l.x - c.v.x) + (c.l.y - c.v.y) * (c.l.y - c.v.y) +
    (c.l.z + c.v.z) * (c.l.z + c.v.z)) = n at *
  by_cases hn : n > 1e-10
  · have hn0 : 0 < n := lt_trans (by norm_num) hn
    rw [if_pos hn] at h
    obtain rfl := Option.some.inj h
    show (c.l.z + c.v.z) / n * c.v.z - ((c.l.x - c.v.x) / n * c.v.x + (c.l.y - c.v.y) / n * c.v.y) ≤ 1
    have e : (c.l.z + c.v.z) / n * c.v.z - ((c.l.x - c.v.x) / n * c.v.x + (c.l.y - c.v.y) / n * c.v.y) =
        ((c.l.z + c.v.z) * c.v.z - ((c.l.x - c.v.x) * c.v.x + (c.l.y - c.v.y) * c.v.y)) / n := by ring
    rw [e, div_le_one hn0]
    apply abs_le_of_sq_le_sq' _ hn0.le |>.2
    have e2 : (c.l.z + c.v.z) * c.v.z - ((c.l.x - c.v.x) * c.v.x + (c.l.y - c.v.y) * c.v.y) = n ^ 2 / 2 := by
      rw [hs]; nlinarith
    rw [e2]
    have : n ^ 2 ≤ 4 := by
      rw [hs]
      nlinarith [sq_nonneg (c.l.x + c.v.x), sq_nonneg (c.l.y + c.v.y), sq_nonneg (c.l.z - c.v.z)]
    nlinarith [sq_nonneg n]
  · rw [if_neg hn] at h
    obtain rfl := Option.some.inj h
    show 1 * c.v.z - (0 * c.v.x + 0 * c.v.y) ≤ 1
    nlinarith [sq_nonneg c.v.x, sq_nonneg c.v.y]

theorem unit_z_le_one (a : V3) (h : a.IsUnit) : a.z ≤ 1 := by
  unfold V3.IsUnit at h
  nlinarith [sq_nonneg a.x, sq_nonneg a.y]

/-- C64.  With parameters within its bounds, and the factors the bounds do not cover, a plugin object
    is not negative for directions above the surface. -/
theorem lobe_nonnegative (o : LobeObj) (hb : o.InBounds) (hf : NonNegativeFactors o) (c : Cart) (hc : c.Above) :
    o.toFn.NonNegativeAt c := by
  intro v hv
  have key : ∀ x, o.toFn.value x = some v → (o.par.input = .CARTESIAN → x = c.toList) → ∀ y ∈ v, 0 ≤ y := by
    intro x hx hcart
    have hB := fun i hi => (InBounds.entry hb i hi).1
    have hH := fun i hi => (InBounds.entry hb i hi).2
    cases o with
    | blinn s =>
      simp only [LobeObj.toFn, Fn.value, blinnCls, Option.some.injEq] at hx
      subst hx
      refine value_entries fun i hi => ?_
      split
      · rename_i h; exact mul_nonneg (hf i hi) (rpow_nonneg (le_of_lt h) _)
      · exact le_rfl
    | retroblinn s =>
      simp only [LobeObj.toFn, Fn.value, retroblinnCls, Option.some.injEq] at hx
      subst hx
      refine value_entries fun i hi => ?_
      split
      · rename_i h; exact mul_nonneg (hf i hi) (rpow_nonneg h _)
      · exact le_rfl
    | beckmann s =>
      simp only [LobeObj.toFn, Fn.value, beckmannCls] at hx
      obtain ⟨h, -, rfl⟩ := Option.map_eq_some_iff.mp hx
      refine value_entries fun i hi => ?_
      have hk : 0 ≤ s.ks i := block_bound s.par.dimY 2 [0, 0] _ _ rfl (fun _ _ => rfl) rfl i 0 hi (by omega)
        (hB _ (block_index hi (by omega)))
      split
      · exact beckmannLobe_nonneg _ _ _ hk
      · exact le_rfl
    | retrobeckmann s =>
      simp only [LobeObj.toFn, Fn.value, retrobeckmannCls] at hx
      obtain ⟨h, -, rfl⟩ := Option.map_eq_some_iff.mp hx
      refine value_entries fun i hi => ?_
      have hk : 0 ≤ s.ks i := block_bound s.par.dimY 2 [0, 0] _ _ rfl (fun _ _ => rfl) rfl i 0 hi (by omega)
        (hB _ (block_index hi (by omega)))
      split
      · exact beckmannLobe_nonneg _ _ _ hk
      · exact le_rfl
    | ward s =>
      simp only [LobeObj.toFn, Fn.value, wardCls] at hx
      obtain ⟨h, -, rfl⟩ := Option.map_eq_some_iff.mp hx
      refine value_entries fun i hi => ?_
      have hk : 0 ≤ s.ks i := block_bound s.par.dimY 3 [0, 0, 0] _ _ rfl (fun _ _ => rfl) rfl i 0 hi (by omega)
        (hB _ (block_index hi (by omega)))
      have hx : 0 ≤ s.ax i := block_bound s.par.dimY 3 [0, 0, 0] _ _ rfl (fun _ _ => rfl) rfl i 1 hi (by omega)
        (hB _ (block_index hi (by omega)))
      have hy : 0 ≤ s.ay i := block_bound s.par.dimY 3 [0, 0, 0] _ _ rfl (fun _ _ => rfl) rfl i 2 hi (by omega)
        (hB _ (block_index hi (by omega)))
      split
      · exact wardLobe_nonneg _ _ _ _ _ hk hx hy
      · exact le_rfl
    | abc s =>
      simp only [LobeObj.toFn, Fn.value, abcCls, Option.some.injEq] at hx
      subst hx
      refine value_entries fun i hi => ?_
      have ha : 0 ≤ s.a i := block_bound s.par.dimY 3 [0, 0, 0] _ _ rfl (fun _ _ => rfl) rfl i 0 hi (by omega)
        (hB _ (block_index hi (by omega)))
      have hb' : 0 ≤ s.b i := block_bound s.par.dimY 3 [0, 0, 0] _ _ rfl (fun _ _ => rfl) rfl i 1 hi (by omega)
        (hB _ (block_index hi (by omega)))
      split
      · rename_i h
        exact div_nonneg ha (rpow_nonneg (add_nonneg zero_le_one (mul_nonneg hb' h.1)) _)
      · exact le_rfl
    | diffuse s =>
      simp only [LobeObj.toFn, Fn.value, diffuseCls, Option.some.injEq] at hx
      subst hx
      exact value_entries hf
    | sg s =>
      simp only [LobeObj.toFn, Fn.value, sgCls] at hx
      obtain ⟨d, -, rfl⟩ := Option.map_eq_some_iff.mp hx
      refine value_entries fun i hi => ?_
      have hlt : i * 2 + 0 < 2 * s.par.dimY := block_index hi (by omega)
      have hl0 : (blocks s.par.dimY fun _ => [(0:ℝ), 0]).length = s.par.dimY * 2 := blocks_length _ 2 _ fun _ _ => rfl
      have hl1 : (blocks s.par.dimY fun i => [s.ks i, s.n i]).length = s.par.dimY * 2 := blocks_length _ 2 _ fun _ _ => rfl
      have h1 := hB (i * 2 + 0) (by
        simp only [LobeObj.toFn, Fn.nb, sgCls]; split <;> omega)
      simp only [LobeObj.toFn, Fn.lo, Fn.get, sgCls] at h1
      have app : ∀ (a b : List ℝ) (k : ℕ), k < a.length → arr (a ++ b) k = arr a k := by
        intro a b k hk; simp only [arr, List.getD, List.getElem?_append_left hk]
      rw [app _ _ _ (by omega), app _ _ _ (by omega)] at h1
      have hk : 0 ≤ s.ks i := block_bound s.par.dimY 2 [0, 0] _ _ rfl (fun _ _ => rfl) rfl i 0 hi (by omega) h1
      exact mul_nonneg hk (exp_pos _).le
    | isoLafortune s =>
      simp only [LobeObj.toFn, Fn.value, isoLafortuneCls, Option.some.injEq] at hx
      subst hx
      refine value_entries fun i hi => ?_
      exact sum_of_powers_nonneg s.n (fun n => s.C ((n * s.par.dimY + i) * 2 + 0) * _ + s.C ((n * s.par.dimY + i) * 2 + 1) * _)
        (fun n => s.N (n * s.par.dimY + i)) 0 le_rfl
    | lafortune s =>
      simp only [LobeObj.toFn, Fn.value, lafortuneCls, Option.some.injEq] at hx
      subst hx
      refine value_entries fun i hi => ?_
      exact sum_of_powers_nonneg s.n (fun n => s.C ((n * s.par.dimY + i) * 3 + 0) * _ +
        s.C ((n * s.par.dimY + i) * 3 + 1) * _ + s.C ((n * s.par.dimY + i) * 3 + 2) * _)
        (fun n => s.N (n * s.par.dimY + i)) _ (hf i hi)
    | schlickFresnel s =>
      simp only [LobeObj.toFn, Fn.value, schlickFresnelCls] at hx
      obtain ⟨d, -, rfl⟩ := Option.map_eq_some_iff.mp hx
      refine value_entries fun i hi => ?_
      have h0 := hB i hi
      have h1 := hH i hi
      simp only [LobeObj.toFn, Fn.lo, Fn.hi, Fn.get, schlickFresnelCls] at h0 h1
      rw [arr_map_range _ _ _ hi, arr_map_range _ _ _ hi] at h0 h1
      obtain ⟨d0, d1⟩ := clampR_mem d
      exact add_nonneg h0 (mul_nonneg (by linarith) (pow_nonneg (by linarith) _))
    | normalizedSchlick s =>
      simp only [LobeObj.toFn, Fn.value, normalizedSchlickCls] at hx
      obtain ⟨d, -, rfl⟩ := Option.map_eq_some_iff.mp hx
      refine value_entries fun i hi => ?_
      have h0 := hB i hi
      have h1 := hH i hi
      simp only [LobeObj.toFn, Fn.lo, Fn.hi, Fn.get, normalizedSchlickCls] at h0 h1
      rw [arr_map_range _ _ _ hi, arr_map_range _ _ _ hi] at h0 h1
      obtain ⟨d0, d1⟩ := clampR_mem d
      have hR : 0 < s.R i := lt_of_lt_of_le (by norm_num) h0
      have : 1 ≤ 1 / s.R i := by rw [le_div_iff₀ hR]; linarith
      exact add_nonneg zero_le_one (mul_nonneg (by linarith) (pow_nonneg (by linarith) _))
    | retroSchlick s =>
      have hcc : s.par.input = .CARTESIAN := hf
      have := hcart hcc
      subst this
      simp only [LobeObj.toFn, Fn.value, retroSchlickCls, hcc] at hx
      obtain ⟨d, hd, rfl⟩ := Option.map_eq_some_iff.mp hx
      refine value_entries fun i hi => ?_
      have h0 := hB i hi
      have h1 := hH i hi
      simp only [LobeObj.toFn, Fn.lo, Fn.hi, Fn.get, retroSchlickCls, ← map_const_replicate] at h0 h1
      rw [arr_map_range _ _ _ hi, arr_map_range _ _ _ hi] at h0 h1
      have d1 := dotRK_le_one c hc d hd
      exact add_nonneg h0 (mul_nonneg (by linarith) (pow_nonneg (by linarith) _))
    | schlickMasking s =>
      have := hcart hf.1
      subst this
      simp only [LobeObj.toFn, Fn.value, schlickMaskingCls, Option.some.injEq] at hx
      subst hx
      refine value_entries fun i hi => ?_
      have h0 := hB i hi
      simp only [LobeObj.toFn, Fn.lo, Fn.get, schlickMaskingCls] at h0
      rw [arr_map_range _ _ _ hi, arr_map_range _ _ _ hi] at h0
      have hl := unit_z_le_one _ hc.unit.2
      have hv := unit_z_le_one _ hc.unit.1
      have hl0 := hc.light
      have hv0 := hc.view
      exact mul_nonneg (div_nonneg hl0 (add_nonneg hl0 (mul_nonneg h0 (sub_nonneg.mpr hl))))
        (div_nonneg hv0 (add_nonneg hv0 (mul_nonneg h0 (sub_nonneg.mpr hv))))
    | smith s =>
      have := hcart hf.1
      subst this
      simp only [LobeObj.toFn, Fn.value, smithCls, Option.some.injEq] at hx
      subst hx
      refine value_entries fun i hi => ?_
      have h0 := hB i hi
      simp only [LobeObj.toFn, Fn.lo, Fn.get, smithCls] at h0
      rw [arr_map_range _ _ _ hi, arr_map_range _ _ _ hi] at h0
      split
      · exact zero_le_one
      · exact (smithTerm_range _ _ _ hc.light (sqrt_nonneg _) (lt_of_le_of_ne h0 (hf.2 i hi).symm)).1
    | walterSmith s =>
      have := hcart hf
      subst this
      simp only [LobeObj.toFn, Fn.value, walterSmithCls, Option.some.injEq] at hx
      subst hx
      refine value_entries fun i hi => ?_
      have h0 := hB i hi
      simp only [LobeObj.toFn, Fn.lo, Fn.get, walterSmithCls] at h0
      rw [arr_map_range _ _ _ hi, arr_map_range _ _ _ hi] at h0
      have hR : 0 < s.R i := lt_of_lt_of_le (by norm_num) h0
      split
      · exact mul_nonneg (walterTerm_range _ _ hR (div_nonneg (sqrt_nonneg _) hc.light)).1
          (walterTerm_range _ _ hR (div_nonneg (sqrt_nonneg _) hc.view)).1
      · exact le_rfl
    | sgd s => exact hf.elim
  unfold Fn.reflect at hv
  obtain ⟨x, hx, hv⟩ := Option.bind_eq_some_iff.mp hv
  refine key x hv fun hi => ?_
  have hi' : o.toFn.par.input = .CARTESIAN := hi
  rw [hi'] at hx
  exact (Option.some.inj hx).symm

theorem vecAdd_nonneg {a b r : List ℝ} (ha : ∀ y ∈ a, 0 ≤ y) (hb : ∀ y ∈ b, 0 ≤ y) (h : vecAdd a b = some r) :
    ∀ y ∈ r, 0 ≤ y := by
  unfold vecAdd at h
  split at h
  · obtain rfl := Option.some.inj h
    intro y hy
    obtain ⟨i, hi, rfl⟩ := List.getElem_of_mem hy
    simp only [List.getElem_zipWith]
    exact add_nonneg (ha _ (List.getElem_mem _)) (hb _ (List.getElem_mem _))
  · simp at h

theorem getD_nonneg {a : List ℝ} (ha : ∀ y ∈ a, 0 ≤ y) (i : ℕ) : 0 ≤ a.getD i 0 := by
  rcases Nat.lt_or_ge i a.length with h | h
  · simp [List.getD, h]; exact ha _ (List.getElem_mem _)
  · simp [List.getD, h]

theorem vecProduct_nonneg {a b r : List ℝ} (ha : ∀ y ∈ a, 0 ≤ y) (hb : ∀ y ∈ b, 0 ≤ y)
    (h : vecProduct a b = some r) : ∀ y ∈ r, 0 ≤ y := by
  unfold vecProduct at h
  split at h
  · obtain rfl := Option.some.inj h
    intro y hy
    obtain ⟨z, hz, rfl⟩ := List.mem_map.mp hy
    exact mul_nonneg (hb z hz) (getD_nonneg ha 0)
  · split at h
    · obtain rfl := Option.some.inj h
      intro y hy
      obtain ⟨z, hz, rfl⟩ := List.mem_map.mp hy
      exact mul_nonneg (ha z hz) (getD_nonneg hb 0)
    · split at h
      · obtain rfl := Option.some.inj h
        intro y hy
        obtain ⟨i, hi, rfl⟩ := List.getElem_of_mem hy
        simp only [List.getElem_zipWith]
        exact mul_nonneg (ha _ (List.getElem_mem _)) (hb _ (List.getElem_mem _))
      · simp at h

mutual
/-- C64.  Sums and products of objects within their bounds are not negative. -/
theorem composition_nonnegative (f : FT LobeObj) (hf : f.AllObjects fun o => o.InBounds ∧ NonNegativeFactors o)
    (hs : f.toFn.SharedInput) (c : Cart) (hc : c.Above) : f.toFn.NonNegativeAt c := by
  match f with
  | .leaf l => exact lobe_nonnegative l hf.1 hf.2 c hc
  | .compound p fs =>
    intro v hv
    obtain ⟨x, hx, hv⟩ := Option.bind_eq_some_iff.mp hv
    refine members_nonnegative fs hf p.input hs c hc x hx _ (fun y hy => ?_) v hv
    rw [List.eq_of_mem_replicate hy]
  | .product p f g a b =>
    intro v hv
    obtain ⟨x, hx, hv⟩ := Option.bind_eq_some_iff.mp hv
    simp only [FT.toFn] at hv hx
    rw [product_bind, part_reflect f.toFn p.input hs.1.2 c x hx, part_reflect g.toFn p.input hs.2.2 c x hx] at hv
    obtain ⟨u, hu, hv⟩ := Option.bind_eq_some_iff.mp hv
    obtain ⟨w, hw, hv⟩ := Option.bind_eq_some_iff.mp hv
    exact vecProduct_nonneg (composition_nonnegative f hf.1 hs.1.1 c hc u hu)
      (composition_nonnegative g hf.2 hs.2.1 c hc w hw) hv
/-- for the members of a sum -/
theorem members_nonnegative (fs : FTs LobeObj) (hf : fs.AllObjects fun o => o.InBounds ∧ NonNegativeFactors o)
    (i : Input) (hs : fs.toFns.SharedInput i) (c : Cart) (hc : c.Above) (x : List ℝ)
    (hx : convertInput (arr c.toList) .CARTESIAN i = some x) (res : List ℝ) (hres : ∀ y ∈ res, 0 ≤ y) :
    ∀ v, fs.toFns.valueLoop i x res = some v → ∀ y ∈ v, 0 ≤ y := by
  match fs with
  | .nil =>
    intro v hv
    obtain rfl : res = v := by simpa [FTs.toFns, Fns.valueLoop] using hv
    exact hres
  | .cons a f rest =>
    intro v hv
    simp only [FTs.toFns] at hv
    rw [valueLoop_bind, part_reflect f.toFn i hs.1.2 c x hx] at hv
    obtain ⟨u, hu, hv⟩ := Option.bind_eq_some_iff.mp hv
    obtain ⟨w, hw, hv⟩ := Option.bind_eq_some_iff.mp hv
    exact members_nonnegative rest hf.2 i hs.2 c hc x hx w
      (vecAdd_nonneg hres (composition_nonnegative f hf.1 hs.1.1 c hc u hu) hw) v hv
end

end
end Alta
