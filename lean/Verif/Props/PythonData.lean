import Verif.Model.PythonData
import Verif.Props.Brdf2Data
import Verif.Props.OutputConvert
import Verif.Props.Data2Data
/-
C76: data sets in the Python binding.
-/
namespace Alta
noncomputable section
open Finset

theorem convertOutput_beyond (inv out o : ℕ → ℝ) (a b k : ℕ) (h : convertOutput inv a b out = some o)
    (hk : b ≤ k) : o k = out k := by
  unfold convertOutput at h
  split at h
  · cases h
    rw [writeLoop_get, if_neg (by omega)]
  · split at h
    · cases h
      rw [writeLoop_get, if_neg (by omega)]
    · split at h
      · cases h
        have : k ≠ 0 := by omega
        simp only [if_neg this, sumLoop_get]
      · cases h

theorem pyConvertRow_spec (din : Data) (target : Par) (c : ℕ → ℝ) (i : ℕ) (x t : List ℝ) (o : ℕ → ℝ)
    (hx : din.rows[i]? = some x) (ht : convertInput (arr x) din.input target.input = some t)
    (hl : t.length = target.dimX)
    (ho : convertOutput (fun k => arr x (din.dimX + k)) din.dimY target.dimY
      (fun k => c (i * sampleSize target + target.dimX + k)) = some o) :
    ∃ c', pyConvertRow din target c i = some c' ∧
      (∀ j k, j ≠ i → k < sampleSize target → c' (j * sampleSize target + k) = c (j * sampleSize target + k)) ∧
      (∀ k < target.dimX, c' (i * sampleSize target + k) = arr t k) ∧
      (∀ k < target.dimY, c' (i * sampleSize target + target.dimX + k) = o k) ∧
      (∀ k < 2 * target.dimY, c' (i * sampleSize target + target.dimX + target.dimY + k) = 0) := by
  have hi : i < din.rows.length := by
    by_contra h
    rw [List.getElem?_eq_none (by omega)] at hx
    cases hx
  set n := sampleSize target with hn
  have hnv : n = target.dimX + 3 * target.dimY := hn
  have hfit : i * n + t.length ≤ din.rows.length * n := by
    have : (i + 1) * n ≤ din.rows.length * n := Nat.mul_le_mul_right _ hi
    rw [Nat.succ_mul] at this
    omega
  have hc1 : (fun k => writeFrom c (i * n) t (i * n + target.dimX + k)) = fun k => c (i * n + target.dimX + k) := by
    funext k
    unfold writeFrom
    rw [if_neg (by omega)]
  have e : pyConvertRow din target c i = some (fun k =>
      if i * n + target.dimX + target.dimY ≤ k ∧ k < i * n + target.dimX + target.dimY + 2 * target.dimY then 0
      else if k < i * n + target.dimX then writeFrom c (i * n) t k else o (k - (i * n + target.dimX))) := by
    unfold pyConvertRow
    rw [hx, Option.bind_some, ht, Option.bind_some, ← hn, if_pos hfit]
    simp only [hc1, ho, Option.map_some]
  refine ⟨_, e, ?_, ?_, ?_, ?_⟩
  · intro j k hj hk
    rcases Nat.lt_or_gt_of_ne hj with h | h
    · have := row_lt h hk
      rw [if_neg (by omega), if_pos (by omega)]
      unfold writeFrom
      rw [if_neg (by omega)]
    · have h2 : (i + 1) * n ≤ j * n := Nat.mul_le_mul_right n h
      rw [Nat.succ_mul] at h2
      rw [if_neg (by omega), if_neg (by omega), convertOutput_beyond _ _ _ _ _ _ ho (by omega)]
      congr 1
      omega
  · intro k hk
    rw [if_neg (by omega), if_pos (by omega)]
    unfold writeFrom
    rw [if_pos (by omega)]
    congr 1
    omega
  · intro k hk
    rw [if_neg (by omega), if_neg (by omega)]
    congr 1
    omega
  · intro k hk
    rw [if_pos (by omega)]

/-- the channel `k` of the sample `i`, as converted; `junk` is the content of the memory -/
def convertedChannel (junk : ℕ → ℝ) (din : Data) (target : Par) (i : ℕ) (row : List ℝ) (k : ℕ) : ℝ :=
  if target.dimY = din.dimY then arr row (din.dimX + k)
  else if din.dimY = 1 then arr row din.dimX
  else (junk (i * sampleSize target + target.dimX) + ∑ c ∈ range din.dimY, arr row (din.dimX + c)) / din.dimY

theorem convertOutput_channel (inv out : ℕ → ℝ) (a b : ℕ) (h : b = a ∨ a = 1 ∨ b = 1) :
    ∃ o, convertOutput inv a b out = some o ∧ ∀ k < b, o k =
      if b = a then inv k else if a = 1 then inv 0 else (out 0 + ∑ c ∈ range a, inv c) / a := by
  unfold convertOutput
  by_cases h1 : b = a
  · rw [if_pos h1]
    exact ⟨_, rfl, fun k hk => by rw [writeLoop_get, if_pos hk, if_pos h1]⟩
  · rw [if_neg h1]
    by_cases h2 : a = 1
    · rw [if_pos h2]
      exact ⟨_, rfl, fun k hk => by rw [writeLoop_get, if_pos hk, if_neg h1, if_pos h2]⟩
    · have h3 : b = 1 := by tauto
      rw [if_neg h2, if_pos h3]
      refine ⟨_, rfl, fun k hk => ?_⟩
      have : k = 0 := by omega
      subst this
      simp only [if_true, sumLoop_get]
      rw [if_neg h1, if_neg h2]

/-- C76: `alta.data2data(d, target)`.  Every sample of `d` gives a sample of the result, in the same order,
    with the converted abscissa and the converted values: the same channels, one channel repeated, or
    their mean (to which memory is added, see `python_average_undefined`); both ends of its interval are 0. -/
theorem python_data2data (junk : ℕ → ℝ) (din : Data) (target : Par) (hN : target.input.Named)
    (hX : (target.dimX : ℤ) = inputDim target.input)
    (hY : target.dimY = din.dimY ∨ din.dimY = 1 ∨ target.dimY = 1)
    (hc : ∀ row ∈ din.rows, (convertInput (arr row) din.input target.input).isSome) :
    ∃ r, pyData2data junk din target = some r ∧ r.store.WF ∧ r.store.size = din.rows.length ∧
      r.store.dimX = target.dimX ∧ r.store.dimY = target.dimY ∧ r.store.input = target.input ∧
      r.store.output = target.output ∧ r = Segments.make r.store ∧
      ∀ i row t, din.rows[i]? = some row → convertInput (arr row) din.input target.input = some t →
        r.store.get i = some (t ++ (List.range target.dimY).map (convertedChannel junk din target i row)) ∧
        r.store.getSegment i =
          some (t, List.replicate target.dimY 0, List.replicate target.dimY 0) := by
  set n := sampleSize target with hn
  have hnv : n = target.dimX + 3 * target.dimY := hn
  have main : ∀ m ≤ din.rows.length, ∃ c, (List.range m).foldlM (pyConvertRow din target) junk = some c ∧
      (∀ j k, m ≤ j → k < n → c (j * n + k) = junk (j * n + k)) ∧
      ∀ i < m, ∀ row t, din.rows[i]? = some row → convertInput (arr row) din.input target.input = some t →
        (∀ k < target.dimX, c (i * n + k) = arr t k) ∧
        (∀ k < target.dimY, c (i * n + target.dimX + k) = convertedChannel junk din target i row k) ∧
        (∀ k < 2 * target.dimY, c (i * n + target.dimX + target.dimY + k) = 0) := by
    intro m
    induction m with
    | zero =>
      intro _
      exact ⟨junk, rfl, fun _ _ _ _ => rfl, by simp⟩
    | succ m ih =>
      intro hm
      obtain ⟨c, e1, e2, e3⟩ := ih (by omega)
      have hx : din.rows[m]? = some din.rows[m] := List.getElem?_eq_getElem (by omega)
      obtain ⟨t, ht⟩ := Option.isSome_iff_exists.1 (hc _ (List.getElem_mem (by omega : m < din.rows.length)))
      have htl : t.length = target.dimX := by
        have := convertInput_length _ _ _ hN t ht
        omega
      obtain ⟨o, ho, hov⟩ := convertOutput_channel (fun k => arr din.rows[m] (din.dimX + k))
        (fun k => c (m * n + target.dimX + k)) din.dimY target.dimY hY
      obtain ⟨c', f1, f2, f3, f4, f5⟩ := pyConvertRow_spec din target c m _ t o hx ht htl ho
      rw [← hn] at f2 f3 f4 f5
      refine ⟨c', ?_, ?_, ?_⟩
      · rw [List.range_succ, List.foldlM_append, e1]
        simp [f1]
      · intro j k hj hk
        rw [f2 j k (by omega) hk, e2 j k (by omega) hk]
      · intro i hi row t' hrow ht'
        rcases Nat.lt_succ_iff_lt_or_eq.1 hi with h | h
        · obtain ⟨g1, g2, g3⟩ := e3 i h row t' hrow ht'
          refine ⟨fun k hk => ?_, fun k hk => ?_, fun k hk => ?_⟩
          · rw [f2 i k (by omega) (by omega), g1 k hk]
          · rw [Nat.add_assoc, f2 i _ (by omega) (by omega), ← Nat.add_assoc, g2 k hk]
          · rw [Nat.add_assoc, Nat.add_assoc, f2 i _ (by omega) (by omega), ← Nat.add_assoc, ← Nat.add_assoc, g3 k hk]
        · subst h
          rw [hx] at hrow
          cases hrow
          rw [ht] at ht'
          cases ht'
          refine ⟨f3, fun k hk => ?_, f5⟩
          rw [f4 k hk, hov k hk]
          unfold convertedChannel
          split
          · rfl
          · split
            · simp
            · rw [← hn]
              simp only [add_zero]
              have := e2 i target.dimX le_rfl (by omega)
              rw [this]
  obtain ⟨c, e1, -, e3⟩ := main din.rows.length le_rfl
  refine ⟨_, by unfold pyData2data; rw [e1, Option.map_some], ?_, rfl, rfl, rfl, rfl, rfl, rfl, ?_⟩
  · unfold Store.WF Segments.make Store.columns ciColumns
    simp only [List.length_map, List.length_range]
    rw [← hn, hnv]
    congr 1
    ring
  · intro i row t hrow ht
    have hi : i < din.rows.length := by
      by_contra h
      rw [List.getElem?_eq_none (by omega)] at hrow
      cases hrow
    have htl : t.length = target.dimX := by
      have := convertInput_length _ _ _ hN t ht
      omega
    obtain ⟨g1, g2, g3⟩ := e3 i hi row t hrow ht
    set st : Store ℝ := ⟨target.dimX, target.dimY, target.input, target.output, din.rows.length,
      (List.range (din.rows.length * n)).map c, .asymmetrical⟩ with hst
    have hcol : st.columns = n := by
      rw [hnv]
      show target.dimX + target.dimY + 2 * target.dimY = _
      ring
    have hle : (i + 1) * n ≤ din.rows.length * n := Nat.mul_le_mul_right _ hi
    rw [Nat.succ_mul] at hle
    have hrowv : st.row i = t ++ (List.range target.dimY).map (convertedChannel junk din target i row) ++
        List.replicate (2 * target.dimY) 0 := by
      apply List.ext_getElem?
      intro k
      rw [getElem?_row, hcol]
      by_cases hk : k < n
      · rw [if_pos hk]
        show ((List.range (din.rows.length * n)).map c)[i * n + k]? = _
        rw [List.getElem?_map, List.getElem?_range (by omega), Option.map_some]
        rcases Nat.lt_or_ge k target.dimX with h1 | h1
        · rw [List.append_assoc, List.getElem?_append_left (by omega), g1 k h1, arr]
          simp [htl, h1]
        · rcases Nat.lt_or_ge k (target.dimX + target.dimY) with h2 | h2
          · rw [List.getElem?_append_left (by simp; omega), List.getElem?_append_right (by omega), htl,
              List.getElem?_map, List.getElem?_range (by omega), Option.map_some, ← g2 _ (by omega)]
            congr 2
            omega
          · rw [List.getElem?_append_right (by simp; omega), List.getElem?_replicate, if_pos (by simp; omega)]
            have := g3 (k - target.dimX - target.dimY) (by omega)
            rw [← this]
            congr 2
            omega
      · rw [if_neg hk, List.getElem?_eq_none (by simp; omega)]
    have hlen : (t ++ (List.range target.dimY).map (convertedChannel junk din target i row)).length =
        target.dimX + target.dimY := by simp [htl]
    show st.get i = _ ∧ st.getSegment i = _
    constructor
    · rw [Store.get_eq, if_pos (show i < st.size from hi), hrowv]
      show some (List.take (target.dimX + target.dimY) _) = _
      rw [← hlen, List.take_left]
    · unfold Store.getSegment
      rw [if_pos (show i < st.size from hi)]
      have k1 : st.kind = .asymmetrical := rfl
      have k2 : st.dimX = target.dimX := rfl
      have k3 : st.dimY = target.dimY := rfl
      simp only [k1, k2, k3, hrowv, segment]
      congr 2
      · rw [List.drop_zero, List.append_assoc, ← htl, List.take_left]
      · congr 1
        · rw [List.drop_append_of_le_length (by omega), List.drop_of_length_le (by omega), List.nil_append,
            List.take_replicate]
          congr 1; omega
        · rw [List.drop_append, List.drop_of_length_le (by omega), List.nil_append, hlen,
            List.drop_replicate, List.take_replicate]
          congr 1; omega

/-- C76, limit: the intervals of the converted data are [0, 0] and contain no value but 0. -/
theorem python_interval_lost (junk : ℕ → ℝ) (din : Data) (target : Par) (hN : target.input.Named)
    (hX : (target.dimX : ℤ) = inputDim target.input)
    (hY : target.dimY = din.dimY ∨ din.dimY = 1 ∨ target.dimY = 1)
    (hc : ∀ row ∈ din.rows, (convertInput (arr row) din.input target.input).isSome)
    (r : Segments) (h : pyData2data junk din target = some r) (i : ℕ) (hi : i < din.rows.length) :
    ∃ x lo up row, r.store.getSegment i = some (x, lo, up) ∧ r.store.get i = some (x ++ row) ∧
      ∀ k < target.dimY, (arr lo k ≤ arr row k ∧ arr row k ≤ arr up k ↔ arr row k = 0) := by
  obtain ⟨r', e1, -, -, -, -, -, -, -, e2⟩ := python_data2data junk din target hN hX hY hc
  rw [h] at e1
  cases e1
  obtain ⟨t, ht⟩ := Option.isSome_iff_exists.1 (hc _ (List.getElem_mem hi))
  obtain ⟨q1, q2⟩ := e2 i _ t (List.getElem?_eq_getElem hi) ht
  refine ⟨t, _, _, _, q2, q1, fun k hk => ?_⟩
  have : arr (List.replicate target.dimY (0:ℝ)) k = 0 := by simp [arr, List.getD, hk]
  rw [this]
  exact ⟨fun h => le_antisymm h.2 h.1, fun h => by rw [h]; exact ⟨le_rfl, le_rfl⟩⟩

/-- C76, limit: the mean of several channels depends on the content of memory: it can be any number. -/
theorem python_average_undefined (din : Data) (target : Par) (hN : target.input.Named)
    (hX : (target.dimX : ℤ) = inputDim target.input) (h1 : target.dimY = 1) (h2 : 1 < din.dimY)
    (hc : ∀ row ∈ din.rows, (convertInput (arr row) din.input target.input).isSome)
    (i : ℕ) (hi : i < din.rows.length) (a : ℝ) :
    ∃ junk r x, pyData2data junk din target = some r ∧ r.store.get i = some (x ++ [a]) := by
  obtain ⟨t, ht⟩ := Option.isSome_iff_exists.1 (hc _ (List.getElem_mem hi))
  refine ⟨fun _ => a * din.dimY - ∑ c ∈ range din.dimY, arr din.rows[i] (din.dimX + c), ?_⟩
  obtain ⟨r, e1, -, -, -, -, -, -, -, e2⟩ := python_data2data
    (fun _ => a * din.dimY - ∑ c ∈ range din.dimY, arr din.rows[i] (din.dimX + c)) din target hN hX
    (Or.inr (Or.inr h1)) hc
  obtain ⟨q1, -⟩ := e2 i _ t (List.getElem?_eq_getElem hi) ht
  refine ⟨r, t, e1, ?_⟩
  rw [q1, h1]
  have hd : (din.dimY : ℝ) ≠ 0 := by
    have : (0:ℝ) < din.dimY := by exact_mod_cast (by omega : 0 < din.dimY)
    exact this.ne'
  simp only [List.range_one, List.map_cons, List.map_nil, convertedChannel]
  rw [if_neg (by omega), if_neg (by omega)]
  congr 3
  field_simp
  ring

/-- C76: a conversion to the same parametrization and channels keeps all the samples. -/
theorem python_data2data_same (junk : ℕ → ℝ) (din : Data) (hN : din.input.Named)
    (hX : (din.dimX : ℤ) = inputDim din.input) (hr : ∀ row ∈ din.rows, row.length = din.dimX + din.dimY) :
    ∃ r, pyData2data junk din ⟨din.dimX, din.dimY, din.input, din.output⟩ = some r ∧ r.store.toData = din := by
  have hcv : ∀ row ∈ din.rows, convertInput (arr row) din.input din.input = some (row.take din.dimX) := by
    intro row h
    obtain ⟨o, h1, h2, h3⟩ := convertInput_self (arr row) din.input hN
    rw [h1]
    congr 1
    have hl := hr row h
    apply List.ext_getElem
    · simp; omega
    · intro k k1 k2
      rw [h3 k k1]
      simp only [List.length_take] at k2
      simp [arr, show k < row.length by omega]
  obtain ⟨r, e1, -, e2, e3, e4, e5, e6, -, e7⟩ := python_data2data junk din ⟨din.dimX, din.dimY, din.input, din.output⟩
    hN hX (Or.inl rfl) (fun row h => by simp [hcv row h])
  refine ⟨r, e1, ?_⟩
  have : r.store.toData = ⟨r.store.dimX, r.store.dimY, r.store.input, r.store.output, r.store.toData.rows⟩ := rfl
  rw [this, e3, e4, e5, e6]
  have hrows : r.store.toData.rows = din.rows := by
    apply List.ext_getElem?
    intro i
    by_cases hi : i < din.rows.length
    · have hx : din.rows[i]? = some din.rows[i] := List.getElem?_eq_getElem hi
      have hm : din.rows[i] ∈ din.rows := List.getElem_mem hi
      obtain ⟨q, -⟩ := e7 i _ _ hx (hcv _ hm)
      rw [toData_get _ i (by rw [e2]; exact hi) _ q, hx]
      congr 1
      have hl := hr _ hm
      apply List.ext_getElem
      · simp; omega
      · intro k k1 k2
        rcases Nat.lt_or_ge k din.dimX with h | h
        · rw [List.getElem_append_left (by simp; omega)]
          simp
        · rw [List.getElem_append_right (by simp; omega)]
          simp only [List.getElem_map, List.getElem_range, convertedChannel, if_true, List.length_take]
          rw [arr, Nat.min_eq_left (by omega), show din.dimX + (k - din.dimX) = k by omega]
          simp [k2]
    · rw [List.getElem?_eq_none (by simp [Store.toData, e2]; omega), List.getElem?_eq_none (by omega)]
  rw [hrows]

/-- C76: `alta.brdf2data(f, d)` gives to the data object the values of the function: it does what the command
    `brdf2data` does (C67), for a function with the channels of the data. -/
theorem python_brdf2data (g : Evaluable) (s : Segments) (hwf : s.store.WF)
    (h : DistanceReady g s.store.toData) :
    pyBrdf2data g s = brdf2data g false s ∧
    ∃ s', pyBrdf2data g s = some s' ∧ s'.store.WF ∧
      s'.store.toData = s.store.toData.withValues (g.valueFor s.store.toData) := by
  have key : ∀ m ≤ s.store.size, ∃ s', (List.range m).foldlM (pyEvaluateRow g) s = some s' ∧
      (List.range m).foldlM (exportRow g false) s = some s' ∧ s'.store.WF ∧
      s'.store.dimX = s.store.dimX ∧ s'.store.dimY = s.store.dimY ∧ s'.store.size = s.store.size ∧
      s'.store.input = s.store.input ∧ ∀ i, m ≤ i → s'.store.get i = s.store.get i := by
    intro m
    induction m with
    | zero =>
      intro _
      exact ⟨s, rfl, rfl, hwf, rfl, rfl, rfl, rfl, fun _ _ => rfl⟩
    | succ m ih =>
      intro hm
      obtain ⟨s', e1, e2, e3, e4, e5, e6, e7, e8⟩ := ih (by omega)
      obtain ⟨r, hr, hrm⟩ := toData_row s.store m (by omega)
      obtain ⟨x, v, hx, hp, hv, hvl⟩ := h.distancePoint r hrm
      have hvl' : v.length = s.store.dimY := hvl
      have hrl : r.length = s.store.dimX + s.store.dimY := h.size r hrm
      have hp' : Alta.distancePoint g s'.store.toData r = some x := by
        rw [← hp]
        unfold Alta.distancePoint
        have : s'.store.toData.input = s.store.toData.input := e7
        rw [this]
      have hlen : (r.take s.store.dimX ++ v).length = s'.store.dimX + s'.store.dimY := by
        rw [List.length_append, List.length_take, e4, e5, hvl']
        omega
      obtain ⟨t, g1, g2, g3, g4, g5, g6, g7, g8, g9, g10, g11⟩ := set_get s'.store e3 m (by omega)
        (r.take s.store.dimX ++ v) (Or.inr hlen)
      have hset : s'.set m (r.take s.store.dimX ++ v) = some { s' with store := t } := by
        unfold Segments.set
        rw [g1]
        rfl
      have hvec : ((List.range r.length).map fun k =>
          if s.store.dimX ≤ k ∧ k < s.store.dimX + s.store.dimY then arr v (k - s.store.dimX) else arr r k) =
          r.take s.store.dimX ++ v := by
        apply List.ext_getElem
        · simp; omega
        · intro k k1 k2
          simp only [List.length_map, List.length_range] at k1
          simp only [List.getElem_map, List.getElem_range]
          by_cases hk : s.store.dimX ≤ k
          · rw [if_pos (by omega), List.getElem_append_right (by simp; omega)]
            simp only [List.length_take, arr, Nat.min_eq_left (show s.store.dimX ≤ r.length by omega)]
            simp [show k - s.store.dimX < v.length by omega]
          · rw [if_neg (by omega), List.getElem_append_left (by simp; omega)]
            simp [arr, k1]
      refine ⟨{ s' with store := t }, ?_, ?_, g2, g6.trans e4, g7.trans e5, g10.trans e6, g8.trans e7, ?_⟩
      · rw [List.range_succ, List.foldlM_append, e1]
        simp only [Option.bind_eq_bind, Option.bind_some, List.foldlM_cons, List.foldlM_nil]
        unfold pyEvaluateRow
        rw [e8 m le_rfl, hr, Option.bind_some, hp', Option.bind_some, hv, Option.bind_some,
          if_pos (by rw [e5]; exact hvl'.ge), e4, e5, hvec, hset]
        rfl
      · rw [List.range_succ, List.foldlM_append, e2]
        simp only [Option.bind_eq_bind, Option.bind_some, List.foldlM_cons, List.foldlM_nil]
        unfold exportRow
        rw [e8 m le_rfl, hr, Option.bind_some, hp', Option.bind_some, hv, Option.bind_some,
          if_pos (by rw [e5]; exact hvl')]
        have hk : r.length - s.store.dimY = s.store.dimX := by omega
        simp only [e5, hk, Bool.false_eq_true, if_false]
        rw [hset]
        rfl
      · intro i hi
        show t.get i = _
        rw [(g4 i (by omega)).1, e8 i (by omega)]
  obtain ⟨s1, k1, k2, -⟩ := key s.store.size le_rfl
  have heq : pyBrdf2data g s = brdf2data g false s := by
    unfold pyBrdf2data brdf2data
    rw [k2]
    split
    · next h0 =>
      rw [h0] at k1
      simpa using k1
    · exact k1
  refine ⟨heq, ?_⟩
  obtain ⟨s', f1, f2, f3, -⟩ := brdf2data_rows g false s hwf h
  refine ⟨s', heq.trans f1, f2, ?_⟩
  rw [f3]
  rfl

/-- C76, limit: a function with more channels than the data is cut without a message, one with fewer is
    read after its end. -/
theorem python_brdf2data_channels (g : Evaluable) (s : Segments) (i : ℕ) (x t y : List ℝ)
    (hx : s.store.get i = some x) (ht : distancePoint g s.store.toData x = some t) (hy : g.value t = some y) :
    (y.length < s.store.dimY → pyEvaluateRow g s i = none) ∧
    (s.store.dimY ≤ y.length → x.length = s.store.dimX + s.store.dimY →
      pyEvaluateRow g s i = s.set i (x.take s.store.dimX ++ y.take s.store.dimY)) := by
  constructor
  · intro h
    unfold pyEvaluateRow
    rw [hx, Option.bind_some, ht, Option.bind_some, hy, Option.bind_some, if_neg (by omega)]
  · intro h hl
    unfold pyEvaluateRow
    rw [hx, Option.bind_some, ht, Option.bind_some, hy, Option.bind_some, if_pos h]
    congr 1
    apply List.ext_getElem
    · simp; omega
    · intro k k1 k2
      simp only [List.length_map, List.length_range] at k1
      simp only [List.getElem_map, List.getElem_range]
      by_cases hk : s.store.dimX ≤ k
      · rw [if_pos (by omega), List.getElem_append_right (by simp; omega)]
        simp only [List.length_take, arr, List.getElem_take, Nat.min_eq_left (show s.store.dimX ≤ x.length by omega)]
        simp [show k - s.store.dimX < y.length by omega]
      · rw [if_neg (by omega), List.getElem_append_left (by simp; omega)]
        simp [arr, k1]

/-! ### Examples -/

/-- two samples with three channels -/
def pyColours : Data := ⟨2, 3, .RUSIN_TH_TD, .RGB_COLOR, [[0, 0, 1, 2, 3], [1, 0, 4, 5, 6]]⟩

theorem pyColours_convertible : ∀ row ∈ pyColours.rows, (convertInput (arr row) pyColours.input .RUSIN_TH_TD).isSome := by
  intro row _
  simp [convertInput, pyColours]

example : ∃ r, pyData2data (fun _ => 7) pyColours ⟨2, 3, .RUSIN_TH_TD, .RGB_COLOR⟩ = some r ∧ r.store.toData = pyColours :=
  python_data2data_same (fun _ => 7) pyColours (by unfold Input.Named; decide) (by decide +kernel) (by
    intro row h
    simp only [pyColours, List.mem_cons, List.not_mem_nil, or_false] at h
    rcases h with rfl | rfl <;> rfl)

example : ∃ junk r x, pyData2data junk pyColours ⟨2, 1, .RUSIN_TH_TD, .ENERGY⟩ = some r ∧
    r.store.get 1 = some (x ++ [(1000000 : ℝ)]) :=
  python_average_undefined pyColours ⟨2, 1, .RUSIN_TH_TD, .ENERGY⟩ (by unfold Input.Named; decide) (by decide +kernel) rfl
    (by decide) pyColours_convertible 1 (by decide) 1000000

example : ∃ s', pyBrdf2data exportFn (Segments.make exportStore) = some s' ∧ s'.store.WF ∧
    s'.store.toData = (Segments.make exportStore).store.toData.withValues
      (exportFn.valueFor (Segments.make exportStore).store.toData) :=
  (python_brdf2data exportFn (Segments.make exportStore) exportStore_ready.1 exportStore_ready.2.1).2

end
end Alta
