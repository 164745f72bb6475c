import Verif.Props.Fit2Stat
import Verif.Props.OutputConvert
import Mathlib.Tactic.NormNum
/-
Property C65: the conversion of the values by `fit2stat`, and what the command does not do.
-/
namespace Alta
noncomputable section
open Finset

/-- The values written for the samples are those of the buffer `new_data_y`, which is kept from a sample to the next. -/
theorem statOutput_fold (d : Data) (p : Par) (ys : ℕ → ℕ → ℝ) (c0 : Segments)
    (hys : ∀ i, (h : i < d.rows.length) → convertOutput (arr (d.rows[i].drop (d.rows[i].length - d.dimY))) d.dimY p.dimY (ys i)
      = some (ys (i + 1))) : ∀ m ≤ d.rows.length,
    (List.range m).foldlM (statOutputRow d p) (ys 0, c0) =
      ((List.range m).foldlM (fun (c : Segments) i =>
        c.set i ((d.rows.getD i []).take d.dimX ++ (List.range p.dimY).map (ys (i + 1)))) c0).map fun c => (ys m, c) := by
  intro m
  induction m with
  | zero => intro _; rfl
  | succ m ih =>
    intro hm
    rw [List.range_succ, List.foldlM_append, List.foldlM_append, ih (by omega)]
    have hm' : m < d.rows.length := by omega
    generalize (List.range m).foldlM (fun (c : Segments) i =>
        c.set i ((d.rows.getD i []).take d.dimX ++ (List.range p.dimY).map (ys (i + 1)))) c0 = o
    cases o with
    | none => rfl
    | some c =>
      simp only [Option.map_some, Option.bind_eq_bind, Option.bind_some, List.foldlM_cons, List.foldlM_nil]
      unfold statOutputRow
      rw [List.getElem?_eq_getElem hm', Option.bind_some, hys m hm', Option.bind_some]
      simp only [List.getD, List.getElem?_eq_getElem hm', Option.getD_some]
      cases c.set m (d.rows[m].take d.dimX ++ (List.range p.dimY).map (ys (m + 1))) <;> rfl

/-- The converted data set, from the successive contents of the buffer. -/
theorem statData_buffer (d : Data) (p : Par) (ys : ℕ → ℕ → ℝ) (hin : d.input = p.input) (hout : d.output ≠ p.output)
    (hx : d.dimX = p.dimX) (hsz : ∀ row ∈ d.rows, row.length = d.dimX + d.dimY) (h0 : ys 0 = fun _ => 0)
    (hys : ∀ i, (h : i < d.rows.length) → convertOutput (arr (d.rows[i].drop (d.rows[i].length - d.dimY))) d.dimY p.dimY (ys i)
      = some (ys (i + 1))) :
    statData d p = some ⟨p.dimX, p.dimY, p.input, p.output, (List.range d.rows.length).map fun i =>
      (d.rows.getD i []).take d.dimX ++ (List.range p.dimY).map (ys (i + 1))⟩ := by
  have hl : ∀ k < d.rows.length, ((d.rows.getD k []).take d.dimX ++ (List.range p.dimY).map (ys (k + 1))).length =
      p.dimX + p.dimY := by
    intro k hk
    have := hsz _ (List.getElem_mem hk)
    simp only [List.getD, List.getElem?_eq_getElem hk, Option.getD_some, List.length_append, List.length_take,
      List.length_map, List.length_range]
    omega
  obtain ⟨c, e1, e2⟩ := fill_data p.dimX p.dimY p.input p.output d.rows.length _ hl
  unfold statData
  simp only
  rw [if_pos hin, if_neg hout, ← h0, statOutput_fold d p ys _ hys _ le_rfl, e1]
  simp only [Option.map_some]
  rw [e2]

/-- C65: when the values have another name, the same number of them is copied, and a single one is repeated. -/
theorem statData_copies (d : Data) (p : Par) (hin : d.input = p.input) (hout : d.output ≠ p.output)
    (hx : d.dimX = p.dimX) (hsz : ∀ row ∈ d.rows, row.length = d.dimX + d.dimY) (hy : p.dimY = d.dimY ∨ d.dimY = 1) :
    statData d p = some ⟨p.dimX, p.dimY, p.input, p.output, d.rows.map fun row =>
      row.take d.dimX ++ (List.range p.dimY).map fun j => if p.dimY = d.dimY then arr row (d.dimX + j) else arr row d.dimX⟩ := by
  let val : ℕ → ℕ → ℝ := fun i => arr ((d.rows.getD i []).drop ((d.rows.getD i []).length - d.dimY))
  let ys : ℕ → ℕ → ℝ := fun i => Nat.rec (fun _ => 0) (fun k y => (convertOutput (val k) d.dimY p.dimY y).getD fun _ => 0) i
  have hstep : ∀ i, convertOutput (val i) d.dimY p.dimY (ys i) = some (ys (i + 1)) := by
    intro i
    obtain ⟨o, ho, -⟩ := convertOutput_copy (val i) (ys i) d.dimY p.dimY hy
    show _ = some ((convertOutput (val i) d.dimY p.dimY (ys i)).getD fun _ => 0)
    rw [ho]
    rfl
  have hval : ∀ i, (h : i < d.rows.length) → val i = arr (d.rows[i].drop (d.rows[i].length - d.dimY)) := by
    intro i h
    simp only [val, List.getD, List.getElem?_eq_getElem h, Option.getD_some]
  rw [statData_buffer d p ys hin hout hx hsz rfl fun i h => by rw [← hval i h]; exact hstep i]
  congr 2
  apply List.ext_getElem
  · simp
  · intro i q1 q2
    simp only [List.length_map, List.length_range] at q1
    simp only [List.getElem_map, List.getElem_range, List.getD, List.getElem?_eq_getElem q1, Option.getD_some]
    congr 1
    apply List.map_congr_left
    intro j hj
    have hj' : j < p.dimY := List.mem_range.1 hj
    obtain ⟨o, ho, h1, h2, h3, -⟩ := convertOutput_copy (val i) (ys i) d.dimY p.dimY hy
    rw [hstep i] at ho
    cases ho
    have hs := hsz _ (List.getElem_mem q1)
    have hk : d.rows[i].length - d.dimY = d.dimX := by omega
    split_ifs with he
    · rw [h2 he j hj', hval i q1, hk]
      simp [arr, List.getD]
    · rw [h3 (hy.resolve_left he) j hj', hval i q1, hk]
      simp [arr, List.getD]

/-- The mean of the channels, for a function with one channel: the mean of the previous sample is added to the sum. -/
theorem statData_average_stale (d : Data) (p : Par) (hin : d.input = p.input) (hout : d.output ≠ p.output)
    (hx : d.dimX = p.dimX) (hsz : ∀ row ∈ d.rows, row.length = d.dimX + d.dimY) (hp : p.dimY = 1) (hd : 2 ≤ d.dimY) :
    ∃ m : ℕ → ℝ, (∀ i, (h : i < d.rows.length) →
        m i = ((if i = 0 then 0 else m (i - 1)) + ∑ j ∈ Finset.range d.dimY, arr d.rows[i] (d.dimX + j)) / d.dimY) ∧
      statData d p = some ⟨p.dimX, 1, p.input, p.output, (List.range d.rows.length).map fun i =>
        (d.rows.getD i []).take d.dimX ++ [m i]⟩ := by
  let val : ℕ → ℕ → ℝ := fun i => arr ((d.rows.getD i []).drop ((d.rows.getD i []).length - d.dimY))
  let ys : ℕ → ℕ → ℝ := fun i => Nat.rec (fun _ => 0) (fun k y => (convertOutput (val k) d.dimY p.dimY y).getD fun _ => 0) i
  have hstep : ∀ i, convertOutput (val i) d.dimY p.dimY (ys i) = some (ys (i + 1)) ∧
      ys (i + 1) 0 = (ys i 0 + ∑ j ∈ Finset.range d.dimY, val i j) / d.dimY := by
    intro i
    obtain ⟨o, ho, h1, -⟩ := convertOutput_average_stale (val i) (ys i) d.dimY (by omega) (by omega)
    rw [← hp] at ho
    have he : ys (i + 1) = o := by
      show ((convertOutput (val i) d.dimY p.dimY (ys i)).getD fun _ => 0) = o
      rw [ho]
      rfl
    rw [he]
    exact ⟨ho, h1⟩
  have hval : ∀ i, (h : i < d.rows.length) → val i = arr (d.rows[i].drop (d.rows[i].length - d.dimY)) := by
    intro i h
    simp only [val, List.getD, List.getElem?_eq_getElem h, Option.getD_some]
  refine ⟨fun i => ys (i + 1) 0, ?_, ?_⟩
  · intro i h
    have hs := hsz _ (List.getElem_mem h)
    have hk : d.rows[i].length - d.dimY = d.dimX := by omega
    have hsum : ∑ j ∈ Finset.range d.dimY, val i j = ∑ j ∈ Finset.range d.dimY, arr d.rows[i] (d.dimX + j) := by
      apply Finset.sum_congr rfl
      intro j _
      rw [hval i h, hk]
      simp [arr, List.getD]
    simp only
    rw [(hstep i).2, hsum]
    congr 2
    cases i with
    | zero => rfl
    | succ i => rfl
  · rw [statData_buffer d p ys hin hout hx hsz rfl fun i h => by rw [← hval i h]; exact (hstep i).1, hp]
    rfl

/-- A gray function with the abscissa of the next data. -/
def grayPar : Par := ⟨1, 1, .UNKNOWN_INPUT, .INV_STERADIAN⟩
/-- A white sample, then a black one. -/
def colorData : Data := ⟨1, 3, .UNKNOWN_INPUT, .RGB_COLOR, [[0, 3, 3, 3], [1, 0, 0, 0]]⟩

/-- The mean of the black sample is not black. -/
theorem black_sample_not_black : statData colorData grayPar =
    some ⟨1, 1, .UNKNOWN_INPUT, .INV_STERADIAN, [[0, 3], [1, 1]]⟩ := by
  obtain ⟨m, h1, h2⟩ := statData_average_stale colorData grayPar rfl (by decide) rfl (by
    intro row hr
    simp only [colorData, List.mem_cons, List.mem_nil_iff, or_false] at hr
    rcases hr with rfl | rfl <;> rfl) rfl (by decide)
  rw [h2]
  have e0 := h1 0 (by decide)
  have e1 := h1 1 (by decide)
  simp [colorData, arr, Finset.sum_range_succ] at e0
  simp [colorData, arr, Finset.sum_range_succ, e0] at e1
  norm_num at e0
  norm_num [e0] at e1
  simp [colorData, grayPar, List.range_succ, e0, e1]

/-- C65: the abscissae and the values are never converted together: the command ends. -/
theorem statData_not_both (g : Evaluable) (d : Data) (hin : d.input ≠ g.par.input) (hout : d.output ≠ g.par.output) :
    fit2statNorms g d = none ∧ fit2stat g d = none := by
  have : statData d g.par = none := by unfold statData; simp only; rw [if_neg hin, if_neg hout]
  constructor
  · unfold fit2statNorms statMatrices; rw [this]; rfl
  · unfold fit2stat statMatrices; rw [this]; rfl

/-- C65: the file of statistics is only written for a function on the two directions: with any other parametrization the
    metrics are printed and the command ends in an exception. -/
theorem fit2stat_needs_cartesian (g : Evaluable) (d : Data) (h : StatReady g d) (hc : g.par.input ≠ .CARTESIAN) :
    (∃ m, fit2statNorms g d = some m ∧ m.Of d (g.error d)) ∧ fit2stat g d = none := by
  refine ⟨fit2stat_norms g d h, ?_⟩
  obtain ⟨c, A, B, h1, -, h2, -⟩ := statMatrices_ready g d h
  unfold fit2stat
  rw [h1, Option.bind_some]
  simp only
  unfold cosineFactors
  rw [if_neg (by rw [h2]; exact hc)]
  rfl

example : (∃ m, fit2statNorms lineFn lineData = some m ∧ m.Of lineData (lineFn.error lineData)) ∧
    fit2stat lineFn lineData = none :=
  fit2stat_needs_cartesian lineFn lineData ⟨lineFn_ready, rfl, Or.inl ⟨rfl, rfl⟩⟩ (by decide)

/-- A sample: the view (0.6, 0, 0.8) and the light (0.8, 0, 0.6), with the value 1. -/
def pairData : Data := ⟨6, 1, .CARTESIAN, .INV_STERADIAN, [[3 / 5, 0, 4 / 5, 4 / 5, 0, 3 / 5, 1]]⟩
def blackFn : Evaluable := ⟨⟨6, 1, .CARTESIAN, .INV_STERADIAN⟩, fun _ => some [0]⟩

theorem blackFn_abscissa : blackFn.abscissa pairData [3 / 5, 0, 4 / 5, 4 / 5, 0, 3 / 5, 1] =
    some [3 / 5, 0, 4 / 5, 4 / 5, 0, 3 / 5] := by
  unfold Evaluable.abscissa
  rw [if_neg (by decide)]
  show convertInput _ .CARTESIAN .CARTESIAN = _
  unfold convertInput
  rw [if_pos rfl, show (inputDim .CARTESIAN).toNat = 6 by decide]
  simp [arr, List.range_succ]

theorem blackFn_ready : StatReady blackFn pairData := by
  refine ⟨⟨rfl, ?_, ?_⟩, rfl, Or.inl ⟨rfl, rfl⟩⟩
  · intro row hr
    simp only [pairData, List.mem_cons, List.mem_nil_iff, or_false] at hr
    rw [hr]
    rfl
  · intro row hr
    simp only [pairData, List.mem_cons, List.mem_nil_iff, or_false] at hr
    rw [hr]
    exact ⟨_, [0], blackFn_abscissa, rfl, rfl, rfl⟩

/-- C65: the mean squared error weighted by the cosine of the light should be 0.36, and it is 0.64; weighted by both
    cosines it is 0.2304 as printed, and the file says 0.64. -/
theorem light_weight_is_view : ∃ s, fit2stat blackFn pairData = some s ∧ arr s.light.1 0 = 16 / 25 ∧
    arr s.both.1 0 = 144 / 625 ∧ arr s.fileBoth.1 0 = 16 / 25 ∧
    meanOver pairData (fun row => ((blackFn.directions pairData row).l.z * blackFn.error pairData row 0) ^ 2) = 9 / 25 := by
  obtain ⟨s, h1, -, h3, h4, h5, h6, -⟩ := fit2stat_run blackFn pairData blackFn_ready (by simp [pairData]) rfl rfl
  have hm : ∀ q, meanOver pairData q = q [3 / 5, 0, 4 / 5, 4 / 5, 0, 3 / 5, 1] := by
    intro q
    simp [meanOver, pairData]
  have hd : blackFn.directions pairData [3 / 5, 0, 4 / 5, 4 / 5, 0, 3 / 5, 1] =
      ⟨⟨3 / 5, 0, 4 / 5⟩, ⟨4 / 5, 0, 3 / 5⟩⟩ := by
    unfold Evaluable.directions
    rw [blackFn_abscissa]
    rfl
  have he : blackFn.error pairData [3 / 5, 0, 4 / 5, 4 / 5, 0, 3 / 5, 1] 0 = 1 := by
    unfold Evaluable.error
    rw [blackFn_abscissa]
    simp [arr, pairData, blackFn]
  have q1 := (h3.2.2 0 (by decide)).1
  have q2 := (h4.2.2 0 (by decide)).1
  rw [hm] at q1 q2
  simp only [hd, he] at q1 q2
  refine ⟨s, h1, by rw [q1]; norm_num, by rw [q2]; norm_num, by rw [h6, q1]; norm_num, ?_⟩
  rw [hm, hd, he]
  norm_num

end
end Alta
