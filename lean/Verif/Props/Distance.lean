import Verif.Spec.Distance
import Verif.Props.NonlinearFitLobes
import Verif.Props.NonlinearFitCeresRun
/-
Property C62: the distances of a function to a data set.
-/
namespace Alta
noncomputable section

theorem DistanceReady.point {g : Evaluable} {d : Data} (row x : List ℝ) (h1 : g.abscissa d row = some x)
    (h2 : x.length = g.par.dimX) : distancePoint g d row = some x := by
  unfold Evaluable.abscissa at h1
  unfold distancePoint
  split at h1
  · rename_i hi
    rw [if_pos hi]
    cases h1
    rw [List.length_take] at h2
    rw [if_pos (by omega)]
  · rename_i hi
    rw [if_neg hi]
    simp only [h1]
    rw [if_pos h2]

theorem DistanceReady.sampleError {g : Evaluable} {d : Data} (h : DistanceReady g d) (row : List ℝ) (hr : row ∈ d.rows) :
    sampleError g d row = some ((List.range d.dimY).map (g.error d row)) := by
  obtain ⟨x, v, h1, hx, h2, h3⟩ := h.points row hr
  unfold Alta.sampleError
  rw [DistanceReady.point row x h1 hx, Option.bind_some, h.channels]
  unfold readValues
  rw [if_pos (by rw [h.size row hr]), Option.bind_some, h2, Option.bind_some]
  unfold vecSub
  rw [if_pos (by simp [h3, h.channels])]
  congr 1
  apply List.ext_getElem
  · simp [h3, h.channels]
  · intro i h4 h5
    simp only [List.length_map, List.length_range] at h5
    simp [Evaluable.error, h1, h2, arr, h3, h.channels, h5]

theorem vecNorm_sq (v : List ℝ) : vecNorm v ^ 2 = (v.map (· ^ 2)).sum := by
  unfold vecNorm
  rw [Real.sq_sqrt]
  exact List.sum_nonneg (by intro x hx; simp only [List.mem_map] at hx; obtain ⟨y, -, rfl⟩ := hx; positivity)

theorem range_sum (n : ℕ) (q : ℕ → ℝ) : (((List.range n).map q)).sum = ∑ i ∈ Finset.range n, q i := by
  induction n with
  | zero => simp
  | succ n ih => rw [List.range_succ, List.map_append, List.sum_append, ih, Finset.sum_range_succ]; simp

/-- C62: `L2_distance` is the square root of the mean, over the samples, of the squared differences. -/
theorem l2_distance (g : Evaluable) (d : Data) (h : DistanceReady g d) (hne : d.rows ≠ []) :
    l2Distance g d = some (Real.sqrt (meanOver d fun row => ∑ i ∈ Finset.range d.dimY, g.error d row i ^ 2)) := by
  have key : ∀ (l : List (List ℝ)), (∀ r ∈ l, r ∈ d.rows) → ∀ s : ℝ,
      l.foldlM (fun (s : ℝ) row => (sampleError g d row).map fun e => s + vecNorm e ^ 2) s =
        some (s + (l.map fun row => ∑ i ∈ Finset.range d.dimY, g.error d row i ^ 2).sum) := by
    intro l
    induction l with
    | nil => intro _ s; simp
    | cons r l ih =>
      intro hl s
      rw [List.foldlM_cons, h.sampleError r (hl r List.mem_cons_self)]
      simp only [Option.map_some, Option.bind_eq_bind, Option.bind_some]
      rw [ih (fun r hr => hl r (List.mem_cons_of_mem _ hr)), vecNorm_sq, List.map_map, List.map_cons, List.sum_cons,
        ← range_sum, ← add_assoc]
      rfl
  unfold l2Distance
  rw [key d.rows (fun _ h => h) 0]
  simp only
  rw [if_neg (by simpa using hne), zero_add]
  rfl

/-- C62: an empty data set has no distance: an assertion ends the program. -/
theorem l2_empty (g : Evaluable) (d : Data) (h : d.rows = []) : l2Distance g d = none := by
  unfold l2Distance
  simp [h]

theorem errors_nonneg (g : Evaluable) (d : Data) (row : List ℝ) :
    0 ≤ ∑ i ∈ Finset.range d.dimY, g.error d row i ^ 2 := Finset.sum_nonneg fun _ _ => sq_nonneg _

/-- C62: the distance is zero exactly when the function has the values of the data. -/
theorem l2_zero_iff (g : Evaluable) (d : Data) (h : DistanceReady g d) (hne : d.rows ≠ []) :
    l2Distance g d = some 0 ↔ ∀ row ∈ d.rows, ∀ i < d.dimY, g.error d row i = 0 := by
  have hN : (0:ℝ) < d.rows.length := by
    have := List.length_pos_iff.2 hne
    exact_mod_cast this
  have hs : 0 ≤ (d.rows.map fun row => ∑ i ∈ Finset.range d.dimY, g.error d row i ^ 2).sum :=
    List.sum_nonneg (by
      intro x hx
      simp only [List.mem_map] at hx
      obtain ⟨y, -, rfl⟩ := hx
      exact errors_nonneg g d y)
  rw [l2_distance g d h hne, Option.some.injEq, Real.sqrt_eq_zero (by unfold meanOver; positivity)]
  unfold meanOver
  rw [div_eq_zero_iff, or_iff_left hN.ne']
  constructor
  · intro h0 row hr i hi
    have h1 := (List.all_zero_of_le_zero_le_of_sum_eq_zero (l := d.rows.map fun row => ∑ i ∈ Finset.range d.dimY, g.error d row i ^ 2)
      (by
        intro x hx
        simp only [List.mem_map] at hx
        obtain ⟨y, -, rfl⟩ := hx
        exact errors_nonneg g d y) h0) (List.mem_map_of_mem (f := fun row => ∑ i ∈ Finset.range d.dimY, g.error d row i ^ 2) hr)
    have h2 := (Finset.sum_eq_zero_iff_of_nonneg (fun i _ => sq_nonneg _)).1 h1 i (Finset.mem_range.2 hi)
    exact pow_eq_zero_iff (two_ne_zero) |>.1 h2
  · intro h0
    refine List.sum_eq_zero ?_
    intro x hx
    simp only [List.mem_map] at hx
    obtain ⟨row, hr, rfl⟩ := hx
    exact Finset.sum_eq_zero fun i hi => by rw [h0 row hr i (Finset.mem_range.1 hi)]; norm_num

/-! ### The largest difference -/

theorem maxError_spec (e : List ℝ) (m : ℝ) (hm : 0 ≤ m) :
    m ≤ maxError m e ∧ (∀ x ∈ e, |x| ≤ maxError m e) ∧ (maxError m e = m ∨ ∃ x ∈ e, maxError m e = |x|) := by
  induction e generalizing m with
  | nil => exact ⟨le_refl _, by simp, Or.inl rfl⟩
  | cons x e ih =>
    have := ih (max m |x|) (le_trans hm (le_max_left _ _))
    have he : maxError m (x :: e) = maxError (max m |x|) e := rfl
    rw [he]
    refine ⟨le_trans (le_max_left _ _) this.1, ?_, ?_⟩
    · intro y hy
      rcases List.mem_cons.1 hy with rfl | hy
      · exact le_trans (le_max_right _ _) this.1
      · exact this.2.1 y hy
    · rcases this.2.2 with h | ⟨y, hy, h⟩
      · rw [h]
        rcases max_choice m |x| with h' | h'
        · exact Or.inl h'
        · exact Or.inr ⟨x, List.mem_cons_self, h'⟩
      · exact Or.inr ⟨y, List.mem_cons_of_mem _ hy, h⟩

theorem maxErrors_spec (es : List (List ℝ)) (m : ℝ) (hm : 0 ≤ m) :
    m ≤ es.foldl maxError m ∧ (∀ e ∈ es, ∀ x ∈ e, |x| ≤ es.foldl maxError m) ∧
      (es.foldl maxError m = m ∨ ∃ e ∈ es, ∃ x ∈ e, es.foldl maxError m = |x|) := by
  induction es generalizing m with
  | nil => exact ⟨le_refl _, by simp, Or.inl rfl⟩
  | cons e es ih =>
    obtain ⟨a1, a2, a3⟩ := maxError_spec e m hm
    obtain ⟨b1, b2, b3⟩ := ih (maxError m e) (le_trans hm a1)
    rw [List.foldl_cons]
    refine ⟨le_trans a1 b1, ?_, ?_⟩
    · intro e' he' x hx
      rcases List.mem_cons.1 he' with rfl | he'
      · exact le_trans (a2 x hx) b1
      · exact b2 e' he' x hx
    · rcases b3 with h | ⟨e', he', x, hx, h⟩
      · rcases a3 with h' | ⟨x, hx, h'⟩
        · exact Or.inl (h.trans h')
        · exact Or.inr ⟨e, List.mem_cons_self, x, hx, h.trans h'⟩
      · exact Or.inr ⟨e', List.mem_cons_of_mem _ he', x, hx, h⟩

theorem foldl_addmap {α : Type} (l : List α) (q : α → ℝ) (s : ℝ) : l.foldl (fun (m : ℝ) e => m + q e) s = s + (l.map q).sum := by
  induction l generalizing s with
  | nil => simp
  | cons a l ih => rw [List.foldl_cons, ih, List.map_cons, List.sum_cons, add_assoc]

theorem sum_div_const {α : Type} (l : List α) (q : α → ℝ) (c : ℝ) : (l.map fun e => q e / c).sum = (l.map q).sum / c := by
  induction l with
  | nil => simp
  | cons a l ih => rw [List.map_cons, List.sum_cons, ih, List.map_cons, List.sum_cons, add_div]

/-- The computation of `Linf_distance`, and what it prints. -/
theorem linf_value (g : Evaluable) (d : Data) (h : DistanceReady g d) :
    ∃ r mean var, linfDistance g d = some (r, mean, var) ∧
      r = (d.rows.map fun row => (List.range d.dimY).map (g.error d row)).foldl maxError 0 ∧
      mean = (List.range d.dimY).map (fun j => meanOver d fun row => g.error d row j) ∧
      var = (List.range d.dimY).map (fun j => meanOver d fun row => (arr mean j + g.error d row j) ^ 2) := by
  have hm : d.rows.mapM (sampleError g d) = some (d.rows.map fun row => (List.range d.dimY).map (g.error d row)) := by
    have : ∀ l : List (List ℝ), (∀ r ∈ l, r ∈ d.rows) →
        l.mapM (sampleError g d) = some (l.map fun row => (List.range d.dimY).map (g.error d row)) := by
      intro l
      induction l with
      | nil => intro _; rfl
      | cons r l ih =>
        intro hl
        rw [List.mapM_cons, h.sampleError r (hl r List.mem_cons_self), ih fun r hr => hl r (List.mem_cons_of_mem _ hr)]
        rfl
    exact this d.rows fun _ h => h
  have hmean : ((List.range g.par.dimY).map fun j =>
        (d.rows.map fun row => (List.range d.dimY).map (g.error d row)).foldl
          (fun (m : ℝ) e => m + arr e j / (((d.rows.map fun row => (List.range d.dimY).map (g.error d row)).length : ℕ) : ℝ)) 0) =
      (List.range d.dimY).map (fun j => meanOver d fun row => g.error d row j) := by
    rw [h.channels]
    refine List.map_congr_left fun j hj => ?_
    rw [foldl_addmap _ (fun e => arr e j / _), zero_add, sum_div_const, List.map_map, List.length_map]
    unfold meanOver
    congr 2
    refine List.map_congr_left fun row _ => ?_
    exact arr_map_range' _ _ _ (List.mem_range.1 hj)
  unfold linfDistance
  rw [if_neg (by rw [h.channels]; simp), hm]
  simp only
  rw [hmean]
  refine ⟨_, _, _, rfl, rfl, rfl, ?_⟩
  rw [h.channels]
  refine List.map_congr_left fun j hj => ?_
  rw [foldl_addmap _ (fun e => _ / _), zero_add, sum_div_const, List.map_map, List.length_map]
  unfold meanOver
  congr 2
  refine List.map_congr_left fun row _ => ?_
  simp only [Function.comp_apply, sub_neg_eq_add]
  congr 2
  exact arr_map_range' _ _ _ (List.mem_range.1 hj)

/-- C62: `Linf_distance` is the largest difference over the samples and the channels (0 without samples). -/
theorem linf_distance (g : Evaluable) (d : Data) (h : DistanceReady g d) :
    ∃ r mean var, linfDistance g d = some (r, mean, var) ∧ 0 ≤ r ∧
      (∀ row ∈ d.rows, ∀ i < d.dimY, |g.error d row i| ≤ r) ∧
      (r = 0 ∨ ∃ row ∈ d.rows, ∃ i < d.dimY, r = |g.error d row i|) := by
  obtain ⟨r, mean, var, h1, h2, -⟩ := linf_value g d h
  obtain ⟨a1, a2, a3⟩ := maxErrors_spec (d.rows.map fun row => (List.range d.dimY).map (g.error d row)) 0 (le_refl _)
  rw [← h2] at a1 a2 a3
  refine ⟨r, mean, var, h1, a1, ?_, ?_⟩
  · intro row hr i hi
    exact a2 _ (List.mem_map_of_mem hr) _ (List.mem_map_of_mem (List.mem_range.2 hi))
  · refine a3.imp id ?_
    rintro ⟨e, he, x, hx, hr⟩
    rw [List.mem_map] at he
    obtain ⟨row, hrow, rfl⟩ := he
    rw [List.mem_map] at hx
    obtain ⟨i, hi, rfl⟩ := hx
    exact ⟨row, hrow, i, List.mem_range.1 hi, hr⟩

/-- C62: the two distances bound each other. -/
theorem l2_le_linf (g : Evaluable) (d : Data) (h : DistanceReady g d) (hne : d.rows ≠ []) :
    ∃ l2 linf mean var, l2Distance g d = some l2 ∧ linfDistance g d = some (linf, mean, var) ∧
      l2 ≤ Real.sqrt d.dimY * linf ∧ linf ≤ Real.sqrt d.rows.length * l2 := by
  obtain ⟨r, mean, var, h1, h2, h3, h4⟩ := linf_distance g d h
  have hN : (0:ℝ) < d.rows.length := by
    have := List.length_pos_iff.2 hne
    exact_mod_cast this
  refine ⟨_, r, mean, var, l2_distance g d h hne, h1, ?_, ?_⟩
  · rw [← Real.sqrt_sq h2, ← Real.sqrt_mul (Nat.cast_nonneg _)]
    apply Real.sqrt_le_sqrt
    unfold meanOver
    rw [div_le_iff₀ hN]
    have : ∀ l : List (List ℝ), (∀ r ∈ l, r ∈ d.rows) →
        (l.map fun row => ∑ i ∈ Finset.range d.dimY, g.error d row i ^ 2).sum ≤ d.dimY * r ^ 2 * l.length := by
      intro l
      induction l with
      | nil => intro _; simp
      | cons a l ih =>
        intro hl
        rw [List.map_cons, List.sum_cons, List.length_cons]
        have e1 := ih fun r hr => hl r (List.mem_cons_of_mem _ hr)
        have e2 : ∑ i ∈ Finset.range d.dimY, g.error d a i ^ 2 ≤ d.dimY * r ^ 2 := by
          have := Finset.sum_le_card_nsmul (Finset.range d.dimY) (fun i => g.error d a i ^ 2) (r ^ 2) (by
            intro i hi
            have := h3 a (hl a List.mem_cons_self) i (Finset.mem_range.1 hi)
            rw [← sq_abs]
            exact pow_le_pow_left₀ (abs_nonneg _) this 2)
          simpa using this
        push_cast
        nlinarith [e1, e2]
    exact this d.rows fun _ h => h
  · rcases h4 with h4 | ⟨row, hr, i, hi, h4⟩
    · rw [h4]; positivity
    · rw [h4, ← Real.sqrt_sq_eq_abs, ← Real.sqrt_mul (Nat.cast_nonneg _)]
      apply Real.sqrt_le_sqrt
      unfold meanOver
      rw [mul_div_cancel₀ _ hN.ne']
      have e1 : g.error d row i ^ 2 ≤ ∑ i ∈ Finset.range d.dimY, g.error d row i ^ 2 :=
        Finset.single_le_sum (f := fun i => g.error d row i ^ 2) (fun i _ => sq_nonneg _) (Finset.mem_range.2 hi)
      refine le_trans e1 ?_
      refine List.single_le_sum ?_ _ (List.mem_map_of_mem (f := fun row => ∑ i ∈ Finset.range d.dimY, g.error d row i ^ 2) hr)
      intro x hx
      simp only [List.mem_map] at hx
      obtain ⟨y, -, rfl⟩ := hx
      exact errors_nonneg g d y

/-! ### What is printed -/

theorem sum_expand (l : List (List ℝ)) (q : List ℝ → ℝ) (c : ℝ) :
    (l.map fun row => (c + q row) ^ 2).sum =
      (l.map fun row => (q row - c) ^ 2).sum + 4 * c * (l.map q).sum := by
  induction l with
  | nil => simp
  | cons a l ih => simp only [List.map_cons, List.sum_cons, ih]; ring

/-- C62: the printed mean is the mean of the differences; the printed variance is not the variance: it is too large by
    four times the square of the mean. -/
theorem printed_statistics (g : Evaluable) (d : Data) (h : DistanceReady g d) (hne : d.rows ≠ []) :
    ∃ r mean var, linfDistance g d = some (r, mean, var) ∧ mean.length = d.dimY ∧ var.length = d.dimY ∧
      ∀ j < d.dimY, arr mean j = meanOver d (fun row => g.error d row j) ∧
        arr var j = meanOver d (fun row => (g.error d row j - arr mean j) ^ 2) + 4 * arr mean j ^ 2 := by
  obtain ⟨r, mean, var, h1, -, h3, h4⟩ := linf_value g d h
  have hN : (0:ℝ) < d.rows.length := by
    have := List.length_pos_iff.2 hne
    exact_mod_cast this
  refine ⟨r, mean, var, h1, by rw [h3]; simp, by rw [h4]; simp, fun j hj => ?_⟩
  have hmj : arr mean j = meanOver d (fun row => g.error d row j) := by rw [h3]; exact arr_map_range' _ _ _ hj
  refine ⟨hmj, ?_⟩
  rw [h4, arr_map_range' _ _ _ hj]
  unfold meanOver
  rw [sum_expand d.rows (fun row => g.error d row j), add_div]
  congr 1
  have : (d.rows.map fun row => g.error d row j).sum = arr mean j * d.rows.length := by
    rw [hmj]; unfold meanOver; field_simp
  rw [this]
  field_simp

/-! ### Nonlinear functions -/

/-- The data sets of the fits can be compared with the function, when its parametrization has its dimension. -/
theorem FitReady.distance {f : Fn} {d : Data} (h : FitReady f d) (hi : f.par.input ≠ .UNKNOWN_INPUT)
    (hd : ∀ row ∈ d.rows, (d.pointFor f row).length = f.par.dimX) :
    DistanceReady f.evaluable d ∧ ∀ row ∈ d.rows, ∀ i, f.evaluable.error d row i = errorOf f d row i := by
  have key : ∀ row ∈ d.rows, f.evaluable.abscissa d row = some (d.pointFor f row) := by
    intro row hr
    obtain ⟨x, v, h1, -, -, -, h5, -⟩ := h.sample row hr
    unfold Evaluable.abscissa Fn.evaluable
    rw [if_neg hi]
    simp only [h1]
    rw [h5]
  constructor
  · refine ⟨h.channels, h.size, fun row hr => ?_⟩
    obtain ⟨x, v, h1, h2, h3, -, h5, -⟩ := h.sample row hr
    refine ⟨x, v, ?_, ?_, h2, h3.trans h.channels.symm⟩
    · rw [key row hr, h5]
    · rw [← h5]; exact hd row hr
  · intro row hr i
    unfold Evaluable.error errorOf Fn.valueAt
    rw [key row hr, Option.bind_some]
    rfl

/-- C62: for a nonlinear function, `L2_distance` is the square root of the objective of the fits (C57) divided by the
    number of samples; so a fit that does not increase its objective does not increase `L2_distance`. -/
theorem l2_of_objective (f : Fn) (d : Data) (h : FitReady f d) (hi : f.par.input ≠ .UNKNOWN_INPUT)
    (hd : ∀ row ∈ d.rows, (d.pointFor f row).length = f.par.dimX) (hne : d.rows ≠ []) :
    l2Distance f.evaluable d = some (Real.sqrt (sumSquaredErrors f d / d.rows.length)) := by
  obtain ⟨h1, h2⟩ := h.distance hi hd
  rw [l2_distance _ _ h1 hne]
  unfold meanOver sumSquaredErrors
  congr 4
  exact List.map_congr_left fun row hr => Finset.sum_congr rfl fun i _ => by rw [h2 row hr]

/-- C62: a fit with NLopt that succeeds does not increase `L2_distance`, if the solver does not increase its objective. -/
theorem nlopt_fit_l2 (files : Str → Option Str) (solver : NloptSolver) (hs : solver.Descends)
    (d : Data) (args : SMap) (f f0 f' : FT LobeObj) (hw : f.toFn.WF) (h0 : f.bootstrap files d args = some f0)
    (hf : FitReady f0.toFn d) (hi : f0.toFn.par.input ≠ .UNKNOWN_INPUT)
    (hd : ∀ row ∈ d.rows, (d.pointFor f0.toFn row).length = f0.toFn.par.dimX) (hne : d.rows ≠ [])
    (h : nloptFit files solver d args f = some (true, f')) :
    ∃ a b, l2Distance f'.toFn.evaluable d = some a ∧ l2Distance f0.toFn.evaluable d = some b ∧ a ≤ b := by
  have hle := nlopt_fit_not_worse files solver hs d args f f0 f' hw h0 hf h
  have hk : ∃ p, f'.toFn = f0.toFn.set p := by
    obtain ⟨f0', h0', ⟨-, rfl⟩ | ⟨_, _, _, _, _, x, -, -, -, -, -, rfl, -⟩⟩ := nlopt_fit_outcome files solver d args f f' hw h
    · rw [h0] at h0'; cases h0'
      exact ⟨_, (Fn.set_params _ hf.wf).symm⟩
    · rw [h0] at h0'; cases h0'
      exact ⟨_, FT.toFn_set _ _⟩
  obtain ⟨p, hp⟩ := hk
  have hpar : f'.toFn.par = f0.toFn.par := by rw [hp]; exact Fn.set_par _ hf.wf p
  refine ⟨_, _, l2_of_objective f'.toFn d ?_ ?_ ?_ hne, l2_of_objective _ d hf hi hd hne, ?_⟩
  · rw [hp]; exact hf.set p
  · rw [hpar]; exact hi
  · intro row hr
    have := hd row hr
    unfold Data.pointFor at this ⊢
    rw [hpar]
    exact this
  · apply Real.sqrt_le_sqrt
    gcongr

/-! ### Examples -/

/-- The data `(1/2, 3)`, `(1, 5)` and the function `x ↦ 4 x + 2`, without parametrization. -/
def lineData : Data := ⟨1, 1, .UNKNOWN_INPUT, .INV_STERADIAN, [[1 / 2, 3], [1, 5]]⟩
def lineFn : Evaluable := ⟨⟨1, 1, .UNKNOWN_INPUT, .INV_STERADIAN⟩, fun x => some [4 * arr x 0 + 2]⟩

theorem lineFn_ready : DistanceReady lineFn lineData := by
  refine ⟨rfl, ?_, ?_⟩
  · intro row hr
    simp only [lineData, List.mem_cons, List.mem_nil_iff, or_false] at hr
    rcases hr with rfl | rfl <;> rfl
  · intro row hr
    have hl : 1 ≤ row.length := by
      simp only [lineData, List.mem_cons, List.mem_nil_iff, or_false] at hr
      rcases hr with rfl | rfl <;> decide
    exact ⟨row.take 1, _, if_pos (rfl : lineFn.par.input = .UNKNOWN_INPUT), by
      simp only [List.length_take]; exact Nat.min_eq_left hl, rfl, rfl⟩

theorem lineFn_errors : lineFn.error lineData [1 / 2, 3] 0 = -1 ∧ lineFn.error lineData [1, 5] 0 = -1 := by
  constructor <;> simp [Evaluable.error, Evaluable.abscissa, lineFn, lineData, arr] <;> norm_num

/-- The differences are -1 and -1: the distances are 1, the mean is -1, and the variance 0 is printed as 4. -/
theorem printed_variance_wrong : l2Distance lineFn lineData = some 1 ∧
    ∃ mean var, linfDistance lineFn lineData = some (1, mean, var) ∧ arr mean 0 = -1 ∧ arr var 0 = 4 ∧
      meanOver lineData (fun row => (lineFn.error lineData row 0 - arr mean 0) ^ 2) = 0 := by
  have hne : lineData.rows ≠ [] := by simp [lineData]
  have hY : lineData.dimY = 1 := rfl
  have hm : ∀ q, meanOver lineData q = (q [1 / 2, 3] + q [1, 5]) / 2 := by
    intro q
    simp [meanOver, lineData]
  obtain ⟨e1, e2⟩ := lineFn_errors
  constructor
  · rw [l2_distance _ _ lineFn_ready hne, hm, hY, Finset.sum_range_one, Finset.sum_range_one, e1, e2]
    norm_num
  · obtain ⟨r, mean, var, h1, -, -, h4⟩ := printed_statistics _ _ lineFn_ready hne
    obtain ⟨r', mean', var', h1', h2', h3', h4'⟩ := linf_distance _ _ lineFn_ready
    rw [h1] at h1'
    cases h1'
    have hr : r = 1 := by
      have g1 := h3' [1, 5] (by simp [lineData]) 0 (by decide)
      rw [e2] at g1
      rcases h4' with h | ⟨row, hrow, i, hi, h⟩
      · rw [h] at g1; norm_num at g1
      · have hi0 : i = 0 := by rw [hY] at hi; omega
        subst hi0
        simp only [lineData, List.mem_cons, List.mem_nil_iff, or_false] at hrow
        rcases hrow with rfl | rfl
        · rw [h, e1]; norm_num
        · rw [h, e2]; norm_num
    obtain ⟨g1, g2⟩ := h4 0 (by decide)
    rw [hm, e1, e2] at g1
    have g1' : arr mean 0 = -1 := by rw [g1]; norm_num
    refine ⟨mean, var, by rw [h1, hr], g1', ?_, ?_⟩
    · rw [g2, hm, e1, e2, g1']; norm_num
    · rw [hm, e1, e2, g1']; norm_num

/-- The hypotheses of `l2_of_objective` hold for a Blinn lobe. -/
example : ∃ a, l2Distance (Fn.leaf blinnCls blinnLobe).evaluable blinnData = some a :=
  ⟨_, l2_of_objective _ _ blinnData_fit.1 (by decide) blinnData_fit.2.1.dim (by simp [blinnData])⟩

end
end Alta
