import Verif.Props.Data2BrdfQuadprog
/-
C81: a run of data2brdf with vertical segments.
-/
namespace Alta
noncomputable section

/-- two samples: at 0 the value 2 in the segment [1, 3], at 1 the value 3 in the segment [2, 4]; the abscissa is `COS_TH` -/
def twoCosines : Segments :=
  Segments.make ⟨1, 1, .COS_TH, .UNKNOWN_OUTPUT, 2, [0, 2, 1, 3, 1, 3, 2, 4], .asymmetrical⟩

/-- `--np 1 --nq 1` -/
def onesArgs : SMap := [("np".toList, "1".toList), ("nq".toList, "1".toList)]

theorem onesArgs_sizes : sizeOption onesArgs "np".toList 10 = 1 ∧ sizeOption onesArgs "nq".toList 10 = 1 ∧
    sizeOption onesArgs "min-np".toList 1 = 1 ∧ sizeOption onesArgs "min-nq".toList 1 = 1 ∧
    onesArgs.getFloat "delta".toList 1 = 1 := by
  refine ⟨?_, ?_, ?_, ?_, ?_⟩ <;> decide +kernel

theorem twoCosines_fitted : ∃ f, quadprogFitter idealSolver 0 twoCosines onesArgs (newRational twoCosines.store.toData.par) =
    some (true, f) := by
  obtain ⟨s1, s2, s3, s4, s5⟩ := onesArgs_sizes
  unfold quadprogFitter
  simp only [s1, s2, s3, s4, s5]
  obtain ⟨ok, f', h1, h2⟩ := quadprog_fit_complete idealSolver idealSolver_sound idealSolver_complete
    0 ((1 : ℚ) : ℝ) (by norm_num) twoCosines rfl twoPoints_ordered (by simp [twoCosines, Segments.make])
    (by simp [twoCosines, Segments.make]) 1 1 (some 1) (some 1) (by simp) (by simp)
    (newRational twoCosines.store.toData.par) rfl rfl
  have hok : ok = true := by
    refine h2.2 ⟨0, fun m hm => ?_⟩
    have hm0 : m = 0 := by
      have : m < 1 := hm
      omega
    subst hm0
    exact twoPoints_fittable
  subst hok
  exact ⟨f', h1⟩

/-- The command succeeds on these samples: the error that it prints is smaller than 3/2 and the file is loaded as a rational
    function. -/
example (fmt : ℝ → Decimal) (other : AnyFn → SMap → Option Str) :
    ∃ r, data2brdfRational ['/', 'l'] none fsAlta (quadprogFitter idealSolver 0) exampleFmt exampleFmt fmt other onesArgs
        twoCosines = some (0, some r) ∧ r.linf < 3 / 2 ∧
      (∃ v, r.function.value [1] = some v ∧ 2 < arr v 0 ∧ arr v 0 < 4) ∧
      ∃ g, loadAny 0 ['/', 'l'] none fsAlta r.file = some (some (.rational ⟨1, 1, .COS_TH, .UNKNOWN_OUTPUT⟩ g)) := by
  obtain ⟨s1, s2, s3, s4, s5⟩ := onesArgs_sizes
  have hmin : twoCosines.min.length = 1 := by
    simp [twoCosines, Segments.make, dataMin, xView, Store.columns, ciColumns]
  have hmax : twoCosines.max.length = 1 := by
    simp [twoCosines, Segments.make, dataMax, xView, Store.columns, ciColumns]
  have hwf : twoCosines.store.WF := by
    simp [twoCosines, Segments.make, Store.WF, Store.columns, ciColumns]
  have hin : twoCosines.store.input.Named := by unfold Input.Named; decide
  have hdim : inputDim twoCosines.store.input = (twoCosines.store.dimX : ℤ) := by
    show inputDim .COS_TH = ((1 : ℕ) : ℤ)
    decide +kernel
  have ho : onesArgs.Ordered := by simp [onesArgs, SMap.Ordered] <;> decide
  have ha : CmdMap onesArgs := by
    intro e he
    simp only [onesArgs, List.mem_cons, List.mem_nil_iff, or_false] at he
    rcases he with rfl | rfl
    all_goals exact ⟨⟨by decide, by decide⟩, .word _ ⟨by decide, by decide⟩ (by intro r h; simp at h) (by rintro ⟨r, h⟩; simp at h)⟩
  have hx : onesArgs.find kExport = none := by decide +kernel
  have hg : getFunction ['/', 'l'] none fsAlta LobeObj.par onesArgs twoCosines.store.toData.par = some .rational :=
    getFunction_none _ _ _ _ _ _ (by decide +kernel)
  obtain ⟨f, hf⟩ := twoCosines_fitted
  have hfit := (RationalFitter.quadprog (junk := 0) idealSolver idealSolver_sound).onData
  obtain ⟨r, h1, h2, -⟩ := data2brdf_rational_ends ['/', 'l'] none fsAlta _ hfit exampleFmt exampleFmt fmt other onesArgs ho hx
    twoCosines hwf (le_refl 1) hin hdim (show 0 < 2 by norm_num) hg f hf
  have hseg := data2brdf_quadprog_segments 0 ['/', 'l'] none fsAlta idealSolver idealSolver_sound exampleFmt exampleFmt fmt
    exampleFmt_nonneg exampleFmt_digits other onesArgs ho ha hx (by rw [s5]; norm_num) (by rw [s1, s3]) (by rw [s2, s4])
    twoCosines twoPoints_ordered (le_refl 1) hin hmin hmax r h1
  refine ⟨r, h1, ?_, ?_, ?_⟩
  · refine data2brdf_quadprog_linf 0 ['/', 'l'] none fsAlta idealSolver idealSolver_sound exampleFmt exampleFmt fmt other onesArgs
      (by rw [s5]; norm_num) (by rw [s1, s3]) (by rw [s2, s4]) twoCosines twoPoints_ordered hwf (le_refl 1) hin hdim
      (3 / 2) (by norm_num) ?_ r h1
    intro i x yl yu hs m hm
    have hm0 : m = 0 := by
      have : m < 1 := hm
      omega
    subst hm0
    have hi : i < 2 := (segment_abscissa twoCosines.store hwf i x yl yu hs).2
    obtain ⟨-, -, o1, o2⟩ := twoPoints_samples
    have o1' : twoCosines.store.ordinate 0 0 = 2 := o1
    have o2' : twoCosines.store.ordinate 1 0 = 3 := o2
    have : i = 0 ∨ i = 1 := by omega
    rcases this with rfl | rfl
    · simp [twoCosines, Segments.make, Store.getSegment, segment, Store.row, Store.columns, ciColumns] at hs
      obtain ⟨rfl, rfl, rfl⟩ := hs
      rw [o1']
      simp [arr]; norm_num
    · simp [twoCosines, Segments.make, Store.getSegment, segment, Store.row, Store.columns, ciColumns] at hs
      obtain ⟨rfl, rfl, rfl⟩ := hs
      rw [o2']
      simp [arr]; norm_num
  · obtain ⟨v, v1, -, v2⟩ := hseg.1 1 [1] [2] [4] (by
      simp [twoCosines, Segments.make, Store.getSegment, segment, Store.row, Store.columns, ciColumns])
    refine ⟨v, v1, ?_⟩
    have := v2 0 (show 0 < 1 by norm_num)
    simpa [arr] using this
  · obtain ⟨g, g1, -⟩ := hseg.2
    exact ⟨g, g1⟩

end
end Alta
