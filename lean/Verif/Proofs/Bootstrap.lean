import Verif.Spec.Bootstrap
import Verif.Props.LobesLawful
import Verif.Props.Function
import Verif.Props.FunctionFileLimits
import Verif.Props.ArgsAccess
/-
The functions made of plugin objects, as functions with parameters.
-/
namespace Alta
noncomputable section

theorem LobeObj.toFn_set (l : LobeObj) (p : List ℝ) : (l.set p).toFn = l.toFn.set p := by cases l <;> rfl

mutual
theorem FT.toFn_nb : ∀ f : FT LobeObj, f.nb = f.toFn.nb
  | .leaf l => rfl
  | .compound _ fs => by simp only [FT.nb, FT.toFn, Fn.nb]; exact FTs.toFns_nb fs
  | .product _ f g a b => by simp only [FT.nb, FT.toFn, Fn.nb, FT.toFn_nb f, FT.toFn_nb g]
theorem FTs.toFns_nb : ∀ fs : FTs LobeObj, fs.nb = fs.toFns.nb
  | .nil => rfl
  | .cons a f rest => by
    simp only [FTs.nb, FTs.toFns, Fns.nb, FT.toFn_nb f, FTs.toFns_nb rest, isFixed]
end

mutual
theorem FT.toFn_set : ∀ (f : FT LobeObj) (p : List ℝ), (f.set p).toFn = f.toFn.set p
  | .leaf l, p => by simp only [FT.set, FT.toFn, LobeObj.toFn_set]
  | .compound _ fs, p => by simp only [FT.set, FT.toFn, Fn.set, FTs.toFns_set fs]
  | .product _ f g a b, p => by
    simp only [FT.set, FT.toFn, Fn.set, FT.toFn_nb f, FT.toFn_nb g]
    cases a <;> cases b <;> simp [FT.toFn_set f, FT.toFn_set g]
theorem FTs.toFns_set : ∀ (fs : FTs LobeObj) (p : List ℝ), (fs.set p).toFns = fs.toFns.set p
  | .nil, p => rfl
  | .cons a f rest, p => by
    simp only [FTs.set, FTs.toFns, Fns.set, FT.toFn_nb f, isFixed]
    split
    · simp only [FTs.toFns, FT.toFn_set f, FTs.toFns_set rest]
    · simp only [FTs.toFns, FTs.toFns_set rest]
end

/-- Each plugin object respects the contract of a nonlinear function. -/
theorem LobeObj.toFn_WF (l : LobeObj) : l.toFn.WF := by
  cases l <;> simp only [LobeObj.toFn, Fn.WF]
  · exact blinn_lawful
  · exact retroblinn_lawful
  · exact beckmann_lawful
  · exact retrobeckmann_lawful
  · exact ward_lawful
  · exact abc_lawful
  · exact diffuse_lawful
  · exact sg_lawful
  · exact isoLafortune_lawful
  · exact lafortune_lawful
  · exact schlickFresnel_lawful
  · exact normalizedSchlick_lawful
  · exact retroSchlick_lawful
  · exact schlickMasking_lawful
  · exact smith_lawful
  · exact walterSmith_lawful
  · exact sgd_lawful

theorem bootVec_length (args : SMap) (n : ℕ) (h : args.isVec kBoot = true) : (bootVec args n).length = n := by
  have fl : ∀ n s, (fillVec 0 n s).length = n := by
    intro n
    induction n with
    | zero => intro s; rfl
    | succ n ih =>
      intro s
      simp only [fillVec]
      split <;> simp [ih]
  unfold bootVec SMap.getVec
  split
  · simp [fl]
  · simp

theorem isDefined_of_isVec (args : SMap) (k : Str) (h : args.isVec k = true) : args.isDefined k = true := by
  unfold SMap.isVec at h
  unfold SMap.isDefined
  split at h <;> simp_all

theorem GivesVector.isVec {args : SMap} {xs : List (Str × Decimal)} (h : GivesVector args xs) :
    args.isVec kBoot = true := by
  unfold SMap.isVec
  rw [h.2.1]
  simp [bracketed]

/-- The numbers read. -/
theorem GivesVector.read {args : SMap} {xs : List (Str × Decimal)} (h : GivesVector args xs) :
    bootVec args xs.length = xs.map fun p => ((p.2.value : ℚ) : ℝ) := by
  obtain ⟨h0, h1, h2, h3⟩ := h
  cases xs with
  | nil => exact absurd rfl h0
  | cons x xs =>
    unfold bootVec
    rw [getVec_decimals args kBoot 0 x xs h1 h2 h3]
    simp

theorem minInto_foldl (d : Data) (rows : List (List ℝ)) : ∀ (kd : ℕ → ℝ) (j : ℕ), j < d.dimY →
    ∀ v, rows.foldl (fun kd row => minInto d.dimY (fun j => arr row (d.dimX + j)) kd) kd j = v →
      (v ≤ kd j ∧ ∀ row ∈ rows, v ≤ arr row (d.dimX + j)) ∧ (v = kd j ∨ ∃ row ∈ rows, v = arr row (d.dimX + j)) := by
  induction rows with
  | nil => intro kd j hj v hv; simp at hv; simp [hv]
  | cons r rows ih =>
    intro kd j hj v hv
    simp only [List.foldl_cons] at hv
    obtain ⟨⟨h1, h2⟩, h3⟩ := ih _ j hj v hv
    simp only [minInto, hj, if_true] at h1 h3
    refine ⟨⟨le_trans h1 (min_le_right _ _), ?_⟩, ?_⟩
    · intro row hrow
      rcases List.mem_cons.1 hrow with rfl | hrow
      · exact le_trans h1 (min_le_left _ _)
      · exact h2 row hrow
    · rcases h3 with h3 | ⟨row, hr, h3⟩
      · rcases min_choice (arr r (d.dimX + j)) (kd j) with h | h
        · exact Or.inr ⟨r, by simp, h3.trans h⟩
        · exact Or.inl (h3.trans h)
      · exact Or.inr ⟨row, by simp [hr], h3⟩

theorem minInto_foldl_other (d : Data) (rows : List (List ℝ)) (kd : ℕ → ℝ) (j : ℕ) (hj : ¬ j < d.dimY) :
    rows.foldl (fun kd row => minInto d.dimY (fun j => arr row (d.dimX + j)) kd) kd j = kd j := by
  induction rows generalizing kd with
  | nil => rfl
  | cons r rows ih => simp only [List.foldl_cons]; rw [ih]; simp [minInto, hj]

end
end Alta
