import Verif.Props.FunctionFileLimits
import Verif.Props.LobesLawful
/-
Property C56: the files of the class sgd, that ALTA reads but does not write, and streams that have failed.
-/
namespace Alta
noncomputable section

/-- The coefficients of the class sgd in the order of its files: the key and the place of the attribute among the parameters
    (`sh_c`, `sh_theta0`, `sh_k`, `sh_lambda`, `p`, `F_0`, `F_1`, `K_ap`, `rho_d`, `rho_s`, `alpha`).
    /repo/sources/plugins/nonlinear_function_sgd/function.cpp 223-288. -/
def sgdRows : List (Str × ℕ) :=
  [("rho_d ".toList, 8), ("rho_s ".toList, 9), ("alpha ".toList, 10), ("p ".toList, 4), ("F0 ".toList, 5), ("F1 ".toList, 6),
   ("Kap ".toList, 7), ("lambda ".toList, 3), ("c ".toList, 0), ("k ".toList, 2), ("theta0 ".toList, 1)]

/-- The lines of a file of the class sgd: for every coefficient one line by channel. -/
def sgdTable (fmt : ℝ → Decimal) (n : ℕ) (t : ℕ → ℕ → ℝ) : Str :=
  sgdRows.flatMap fun r => (List.range n).flatMap fun i => line fmt r.1 (t r.2 i)

theorem sgdRows_good : ∀ r ∈ sgdRows, GoodKey r.1 := by
  have key : ∀ w : Str, IsWord w → GoodKey (w ++ [' ']) := fun w hw =>
    ⟨w, [' '], rfl, hw, by unfold Spaces; decide, by simp⟩
  intro r hr
  simp only [sgdRows, List.mem_cons, List.not_mem_nil, or_false] at hr
  rcases hr with rfl | rfl | rfl | rfl | rfl | rfl | rfl | rfl | rfl | rfl | rfl
  · exact key "rho_d".toList ⟨by decide, by decide⟩
  · exact key "rho_s".toList ⟨by decide, by decide⟩
  · exact key "alpha".toList ⟨by decide, by decide⟩
  · exact key "p".toList ⟨by decide, by decide⟩
  · exact key "F0".toList ⟨by decide, by decide⟩
  · exact key "F1".toList ⟨by decide, by decide⟩
  · exact key "Kap".toList ⟨by decide, by decide⟩
  · exact key "lambda".toList ⟨by decide, by decide⟩
  · exact key "c".toList ⟨by decide, by decide⟩
  · exact key "k".toList ⟨by decide, by decide⟩
  · exact key "theta0".toList ⟨by decide, by decide⟩

theorem sgdTable_lines (fmt : ℝ → Decimal) (n : ℕ) (t : ℕ → ℕ → ℝ) :
    sgdTable fmt n t = keyLines fmt (sgdRows.flatMap fun r => (List.range n).map fun i => (r.1, t r.2 i)) := by
  unfold sgdTable keyLines
  rw [List.flatMap_assoc]
  congr 1
  funext r
  rw [List.flatMap_map]

/-- the rows in order of the file -/
theorem rows_entry (n : ℕ) (g : ℕ → ℕ → ℝ) (i k : ℕ) (hi : i < n) (hk : k < 11) :
    arr (sgdRows.flatMap fun r => (List.range n).map fun i => g r.2 i) (i + sgdFileOrder.idxOf k * n) = g k i := by
  have e : (sgdRows.flatMap fun r => (List.range n).map fun i => g r.2 i) =
      blocks 11 fun j => (List.range n).map fun i => g (sgdRows.getD j ([], 0)).2 i := by
    unfold blocks sgdRows
    rfl
  have hidx : ∀ k < 11, sgdFileOrder.idxOf k < 11 ∧ (sgdRows.getD (sgdFileOrder.idxOf k) ([], 0)).2 = k := by
    decide +kernel
  obtain ⟨h1, h2⟩ := hidx k hk
  rw [e, Nat.add_comm, arr_blocks 11 n _ (by intro j _; simp) _ i h1 hi, h2]
  simp [arr, hi]

/-- **C56.**  A file of the class sgd gives every coefficient of every channel, as it is printed. -/
theorem sgd_file_read (fmt : ℝ → Decimal) (hf : PrintsDigits fmt) (s : SgdS) (t : ℕ → ℕ → ℝ) (pre : Str) (hp : Skippable pre)
    (rest : Str) :
    ∃ s' ws', (LobeObj.sgd s).load (some (pre ++ (funcLine "nonlinear_function_sgd".toList ++
        (sgdTable fmt s.par.dimY t ++ rest)))) = (true, .sgd s', some (ws' ++ rest)) ∧ Newlines ws' ∧ s'.par = s.par ∧
      ∀ k < 11, ∀ i < s.par.dimY, s'.v k i = printed fmt (t k i) := by
  have hl : (sgdFileOrder.flatMap fun k => (List.range s.par.dimY).map fun i => s.v k i).length =
      (sgdRows.flatMap fun r => (List.range s.par.dimY).map fun i => (r.1, t r.2 i)).length := by
    simp [sgdFileOrder, sgdRows]
  obtain ⟨ws', h1, h2⟩ := readBlock_saved fmt hf "nonlinear_function_sgd".toList ⟨by decide, by decide⟩
    (sgdRows.flatMap fun r => (List.range s.par.dimY).map fun i => (r.1, t r.2 i))
    (by
      intro p hp
      obtain ⟨r, hr, hp⟩ := List.mem_flatMap.1 hp
      obtain ⟨i, -, rfl⟩ := List.mem_map.1 hp
      exact sgdRows_good r hr) _ hl
    (fun r => (⟨s.par, fun k i => if k < 11 ∧ i < s.par.dimY then
      arr r (i + sgdFileOrder.idxOf k * s.par.dimY) else s.v k i⟩ : SgdS)) s hp [] rest (by intro c h; cases h)
  rw [List.nil_append] at h2
  refine ⟨⟨s.par, fun k i => if k < 11 ∧ i < s.par.dimY then
      arr ((sgdRows.flatMap fun r => (List.range s.par.dimY).map fun i => (r.1, t r.2 i)).map fun p => printed fmt p.2)
        (i + sgdFileOrder.idxOf k * s.par.dimY) else s.v k i⟩, ws', ?_, h1, rfl, ?_⟩
  · simp only [LobeObj.load, wrap, SgdS.load, sgdTable_lines, h2]
  · intro k hk i hi
    simp only [hk, hi, and_self, if_true]
    rw [List.map_flatMap]
    have := rows_entry s.par.dimY (fun a b => printed fmt (t a b)) i k hi hk
    simp only [List.map_map]
    exact this

mutual
/-- **C56.**  From a stream that has failed nothing is loaded, and the function is not changed. -/
theorem FT.load_failed : ∀ f : FT LobeObj, f.load none = (false, f, none)
  | .leaf l => by
    have h : l.load none = (false, l, none) := by
      cases l <;> rfl
    simp only [FT.load, h]
  | .compound p fs => by
    simp only [FT.load, FTs.load_failed fs]
    rfl
  | .product p f g a b => by
    simp only [FT.load, FT.load_failed f, FT.load_failed g, seekBack, Bool.false_eq_true, if_false, Bool.or_self]
theorem FTs.load_failed : ∀ fs : FTs LobeObj, fs.load none = (0, fs, none)
  | .nil => rfl
  | .cons a f rest => by
    simp only [FTs.load, FT.load_failed f, FTs.load_failed rest, seekBack, Bool.false_eq_true, if_false]
end

/-- the file of a material with three channels -/
example (fmt : ℝ → Decimal) (hf : PrintsDigits fmt) (t : ℕ → ℕ → ℝ) :
    ∃ s' st, (LobeObj.sgd ⟨⟨6, 3, .CARTESIAN, .INV_STERADIAN⟩, fun _ _ => 0⟩).load
        (some (funcLine "nonlinear_function_sgd".toList ++ (sgdTable fmt 3 t ++ []))) = (true, .sgd s', st) ∧
      s'.v 8 0 = printed fmt (t 8 0) ∧ s'.v 1 2 = printed fmt (t 1 2) := by
  obtain ⟨s', ws', h1, -, -, h2⟩ := sgd_file_read fmt hf ⟨⟨6, 3, .CARTESIAN, .INV_STERADIAN⟩, fun _ _ => 0⟩ t [] .nil []
  exact ⟨s', _, h1, h2 8 (by decide) 0 (by decide), h2 1 (by decide) 2 (by decide)⟩

end
end Alta
