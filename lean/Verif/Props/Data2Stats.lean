import Verif.Spec.Data2Stats
import Verif.Props.Metrics
import Verif.Props.TextSave
import Verif.Proofs.Decimal
/-
C80: the command data2stats.
-/
namespace Alta
noncomputable section

/-! ### Cutting -/

theorem cutAt_none (c : Char) (a : Str) (h : c ∉ a) : cutAt c a = [a] := by
  induction a with
  | nil => rfl
  | cons x r ih =>
    rw [cutAt, if_neg (fun e => h (by simp [e])), ih (fun e => h (by simp [e]))]

theorem cutAt_append (c : Char) (a b : Str) (h : c ∉ a) : cutAt c (a ++ c :: b) = a :: cutAt c b := by
  induction a with
  | nil => rw [List.nil_append, cutAt, if_pos rfl]
  | cons x r ih =>
    rw [List.cons_append, cutAt, if_neg (fun e => h (by simp [e])), ih (fun e => h (by simp [e]))]

/-- The characters of the text of a number. -/
theorem Decimal.text_chars (d : Decimal) : ∀ c ∈ d.text, isDigit c = true ∨ c = '-' ∨ c = '.' ∨ c = 'e' := by
  have dig : ∀ l : List (Fin 10), ∀ c ∈ showDigits l, isDigit c = true := by
    intro l c hc
    obtain ⟨k, hk, rfl⟩ := showDigits_all l c hc
    exact (digitChar_spec k hk).1
  have num : ∀ n : ℕ, ∀ c ∈ showNat n, isDigit c = true := by
    intro n c hc
    obtain ⟨k, hk, rfl⟩ := showNat_digits _ c hc
    exact (digitChar_spec k hk).1
  intro c hc
  unfold Decimal.text at hc
  simp only [List.mem_append] at hc
  rcases hc with ((hc | hc) | hc) | hc
  · split at hc
    · simp at hc; exact Or.inr (Or.inl hc)
    · simp at hc
  · exact Or.inl (dig _ c hc)
  · split at hc
    · simp at hc
    · rcases List.mem_cons.1 hc with rfl | hc
      · exact Or.inr (Or.inr (Or.inl rfl))
      · exact Or.inl (dig _ c hc)
  · split at hc
    · simp at hc
    · rcases List.mem_cons.1 hc with rfl | hc
      · exact Or.inr (Or.inr (Or.inr rfl))
      · unfold showInt at hc
        split at hc
        · rcases List.mem_cons.1 hc with rfl | hc
          · exact Or.inr (Or.inl rfl)
          · exact Or.inl (num _ c hc)
        · exact Or.inl (num _ c hc)

theorem Decimal.text_avoids (d : Decimal) (c : Char) (h : (isDigit c || c == '-' || c == '.' || c == 'e') = false) : c ∉ d.text := by
  intro hc
  rcases d.text_chars c hc with h' | h' | h' | h' <;> simp [h'] at h

/-! ### The text of a vector -/

/-- The inside of the brackets. -/
def vecInside (fmt : ℝ → Decimal) : List ℝ → Str
  | [] => []
  | [x] => (fmt x).text
  | x :: y :: r => (fmt x).text ++ ',' :: ' ' :: vecInside fmt (y :: r)

theorem vecText_inside (fmt : ℝ → Decimal) (v : List ℝ) :
    ((List.range v.length).flatMap fun i => (fmt (arr v i)).text ++ if i ≠ v.length - 1 then ", ".toList else []) =
      vecInside fmt v := by
  induction v with
  | nil => rfl
  | cons x r ih =>
    cases r with
    | nil => simp [List.range_succ_eq_map, vecInside, arr]
    | cons y r =>
      rw [vecInside, ← ih]
      simp only [List.length_cons]
      rw [List.range_succ_eq_map, List.flatMap_cons, List.flatMap_map]
      have h0 : (0 : ℕ) ≠ r.length + 1 + 1 - 1 := by omega
      rw [if_pos h0]
      have e : ", ".toList = [',', ' '] := rfl
      rw [e]
      show ((fmt x).text ++ [',', ' ']) ++ _ = _
      rw [List.append_assoc]
      congr 1
      show ',' :: ' ' :: _ = _
      congr 2
      apply List.flatMap_congr
      intro i _
      have ha : arr (x :: y :: r) (i + 1) = arr (y :: r) i := by simp [arr]
      rw [Nat.succ_eq_add_one, ha]
      by_cases hi : i = r.length
      · rw [if_neg (by omega), if_neg (by omega)]
      · rw [if_pos (by omega), if_pos (by omega)]

theorem vecText_eq (fmt : ℝ → Decimal) (v : List ℝ) : vecText fmt v = '[' :: (vecInside fmt v ++ [']']) := by
  unfold vecText
  rw [vecText_inside]
  rfl

theorem wholeNumber_text (fmt : ℝ → Decimal) (hfmt : ∀ v, (fmt v).ip ≠ [] ∨ (fmt v).fp ≠ []) (x : ℝ) :
    wholeNumber (fmt x).text = some ((fmt x).value : ℝ) ∧ wholeNumber (' ' :: (fmt x).text) = some ((fmt x).value : ℝ) := by
  have h : ∀ ws : Str, (∀ c ∈ ws, isSpace c = true) → wholeNumber (ws ++ (fmt x).text) = some ((fmt x).value : ℝ) := by
    intro ws hw
    have := strtod_text ws [] (fmt x) hw (hfmt x) (by intro c r h; cases h)
    rw [List.append_nil] at this
    unfold wholeNumber
    rw [this]
    rfl
  exact ⟨h [] (by simp), h [' '] (by simp [isSpace])⟩

/-- The numbers between the brackets are read again. -/
theorem inside_numbers (fmt : ℝ → Decimal) (hfmt : ∀ v, (fmt v).ip ≠ [] ∨ (fmt v).fp ≠ []) :
    ∀ v : List ℝ, v ≠ [] → (cutAt ',' (vecInside fmt v)).mapM wholeNumber = some (v.map fun x => ((fmt x).value : ℝ)) ∧
      (cutAt ',' (' ' :: vecInside fmt v)).mapM wholeNumber = some (v.map fun x => ((fmt x).value : ℝ))
  | [], h => absurd rfl h
  | [x], _ => by
    have hc : ',' ∉ (fmt x).text := (fmt x).text_avoids ',' (by decide)
    obtain ⟨h1, h2⟩ := wholeNumber_text fmt hfmt x
    rw [vecInside, cutAt_none _ _ hc, cutAt_none _ (' ' :: (fmt x).text) (by simpa using hc)]
    simp [h1, h2]
  | x :: y :: r, _ => by
    have hc : ',' ∉ (fmt x).text := (fmt x).text_avoids ',' (by decide)
    obtain ⟨h1, h2⟩ := wholeNumber_text fmt hfmt x
    obtain ⟨-, ih⟩ := inside_numbers fmt hfmt (y :: r) (by simp)
    rw [vecInside, cutAt_append _ _ _ hc]
    rw [show ' ' :: ((fmt x).text ++ ',' :: ' ' :: vecInside fmt (y :: r)) =
      (' ' :: (fmt x).text) ++ ',' :: (' ' :: vecInside fmt (y :: r)) from rfl,
      cutAt_append _ _ _ (by simpa using hc)]
    constructor
    · rw [List.mapM_cons, h1, ih]; rfl
    · rw [List.mapM_cons, h2, ih]; rfl

theorem readVector_vecText (fmt : ℝ → Decimal) (hfmt : ∀ v, (fmt v).ip ≠ [] ∨ (fmt v).fp ≠ []) (v : List ℝ) (hv : v ≠ []) :
    readVector (vecText fmt v) = some (v.map fun x => ((fmt x).value : ℝ)) := by
  rw [vecText_eq, readVector, if_pos (by simp), List.dropLast_concat]
  exact (inside_numbers fmt hfmt v hv).1

theorem vecInside_avoids (fmt : ℝ → Decimal) (c : Char)
    (h : (isDigit c || c == '-' || c == '.' || c == 'e' || c == ',' || c == ' ') = false) :
    ∀ v : List ℝ, c ∉ vecInside fmt v
  | [] => by simp [vecInside]
  | [x] => by
    rw [vecInside]
    exact (fmt x).text_avoids c (by simp only [Bool.or_eq_false_iff] at h ⊢; exact h.1.1)
  | x :: y :: r => by
    have ih := vecInside_avoids fmt c h (y :: r)
    have h1 := (fmt x).text_avoids c (by simp only [Bool.or_eq_false_iff] at h ⊢; exact h.1.1)
    simp only [Bool.or_eq_false_iff, beq_eq_false_iff_ne] at h
    rw [vecInside]
    simp only [List.mem_append, List.mem_cons, not_or]
    exact ⟨h1, h.1.2, h.2, ih⟩

theorem vecText_avoids (fmt : ℝ → Decimal) (c : Char) (v : List ℝ)
    (h : (isDigit c || c == '-' || c == '.' || c == 'e' || c == ',' || c == ' ') = false) (h1 : c ≠ '[') (h2 : c ≠ ']') :
    c ∉ vecText fmt v := by
  rw [vecText_eq]
  simp only [List.mem_append, List.mem_cons, not_or]
  exact ⟨h1, vecInside_avoids fmt c h v, h2, by simp⟩

/-! ### The file -/

/-- A line of the file. -/
theorem statLine_vec (fmt : ℝ → Decimal) (hfmt : ∀ v, (fmt v).ip ≠ [] ∨ (fmt v).fp ≠ []) (name : Str) (v : List ℝ) (hv : v ≠ [])
    (hn : ∀ c ∈ name, c ≠ ':' ∧ c ≠ '#' ∧ c ≠ ' ') (hne : name ≠ []) :
    statLine (name ++ ' ' :: ':' :: vecText fmt v) = some (name, v.map fun x => ((fmt x).value : ℝ)) := by
  unfold statLine
  obtain ⟨c, r, rfl⟩ := List.exists_cons_of_ne_nil hne
  have h0 : (c :: r ++ ' ' :: ':' :: vecText fmt v).head? ≠ some '#' := by
    simp only [List.cons_append, List.head?_cons, ne_eq, Option.some.injEq]
    exact (hn c (by simp)).2.1
  rw [if_neg h0]
  rw [show c :: r ++ ' ' :: ':' :: vecText fmt v = (c :: r ++ [' ']) ++ ':' :: vecText fmt v by simp]
  rw [cutAt_append, cutAt_none]
  · simp only
    rw [readVector_vecText fmt hfmt v hv, Option.map_some]
    congr 2
    have : ∀ l : Str, (∀ x ∈ l, x ≠ ' ') → (l ++ [' ']).takeWhile (fun x => decide (x ≠ ' ')) = l := by
      intro l hl
      induction l with
      | nil => rfl
      | cons a l ih =>
        rw [List.cons_append, List.takeWhile_cons, if_pos (by simpa using hl a (by simp)), ih fun x hx => hl x (by simp [hx])]
    exact this _ fun x hx => (hn x hx).2.2
  · exact vecText_avoids fmt ':' v (by decide) (by decide) (by decide)
  · intro h
    rcases List.mem_append.1 h with h | h
    · exact (hn _ h).1 rfl
    · simp at h

theorem readStats_line (l rest : Str) (h : '\n' ∉ l) :
    readStats (l ++ '\n' :: rest) = (match statLine l with | none => [] | some x => [x]) ++ readStats rest := by
  unfold readStats
  rw [cutAt_append _ _ _ h, List.filterMap_cons]
  cases statLine l <;> rfl

theorem statLine_comment (l : Str) : statLine ('#' :: l) = none := by
  unfold statLine
  exact if_pos rfl

/-- The metrics, by the names of the file. -/
def Metrics.named (m : Metrics) : List (Str × List ℝ) :=
  [("L1".toList, m.L1), ("L2".toList, m.L2), ("L3".toList, m.L3), ("LINF".toList, m.LInf), ("MSE".toList, m.mse),
   ("RMSE".toList, m.rmse)]

theorem readStats_stat (fmt : ℝ → Decimal) (hfmt : ∀ v, (fmt v).ip ≠ [] ∨ (fmt v).fp ≠ []) (name : Str) (v : List ℝ) (hv : v ≠ [])
    (hn : ∀ c ∈ name, c ≠ ':' ∧ c ≠ '#' ∧ c ≠ ' ' ∧ c ≠ '\n') (hne : name ≠ []) (rest : Str) :
    readStats (name ++ " :".toList ++ vecText fmt v ++ "\n".toList ++ rest) =
      (name, v.map fun x => ((fmt x).value : ℝ)) :: readStats rest := by
  have e : name ++ " :".toList ++ vecText fmt v ++ "\n".toList ++ rest =
      (name ++ ' ' :: ':' :: vecText fmt v) ++ '\n' :: rest := by
    rw [show " :".toList = [' ', ':'] from rfl, show "\n".toList = ['\n'] from rfl]
    simp
  rw [e, readStats_line, statLine_vec fmt hfmt name v hv (fun c hc => ⟨(hn c hc).1, (hn c hc).2.1, (hn c hc).2.2.1⟩) hne]
  · rfl
  · intro h
    rcases List.mem_append.1 h with h | h
    · exact (hn _ h).2.2.2 rfl
    · simp only [List.mem_cons] at h
      rcases h with h | h | h
      · exact absurd h (by decide)
      · exact absurd h (by decide)
      · exact vecText_avoids fmt '\n' v (by decide) (by decide) (by decide) h

/-- **C80.**  Read again, the file of the statistics has exactly the six metrics, in this order and with their names, as they are
    printed (for arguments without end of line). -/
theorem statsFile_read (fmt : ℝ → Decimal) (hfmt : ∀ v, (fmt v).ip ≠ [] ∨ (fmt v).fp ≠ []) (args : SMap)
    (hcmd : '\n' ∉ args.getCmd) (p : Par) (m : Metrics) (hm : ∀ s ∈ m.named, s.2 ≠ []) :
    readStats (statsFile fmt args p m) = printedStats fmt m.named := by
  have n : "\n".toList = ['\n'] := rfl
  have split : statsFile fmt args p m =
      "#FIT2STATS EXPORT".toList ++ '\n' :: (("#CMD ".toList ++ args.getCmd) ++ '\n' ::
      (("#DIM ".toList ++ showNat p.dimX ++ " ".toList ++ showNat p.dimY) ++ '\n' :: ([] ++ '\n' ::
      ("L1".toList ++ " :".toList ++ vecText fmt m.L1 ++ "\n".toList ++
      ("L2".toList ++ " :".toList ++ vecText fmt m.L2 ++ "\n".toList ++
      ("L3".toList ++ " :".toList ++ vecText fmt m.L3 ++ "\n".toList ++
      ("LINF".toList ++ " :".toList ++ vecText fmt m.LInf ++ "\n".toList ++
      ("MSE".toList ++ " :".toList ++ vecText fmt m.mse ++ "\n".toList ++
      ("RMSE".toList ++ " :".toList ++ vecText fmt m.rmse ++ "\n".toList ++ ([] ++ '\n' :: []))))))))) ) := by
    have e : ∀ a : String, (a ++ " :").toList = a.toList ++ " :".toList := fun a => String.toList_append
    unfold statsFile
    rw [show "#FIT2STATS EXPORT\n" = "#FIT2STATS EXPORT" ++ "\n" from rfl, show "L1 :" = "L1" ++ " :" from rfl,
      show "L2 :" = "L2" ++ " :" from rfl, show "L3 :" = "L3" ++ " :" from rfl, show "LINF :" = "LINF" ++ " :" from rfl,
      show "MSE :" = "MSE" ++ " :" from rfl, show "RMSE :" = "RMSE" ++ " :" from rfl]
    simp only [String.toList_append]
    rw [n]
    generalize "#FIT2STATS EXPORT".toList = a0
    generalize "#CMD ".toList = a1
    generalize "#DIM ".toList = a2
    generalize "L1".toList = a3
    generalize "L2".toList = a4
    generalize "L3".toList = a5
    generalize "LINF".toList = a6
    generalize "MSE".toList = a7
    generalize "RMSE".toList = a8
    generalize " :".toList = a9
    generalize " ".toList = a10
    simp only [List.append_assoc, List.cons_append, List.nil_append]
  have digits : ∀ k, '\n' ∉ showNat k := by
    intro k h
    obtain ⟨d, hd, e⟩ := showNat_digits k _ h
    have := (digitChar_spec d hd).1
    rw [← e] at this
    exact absurd this (by decide)
  rw [split]
  rw [readStats_line _ _ (by decide), readStats_line _ _ (by
      intro h
      rcases List.mem_append.1 h with h | h
      · exact absurd h (by decide)
      · exact hcmd h),
    readStats_line _ _ (by
      intro h
      simp only [List.mem_append] at h
      rcases h with ((h | h) | h) | h
      · exact absurd h (by decide)
      · exact digits _ h
      · exact absurd h (by decide)
      · exact digits _ h), readStats_line [] _ (by simp)]
  rw [readStats_stat fmt hfmt "L1".toList m.L1 (hm ("L1".toList, m.L1) (by simp [Metrics.named])) (by decide) (by decide),
    readStats_stat fmt hfmt "L2".toList m.L2 (hm ("L2".toList, m.L2) (by simp [Metrics.named])) (by decide) (by decide),
    readStats_stat fmt hfmt "L3".toList m.L3 (hm ("L3".toList, m.L3) (by simp [Metrics.named])) (by decide) (by decide),
    readStats_stat fmt hfmt "LINF".toList m.LInf (hm ("LINF".toList, m.LInf) (by simp [Metrics.named])) (by decide) (by decide),
    readStats_stat fmt hfmt "MSE".toList m.mse (hm ("MSE".toList, m.mse) (by simp [Metrics.named])) (by decide) (by decide),
    readStats_stat fmt hfmt "RMSE".toList m.rmse (hm ("RMSE".toList, m.rmse) (by simp [Metrics.named])) (by decide) (by decide)]
  have c1 : statLine "#FIT2STATS EXPORT".toList = none := statLine_comment _
  have c2 : ∀ t, statLine ("#CMD ".toList ++ t) = none := fun t => statLine_comment _
  have c3 : ∀ t u w, statLine ("#DIM ".toList ++ t ++ u ++ w) = none := fun t u w => statLine_comment _
  have c4 : statLine [] = none := rfl
  have c5 : readStats ([] ++ '\n' :: []) = [] := rfl
  rw [c1, c2, c3, c4, c5]
  rfl

end
end Alta
