import Verif.Spec.Fit2StatMain
import Verif.Props.Data2Stats
import Verif.Props.Fit2StatLimits
/-
C89: the file of `fit2stat`.
-/
namespace Alta
noncomputable section

/-- The metrics and the weighted errors, by the names of the file. -/
def fitStatsNamed (m : Metrics) (light both : List ℝ × List ℝ) : List (Str × List ℝ) :=
  m.named ++ [("MSE * cos(theta_light)".toList, light.1), ("RMSE * cos(theta_light)".toList, light.2)] ++
    [("MSE * cos(theta_light) * cos(theta_view)".toList, both.1), ("RMSE * cos(theta_light) cos(theta_view)".toList, both.2)]

theorem withoutLastSpaces_append (name sp : Str) (hn : name.getLast? ≠ some ' ') (hsp : ∀ c ∈ sp, c = ' ') :
    withoutLastSpaces (name ++ sp) = name := by
  unfold withoutLastSpaces
  rw [List.reverse_append]
  have h1 : ∀ l r : Str, (∀ c ∈ l, c = ' ') → (l ++ r).dropWhile (fun c => decide (c = ' ')) = r.dropWhile fun c => decide (c = ' ') := by
    intro l r h
    induction l with
    | nil => rfl
    | cons a l ih =>
      rw [List.cons_append, List.dropWhile_cons_of_pos (by simpa using h a (by simp)), ih fun c hc => h c (by simp [hc])]
  rw [h1 _ _ (by simpa using hsp)]
  have h2 : name.reverse.dropWhile (fun c => decide (c = ' ')) = name.reverse := by
    cases hr : name.reverse with
    | nil => rfl
    | cons a l =>
      have : name.getLast? = some a := by rw [← List.head?_reverse, hr]; rfl
      rw [List.dropWhile_cons_of_neg]
      intro h
      apply hn
      rw [this]
      simpa using h
  rw [h2, List.reverse_reverse]

theorem fitStatLine_vec (fmt : ℝ → Decimal) (hfmt : ∀ v, (fmt v).ip ≠ [] ∨ (fmt v).fp ≠ []) (name sp : Str) (v : List ℝ)
    (hv : v ≠ []) (hn : ∀ c ∈ name, c ≠ ':') (hne : ∃ c r, name = c :: r ∧ c ≠ '#') (hl : name.getLast? ≠ some ' ')
    (hsp : ∀ c ∈ sp, c = ' ') :
    fitStatLine ((name ++ sp) ++ ':' :: vecText fmt v) = some (name, v.map fun x => ((fmt x).value : ℝ)) := by
  unfold fitStatLine
  have h0 : ((name ++ sp) ++ ':' :: vecText fmt v).head? ≠ some '#' := by
    obtain ⟨c, r, rfl, hc⟩ := hne
    simpa using hc
  rw [if_neg h0, cutAt_append, cutAt_none]
  · simp only
    rw [readVector_vecText fmt hfmt v hv, Option.map_some, withoutLastSpaces_append name sp hl hsp]
  · exact vecText_avoids fmt ':' v (by decide) (by decide) (by decide)
  · intro h
    rcases List.mem_append.1 h with h | h
    · exact hn _ h rfl
    · exact absurd (hsp _ h) (by decide)

theorem readFitStats_line (l rest : Str) (h : '\n' ∉ l) :
    readFitStats (l ++ '\n' :: rest) = (match fitStatLine l with | none => [] | some x => [x]) ++ readFitStats rest := by
  unfold readFitStats
  rw [cutAt_append _ _ _ h, List.filterMap_cons]
  cases fitStatLine l <;> rfl

theorem fitStatLine_comment (l : Str) : fitStatLine ('#' :: l) = none := by
  unfold fitStatLine
  exact if_pos rfl

theorem readFitStats_stat (fmt : ℝ → Decimal) (hfmt : ∀ v, (fmt v).ip ≠ [] ∨ (fmt v).fp ≠ []) (text name sp : Str) (v : List ℝ)
    (hv : v ≠ []) (ht : text = name ++ sp ++ [':']) (hn : ∀ c ∈ name, c ≠ ':' ∧ c ≠ '\n')
    (hne : ∃ c r, name = c :: r ∧ c ≠ '#')
    (hl : name.getLast? ≠ some ' ') (hsp : ∀ c ∈ sp, c = ' ') (rest : Str) :
    readFitStats (text ++ (vecText fmt v ++ '\n' :: rest)) =
      (name, v.map fun x => ((fmt x).value : ℝ)) :: readFitStats rest := by
  subst ht
  have e : name ++ sp ++ [':'] ++ (vecText fmt v ++ '\n' :: rest) = ((name ++ sp) ++ ':' :: vecText fmt v) ++ '\n' :: rest := by
    simp
  rw [e, readFitStats_line, fitStatLine_vec fmt hfmt name sp v hv (fun c hc => (hn c hc).1) hne hl hsp]
  · rfl
  · intro h
    rcases List.mem_append.1 h with h | h
    · rcases List.mem_append.1 h with h | h
      · exact (hn _ h).2 rfl
      · exact absurd (hsp _ h) (by decide)
    · rcases List.mem_cons.1 h with h | h
      · exact absurd h (by decide)
      · exact vecText_avoids fmt '\n' v (by decide) (by decide) (by decide) h

set_option maxRecDepth 4096 in
/-- **C89.**  Read again, the file has exactly ten vectors, in this order and with their names, as they are printed (for arguments
    without end of line): the six metrics, and twice the two errors weighted by the first cosine. -/
theorem fit2statFile_read (fmt : ℝ → Decimal) (hfmt : ∀ v, (fmt v).ip ≠ [] ∨ (fmt v).fp ≠ []) (args : SMap)
    (hcmd : '\n' ∉ args.getCmd) (p : Par) (m : Metrics) (light : List ℝ × List ℝ)
    (hm : ∀ s ∈ fitStatsNamed m light light, s.2 ≠ []) :
    readFitStats (fit2statFile fmt args p m light) = printedStats fmt (fitStatsNamed m light light) := by
  have n : "\n".toList = ['\n'] := rfl
  have digits : ∀ k, '\n' ∉ showNat k := by
    intro k h
    obtain ⟨d, hd, e⟩ := showNat_digits k _ h
    have := (digitChar_spec d hd).1
    rw [← e] at this
    exact absurd this (by decide)
  have split : fit2statFile fmt args p m light =
      "#FIT2STATS EXPORT. DIMENSIONS ARE THE ONE FROM THE BRDF FUNCTION".toList ++ '\n' :: (("#CMD ".toList ++ args.getCmd) ++ '\n' ::
      (("#DIM ".toList ++ showNat p.dimX ++ " ".toList ++ showNat p.dimY) ++ '\n' :: ([] ++ '\n' ::
      ("L1 :".toList ++ (vecText fmt m.L1 ++ '\n' ::
      ("L2 :".toList ++ (vecText fmt m.L2 ++ '\n' ::
      ("L3 :".toList ++ (vecText fmt m.L3 ++ '\n' ::
      ("LINF :".toList ++ (vecText fmt m.LInf ++ '\n' ::
      ("MSE :".toList ++ (vecText fmt m.mse ++ '\n' ::
      ("RMSE :".toList ++ (vecText fmt m.rmse ++ '\n' ::
      ("MSE * cos(theta_light) :".toList ++ (vecText fmt light.1 ++ '\n' ::
      ("RMSE * cos(theta_light) :".toList ++ (vecText fmt light.2 ++ '\n' ::
      ("MSE * cos(theta_light) * cos(theta_view) :".toList ++ (vecText fmt light.1 ++ '\n' ::
      ("RMSE * cos(theta_light) cos(theta_view)  :".toList ++ (vecText fmt light.2 ++ '\n' ::
        ([] ++ '\n' :: [])))))))))))))))))))))))) := by
    unfold fit2statFile
    rw [show "#FIT2STATS EXPORT. DIMENSIONS ARE THE ONE FROM THE BRDF FUNCTION\n" =
      "#FIT2STATS EXPORT. DIMENSIONS ARE THE ONE FROM THE BRDF FUNCTION" ++ "\n" from rfl, String.toList_append, n]
    generalize "#FIT2STATS EXPORT. DIMENSIONS ARE THE ONE FROM THE BRDF FUNCTION".toList = a0
    generalize "#CMD ".toList = a1
    generalize "#DIM ".toList = a2
    generalize "L1 :".toList = a3
    generalize "L2 :".toList = a4
    generalize "L3 :".toList = a5
    generalize "LINF :".toList = a6
    generalize "MSE :".toList = a7
    generalize "RMSE :".toList = a8
    generalize "MSE * cos(theta_light) :".toList = b7
    generalize "RMSE * cos(theta_light) :".toList = b8
    generalize "MSE * cos(theta_light) * cos(theta_view) :".toList = c7
    generalize "RMSE * cos(theta_light) cos(theta_view)  :".toList = c8
    generalize " ".toList = a10
    simp only [List.append_assoc, List.cons_append, List.nil_append]
  rw [split]
  rw [readFitStats_line _ _ (by decide), readFitStats_line _ _ (by
      intro h
      rcases List.mem_append.1 h with h | h
      · exact absurd h (by decide)
      · exact hcmd h),
    readFitStats_line _ _ (by
      intro h
      simp only [List.mem_append] at h
      rcases h with ((h | h) | h) | h
      · exact absurd h (by decide)
      · exact digits _ h
      · exact absurd h (by decide)
      · exact digits _ h), readFitStats_line [] _ (by simp)]
  have hm' : ∀ s v, (s, v) ∈ fitStatsNamed m light light → v ≠ [] := fun s v h => hm (s, v) h
  unfold fitStatsNamed Metrics.named at hm'
  rw [readFitStats_stat fmt hfmt "L1 :".toList "L1".toList [' '] m.L1 (hm' "L1".toList _ (by simp)) rfl (by decide) ⟨_, _, rfl, by decide⟩ (by decide) (by decide),
    readFitStats_stat fmt hfmt "L2 :".toList "L2".toList [' '] m.L2 (hm' "L2".toList _ (by simp)) rfl (by decide) ⟨_, _, rfl, by decide⟩ (by decide) (by decide),
    readFitStats_stat fmt hfmt "L3 :".toList "L3".toList [' '] m.L3 (hm' "L3".toList _ (by simp)) rfl (by decide) ⟨_, _, rfl, by decide⟩ (by decide) (by decide),
    readFitStats_stat fmt hfmt "LINF :".toList "LINF".toList [' '] m.LInf (hm' "LINF".toList _ (by simp)) rfl (by decide) ⟨_, _, rfl, by decide⟩ (by decide) (by decide),
    readFitStats_stat fmt hfmt "MSE :".toList "MSE".toList [' '] m.mse (hm' "MSE".toList _ (by simp)) rfl (by decide) ⟨_, _, rfl, by decide⟩ (by decide) (by decide),
    readFitStats_stat fmt hfmt "RMSE :".toList "RMSE".toList [' '] m.rmse (hm' "RMSE".toList _ (by simp)) rfl (by decide) ⟨_, _, rfl, by decide⟩ (by decide) (by decide),
    readFitStats_stat fmt hfmt "MSE * cos(theta_light) :".toList "MSE * cos(theta_light)".toList [' '] light.1 (hm' "MSE * cos(theta_light)".toList _ (by simp)) rfl (by decide) ⟨_, _, rfl, by decide⟩ (by decide) (by decide),
    readFitStats_stat fmt hfmt "RMSE * cos(theta_light) :".toList "RMSE * cos(theta_light)".toList [' '] light.2 (hm' "RMSE * cos(theta_light)".toList _ (by simp)) rfl (by decide) ⟨_, _, rfl, by decide⟩ (by decide) (by decide),
    readFitStats_stat fmt hfmt "MSE * cos(theta_light) * cos(theta_view) :".toList "MSE * cos(theta_light) * cos(theta_view)".toList [' '] light.1 (hm' "MSE * cos(theta_light)".toList _ (by simp)) rfl (by decide) ⟨_, _, rfl, by decide⟩ (by decide) (by decide),
    readFitStats_stat fmt hfmt "RMSE * cos(theta_light) cos(theta_view)  :".toList "RMSE * cos(theta_light) cos(theta_view)".toList [' ', ' '] light.2 (hm' "RMSE * cos(theta_light)".toList _ (by simp)) rfl (by decide) ⟨_, _, rfl, by decide⟩ (by decide) (by decide)]
  have c1 : fitStatLine "#FIT2STATS EXPORT. DIMENSIONS ARE THE ONE FROM THE BRDF FUNCTION".toList = none := fitStatLine_comment _
  have c2 : ∀ t, fitStatLine ("#CMD ".toList ++ t) = none := fun t => fitStatLine_comment _
  have c3 : ∀ t u w, fitStatLine ("#DIM ".toList ++ t ++ u ++ w) = none := fun t u w => fitStatLine_comment _
  have c4 : fitStatLine [] = none := rfl
  have c5 : readFitStats ([] ++ '\n' :: []) = [] := rfl
  rw [c1, c2, c3, c4, c5]
  rfl

/-- The six metrics of two matrices. -/
theorem fastNorms_named (n : ℕ) (A B : Mat) (err : ℕ → List ℝ) (h : ∀ k < n, diffCol A B k = err k) :
    (fastNorms n A B).named = statsOf n A.length err := by
  unfold Metrics.named statsOf fastNorms
  simp only [List.map_map]
  have key : ∀ f : List ℝ → ℝ, (List.range n).map (fun c => f (diffCol A B c)) = (List.range n).map fun c => f (err c) := by
    intro f
    exact List.map_congr_left fun c hc => by rw [h c (List.mem_range.1 hc)]
  have k2 := key fun l => norm2 l
  have e2 : ∀ l : List ℝ, norm2 l = √ (l.map fun e : ℝ => e ^ 2).sum := by
    intro l; rw [← sumSq_abs]; rfl
  simp only [e2] at k2
  have k1 := key norm1
  have k3 := key norm3
  have k4 := key normInf
  have k5 := key fun l => (l.map fun e : ℝ => e ^ 2).sum / (A.length : ℝ)
  have k6 := key fun l => √ ((l.map fun e : ℝ => e ^ 2).sum / (A.length : ℝ))
  refine congrArg₂ _ ?_ (congrArg₂ _ ?_ (congrArg₂ _ ?_ (congrArg₂ _ ?_ (congrArg₂ _ ?_ (congrArg₂ _ ?_ rfl)))))
  · exact congrArg _ k1
  · simp only [e2]; exact congrArg _ k2
  · exact congrArg _ k3
  · exact congrArg _ k4
  · exact congrArg _ k5
  · exact congrArg _ k6

end
end Alta
