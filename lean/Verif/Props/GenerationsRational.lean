import Verif.Spec.Generations
import Verif.Props.Brdf2BrdfFlow
/-
C93: files of rational functions written again and again by brdf2brdf.
-/
namespace Alta
noncomputable section

/-- The coefficients are printed in order, each with the exponents of its place. -/
theorem saveCoeffs_standard (fmt : ℝ → Decimal) (d : ℕ) (l : List Coeff)
    (h : ∀ i c, l[i]? = some c → c.deg = (index2degree d i).getD []) :
    l.map (saveCoeff fmt d) = l.mapIdx fun i c => saveCoeff fmt d ⟨c.a, (index2degree d i).getD []⟩ := by
  apply List.ext_getElem (by simp)
  intro i h1 h2
  have hi : i < l.length := by simpa using h1
  rw [List.getElem_map, List.getElem_mapIdx, ← h i l[i] (List.getElem?_eq_getElem hi)]

/-- Two lists of coefficients in order that are printed in the same way. -/
theorem saveCoeffs_congr (fmt : ℝ → Decimal) (d : ℕ) (l l' : List Coeff)
    (h : ∀ i c, l[i]? = some c → c.deg = (index2degree d i).getD [])
    (h' : ∀ i c, l'[i]? = some c → c.deg = (index2degree d i).getD [])
    (e : (l.map Coeff.a).map fmt = (l'.map Coeff.a).map fmt) :
    l.map (saveCoeff fmt d) = l'.map (saveCoeff fmt d) := by
  rw [saveCoeffs_standard fmt d l h, saveCoeffs_standard fmt d l' h']
  have hl : l.length = l'.length := by simpa using congrArg List.length e
  apply List.ext_getElem (by simpa using hl)
  intro i h1 h2
  have hi : i < l.length := by simpa using h1
  have hi' : i < l'.length := by omega
  rw [List.getElem_mapIdx, List.getElem_mapIdx]
  have : fmt l[i].a = fmt l'[i].a := by
    have := congrArg (·[i]?) e
    simpa [List.getElem?_eq_getElem hi, List.getElem?_eq_getElem hi'] using this
  simp only [saveCoeff, this]

theorem printed_fmt {fmt : ℝ → Decimal} (hs : PrintsStably fmt) (x : ℝ) : fmt (printed fmt x) = fmt x := hs x

/-- What was read from a printed denominator that starts with a number `1` is printed again in the same way. -/
theorem readFrom_saveBody (fmt : ℝ → Decimal) (hs : PrintsStably fmt) (r r' : Rat1) (d : List ℝ × List ℝ)
    (hr : r.Standard) (h : ReadFrom fmt r r' d) (h1 : printed fmt (arr r.getQ 0) = 1) :
    r'.saveBody fmt = r.saveBody fmt := by
  have hn : normalizer (r.getQ.map (printed fmt)) = 1 := by
    unfold normalizer
    cases hq : r.getQ with
    | nil =>
      rw [if_neg]
      simp only [List.map_nil, arr, List.getD_nil, abs_zero]
      norm_num
    | cons a l =>
      have : printed fmt a = 1 := by rw [hq] at h1; exact h1
      simp [arr, this]
  have hp : r'.getP.map fmt = r.getP.map fmt := by
    rw [h.p, hn, List.map_map]
    apply List.map_congr_left
    intro a _
    simp only [Function.comp_apply, div_one, printed_fmt hs]
  have hq : r'.getQ.map fmt = r.getQ.map fmt := by
    rw [h.q, hn, List.map_map]
    apply List.map_congr_left
    intro a _
    simp only [Function.comp_apply, div_one, printed_fmt hs]
  have lp : r'.p.length = r.p.length := by simpa [Rat1.getP] using congrArg List.length hp
  have lq : r'.q.length = r.q.length := by simpa [Rat1.getQ] using congrArg List.length hq
  have hs' := h.standard
  unfold Rat1.Standard at hs'
  rw [h.dimX] at hs'
  unfold Rat1.saveBody
  rw [lp, lq, h.dimX, saveCoeffs_congr fmt r.dimX r'.p r.p hs'.2.1 hr.2.1 hp,
    saveCoeffs_congr fmt r.dimX r'.q r.q hs'.2.2 hr.2.2 hq]

/-- The first number of the denominator of what was read is 1, when the printed one is not too close to 0. -/
theorem readFrom_first (fmt : ℝ → Decimal) (r r' : Rat1) (d : List ℝ × List ℝ) (h : ReadFrom fmt r r' d) (hq : r.q ≠ [])
    (h1 : 1e-16 < |printed fmt (arr r.getQ 0)|) : arr r'.getQ 0 = 1 := by
  rw [h.q]
  cases e : r.getQ with
  | nil => exact absurd (by simpa [Rat1.getQ] using e) hq
  | cons a l =>
    have ha : 1e-16 < |printed fmt a| := by rw [e] at h1; exact h1
    have hn : normalizer ((a :: l).map (printed fmt)) = printed fmt a := by
      unfold normalizer
      rw [if_pos (by simpa [arr] using ha)]
      simp [arr]
    rw [hn]
    simp only [List.map_cons, arr, List.getD_cons_zero]
    apply div_self
    intro h0
    rw [h0] at ha
    norm_num at ha

/-- A function all of whose channels are allocated, as they are when it was fitted or loaded. -/
structure RatFn.Allocated (f : RatFn) (cs : List Rat1) : Prop where
  dim : 1 ≤ f.dimX
  rs : f.rs = cs.map some
  len : cs.length = f.dimY
  chan : ∀ r ∈ cs, r.dimX = f.dimX ∧ r.q ≠ [] ∧ r.Standard

/-- What is loaded from the file of a function: again such a function, with denominators that start with 1; and it is saved in
    the same way when the denominators of the file start with 1. -/
theorem rational_load_again (junk : ℝ) (fmt : ℝ → Decimal) (hp : PrintsDigits fmt) (hs : PrintsStably fmt) (p : Par) (f : RatFn)
    (cs : List Rat1) (hf : f.Allocated cs) (hpx : f.dimX = p.dimX) (hpy : f.dimY = p.dimY) (rest : Str) :
    ∃ (g : RatFn) (ds : List Rat1), (newRational p).load junk (f.saveCall fmt ++ rest) = some g ∧ g.Allocated ds ∧
      g.dimX = f.dimX ∧ g.dimY = f.dimY ∧
      ((∀ r ∈ cs, 1e-16 < |printed fmt (arr r.getQ 0)|) → ∀ r ∈ ds, arr r.getQ 0 = 1) ∧
      ((∀ r ∈ cs, printed fmt (arr r.getQ 0) = 1) → g.saveCall fmt = f.saveCall fmt) := by
  have hnone : ∀ k : ℕ, ((newRational p).rs[k]?).join = Option.none := by
    intro k
    simp only [newRational, List.getElem?_replicate]
    split <;> rfl
  have hwf : (newRational p).WellFormed := by
    refine ⟨by rw [show (newRational p).dimX = p.dimX from rfl, ← hpx]; exact hf.dim, by simp [newRational], ?_⟩
    intro k r hk
    have := hnone k
    rw [hk] at this
    cases this
  obtain ⟨g, h1, h2, h3, h4, h5, h6, h7⟩ := rational_file_round_trip junk fmt hp f (newRational p) cs hf.rs hf.len
    (fun r hr => ⟨(hf.chan r hr).1, (hf.chan r hr).2.1⟩) hwf hpx.symm hpy.symm rest
  have hall : ∀ (k : ℕ) (r : Rat1), cs[k]? = some r → ∃ r' : Rat1, g.rs[k]? = some (some r') ∧ r'.q.length = r.q.length ∧
      ReadFrom fmt r r' (inflate g.lo g.hi) := by
    intro k r hk
    obtain ⟨r', j1, -, j3, j4⟩ := h7 k r hk
    simp only [hnone k] at j4
    exact ⟨r', j1, j3, j4⟩
  have hgl : g.rs.length = cs.length := by rw [h2.len, h4, hf.len]
  have hsome : ∀ o ∈ g.rs, ∃ r' : Rat1, o = some r' := by
    intro o ho
    obtain ⟨k, hk, rfl⟩ := List.getElem_of_mem ho
    obtain ⟨r', e, -⟩ := hall k _ (List.getElem?_eq_getElem (by omega))
    rw [List.getElem?_eq_getElem hk] at e
    exact ⟨r', Option.some.inj e⟩
  have hcs : g.rs = (g.rs.filterMap id).map some := eq_map_some g.rs hsome
  have hmem : ∀ r' ∈ g.rs.filterMap id, ∃ r ∈ cs, r'.q.length = r.q.length ∧ ReadFrom fmt r r' (inflate g.lo g.hi) := by
    intro r' hr'
    have hm : some r' ∈ g.rs := by rw [hcs]; exact List.mem_map_of_mem hr'
    obtain ⟨k, hk, e⟩ := List.getElem_of_mem hm
    obtain ⟨r2, c2, c3, c4⟩ := hall k _ (List.getElem?_eq_getElem (by omega))
    rw [List.getElem?_eq_getElem hk, e] at c2
    cases c2
    exact ⟨_, List.getElem_mem _, c3, c4⟩
  refine ⟨g, g.rs.filterMap id, h1, ⟨by rw [h3]; exact hf.dim, hcs, ?_, ?_⟩, h3, h4, ?_, ?_⟩
  · have := congrArg List.length hcs
    rw [List.length_map] at this
    rw [← this, hgl, h4, hf.len]
  · intro r' hr'
    obtain ⟨r, hr, e1, e2⟩ := hmem r' hr'
    refine ⟨by rw [e2.dimX, (hf.chan r hr).1, h3], ?_, e2.standard⟩
    intro h
    rw [h] at e1
    exact (hf.chan r hr).2.1 (List.length_eq_zero_iff.1 e1.symm)
  · intro hq r' hr'
    obtain ⟨r, hr, e1, e2⟩ := hmem r' hr'
    exact readFrom_first fmt r r' _ e2 (hf.chan r hr).2.1 (hq r hr)
  · intro hq
    have hb : ∀ l l' : List ℝ, l' = (List.range f.dimX).map (fun k => printed fmt (arr l k)) →
        saveBounds fmt f.dimX l' = saveBounds fmt f.dimX l := by
      intro l l' h
      unfold saveBounds
      congr 2
      apply List.map_congr_left
      intro k hk
      have hk := List.mem_range.1 hk
      have : arr l' k = printed fmt (arr l k) := by
        subst h
        unfold arr
        simp only [List.getD_eq_getElem?_getD]
        rw [List.getElem?_map, List.getElem?_range hk]
        rfl
      rw [this, printed_fmt hs]
    have hch : ∀ k : ℕ, (match (g.rs[k]?).join with | some r => Rat1.saveBody fmt r ++ ['\n'] | none => []) =
        (match (f.rs[k]?).join with | some r => Rat1.saveBody fmt r ++ ['\n'] | none => []) := by
      intro k
      by_cases hk : k < cs.length
      · obtain ⟨r', e, -, e2⟩ := hall k _ (List.getElem?_eq_getElem hk)
        have hm : cs[k] ∈ cs := List.getElem_mem hk
        rw [e, hf.rs, List.getElem?_map, List.getElem?_eq_getElem hk]
        simp only [Option.map_some, Option.join_some]
        rw [readFrom_saveBody fmt hs cs[k] r' _ (hf.chan _ hm).2.2 e2 (hq _ hm)]
      · rw [List.getElem?_eq_none (by omega), List.getElem?_eq_none (by rw [hf.rs, List.length_map]; omega)]
    unfold RatFn.saveCall
    rw [h3, h4, hb f.lo g.lo h5, hb f.hi g.hi h6]
    congr 2
    exact List.map_congr_left fun k _ => hch k

/-- The file of a rational function, as it is saved with the options `args`. -/
def rationalText (fmt : ℝ → Decimal) (args : SMap) (p : Par) (f : RatFn) : Str :=
  saveHeader args.getCmd p ++ (f.saveCall fmt ++ ['\n'])

/-- One run of `brdf2brdf` on such a file. -/
theorem reexport_step (fmt10 fmt : ℝ → Decimal) (hp : PrintsDigits fmt10) (hs : PrintsStably fmt10)
    (other : AnyFn → SMap → Option Str) (dir : Str) (env : Option Str) (fs : Str → Option (Symbols (Provider LobeObj)))
    (args args0 : SMap) (hr : Reexports args) (hx : args.isDefined kExport = false)
    (ho0 : args0.Ordered) (ha0 : CmdMap args0) (hfunc0 : args0.isDefined kFunc = false)
    (p : Par) (hin : p.input.Named) (f : RatFn) (cs : List Rat1) (hf : f.Allocated cs) (hpx : f.dimX = p.dimX)
    (hpy : f.dimY = p.dimY) (t' : Str)
    (run : ReexportsTo fmt10 fmt other dir env fs args (rationalText fmt10 args0 p f) t') :
    ∃ (g : RatFn) (ds : List Rat1), t' = rationalText fmt10 args (p.withOutput .UNKNOWN_OUTPUT) g ∧ g.Allocated ds ∧
      g.dimX = f.dimX ∧ g.dimY = f.dimY ∧
      ((∀ r ∈ cs, 1e-16 < |printed fmt10 (arr r.getQ 0)|) → ∀ r ∈ ds, arr r.getQ 0 = 1) ∧
      ((∀ r ∈ cs, printed fmt10 (arr r.getQ 0) = 1) → g.saveCall fmt10 = f.saveCall fmt10) := by
  obtain ⟨junk, files, hfile, run⟩ := run
  obtain ⟨g, ds, h1, h2, h3, h4, h5, h6⟩ := rational_load_again junk fmt10 hp hs p f cs hf hpx hpy ['\n']
  refine ⟨g, ds, ?_, h2, h3, h4, h5, h6⟩
  have hnew : ((newRational p).load junk ('\n' :: (f.saveCall fmt10 ++ ['\n']))) =
      (newRational p).load junk (f.saveCall fmt10 ++ ['\n']) :=
    RatFn.load_skippable junk (newRational p) newlines_one.skippable (f.saveCall fmt10 ++ ['\n'])
  have hload : loadAny junk dir env fs (rationalText fmt10 args0 p f) =
      some (some (.rational (p.withOutput .UNKNOWN_OUTPUT) g)) := by
    unfold rationalText
    rw [loadAny_saved junk dir env fs args0 ho0 ha0 p hin _ hfunc0, hnew, h1]
    rfl
  rw [brdf2brdf_run junk fmt10 fmt other dir env fs files args hr _ hfile _ hload] at run
  simp only [AnyFn.save, hx, if_true, AnyFn.altaText, Option.map_some, AnyFn.par] at run
  exact (Prod.mk.inj (Option.some.inj run)).2 |> Option.some.inj |> Eq.symm

/-- **C93.**  The file of a rational function that is written again and again by `brdf2brdf` with the same options: whatever
    the number of runs, the file is the one that the first run made; and the coefficients that the first run printed are those of
    the first file when its denominators start with 1. -/
theorem rational_generations (fmt10 fmt : ℝ → Decimal) (hp : PrintsDigits fmt10) (hs : PrintsStably fmt10)
    (h1 : printed fmt10 1 = 1)
    (other : AnyFn → SMap → Option Str) (dir : Str) (env : Option Str) (fs : Str → Option (Symbols (Provider LobeObj)))
    (args args0 : SMap) (ho : args.Ordered) (ha : CmdMap args) (hr : Reexports args) (hx : args.isDefined kExport = false)
    (hfunc : args.isDefined kFunc = false)
    (ho0 : args0.Ordered) (ha0 : CmdMap args0) (hfunc0 : args0.isDefined kFunc = false)
    (p : Par) (hin : p.input.Named) (f : RatFn) (cs : List Rat1) (hf : f.Allocated cs) (hpx : f.dimX = p.dimX)
    (hpy : f.dimY = p.dimY) (hq : ∀ r ∈ cs, 1e-16 < |printed fmt10 (arr r.getQ 0)|)
    -- the history
    (file : ℕ → Str) (h0 : file 0 = rationalText fmt10 args0 p f)
    (runs : ∀ n, ReexportsTo fmt10 fmt other dir env fs args (file n) (file (n + 1))) :
    (∀ n, file (n + 1) = file 1) ∧
      ((∀ r ∈ cs, printed fmt10 (arr r.getQ 0) = 1) →
        file 1 = rationalText fmt10 args (p.withOutput .UNKNOWN_OUTPUT) f) := by
  have r0 := runs 0
  rw [h0] at r0
  obtain ⟨g, ds, e, hg, gx, gy, g1, gs⟩ := reexport_step fmt10 fmt hp hs other dir env fs args args0 hr hx ho0 ha0 hfunc0 p hin f
    cs hf hpx hpy _ r0
  have e : file 1 = rationalText fmt10 args (p.withOutput .UNKNOWN_OUTPUT) g := e
  refine ⟨?_, ?_⟩
  · intro n
    induction n with
    | zero => rfl
    | succ n ih =>
      have rn := runs (n + 1)
      rw [ih, e] at rn
      obtain ⟨g', ds', e', -, -, -, -, s'⟩ := reexport_step fmt10 fmt hp hs other dir env fs args args hr hx ho ha hfunc
        (p.withOutput .UNKNOWN_OUTPUT) hin g ds hg (gx.trans hpx) (gy.trans hpy) _ rn
      rw [e', e]
      unfold rationalText
      rw [s' fun r hr' => by rw [g1 hq r hr']; exact h1]
      rfl
  · intro hq1
    rw [e]
    unfold rationalText
    rw [gs hq1]

end
end Alta
