import Verif.Props.Brdf2DataMain
import Verif.Props.Brdf2Brdf
import Verif.Props.Data2BrdfFile
import Verif.Props.Data2BrdfQuadprog
/-
C88: a function fitted by `data2brdf`, exported on its data by `brdf2data`.
-/
namespace Alta
noncomputable section

/-- A function that has distances to data can be compared with them. -/
theorem distanceReady_of (g : Evaluable) (d : Data) (hs : d.Sampled) (hne : d.rows ≠ []) (m : ℝ × List ℝ × List ℝ)
    (h : linfDistance g d = some m) : DistanceReady g d := by
  unfold linfDistance at h
  split at h
  · cases h
  · rename_i hc
    have hY : d.dimY = g.par.dimY := by
      by_contra hY
      exact hc ⟨by simpa using hne, hY⟩
    have hall : (d.rows.mapM (sampleError g d)).isSome := by
      cases hm : d.rows.mapM (sampleError g d) with
      | none => rw [hm] at h; cases h
      | some es => rfl
    refine ⟨hY.symm, hs, fun row hr => ?_⟩
    obtain ⟨e, he⟩ := Option.isSome_iff_exists.1 ((mapM_ends_iff _ _).1 hall row hr)
    unfold sampleError at he
    obtain ⟨x, hx, he⟩ := Option.bind_eq_some_iff.1 he
    obtain ⟨y, hy, he⟩ := Option.bind_eq_some_iff.1 he
    obtain ⟨v, hv, he⟩ := Option.bind_eq_some_iff.1 he
    have hyl : y.length = g.par.dimY := by
      unfold readValues at hy
      split at hy
      · cases hy; simp
      · cases hy
    have hvl : v.length = g.par.dimY := by
      unfold vecSub at he
      split at he
      · rename_i hl; omega
      · cases he
    refine ⟨x, v, ?_, ?_, hv, hvl⟩
    · unfold distancePoint at hx
      unfold Evaluable.abscissa
      split at hx
      · rename_i hu
        rw [if_pos hu]
        split at hx
        · exact hx
        · cases hx
      · rename_i hu
        rw [if_neg hu]
        split at hx
        · rename_i w hw
          split at hx
          · rw [hw]; exact hx
          · cases hx
        · cases hx
    · unfold distancePoint at hx
      split at hx
      · split at hx
        · cases hx; rw [List.length_take]; omega
        · cases hx
      · split at hx
        · split at hx
          · rename_i hl; cases hx; exact hl
          · cases hx
        · cases hx

/-- The exported differences are the errors of the function. -/
theorem exported_error (g : Evaluable) (args : SMap) (d : Data) (x y : List ℝ) (hx : x.length = d.dimX + d.dimY)
    (hd : args.isDefined "export-diff".toList = true) (h : ExportedSample g args d x y) :
    ∀ c < d.dimY, arr y (d.dimX + c) = g.error d x c := by
  intro c hc
  obtain ⟨z, v, h1, h2, h3, -, h5⟩ := h
  rw [h5 hd]
  unfold Evaluable.error
  rw [h1, Option.bind_some, h2, Option.getD_some]
  simp [arr, List.getD, List.getElem?_append, hx, hc]

/-- **C88.**  The differences that `brdf2data --export-diff` writes have the distances that `data2brdf` prints: their root mean
    square is the L2 distance, and their largest absolute value is the L∞ distance. -/
theorem exported_distances (g : Evaluable) (args : SMap) (d d' : Data) (hs : d.Sampled) (hne : d.rows ≠ [])
    (hd : args.isDefined "export-diff".toList = true) (h : ExportedData g args d d') (l2 linf : ℝ) (mean var : List ℝ)
    (h2 : l2Distance g d = some l2) (hi : linfDistance g d = some (linf, mean, var)) :
    d'.rootMeanSquare = l2 ∧ (∀ row ∈ d'.rows, ∀ c < d'.dimY, |arr row (d'.dimX + c)| ≤ linf) ∧
      (linf = 0 ∨ ∃ row ∈ d'.rows, ∃ c < d'.dimY, linf = |arr row (d'.dimX + c)|) := by
  have hr := distanceReady_of g d hs hne _ hi
  have key : ∀ l l' : List (List ℝ), (∀ x ∈ l, x.length = d.dimX + d.dimY) → List.Forall₂ (ExportedSample g args d) l l' →
      (l'.map fun row => ∑ c ∈ Finset.range d.dimY, arr row (d.dimX + c) ^ 2) =
        (l.map fun row => ∑ c ∈ Finset.range d.dimY, g.error d row c ^ 2) ∧
      (∀ y ∈ l', ∃ x ∈ l, ∀ c < d.dimY, arr y (d.dimX + c) = g.error d x c) ∧
      (∀ x ∈ l, ∃ y ∈ l', ∀ c < d.dimY, arr y (d.dimX + c) = g.error d x c) := by
    intro l l' hl hf
    induction hf with
    | nil => simp
    | cons hab _ ih =>
      rename_i a b l l' _
      obtain ⟨i1, i2, i3⟩ := ih fun x hx => hl x (by simp [hx])
      have e := exported_error g args d a b (hl a (by simp)) hd hab
      refine ⟨?_, ?_, ?_⟩
      · rw [List.map_cons, List.map_cons, i1]
        congr 1
        apply Finset.sum_congr rfl
        intro c hc
        rw [e c (Finset.mem_range.1 hc)]
      · intro y hy
        rcases List.mem_cons.1 hy with rfl | hy
        · exact ⟨a, by simp, e⟩
        · obtain ⟨x, hx, h⟩ := i2 y hy
          exact ⟨x, by simp [hx], h⟩
      · intro x hx
        rcases List.mem_cons.1 hx with rfl | hx
        · exact ⟨b, by simp, e⟩
        · obtain ⟨y, hy, h⟩ := i3 x hx
          exact ⟨y, by simp [hy], h⟩
  obtain ⟨k1, k2, k3⟩ := key _ _ hs h.rows
  refine ⟨?_, ?_, ?_⟩
  · have e := l2_distance g d hr hne
    rw [h2] at e
    rw [Option.some.inj e]
    unfold Data.rootMeanSquare meanOver
    rw [h.dimX, h.dimY, k1, h.rows.length_eq]
  · obtain ⟨m, mean', var', e1, -, e3, -⟩ := linf_distance g d hr
    rw [hi] at e1
    cases e1
    intro row hrow c hc
    rw [h.dimY] at hc
    obtain ⟨x, hx, hxe⟩ := k2 row hrow
    rw [h.dimX, hxe c hc]
    exact e3 x hx c hc
  · obtain ⟨m, mean', var', e1, -, -, e4⟩ := linf_distance g d hr
    rw [hi] at e1
    cases e1
    refine e4.imp id ?_
    rintro ⟨x, hx, c, hc, e⟩
    obtain ⟨y, hy, hye⟩ := k3 x hx
    exact ⟨y, hy, c, by rw [h.dimY]; exact hc, by rw [h.dimX, hye c hc]; exact e⟩

/-- **C88.**  A rational function fitted by `data2brdf`, then exported with `--export-diff` on the data of the fit: the root mean
    square and the largest absolute value of the file are the distances printed by `data2brdf` (when the coefficients are printed
    exactly). -/
theorem fit_then_export_rational (val : Dbl → ℝ) (junk : ℝ) (dir : Str) (env : Option Str)
    (ff : Str → Option (Symbols (Provider LobeObj)))
    -- the fit
    (fit : Segments → SMap → RatFn → Option (Bool × RatFn)) (hfit : FitsOnData fit) (fmt6 fmt10 fmt : ℝ → Decimal)
    (h6 : PrintsNonneg fmt6) (h10 : PrintsDigits fmt10) (other : AnyFn → SMap → Option Str) (args1 : SMap) (ho : args1.Ordered)
    (ha1 : CmdMap args1) (hx : args1.find kExport = none) (d : Segments) (hwf : d.store.WF) (hdx : 1 ≤ d.store.dimX)
    (hin : d.store.input.Named) (hlo : d.min.length = d.store.dimX) (hhi : d.max.length = d.store.dimX) (r : FittedRational)
    (h1 : data2brdfRational dir env ff fit fmt6 fmt10 fmt other args1 d = some (0, some r))
    (hbounds : ∀ x ∈ d.min ++ d.max, printed fmt10 x = x)
    (hexact : ∀ (m : ℕ) (c : Rat1), r.function.rs[m]? = some (some c) → ∀ a ∈ c.getP ++ c.getQ, printed fmt10 a = a)
    -- the export
    (hfmt : ∀ v, (fmt v).ip ≠ [] ∨ (fmt v).fp ≠ [])
    (fs : Str → Option (Symbols (Str → SMap → Option OutPlugin))) (gs : Str → Option (Symbols (ℕ → Par → SMap → OutPlugin)))
    (files : Str → Option Str) (writable : Str → Bool) (args : SMap) (ha : AsksExport args) (ht : AltaTemplate args)
    (hd : args.isDefined "export-diff".toList = true) (content : Str)
    (hf : files (args.get "data-file".toList) = some content) (hg : files (args.get "input".toList) = some r.file)
    (hl : loadDataStream val dir env (fun _ => none) (args.get "data".toList) content
      (args.update "filename".toList (args.get "data-file".toList)) = some (some (.ofData d.store.toData)))
    (c : ℕ) (out : Option Str)
    (h : brdf2dataMain val junk fmt dir env ff fs gs files writable args = some (c, out)) :
    ∃ d' : Data, out = some (saveText fmt d') ∧ d'.rows.length = d.store.size ∧ d'.rootMeanSquare = r.l2 ∧
      (∀ row ∈ d'.rows, ∀ c < d'.dimY, |arr row (d'.dimX + c)| ≤ r.linf) ∧
      (r.linf = 0 ∨ ∃ row ∈ d'.rows, ∃ c < d'.dimY, r.linf = |arr row (d'.dimX + c)|) := by
  obtain ⟨g, e1, -, -, -, -, -, e2⟩ := data2brdf_rational_file junk dir env ff fit hfit fmt6 fmt10 fmt h6 h10 other args1 ho ha1
    hx d hdx hin hlo hhi r h1
  obtain ⟨-, e3, mean, var, e4⟩ := e2 hbounds hexact
  obtain ⟨-, h2⟩ := data2brdf_rational_outcome dir env ff fit fmt6 fmt10 fmt other args1 d 0 (some r) h1
  obtain ⟨hne, -⟩ := h2 r rfl
  have hs : d.store.toData.Sampled := fun x hx => store_row_length _ hwf x hx
  obtain ⟨-, d', k1, -, k2, -⟩ := brdf2data_text_file val junk fmt hfmt dir env ff fs gs files writable args ha ht content _ hf hg
    _ hl hs _ e1 c out h
  obtain ⟨q1, q2, q3⟩ := exported_distances _ args d.store.toData d' hs hne hd k1 r.l2 r.linf mean var e3 e4
  refine ⟨d', k2, ?_, q1, q2, q3⟩
  have := k1.rows.length_eq
  rw [← this]
  simp [DataObj.toData, DataObj.ofData, Store.toData]

/-- **C88.**  A rational function fitted with vertical segments by `data2brdf`, then exported on the data of the fit: every
    value written is in the interval of its sample. -/
theorem fit_then_export_quadprog (val : Dbl → ℝ) (junk : ℝ) (dir : Str) (env : Option Str)
    (ff : Str → Option (Symbols (Provider LobeObj)))
    -- the fit
    (solve : Solver) (hsound : solve.Sound) (fmt6 fmt10 fmt : ℝ → Decimal) (h6 : PrintsNonneg fmt6) (h10 : PrintsDigits fmt10)
    (other : AnyFn → SMap → Option Str) (args1 : SMap) (ho : args1.Ordered) (ha1 : CmdMap args1)
    (hx : args1.find kExport = none) (hdelta : 0 < args1.getFloat "delta".toList 1)
    (h1p : 1 ≤ sizeOption args1 "min-np".toList (sizeOption args1 "np".toList 10))
    (h1q : 1 ≤ sizeOption args1 "min-nq".toList (sizeOption args1 "nq".toList 10))
    (d : Segments) (hwf : d.store.WF) (hord : d.store.Ordered) (hdx : 1 ≤ d.store.dimX) (hin : d.store.input.Named)
    (hdim : inputDim d.store.input = d.store.dimX) (hlo : d.min.length = d.store.dimX) (hhi : d.max.length = d.store.dimX)
    (r : FittedRational)
    (h1 : data2brdfRational dir env ff (quadprogFitter solve junk) fmt6 fmt10 fmt other args1 d = some (0, some r))
    (hbounds : ∀ x ∈ d.min ++ d.max, printed fmt10 x = x)
    (hexact : ∀ (m : ℕ) (c : Rat1), r.function.rs[m]? = some (some c) → ∀ a ∈ c.getP ++ c.getQ, printed fmt10 a = a)
    -- the export
    (hfmt : ∀ v, (fmt v).ip ≠ [] ∨ (fmt v).fp ≠ [])
    (fs : Str → Option (Symbols (Str → SMap → Option OutPlugin))) (gs : Str → Option (Symbols (ℕ → Par → SMap → OutPlugin)))
    (files : Str → Option Str) (writable : Str → Bool) (args : SMap) (ha : AsksExport args) (ht : AltaTemplate args)
    (hd : args.isDefined "export-diff".toList = false) (content : Str)
    (hf : files (args.get "data-file".toList) = some content) (hg : files (args.get "input".toList) = some r.file)
    (hl : loadDataStream val dir env (fun _ => none) (args.get "data".toList) content
      (args.update "filename".toList (args.get "data-file".toList)) = some (some (.ofData d.store.toData)))
    (c : ℕ) (out : Option Str)
    (h : brdf2dataMain val junk fmt dir env ff fs gs files writable args = some (c, out)) :
    ∃ d' : Data, out = some (saveText fmt d') ∧ d'.rows.length = d.store.size ∧
      ∀ (i : ℕ) (x yl yu : List ℝ), d.store.getSegment i = some (x, yl, yu) → ∃ row : List ℝ, d'.rows[i]? = some row ∧
        row.take d.store.dimX = x ∧
        ∀ m < d.store.dimY, arr yl m < arr row (d.store.dimX + m) ∧ arr row (d.store.dimX + m) < arr yu m := by
  obtain ⟨-, g, e1, e2⟩ := data2brdf_quadprog_segments junk dir env ff solve hsound fmt6 fmt10 fmt h6 h10 other args1 ho ha1 hx
    hdelta h1p h1q d hord hdx hin hlo hhi r h1
  have e3 := e2 hbounds hexact
  have hs : d.store.toData.Sampled := fun x hx => store_row_length _ hwf x hx
  obtain ⟨-, d', k1, k0, k2, -⟩ := brdf2data_text_file val junk fmt hfmt dir env ff fs gs files writable args ha ht content _ hf hg
    _ hl hs _ e1 c out h
  have hlen : d'.rows.length = d.store.size := by
    rw [← k1.rows.length_eq]
    simp [DataObj.toData, DataObj.ofData, Store.toData]
  refine ⟨d', k2, hlen, fun i x yl yu hseg => ?_⟩
  obtain ⟨v, v1, v2, v3⟩ := e3 i x yl yu hseg
  obtain ⟨habs, hi⟩ := segment_abscissa d.store hwf i x yl yu hseg
  obtain ⟨a, ha', ham⟩ := toData_row d.store i hi
  have hrow := toData_get d.store i hi a ha'
  have hal : a.length = d.store.dimX + d.store.dimY := hs a ham
  obtain ⟨row, hrow'⟩ : ∃ row, d'.rows[i]? = some row := ⟨_, List.getElem?_eq_getElem (by omega)⟩
  have hex : ExportedSample (AnyFn.rational (d.store.toData.par.withOutput .UNKNOWN_OUTPUT) g).evaluable args d.store.toData a row := by
    have h2 := (List.forall₂_iff_get.1 k1.rows).2 i (by simpa [DataObj.toData, DataObj.ofData, Store.toData] using hi) (by omega)
    have q1 : d.store.toData.rows.get ⟨i, by simpa [Store.toData] using hi⟩ = a := by
      have := List.getElem?_eq_some_iff.1 hrow
      exact this.2
    have q2 : d'.rows.get ⟨i, by omega⟩ = row := (List.getElem?_eq_some_iff.1 hrow').2
    rw [← q1, ← q2]
    exact h2
  obtain ⟨z, w, w1, w2, w3, w4, -⟩ := hex
  rw [ha', Option.getD_some] at habs
  have hz : z = x := by
    have : (AnyFn.rational (d.store.toData.par.withOutput .UNKNOWN_OUTPUT) g).evaluable.abscissa d.store.toData a =
        some ((List.range d.store.dimX).map (arr a)) := by
      show (if d.store.input = .UNKNOWN_INPUT then _ else convertInput (arr a) d.store.input d.store.input) = _
      rw [if_neg (namedInput_ne hin), convertInput, if_pos rfl, hdim]
      rfl
    rw [this] at w1
    exact (Option.some.inj w1).symm.trans habs
  subst hz
  have hw : w = v := by
    have : g.value z = some w := w2
    rw [v1] at this
    exact (Option.some.inj this).symm
  subst hw
  have htake : a.take d.store.dimX = z := by
    rw [← habs]
    apply List.ext_getElem
    · simp; omega
    · intro k k1 k2
      rw [List.length_take] at k1
      simp [arr, List.getD, List.getElem?_eq_getElem (show k < a.length by omega)]
  have he := w4 hd
  refine ⟨row, hrow', ?_, fun m hm => ?_⟩
  · rw [he]
    show (a.take d.store.dimX ++ w).take d.store.dimX = z
    rw [List.take_append_of_le_length (by simp; omega), List.take_take, Nat.min_self, htake]
  · have : arr row (d.store.dimX + m) = arr w m := by
      rw [he]
      show arr (a.take d.store.dimX ++ w) _ = _
      simp [arr, List.getD, List.getElem?_append, hal]
    rw [this]
    exact v3 m hm

/-- **C88.**  The same distances for a fit by one of the nonlinear fitters whose file gives back the function (C69). -/
theorem fit_then_export_nonlinear (val : Dbl → ℝ) (junk : ℝ) (dir : Str) (env : Option Str)
    (ff : Str → Option (Symbols (Provider LobeObj)))
    -- the fit
    (fit : Data → SMap → FT LobeObj → Option (Bool × FT LobeObj)) (fmt6 fmt : ℝ → Decimal) (args1 : SMap)
    (d : Data) (hs : d.Sampled) (r : FittedFile) (h1 : data2brdf dir env ff fit fmt6 fmt args1 d = some (0, some r))
    (hback : r.GivesBack fmt dir env ff d)
    (hexact : (r.function.withOutput .UNKNOWN_OUTPUT).rounded fmt = r.function.withOutput .UNKNOWN_OUTPUT)
    -- the export
    (hfmt : ∀ v, (fmt v).ip ≠ [] ∨ (fmt v).fp ≠ [])
    (fs : Str → Option (Symbols (Str → SMap → Option OutPlugin))) (gs : Str → Option (Symbols (ℕ → Par → SMap → OutPlugin)))
    (files : Str → Option Str) (writable : Str → Bool) (args : SMap) (ha : AsksExport args) (ht : AltaTemplate args)
    (hd : args.isDefined "export-diff".toList = true) (content : Str)
    (hf : files (args.get "data-file".toList) = some content) (hg : files (args.get "input".toList) = some r.file)
    (hl : loadDataStream val dir env (fun _ => none) (args.get "data".toList) content
      (args.update "filename".toList (args.get "data-file".toList)) = some (some (.ofData d)))
    (c : ℕ) (out : Option Str)
    (h : brdf2dataMain val junk fmt dir env ff fs gs files writable args = some (c, out)) :
    ∃ d' : Data, out = some (saveText fmt d') ∧ d'.rows.length = d.rows.length ∧ d'.rootMeanSquare = r.l2 ∧
      (∀ row ∈ d'.rows, ∀ c < d'.dimY, |arr row (d'.dimX + c)| ≤ r.linf) ∧
      (r.linf = 0 ∨ ∃ row ∈ d'.rows, ∃ c < d'.dimY, r.linf = |arr row (d'.dimX + c)|) := by
  obtain ⟨f1, e1, -, e2⟩ := hback
  obtain ⟨-, -, e3, mean, var, e4⟩ := e2 hexact
  obtain ⟨-, h2⟩ := data2brdf_outcome dir env ff fit fmt6 fmt args1 d 0 (some r) h1
  obtain ⟨hne, -⟩ := h2 r rfl
  obtain ⟨-, d', k1, -, k2, -⟩ := brdf2data_text_file val junk fmt hfmt dir env ff fs gs files writable args ha ht content _ hf hg
    _ hl hs (.nonlinear f1) (loadAny_nonlinear junk dir env ff _ f1 e1) c out h
  obtain ⟨q1, q2, q3⟩ := exported_distances _ args d d' hs hne hd k1 r.l2 r.linf mean var e3 e4
  exact ⟨d', k2, k1.rows.length_eq.symm, q1, q2, q3⟩

end
end Alta
