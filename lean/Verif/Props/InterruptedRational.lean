import Verif.Model.RationalStream
import Verif.Props.RationalFile
/-
Property C92 for the files of the rational functions.
-/
namespace Alta
noncomputable section

/-! ### Files in which nothing is missing -/

theorem strtod_nil : strtod [] = none := by decide

theorem skipWords_nil (n : ℕ) : skipWords n [] = [] := by
  induction n with
  | zero => rfl
  | succ n ih => rw [skipWords]; exact ih

theorem readWord_none {s : Str} (h : (readWord s).1 = []) : (readWord s).2 = [] := by
  unfold readWord at h ⊢
  simp only at h ⊢
  cases hd : s.dropWhile isSpace with
  | nil => rfl
  | cons c r =>
    rw [hd] at h
    have hc : isSpace c = false := by
      have := List.head?_dropWhile_not isSpace s
      rw [hd] at this
      simpa using this
    simp [hc] at h

theorem skipTokens_skipWords (n : ℕ) : ∀ s : Str, strtod (skipWords n s) ≠ none →
    skipTokens n (some s) = some (skipWords n s) := by
  induction n with
  | zero => intro s _; rfl
  | succ n ih =>
    intro s h
    rw [skipWords] at h ⊢
    rw [skipTokens]
    split
    · rename_i h0
      rw [readWord_none h0, skipWords_nil, strtod_nil] at h
      exact absurd rfl h
    · exact ih _ h

theorem readCoeffsStream_complete (d : ℕ) (olds : List ℝ) : ∀ (s : Str) (vs : List ℝ) (s' : Str),
    readCoeffs d olds.length s = some (vs, s') → readCoeffsStream d olds (some s) = (vs, some s') := by
  induction olds with
  | nil => intro s vs s' h; cases h; rfl
  | cons o os ih =>
    intro s vs s' h
    rw [List.length_cons, readCoeffs] at h
    cases hv : strtod (skipWords d s) with
    | none => rw [hv] at h; cases h
    | some p =>
      obtain ⟨v, s1⟩ := p
      rw [hv] at h
      simp only at h
      cases hr : readCoeffs d os.length s1 with
      | none => rw [hr] at h; cases h
      | some q =>
        obtain ⟨ws, s2⟩ := q
        rw [hr] at h
        cases h
        rw [readCoeffsStream, skipTokens_skipWords d s (by rw [hv]; simp)]
        simp only [readDouble, hv, ih _ _ _ hr]

/-- The two models of the load agree when nothing is missing, whatever the memory. -/
theorem Rat1.loadStream_complete (junk : ℝ) (ma mb : ℕ → ℝ) (r : Rat1) (s : Str) (r' : Rat1) (s' : Str)
    (h : r.load junk s = some (r', s')) : r.loadStream junk ma mb (some s) = some (some (r', some s')) := by
  unfold Rat1.load at h
  unfold Rat1.loadStream
  simp only at h ⊢
  split at h
  · cases h
  rename_i h1
  rw [if_neg h1]
  split at h
  · cases h
  rename_i np s1 h2
  rw [h2]
  simp only
  split at h
  · cases h
  rename_i nq s2 h3
  split at h
  · cases h
  rename_i h4
  rw [if_neg h4, h3]
  simp only
  split at h
  · cases h
  rename_i a s3 h5
  split at h
  · cases h
  rename_i b s4 h6
  have ha := readCoeffsStream_complete r.dimX ((List.range np).map ma) s2 a s3 (by simpa using h5)
  have hb := readCoeffsStream_complete r.dimX ((List.range nq).map mb) s3 b s4 (by simpa using h6)
  rw [ha]
  simp only [hb]
  obtain ⟨g, hg, he⟩ := Option.map_eq_some_iff.1 h
  rw [hg]
  cases he
  rfl

theorem loadChannelsStream_complete (junk : ℝ) (mem : ℕ → (ℕ → ℝ) × (ℕ → ℝ)) (n : ℕ) : ∀ (i : ℕ) (f : RatFn) (s : Str)
    (g : RatFn), RatFn.loadChannels junk n i f s = some g →
    RatFn.loadChannelsStream junk mem n i f (some s) = some (some g) := by
  induction n with
  | zero => intro i f s g h; cases h; rfl
  | succ n ih =>
    intro i f s g h
    rw [RatFn.loadChannels] at h
    rw [RatFn.loadChannelsStream]
    cases hg : f.get junk i with
    | none => rw [hg] at h; cases h
    | some p =>
      obtain ⟨r, f'⟩ := p
      rw [hg] at h
      simp only at h ⊢
      cases hl : r.load junk s with
      | none => rw [hl] at h; cases h
      | some q =>
        obtain ⟨r', s'⟩ := q
        rw [hl] at h
        rw [Rat1.loadStream_complete junk _ _ r s r' s' hl]
        exact ih _ _ _ _ h

/-- C92: a file of a rational function from which nothing is missing is loaded independently of the content of the
    memory. -/
theorem rational_load_complete (junk : ℝ) (mem : ℕ → (ℕ → ℝ) × (ℕ → ℝ)) (f g : RatFn) (s : Str)
    (h : f.load junk s = some g) : f.loadStream junk mem s = some (some g) := by
  unfold RatFn.load at h
  unfold RatFn.loadStream
  split at h
  · cases h
  · rename_i lo hi s2 h1
    rw [h1]
    exact loadChannelsStream_complete junk mem _ _ _ _ _ h

/-! ### Files cut between two coefficients -/

theorem readCoeffsStream_failed (d : ℕ) (olds : List ℝ) : readCoeffsStream d olds none = (olds, none) := by
  induction olds with
  | nil => rfl
  | cons o os ih =>
    have : skipTokens d none = none := by cases d <;> rfl
    rw [readCoeffsStream, this]
    simp only [readDouble, ih]

theorem dropWhile_blank {ws : Str} (hw : Spaces ws) : ws.dropWhile isSpace = [] := by
  rw [List.dropWhile_eq_nil_iff]; exact hw

/-- only white space is left: the memory is unchanged -/
theorem readCoeffsStream_blank (d : ℕ) (olds : List ℝ) (ws : Str) (hw : Spaces ws) :
    (readCoeffsStream d olds (some ws)).1 = olds := by
  cases olds with
  | nil => rfl
  | cons o os =>
    cases d with
    | zero =>
      have hs : strtod ws = none := by
        have : strtod ws = strtod [] := by
          unfold strtod; rw [dropWhile_blank hw]; rfl
        rw [this, strtod_nil]
      have ha : ws.all isSpace = true := List.all_eq_true.2 hw
      rw [readCoeffsStream, skipTokens]
      simp only [readDouble, hs, ha, if_true, readCoeffsStream_failed]
    | succ d =>
      have h1 : (readWord ws).1 = [] := by unfold readWord; rw [dropWhile_blank hw]; rfl
      rw [readCoeffsStream, skipTokens, if_pos h1]
      simp only [readDouble, readCoeffsStream_failed]

theorem readCoeffsStream_append (d : ℕ) (l m : List ℝ) : ∀ st : Stream,
    readCoeffsStream d (l ++ m) st =
      ((readCoeffsStream d l st).1 ++ (readCoeffsStream d m (readCoeffsStream d l st).2).1,
        (readCoeffsStream d m (readCoeffsStream d l st).2).2) := by
  induction l with
  | nil => intro st; rfl
  | cons o os ih =>
    intro st
    rw [List.cons_append, readCoeffsStream, readCoeffsStream]
    simp only [ih, List.cons_append]

theorem readCoeffsStream_length (d : ℕ) (l : List ℝ) : ∀ st : Stream, (readCoeffsStream d l st).1.length = l.length := by
  induction l with
  | nil => intro st; rfl
  | cons o os ih => intro st; rw [readCoeffsStream]; simp [ih]

/-- The coefficients of a file in which only `l` was written: they are followed by the memory. -/
theorem readCoeffsStream_cut (fmt : ℝ → Decimal) (hf : PrintsDigits fmt) (d : ℕ) (l : List Coeff) (olds : List ℝ)
    (hl : l.length ≤ olds.length) (ws : Str) (hw : Spaces ws) :
    (readCoeffsStream d olds (some (ws ++ (l.map (saveCoeff fmt d)).flatten))).1 =
      l.map (fun c => printed fmt c.a) ++ olds.drop l.length := by
  obtain ⟨ws', h1, h2⟩ := readCoeffs_saved fmt hf d l ws [] hw
  simp only [List.append_nil] at h2
  have h3 := readCoeffsStream_complete d (olds.take l.length) _ _ _ (by rw [List.length_take, min_eq_left hl]; exact h2)
  conv_lhs => rw [← List.take_append_drop l.length olds]
  rw [readCoeffsStream_append, h3]
  simp only [readCoeffsStream_blank d _ ws' h1]

/-- The file of `r` when the writing was interrupted after `k` coefficients. -/
def Rat1.cutBody (fmt : ℝ → Decimal) (r : Rat1) (k : ℕ) : Str :=
  "#NP ".toList ++ showNat r.p.length ++ ['\n'] ++ "#NQ ".toList ++ showNat r.q.length ++ ['\n'] ++
  (((r.p ++ r.q).take k).map (saveCoeff fmt r.dimX)).flatten

theorem Rat1.cutBody_prefix (fmt : ℝ → Decimal) (r : Rat1) (k : ℕ) : ∃ u, r.saveBody fmt = r.cutBody fmt k ++ u := by
  refine ⟨(((r.p ++ r.q).drop k).map (saveCoeff fmt r.dimX)).flatten, ?_⟩
  unfold Rat1.saveBody Rat1.cutBody
  conv_lhs => rw [List.append_assoc, ← List.flatten_append, ← List.map_append, ← List.take_append_drop k (r.p ++ r.q),
    List.map_append, List.flatten_append]
  simp only [List.append_assoc]

theorem loadStream_tokens (junk : ℝ) (ma mb : ℕ → ℝ) (r0 : Rat1) : ∀ (t s1 s2 s3 s4 : Str) (np nq : ℕ) (r' : Rat1),
    readWord t = ("#NP".toList, s1) → readNat s1 = some (np, s2) →
    readWord s2 = ("#NQ".toList, s3) → readNat s3 = some (nq, s4) →
    (r0.resize junk np nq).update junk
        ((readCoeffsStream r0.dimX ((List.range np).map ma ++ (List.range nq).map mb) (some s4)).1.take np)
        ((readCoeffsStream r0.dimX ((List.range np).map ma ++ (List.range nq).map mb) (some s4)).1.drop np) = some r' →
    ∃ st, r0.loadStream junk ma mb (some t) = some (some (r', st)) := by
  intro t s1 s2 s3 s4 np nq r' g1 g2 g3 g4 g5
  rw [readCoeffsStream_append] at g5
  have hlen := readCoeffsStream_length r0.dimX ((List.range np).map ma) (some s4)
  simp only [List.length_map, List.length_range] at hlen
  rw [List.take_left' hlen, List.drop_left' hlen] at g5
  unfold Rat1.loadStream
  simp only [g1, ne_eq, not_true_eq_false, if_false, g2, g3, g4, g5]
  exact ⟨_, rfl⟩

theorem cut_shape (k1 k2 kp kq a b P : Str) (e1 : k1 = kp ++ [' ']) (e2 : k2 = kq ++ [' ']) :
    k1 ++ a ++ ['\n'] ++ k2 ++ b ++ ['\n'] ++ P = kp ++ (' ' :: (a ++ ('\n' :: (kq ++ (' ' :: (b ++ ('\n' :: P))))))) := by
  subst e1 e2
  simp only [List.append_assoc, List.cons_append, List.nil_append]

/-- What a channel contains after the load of a body cut after `k` coefficients. -/
theorem load_cut (junk : ℝ) (ma mb : ℕ → ℝ) (fmt : ℝ → Decimal) (hf : PrintsDigits fmt) (r0 r : Rat1)
    (hd : r0.dimX = r.dimX) (h0 : r0.Standard) (hq : r.q ≠ []) (k : ℕ) (hk : k ≤ (r.p ++ r.q).length)
    (ws : Str) (hw : Spaces ws) (v : List ℝ)
    (hv : v = ((r.getP ++ r.getQ).take k).map (printed fmt) ++
      ((List.range r.p.length).map ma ++ (List.range r.q.length).map mb).drop k) :
    ∃ r' st, r0.loadStream junk ma mb (some (ws ++ r.cutBody fmt k)) = some (some (r', st)) ∧
      r'.Standard ∧ r'.dimX = r.dimX ∧ r'.lo = r0.lo ∧ r'.hi = r0.hi ∧
      r'.getP = (v.take r.p.length).map (fun x => x / normalizer (v.drop r.p.length)) ∧
      r'.getQ = (v.drop r.p.length).map (fun x => x / normalizer (v.drop r.p.length)) := by
  have e1 : "#NP ".toList = "#NP".toList ++ [' '] := by decide
  have e2 : "#NQ ".toList = "#NQ".toList ++ [' '] := by decide
  have wp : IsWord "#NP".toList := literal_isWord _ (by decide) (by decide)
  have wq : IsWord "#NQ".toList := literal_isWord _ (by decide) (by decide)
  set P := (((r.p ++ r.q).take k).map (saveCoeff fmt r.dimX)).flatten with hP
  have sp : Spaces [' '] := by intro c hc; simp at hc; rw [hc]; decide
  have sn : Spaces ['\n'] := by intro c hc; simp at hc; rw [hc]; decide
  have et : r.cutBody fmt k = _ := cut_shape _ _ _ _ (showNat r.p.length) (showNat r.q.length) P e1 e2
  have hld := loadStream_tokens junk ma mb r0
  generalize "#NP".toList = kp at et wp hld
  generalize "#NQ".toList = kq at et wq hld
  have r1 := readWord_word ws kp (' ' :: (showNat r.p.length ++
      ('\n' :: (kq ++ (' ' :: (showNat r.q.length ++ ('\n' :: P)))))))  hw wp (spaceAhead_cons _ _ (by decide))
  have r2 := readNat_showNat [' '] ('\n' :: (kq ++ (' ' :: (showNat r.q.length ++ ('\n' :: P)))))
    r.p.length sp (noDigit_space _ _ (by decide))
  have r3 := readWord_word ['\n'] kq (' ' :: (showNat r.q.length ++ ('\n' :: P))) sn wq
      (spaceAhead_cons _ _ (by decide))
  have r4 := readNat_showNat [' '] ('\n' :: P) r.q.length sp (noDigit_space _ _ (by decide))
  have hlt : ((r.p ++ r.q).take k).length = k := by rw [List.length_take, min_eq_left hk]
  have r5 := readCoeffsStream_cut fmt hf r.dimX ((r.p ++ r.q).take k)
    ((List.range r.p.length).map ma ++ (List.range r.q.length).map mb) (by
      rw [hlt]; simpa using hk) ['\n'] sn
  have hv' : ((r.p ++ r.q).take k).map (fun c => printed fmt c.a) ++
      ((List.range r.p.length).map ma ++ (List.range r.q.length).map mb).drop ((r.p ++ r.q).take k).length = v := by
    rw [hlt, hv, Rat1.getP, Rat1.getQ, ← List.map_append, ← List.map_take, List.map_map]
    rfl
  rw [hv', ← hP] at r5
  have hvl : v.length = r.p.length + r.q.length := by
    rw [← hv', List.length_append, List.length_map, hlt, List.length_drop]
    simp only [List.length_append, List.length_map, List.length_range] at hk ⊢
    omega
  have hql : 0 < r.q.length := List.length_pos_iff.2 hq
  set A := v.take r.p.length with hA
  set B := v.drop r.p.length with hB
  have lA : A.length = r.p.length := by rw [hA, List.length_take]; omega
  have lB : B.length = r.q.length := by rw [hB, List.length_drop]; omega
  have hBn : B ≠ [] := by intro h; rw [h] at lB; simp at lB; omega
  obtain ⟨t1, t2, t3⟩ := resize_standard junk r0 h0 r.p.length r.q.length
  obtain ⟨d1, d2, d3⟩ := resize_dom junk r0 r.p.length r.q.length
  obtain ⟨r', u1, u2, u3, u4, u5, _, _⟩ := update_value junk (r0.resize junk r.p.length r.q.length) t1 A B
    hBn (by rw [t2, lA]) (by rw [t3, lB])
  have r5' : (readCoeffsStream r0.dimX ((List.range r.p.length).map ma ++ (List.range r.q.length).map mb)
      (some ('\n' :: P))).1 = v := by rw [hd]; exact r5
  obtain ⟨st, hst⟩ := hld (ws ++ r.cutBody fmt k) _ _ _ _ _ _ r' (by rw [et]; exact r1) r2 r3 r4
    (by rw [r5']; exact u1)
  refine ⟨r', st, hst, u2, by rw [u3, d1, hd], by rw [u4, d2], by rw [u5, d3], ?_, ?_⟩
  · rw [Rat1.update, if_neg hBn] at u1
    cases u1
    rw [show A.length = (r0.resize junk r.p.length r.q.length).p.length by rw [t2, lA], grow_self]
    unfold Rat1.getP
    rw [zip_coeffs _ _ (fun x => x / normalizer B) (by rw [t2, lA])]
  · rw [Rat1.update, if_neg hBn] at u1
    cases u1
    rw [show B.length = (r0.resize junk r.p.length r.q.length).q.length by rw [t3, lB], grow_self]
    unfold Rat1.getQ
    rw [zip_coeffs _ _ (fun x => x / normalizer B) (by rw [t3, lB])]

/-- C92, rational functions of one channel: whatever the number `k` of coefficients that were written when the program
    was interrupted, the file is loaded without an error, and the coefficients of the function are the `k` ones that
    were written, followed by what the memory contains (all divided by the first one of the denominator). -/
theorem interrupted_rational (junk : ℝ) (fmt : ℝ → Decimal) (hp : PrintsDigits fmt) (f g : RatFn) (r : Rat1)
    (hf : f.rs = [some r]) (hy : f.dimY = 1) (hr : r.dimX = f.dimX) (hq : r.q ≠ [])
    (hg : g.WellFormed) (hgx : g.dimX = f.dimX) (hgy : g.dimY = 1) (k : ℕ) (hk : k ≤ (r.p ++ r.q).length) :
    ∃ n ≤ (f.saveCall fmt).length, (k < (r.p ++ r.q).length → n < (f.saveCall fmt).length) ∧
      ∀ (mem : ℕ → (ℕ → ℝ) × (ℕ → ℝ)) (v : List ℝ),
        v = ((r.getP ++ r.getQ).take k).map (printed fmt) ++
          ((List.range r.p.length).map (mem 0).1 ++ (List.range r.q.length).map (mem 0).2).drop k →
        ∃ (g' : RatFn) (r' : Rat1), g.loadStream junk mem ((f.saveCall fmt).take n) = some (some g') ∧
          g'.rs = [some r'] ∧ r'.Standard ∧ r'.dimX = r.dimX ∧
          r'.getP = (v.take r.p.length).map (fun x => x / normalizer (v.drop r.p.length)) ∧
          r'.getQ = (v.drop r.p.length).map (fun x => x / normalizer (v.drop r.p.length)) := by
  obtain ⟨u, h1, h2⟩ := head_read fmt hp f (r.saveBody fmt ++ ['\n']) (by rw [hy, hf]; simp)
  obtain ⟨w, hw⟩ := r.cutBody_prefix fmt k
  refine ⟨(u ++ r.cutBody fmt k).length, ?_, fun _ => ?_, fun mem v hv => ?_⟩
  · rw [h1, hw]; simp only [List.length_append]; omega
  · rw [h1, hw]; simp only [List.length_append, List.length_singleton]; omega
  have hcut : (f.saveCall fmt).take (u ++ r.cutBody fmt k).length = u ++ r.cutBody fmt k := by
    rw [h1, hw, List.append_assoc (r.cutBody fmt k), ← List.append_assoc u]
    exact List.take_left
  obtain ⟨ws, hws, h3⟩ := h2 (r.cutBody fmt k)
  set g1 : RatFn := { g with lo := (List.range f.dimX).map fun k => printed fmt (arr f.lo k)
                             hi := (List.range f.dimX).map fun k => printed fmt (arr f.hi k) } with hg1
  obtain ⟨r0, f', k1, k2, k3, k4, k5, k6, k7, k8, k9, k10, k11⟩ :=
    get_wellFormed junk g1 ⟨hg.dim, hg.len, hg.chan⟩ 0 (by show 0 < g.dimY; omega)
  obtain ⟨r', st, m1, m2, m3, m4, m5, m6, m7⟩ := load_cut junk (mem 0).1 (mem 0).2 fmt hp r0 r
    (by rw [k3, hr]; exact hgx) k2 hq k hk ws hws v hv
  have hlen : g.rs.length = 1 := by rw [hg.len, hgy]
  obtain ⟨o, ho⟩ := List.length_eq_one_iff.1 hlen
  refine ⟨{ f' with rs := f'.rs.set 0 (some r') }, r', ?_, ?_, m2, m3, m6, m7⟩
  · have h3' : loadHead g.dimX (u ++ r.cutBody fmt k) = some (g1.lo, g1.hi, ws ++ r.cutBody fmt k) := by
      rw [hgx]; exact h3
    rw [hcut, RatFn.loadStream, h3']
    show RatFn.loadChannelsStream junk mem g.dimY 0 g1 _ = _
    rw [hgy, RatFn.loadChannelsStream, k1]
    simp only [m1, RatFn.loadChannelsStream]
  · show f'.rs.set 0 (some r') = _
    rw [k11]
    show (g.rs.set 0 (some r0)).set 0 (some r') = _
    rw [ho]; rfl

/-- C92 is false of the files of the rational functions: when the last coefficient of the denominator was not written,
    the file is loaded without an error, and this coefficient can be any number: it is what the memory contained, divided
    by the first one. -/
theorem interrupted_rational_corrupts (junk : ℝ) (fmt : ℝ → Decimal) (hp : PrintsDigits fmt) (f g : RatFn) (r : Rat1)
    (hf : f.rs = [some r]) (hy : f.dimY = 1) (hr : r.dimX = f.dimX) (b : ℝ) (bs : List ℝ) (last : ℝ)
    (hq : r.getQ = b :: bs ++ [last]) (hb : printed fmt b = 1)
    (hg : g.WellFormed) (hgx : g.dimX = f.dimX) (hgy : g.dimY = 1) :
    ∃ n < (f.saveCall fmt).length, ∀ x : ℝ, ∃ (mem : ℕ → (ℕ → ℝ) × (ℕ → ℝ)) (g' : RatFn) (r' : Rat1),
      g.loadStream junk mem ((f.saveCall fmt).take n) = some (some g') ∧ g'.rs = [some r'] ∧
      r'.getP = r.getP.map (printed fmt) ∧ r'.getQ = (b :: bs).map (printed fmt) ++ [x] := by
  have hql : r.q.length = bs.length + 2 := by
    have := congrArg List.length hq
    simpa [Rat1.getQ] using this
  have hpl : r.getP.length = r.p.length := by simp [Rat1.getP]
  have hk : r.p.length + (bs.length + 1) < (r.p ++ r.q).length := by rw [List.length_append, hql]; omega
  obtain ⟨n, -, h2, h3⟩ := interrupted_rational junk fmt hp f g r hf hy hr
    (by intro h; rw [h] at hql; simp at hql) hg hgx hgy _ hk.le
  refine ⟨n, h2 hk, fun x => ?_⟩
  have e1 : (r.getP ++ r.getQ).take (r.p.length + (bs.length + 1)) = r.getP ++ (b :: bs) := by
    rw [← hpl, List.take_length_add_append, hq]
    congr 1
    exact List.take_left' (by simp)
  have e2 : ((List.range r.p.length).map (fun _ => x) ++ (List.range r.q.length).map (fun _ => x)).drop
      (r.p.length + (bs.length + 1)) = [x] := by
    rw [← List.map_append, ← List.map_drop, List.map_const']
    have : ((List.range r.p.length ++ List.range r.q.length).drop (r.p.length + (bs.length + 1))).length = 1 := by
      simp only [List.length_drop, List.length_append, List.length_range, hql]; omega
    rw [this]; rfl
  obtain ⟨g', r', m1, m2, -, -, m5, m6⟩ := h3 (fun _ => (fun _ => x, fun _ => x))
    (r.getP.map (printed fmt) ++ ((b :: bs).map (printed fmt) ++ [x])) (by
      rw [e1, e2, List.map_append, List.append_assoc])
  rw [List.take_left' (by simp [Rat1.getP]), List.drop_left' (by simp [Rat1.getP])] at m5
  rw [List.drop_left' (by simp [Rat1.getP])] at m6
  have hn : normalizer ((b :: bs).map (printed fmt) ++ [x]) = 1 := by
    have : arr ((b :: bs).map (printed fmt) ++ [x]) 0 = 1 := by
      rw [List.map_cons, List.cons_append, hb]; rfl
    rw [normalizer, this]; norm_num
  refine ⟨_, g', r', m1, m2, ?_, ?_⟩
  · rw [m5, hn]; simp
  · rw [m6, hn]; simp

/-- The hypotheses are met: (2 + 3 u) / (1 + 2 u), saved without its last coefficient, is loaded as
    (2 + 3 u) / (1 + x u), whatever `x`. -/
example (junk : ℝ) : ∃ n < (RatFn.saveCall exampleFmt ⟨1, 1, 2, 2, [0], [1], [some exampleRat1]⟩).length, ∀ x : ℝ,
    ∃ (mem : ℕ → (ℕ → ℝ) × (ℕ → ℝ)) (g' : RatFn) (r' : Rat1),
      RatFn.loadStream junk mem ⟨1, 1, 5, 5, [], [], [none]⟩
        ((RatFn.saveCall exampleFmt ⟨1, 1, 2, 2, [0], [1], [some exampleRat1]⟩).take n) = some (some g') ∧
      g'.rs = [some r'] ∧ r'.getP = [2, 3] ∧ r'.getQ = [1, x] := by
  obtain ⟨e0, e1, e2, e3⟩ := exampleFmt_values
  obtain ⟨n, h1, h2⟩ := interrupted_rational_corrupts junk exampleFmt exampleFmt_digits
    ⟨1, 1, 2, 2, [0], [1], [some exampleRat1]⟩ ⟨1, 1, 5, 5, [], [], [none]⟩ exampleRat1 rfl rfl rfl 1 [] 2 rfl e1
    ⟨by norm_num, rfl, by intro k r h; match k with | 0 => cases h | k + 1 => cases h⟩ rfl rfl
  refine ⟨n, h1, fun x => ?_⟩
  obtain ⟨mem, g', r', m1, m2, m3, m4⟩ := h2 x
  refine ⟨mem, g', r', m1, m2, ?_, ?_⟩
  · rw [m3]; simp [Rat1.getP, exampleRat1, e2, e3]
  · rw [m4]; simp [e1]

end
end Alta
