import Verif.Props.Rational
import Verif.Props.Header
import Verif.Props.Binary
import Verif.Proofs.Decimal
import Mathlib.Data.List.TakeWhile
/-
Property C34: saving a rational function and loading it again.
-/
namespace Alta
noncomputable section

/-- the number read back from what is printed -/
def printed (fmt : ℝ → Decimal) (x : ℝ) : ℝ := (((fmt x).value : ℚ) : ℝ)

/-- every printed number has a digit -/
def PrintsDigits (fmt : ℝ → Decimal) : Prop := ∀ x, (fmt x).ip ≠ [] ∨ (fmt x).fp ≠ []

/-- only white space -/
def Spaces (s : Str) : Prop := ∀ c ∈ s, isSpace c = true

theorem readNat_showNat (ws rest : Str) (n : ℕ) (hw : Spaces ws) (hr : NoDigitAhead rest) :
    readNat (ws ++ (showNat n ++ rest)) = some (n, rest) := by
  have h1 := dropWhile_word ws (showNat n) rest hw (showNat_isWord n)
  have h2 := takeWhile_append_stop (p := isDigit) (showNat n) rest (showNat_all_digit n) hr
  unfold readNat
  simp only [h1, h2.1, h2.2, if_neg (showNat_ne_nil n), digitsVal_showNat]

theorem noDigit_space (c : Char) (r : Str) (hc : isSpace c = true) : NoDigitAhead (c :: r) := by
  intro c' r' h
  simp only [List.cons.injEq] at h
  obtain ⟨rfl, rfl⟩ := h
  revert hc
  simp only [isSpace, isDigit, Bool.or_eq_true, decide_eq_true_eq]
  rintro h
  rcases h with ((((rfl | rfl) | rfl) | rfl) | rfl) | rfl <;> decide

theorem numberEnds_space (c : Char) (r : Str) (hc : isSpace c = true) : NumberEnds (c :: r) := by
  intro c' r' h
  refine ⟨noDigit_space c r hc c' r' h, ?_⟩
  simp only [List.cons.injEq] at h
  obtain ⟨rfl, rfl⟩ := h
  revert hc
  simp only [isSpace, Bool.or_eq_true, decide_eq_true_eq]
  rintro h
  rcases h with ((((rfl | rfl) | rfl) | rfl) | rfl) | rfl <;> decide

theorem spaceAhead_cons (c : Char) (r : Str) (hc : isSpace c = true) : SpaceAhead (c :: r) := by
  intro c' r' h
  simp only [List.cons.injEq] at h
  rw [← h.1]; exact hc

/-- the words of the exponents are skipped -/
theorem skipWords_degs (es : List ℕ) : ∀ (ws rest : Str), Spaces ws →
    ∃ ws', Spaces ws' ∧ skipWords es.length (ws ++ ((es.map fun e => showNat e ++ ['\t']).flatten ++ rest)) =
      ws' ++ rest := by
  induction es with
  | nil => intro ws rest hw; exact ⟨ws, hw, rfl⟩
  | cons e es ih =>
    intro ws rest hw
    have h1 : readWord (ws ++ (showNat e ++ (['\t'] ++ ((es.map fun e => showNat e ++ ['\t']).flatten ++ rest)))) =
        (showNat e, ['\t'] ++ ((es.map fun e => showNat e ++ ['\t']).flatten ++ rest)) :=
      readWord_word ws (showNat e) _ hw (showNat_isWord e) (spaceAhead_cons _ _ (by decide))
    obtain ⟨ws', h2, h3⟩ := ih ['\t'] rest (by intro c hc; simp at hc; rw [hc]; decide)
    refine ⟨ws', h2, ?_⟩
    rw [List.length_cons, skipWords, List.map_cons, List.flatten_cons]
    have : ws ++ (showNat e ++ ['\t'] ++ (es.map fun e => showNat e ++ ['\t']).flatten ++ rest) =
        ws ++ (showNat e ++ (['\t'] ++ ((es.map fun e => showNat e ++ ['\t']).flatten ++ rest))) := by
      simp only [List.append_assoc]
    rw [this, h1, h3]

theorem readCoeffs_saved (fmt : ℝ → Decimal) (hf : PrintsDigits fmt) (dimX : ℕ) (l : List Coeff) :
    ∀ (ws rest : Str), Spaces ws → ∃ ws', Spaces ws' ∧
      readCoeffs dimX l.length (ws ++ ((l.map (saveCoeff fmt dimX)).flatten ++ rest)) =
        some (l.map fun c => printed fmt c.a, ws' ++ rest) := by
  induction l with
  | nil => intro ws rest hw; exact ⟨ws, hw, rfl⟩
  | cons c l ih =>
    intro ws rest hw
    obtain ⟨ws1, h1, h2⟩ := skipWords_degs ((List.range dimX).map fun j => c.deg.getD j 0) ws
      ((fmt c.a).text ++ ('\n' :: ((l.map (saveCoeff fmt dimX)).flatten ++ rest))) hw
    obtain ⟨ws2, h3, h4⟩ := ih ['\n'] rest (by intro c hc; simp at hc; rw [hc]; decide)
    refine ⟨ws2, h3, ?_⟩
    have h5 := strtod_text ws1 ('\n' :: ((l.map (saveCoeff fmt dimX)).flatten ++ rest)) (fmt c.a) h1 (hf c.a)
      (numberEnds_space _ _ (by decide))
    rw [← h2] at h5
    simp only [List.length_map, List.length_range, List.map_map] at h5
    have e : ws ++ (((c :: l).map (saveCoeff fmt dimX)).flatten ++ rest) =
        ws ++ (((List.range dimX).map ((fun e => showNat e ++ ['\t']) ∘ fun j => c.deg.getD j 0)).flatten ++
          ((fmt c.a).text ++ ('\n' :: ((l.map (saveCoeff fmt dimX)).flatten ++ rest)))) := by
      simp only [List.map_cons, List.flatten_cons, saveCoeff, List.append_assoc, List.cons_append, List.nil_append,
        Function.comp_def]
    rw [List.length_cons, readCoeffs, e, h5]
    have h4' : readCoeffs dimX l.length ('\n' :: ((l.map (saveCoeff fmt dimX)).flatten ++ rest)) =
      some (l.map fun c => printed fmt c.a, ws2 ++ rest) := h4
    simp only [h4', List.map_cons]
    rfl

theorem body_shape (k1 k2 kp kq a b P Q rest : Str) (e1 : k1 = kp ++ [' ']) (e2 : k2 = kq ++ [' ']) :
    (k1 ++ a ++ ['\n'] ++ k2 ++ b ++ ['\n'] ++ P ++ Q) ++ rest =
      kp ++ (' ' :: (a ++ ('\n' :: (kq ++ (' ' :: (b ++ ('\n' :: (P ++ (Q ++ rest))))))))) := by
  subst e1 e2
  simp only [List.append_assoc, List.cons_append, List.nil_append]

theorem saveBody_eq (fmt : ℝ → Decimal) (r : Rat1) (kp kq : Str) (e1 : "#NP ".toList = kp ++ [' '])
    (e2 : "#NQ ".toList = kq ++ [' ']) (rest : Str) : r.saveBody fmt ++ rest = kp ++ (' ' :: (showNat r.p.length ++
      ('\n' :: (kq ++ (' ' :: (showNat r.q.length ++ ('\n' :: ((r.p.map (saveCoeff fmt r.dimX)).flatten ++
        ((r.q.map (saveCoeff fmt r.dimX)).flatten ++ rest))))))))) :=
  body_shape _ _ kp kq _ _ _ _ rest e1 e2

theorem load_tokens (junk : ℝ) (r0 : Rat1) : ∀ (t s1 s2 s3 s4 s5 s6 : Str) (np nq : ℕ) (a b : List ℝ),
    readWord t = ("#NP".toList, s1) → readNat s1 = some (np, s2) →
    readWord s2 = ("#NQ".toList, s3) → readNat s3 = some (nq, s4) → readCoeffs r0.dimX np s4 = some (a, s5) →
    readCoeffs r0.dimX nq s5 = some (b, s6) →
    r0.load junk t = ((r0.resize junk np nq).update junk a b).map fun r' => (r', s6) := by
  intro t s1 s2 s3 s4 s5 s6 np nq a b g1 g2 g3 g4 g5 g6
  unfold Rat1.load
  simp only [g1, ne_eq, not_true_eq_false, if_false, g2, g3, g4, g5, g6]

/-- what a channel contains after loading the body of `r` -/
theorem load_saved (junk : ℝ) (fmt : ℝ → Decimal) (hf : PrintsDigits fmt) (r0 r : Rat1) (hd : r0.dimX = r.dimX)
    (h0 : r0.Standard) (hq : r.q ≠ []) (ws rest : Str) (hw : Spaces ws) :
    ∃ r' ws', Spaces ws' ∧ r0.load junk (ws ++ (r.saveBody fmt ++ rest)) = some (r', ws' ++ rest) ∧
      r'.Standard ∧ r'.dimX = r.dimX ∧ r'.lo = r0.lo ∧ r'.hi = r0.hi ∧
      r'.getP = r.getP.map (fun x => printed fmt x / normalizer (r.getQ.map (printed fmt))) ∧
      r'.getQ = r.getQ.map (fun x => printed fmt x / normalizer (r.getQ.map (printed fmt))) := by
  have e1 : "#NP ".toList = "#NP".toList ++ [' '] := by decide
  have e2 : "#NQ ".toList = "#NQ".toList ++ [' '] := by decide
  have wp : IsWord "#NP".toList := literal_isWord _ (by decide) (by decide)
  have wq : IsWord "#NQ".toList := literal_isWord _ (by decide) (by decide)
  set P := (r.p.map (saveCoeff fmt r.dimX)).flatten with hP
  set Q := (r.q.map (saveCoeff fmt r.dimX)).flatten with hQ
  have sp : Spaces [' '] := by intro c hc; simp at hc; rw [hc]; decide
  have sn : Spaces ['\n'] := by intro c hc; simp at hc; rw [hc]; decide
  have et := saveBody_eq fmt r _ _ e1 e2 rest
  rw [← hP, ← hQ] at et
  have hld := load_tokens junk r0
  generalize "#NP".toList = kp at et wp hld
  generalize "#NQ".toList = kq at et wq hld
  have r1 := readWord_word ws kp (' ' :: (showNat r.p.length ++
      ('\n' :: (kq ++ (' ' :: (showNat r.q.length ++ ('\n' :: (P ++ (Q ++ rest))))))))) hw wp
      (spaceAhead_cons _ _ (by decide))
  have r2 := readNat_showNat [' '] ('\n' :: (kq ++ (' ' :: (showNat r.q.length ++ ('\n' :: (P ++ (Q ++ rest)))))))
    r.p.length sp (noDigit_space _ _ (by decide))
  have r3 := readWord_word ['\n'] kq (' ' :: (showNat r.q.length ++ ('\n' :: (P ++ (Q ++ rest))))) sn wq
      (spaceAhead_cons _ _ (by decide))
  have r4 := readNat_showNat [' '] ('\n' :: (P ++ (Q ++ rest))) r.q.length sp (noDigit_space _ _ (by decide))
  obtain ⟨w1, s1, r5⟩ := readCoeffs_saved fmt hf r.dimX r.p ['\n'] (Q ++ rest) sn
  obtain ⟨w2, s2, r6⟩ := readCoeffs_saved fmt hf r.dimX r.q w1 rest s1
  rw [← hP] at r5
  rw [← hQ] at r6
  obtain ⟨t1, t2, t3⟩ := resize_standard junk r0 h0 r.p.length r.q.length
  obtain ⟨d1, d2, d3⟩ := resize_dom junk r0 r.p.length r.q.length
  set A := r.p.map fun c => printed fmt c.a with hA
  set B := r.q.map fun c => printed fmt c.a with hB
  have hAe : A = r.getP.map (printed fmt) := by rw [hA, Rat1.getP, List.map_map]; rfl
  have hBe : B = r.getQ.map (printed fmt) := by rw [hB, Rat1.getQ, List.map_map]; rfl
  obtain ⟨r', u1, u2, u3, u4, u5, _, _⟩ := update_value junk (r0.resize junk r.p.length r.q.length) t1 A B
    (by simpa [hB] using hq) (by rw [t2]; simp [hA]) (by rw [t3]; simp [hB])
  refine ⟨r', w2, s2, ?_, u2, by rw [u3, d1, hd], by rw [u4, d2], by rw [u5, d3], ?_, ?_⟩
  · rw [et]
    rw [hld _ _ _ _ _ _ _ _ _ _ _ r1 r2 r3 r4 (by rw [hd]; exact r5) (by rw [hd]; exact r6), u1, Option.map_some]
  · rw [Rat1.update, if_neg (by simpa [hB] using hq)] at u1
    cases u1
    rw [show A.length = (r0.resize junk r.p.length r.q.length).p.length by rw [t2]; simp [hA], grow_self]
    unfold Rat1.getP
    rw [zip_coeffs _ _ (fun x => x / normalizer B) (by rw [t2]; simp [hA]), hA, ← hBe, List.map_map, List.map_map]
    rfl
  · rw [Rat1.update, if_neg (by simpa [hB] using hq)] at u1
    cases u1
    rw [show B.length = (r0.resize junk r.p.length r.q.length).q.length by rw [t3]; simp [hB], grow_self]
    unfold Rat1.getQ
    rw [zip_coeffs _ _ (fun x => x / normalizer B) (by rw [t3]; simp [hB])]
    conv_rhs => rw [show r.q.map Coeff.a = r.getQ from rfl, ← hBe]
    rw [hB, Rat1.getQ, List.map_map, List.map_map]
    rfl

/-! ### All the channels -/

/-- The channels of a function agree with its dimensions. -/
structure RatFn.WellFormed (f : RatFn) : Prop where
  dim : 1 ≤ f.dimX
  len : f.rs.length = f.dimY
  chan : ∀ (k : ℕ) (r : Rat1), f.rs[k]? = some (some r) → r.Standard ∧ r.dimX = f.dimX

/-- The domain of the channel `k`: its own if it is allocated, otherwise the one it will get. -/
def RatFn.domainOf (f : RatFn) (k : ℕ) : List ℝ × List ℝ :=
  match (f.rs[k]?).join with
  | some r => (r.lo, r.hi)
  | none => inflate f.lo f.hi

/-- `r'` has the coefficients of `r`, printed and divided by a common factor, on the domain `d`. -/
structure ReadFrom (fmt : ℝ → Decimal) (r r' : Rat1) (d : List ℝ × List ℝ) : Prop where
  standard : r'.Standard
  dimX : r'.dimX = r.dimX
  lo : r'.lo = d.1
  hi : r'.hi = d.2
  p : r'.getP = r.getP.map (fun x => printed fmt x / normalizer (r.getQ.map (printed fmt)))
  q : r'.getQ = r.getQ.map (fun x => printed fmt x / normalizer (r.getQ.map (printed fmt)))

/-- `get(i)` on a well formed function -/
theorem get_wellFormed (junk : ℝ) (f : RatFn) (hf : f.WellFormed) (i : ℕ) (hi : i < f.dimY) :
    ∃ r f', f.get junk i = some (r, f') ∧ r.Standard ∧ r.dimX = f.dimX ∧ (r.lo, r.hi) = f.domainOf i ∧
      f'.dimX = f.dimX ∧ f'.dimY = f.dimY ∧ f'.np = f.np ∧ f'.nq = f.nq ∧ f'.lo = f.lo ∧ f'.hi = f.hi ∧
      f'.rs = f.rs.set i (some r) := by
  have hl : i < f.rs.length := by rw [hf.len]; exact hi
  unfold RatFn.get RatFn.domainOf
  rw [if_pos hi, List.getElem?_eq_getElem hl]
  cases hr : f.rs[i] with
  | some r =>
    obtain ⟨h1, h2⟩ := hf.chan i r (by rw [List.getElem?_eq_getElem hl, hr])
    refine ⟨r, f, rfl, h1, h2, rfl, rfl, rfl, rfl, rfl, rfl, rfl, ?_⟩
    rw [← hr, List.set_getElem_self]
  | none =>
    obtain ⟨d1, d2, d3⟩ := resize_dom junk ⟨f.dimX, [], [], (inflate f.lo f.hi).1, (inflate f.lo f.hi).2⟩ f.np f.nq
    refine ⟨_, _, rfl, (mkRat1_standard junk f.dimX f.np f.nq _ _ hf.dim).1, d1, ?_, rfl, rfl, rfl, rfl, rfl, rfl, rfl⟩
    exact Prod.ext d2 d3

theorem set_wellFormed (f : RatFn) (hf : f.WellFormed) (i : ℕ) (r : Rat1) (h : r.Standard) (hd : r.dimX = f.dimX) :
    RatFn.WellFormed { f with rs := f.rs.set i (some r) } := by
  refine ⟨hf.dim, by simpa using hf.len, fun k r' hk => ?_⟩
  simp only [List.getElem?_set] at hk
  split at hk
  · split at hk
    · cases hk; exact ⟨h, hd⟩
    · cases hk
  · exact hf.chan k r' hk

theorem loadChannels_saved (junk : ℝ) (fmt : ℝ → Decimal) (hp : PrintsDigits fmt) (L : List Rat1) :
    ∀ (i : ℕ) (f : RatFn) (ws rest : Str), f.WellFormed → i + L.length ≤ f.dimY →
      (∀ r ∈ L, r.dimX = f.dimX ∧ r.q ≠ []) → Spaces ws →
      ∃ f' ws', Spaces ws' ∧ (∀ m, RatFn.loadChannels junk (L.length + m) i f
          (ws ++ ((L.map fun r => r.saveBody fmt ++ ['\n']).flatten ++ rest)) =
            RatFn.loadChannels junk m (i + L.length) f' (ws' ++ rest)) ∧
        f'.WellFormed ∧ f'.dimX = f.dimX ∧ f'.dimY = f.dimY ∧ f'.lo = f.lo ∧ f'.hi = f.hi ∧
        (∀ k, k < i ∨ i + L.length ≤ k → f'.rs[k]? = f.rs[k]?) ∧
        (∀ k r, L[k]? = some r → ∃ r', f'.rs[i + k]? = some (some r') ∧ ReadFrom fmt r r' (f.domainOf (i + k))) := by
  induction L with
  | nil =>
    intro i f ws rest hf _ _ _
    exact ⟨f, ws, by assumption, fun m => by simp, hf, rfl, rfl, rfl, rfl, fun _ _ => rfl, fun k r h => by simp at h⟩
  | cons c L ih =>
    intro i f ws rest hf hi hL hw
    rw [List.length_cons] at hi
    obtain ⟨r, f1, g1, g2, g3, g4, g5, g6, g7, g8, g9, g10, g11⟩ := get_wellFormed junk f hf i (by omega)
    obtain ⟨c1, c2⟩ := hL c (by simp)
    obtain ⟨r', ws', l1, l2, l3, l4, l5, l6, l7, l8⟩ := load_saved junk fmt hp r c (by rw [g3, c1]) g2 c2 ws
      (['\n'] ++ ((L.map fun r => r.saveBody fmt ++ ['\n']).flatten ++ rest)) hw
    have hset : ({ f1 with rs := f1.rs.set i (some r') } : RatFn) = { f with rs := f.rs.set i (some r') } := by
      cases f1; cases f; simp_all
    have hw' := set_wellFormed f hf i r' l3 (by rw [l4, c1])
    obtain ⟨f', ws2, k0, k1, k2, k3, k4, k5, k6, k7, k8⟩ := ih (i + 1) { f with rs := f.rs.set i (some r') } (ws' ++ ['\n']) rest hw'
      (by simp only; omega) (fun r hr => hL r (by simp [hr])) (by
        intro c hc; rcases List.mem_append.1 hc with h | h
        · exact l1 c h
        · simp at h; rw [h]; decide)
    refine ⟨f', ws2, k0, ?_, k2, k3, k4, k5, k6, ?_, ?_⟩
    · intro m
      have k1 := k1 m
      rw [List.length_cons, show L.length + 1 + m = (L.length + m) + 1 by omega, RatFn.loadChannels, g1]
      simp only [List.map_cons, List.flatten_cons, List.append_assoc]
      rw [l2]
      simp only [List.append_assoc, hset] at k1 ⊢
      rw [show i + (L.length + 1) = i + 1 + L.length by omega]
      exact k1
    · intro k hk
      rw [List.length_cons] at hk
      rw [k7 k (by omega)]
      simp only [List.getElem?_set]
      rw [if_neg (by omega)]
    · intro k rr hk
      cases k with
      | zero =>
        simp only [List.getElem?_cons_zero, Option.some.injEq] at hk
        subst hk
        refine ⟨r', ?_, l3, l4, ?_, ?_, l7, l8⟩
        · rw [Nat.add_zero, k7 i (by omega)]
          simp only [List.getElem?_set, if_true]
          rw [if_pos (by rw [hf.len]; omega)]
        · rw [l5, Nat.add_zero, ← g4]
        · rw [l6, Nat.add_zero, ← g4]
      | succ k =>
        simp only [List.getElem?_cons_succ] at hk
        obtain ⟨r2, m1, m2⟩ := k8 k rr hk
        refine ⟨r2, by rw [← m1]; congr 1; omega, ?_⟩
        have : ({ f with rs := f.rs.set i (some r') } : RatFn).domainOf (i + 1 + k) = f.domainOf (i + (k + 1)) := by
          unfold RatFn.domainOf
          simp only [List.getElem?_set]
          rw [if_neg (by omega), show i + 1 + k = i + (k + 1) by omega]
        rw [← this]
        exact m2

theorem readVec_saved (fmt : ℝ → Decimal) (hp : PrintsDigits fmt) (l : List ℝ) : ∀ (ws rest : Str), Spaces ws →
    ∃ ws', Spaces ws' ∧ readVec l.length (ws ++ ((l.map fun x => (fmt x).text ++ [' ']).flatten ++ rest)) =
      some (l.map (printed fmt), ws' ++ rest) := by
  induction l with
  | nil => intro ws rest hw; exact ⟨ws, hw, rfl⟩
  | cons x l ih =>
    intro ws rest hw
    obtain ⟨ws', h1, h2⟩ := ih [' '] rest (by intro c hc; simp at hc; rw [hc]; decide)
    refine ⟨ws', h1, ?_⟩
    have h5 := strtod_text ws (' ' :: ((l.map fun x => (fmt x).text ++ [' ']).flatten ++ rest)) (fmt x) hw (hp x)
      (numberEnds_space _ _ (by decide))
    have e : ws ++ (((x :: l).map fun x => (fmt x).text ++ [' ']).flatten ++ rest) =
      ws ++ ((fmt x).text ++ (' ' :: ((l.map fun x => (fmt x).text ++ [' ']).flatten ++ rest))) := by simp
    rw [List.length_cons, readVec, e, h5]
    have h2' : readVec l.length (' ' :: ((l.map fun x => (fmt x).text ++ [' ']).flatten ++ rest)) =
      some (l.map (printed fmt), ws' ++ rest) := h2
    simp only [h2', List.map_cons]
    rfl

theorem file_tokens (n : ℕ) : ∀ (t t0 s1 s2 s3 s4 s5 s6 : Str) (lo hi : List ℝ),
    skipToHash t = some t0 → readWord t0 = ("#FUNC".toList, s1) → readWord s1 = ("rational_function".toList, s2) →
    readWord s2 = ("#MIN".toList, s3) → readVec n s3 = some (lo, s4) → readWord s4 = ("#MAX".toList, s5) →
    readVec n s5 = some (hi, s6) → loadHead n t = some (lo, hi, s6) := by
  intro t t0 s1 s2 s3 s4 s5 s6 lo hi g0 g1 g2 g3 g4 g5 g6
  unfold loadHead
  simp only [g0, g1, ne_eq, not_true_eq_false, if_false, g2, g3, g4, g5, g6]

theorem call_shape (k1 k2 k3 f n m x a b C : Str) (e1 : k1 = f ++ (' ' :: (n ++ ['\n']))) (e2 : k2 = m ++ [' '])
    (e3 : k3 = x ++ [' ']) : k1 ++ k2 ++ (a ++ ['\n']) ++ k3 ++ (b ++ ['\n']) ++ C =
      f ++ (' ' :: (n ++ ('\n' :: (m ++ (' ' :: (a ++ ('\n' :: (x ++ (' ' :: (b ++ ('\n' :: C))))))))))) := by
  subst e1 e2 e3
  simp only [List.append_assoc, List.cons_append, List.nil_append]

theorem saveCall_eq (fmt : ℝ → Decimal) (h : RatFn) (f n m x : Str)
    (e1 : "#FUNC rational_function\n".toList = f ++ (' ' :: (n ++ ['\n']))) (e2 : "#MIN ".toList = m ++ [' '])
    (e3 : "#MAX ".toList = x ++ [' ']) (C : Str) (hC : C = ((List.range h.dimY).map fun k => match (h.rs[k]?).join with
        | some r => r.saveBody fmt ++ ['\n']
        | none => []).flatten) : h.saveCall fmt =
      f ++ (' ' :: (n ++ ('\n' :: (m ++ (' ' :: (((List.range h.dimX).map fun k => (fmt (arr h.lo k)).text ++ [' ']).flatten ++
        ('\n' :: (x ++ (' ' :: (((List.range h.dimX).map fun k => (fmt (arr h.hi k)).text ++ [' ']).flatten ++ ('\n' :: C))))))))))) := by
  subst hC
  exact call_shape _ _ _ f n m x _ _ _ e1 e2 e3

/-- the bodies of the allocated channels -/
theorem bodies_eq (fmt : ℝ → Decimal) (rs : List (Option Rat1)) :
    ((List.range rs.length).map fun k => match (rs[k]?).join with
        | some r => r.saveBody fmt ++ ['\n']
        | none => []).flatten = ((rs.filterMap id).map fun r => r.saveBody fmt ++ ['\n']).flatten := by
  induction rs with
  | nil => rfl
  | cons o rs ih =>
    rw [List.length_cons, List.range_succ_eq_map, List.map_cons, List.flatten_cons, List.map_map]
    have : ((List.range rs.length).map ((fun k => match ((o :: rs)[k]?).join with
        | some r => r.saveBody fmt ++ ['\n']
        | none => []) ∘ Nat.succ)).flatten = ((rs.filterMap id).map fun r => r.saveBody fmt ++ ['\n']).flatten := by
      rw [← ih]; rfl
    rw [this]
    cases o with
    | none => rfl
    | some r => rfl

theorem skipToHash_hash (s : Str) : skipToHash ('#' :: s) = some ('#' :: s) := by
  unfold skipToHash; rfl

/-- the head of the file is read, whatever the text `C` that follows the bounds -/
theorem head_read (fmt : ℝ → Decimal) (hp : PrintsDigits fmt) (f : RatFn) (C0 : Str)
    (hC : C0 = ((List.range f.dimY).map fun k => match (f.rs[k]?).join with
        | some r => r.saveBody fmt ++ ['\n']
        | none => []).flatten) : ∃ u, f.saveCall fmt = u ++ C0 ∧ ∀ C, ∃ ws, Spaces ws ∧ loadHead f.dimX (u ++ C) =
      some ((List.range f.dimX).map fun k => printed fmt (arr f.lo k),
        (List.range f.dimX).map fun k => printed fmt (arr f.hi k), ws ++ C) := by
  have e1 : "#FUNC rational_function\n".toList = "#FUNC".toList ++ (' ' :: ("rational_function".toList ++ ['\n'])) := by
    decide
  have e2 : "#MIN ".toList = "#MIN".toList ++ [' '] := by decide
  have e3 : "#MAX ".toList = "#MAX".toList ++ [' '] := by decide
  have w1 : IsWord "#FUNC".toList := literal_isWord _ (by decide) (by decide)
  have w2 : IsWord "rational_function".toList := literal_isWord _ (by decide) (by decide)
  have w3 : IsWord "#MIN".toList := literal_isWord _ (by decide) (by decide)
  have w4 : IsWord "#MAX".toList := literal_isWord _ (by decide) (by decide)
  have hh : ∃ r, "#FUNC".toList = '#' :: r := ⟨['F', 'U', 'N', 'C'], by decide⟩
  have et := saveCall_eq fmt f _ _ _ _ e1 e2 e3 C0 hC
  have hld := file_tokens f.dimX
  generalize "#FUNC".toList = k1 at et w1 hld hh
  generalize "rational_function".toList = k2 at et w2 hld
  generalize "#MIN".toList = k3 at et w3 hld
  generalize "#MAX".toList = k4 at et w4 hld
  have sp : Spaces [' '] := by intro c hc; simp at hc; rw [hc]; decide
  have sn : Spaces ['\n'] := by intro c hc; simp at hc; rw [hc]; decide
  have lo := readVec_saved fmt hp ((List.range f.dimX).map fun k => arr f.lo k) [' ']
  have hi := readVec_saved fmt hp ((List.range f.dimX).map fun k => arr f.hi k) [' ']
  simp only [List.map_map, Function.comp_def, List.length_map, List.length_range] at lo hi
  generalize ((List.range f.dimX).map fun k => (fmt (arr f.lo k)).text ++ [' ']).flatten = A at et lo
  generalize ((List.range f.dimX).map fun k => (fmt (arr f.hi k)).text ++ [' ']).flatten = B at et hi
  refine ⟨k1 ++ (' ' :: (k2 ++ ('\n' :: (k3 ++ (' ' :: (A ++ ('\n' :: (k4 ++ (' ' :: (B ++ ['\n'])))))))))), ?_, fun C => ?_⟩
  · rw [et]
    simp only [List.append_assoc, List.cons_append, List.nil_append]
  obtain ⟨wa, sa, ra⟩ := lo ('\n' :: (k4 ++ (' ' :: (B ++ ('\n' :: C))))) sp
  obtain ⟨wb, sb, rb⟩ := hi ('\n' :: C) sp
  obtain ⟨kt, hkt⟩ := hh
  have q0 : skipToHash (k1 ++ (' ' :: (k2 ++ ('\n' :: (k3 ++ (' ' :: (A ++ ('\n' :: (k4 ++ (' ' :: (B ++ ('\n' :: C)))))))))))) =
      some (k1 ++ (' ' :: (k2 ++ ('\n' :: (k3 ++ (' ' :: (A ++ ('\n' :: (k4 ++ (' ' :: (B ++ ('\n' :: C)))))))))))) := by
    rw [hkt]; exact skipToHash_hash _
  have q1 := readWord_word [] k1 (' ' :: (k2 ++ ('\n' :: (k3 ++ (' ' :: (A ++ ('\n' :: (k4 ++ (' ' :: (B ++ ('\n' :: C)))))))))))
    (by simp) w1 (spaceAhead_cons _ _ (by decide))
  have q2 := readWord_word [' '] k2 ('\n' :: (k3 ++ (' ' :: (A ++ ('\n' :: (k4 ++ (' ' :: (B ++ ('\n' :: C)))))))))
    sp w2 (spaceAhead_cons _ _ (by decide))
  have q3 := readWord_word ['\n'] k3 (' ' :: (A ++ ('\n' :: (k4 ++ (' ' :: (B ++ ('\n' :: C)))))))
    sn w3 (spaceAhead_cons _ _ (by decide))
  have q4 := readWord_word (wa ++ ['\n']) k4 (' ' :: (B ++ ('\n' :: C)))
    (by intro c hc; rcases List.mem_append.1 hc with h | h
        · exact sa c h
        · exact sn c h) w4 (spaceAhead_cons _ _ (by decide))
  refine ⟨wb ++ ['\n'], ?_, ?_⟩
  · intro c hc
    rcases List.mem_append.1 hc with h | h
    · exact sb c h
    · exact sn c h
  · rw [List.nil_append] at q1
    rw [List.append_assoc] at q4
    have hsplit : k1 ++ (' ' :: (k2 ++ ('\n' :: (k3 ++ (' ' :: (A ++ ('\n' :: (k4 ++ (' ' :: (B ++ ['\n'])))))))))) ++ C =
        k1 ++ (' ' :: (k2 ++ ('\n' :: (k3 ++ (' ' :: (A ++ ('\n' :: (k4 ++ (' ' :: (B ++ ('\n' :: C))))))))))) := by
      simp only [List.append_assoc, List.cons_append, List.nil_append]
    rw [hsplit, hld _ _ _ _ _ _ _ _ _ _ q0 q1 q2 q3 ra q4 rb]
    rw [List.append_assoc]
    rfl

/-- the head of the file is read -/
theorem load_head (junk : ℝ) (fmt : ℝ → Decimal) (hp : PrintsDigits fmt) (f g : RatFn) (hx : g.dimX = f.dimX)
    (hlen : f.rs.length = f.dimY) (rest : Str) : ∃ ws, Spaces ws ∧ g.load junk (f.saveCall fmt ++ rest) =
      RatFn.loadChannels junk g.dimY 0
        { g with lo := (List.range f.dimX).map fun k => printed fmt (arr f.lo k)
                 hi := (List.range f.dimX).map fun k => printed fmt (arr f.hi k) }
        (ws ++ (((f.rs.filterMap id).map fun r => r.saveBody fmt ++ ['\n']).flatten ++ rest)) := by
  have hC := bodies_eq fmt f.rs
  rw [hlen] at hC
  obtain ⟨u, h1, h2⟩ := head_read fmt hp f _ hC.symm
  obtain ⟨ws, h3, h4⟩ := h2 (((f.rs.filterMap id).map fun r => r.saveBody fmt ++ ['\n']).flatten ++ rest)
  refine ⟨ws, h3, ?_⟩
  rw [h1, List.append_assoc, RatFn.load, hx, h4]

/-- C34: what is loaded from the file written for `f`, whose channels are all allocated
    (whatever follows it). -/
theorem rational_file_round_trip (junk : ℝ) (fmt : ℝ → Decimal) (hp : PrintsDigits fmt) (f g : RatFn)
    (cs : List Rat1) (hf : f.rs = cs.map some) (hl : cs.length = f.dimY)
    (hc : ∀ r ∈ cs, r.dimX = f.dimX ∧ r.q ≠ [])
    (hg : g.WellFormed) (hx : g.dimX = f.dimX) (hy : g.dimY = f.dimY) (rest : Str) :
    ∃ g', g.load junk (f.saveCall fmt ++ rest) = some g' ∧ g'.WellFormed ∧ g'.dimX = f.dimX ∧ g'.dimY = f.dimY ∧
      g'.lo = (List.range f.dimX).map (fun k => printed fmt (arr f.lo k)) ∧
      g'.hi = (List.range f.dimX).map (fun k => printed fmt (arr f.hi k)) ∧
      ∀ (k : ℕ) (r : Rat1), cs[k]? = some r → ∃ r', g'.rs[k]? = some (some r') ∧ r'.p.length = r.p.length ∧
        r'.q.length = r.q.length ∧ ReadFrom fmt r r' (match (g.rs[k]?).join with
          | some old => (old.lo, old.hi)
          | none => inflate g'.lo g'.hi) := by
  obtain ⟨ws, h1, h2⟩ := load_head junk fmt hp f g hx (by rw [hf, List.length_map, hl]) rest
  have hfm : f.rs.filterMap id = cs := by rw [hf]; simp
  rw [hfm] at h2
  obtain ⟨g', ws', i0, i1, i2, i3, i4, i5, i6, _, i8⟩ := loadChannels_saved junk fmt hp cs 0
    { g with lo := (List.range f.dimX).map fun k => printed fmt (arr f.lo k)
             hi := (List.range f.dimX).map fun k => printed fmt (arr f.hi k) } ws rest
    ⟨hg.dim, hg.len, hg.chan⟩ (by simp only; omega) (by simpa only [hx] using hc) h1
  refine ⟨g', ?_, i2, by rw [i3, ← hx], by rw [i4, ← hy], i5, i6, ?_⟩
  · rw [h2]
    have := i1 0
    rw [Nat.add_zero, hl, ← hy] at this
    rw [this]; rfl
  · intro k r hk
    obtain ⟨r', j1, j2⟩ := i8 k r hk
    rw [Nat.zero_add] at j1 j2
    refine ⟨r', j1, ?_, ?_, ?_⟩
    · have := congrArg List.length j2.p
      simpa [Rat1.getP] using this
    · have := congrArg List.length j2.q
      simpa [Rat1.getQ] using this
    · rw [i5, i6]; exact j2

theorem readFrom_value (fmt : ℝ → Decimal) (r r' : Rat1) (d : List ℝ × List ℝ) (h : ReadFrom fmt r r' d)
    (hs : r.Standard) (hd : (r.lo, r.hi) = d) (he : ∀ c ∈ r.p ++ r.q, printed fmt c.a = c.a) (x : List ℝ) :
    r'.value x = r.value x := by
  have hn := normalizer_ne (r.getQ.map (printed fmt))
  have hP : r.getP.map (fun x => printed fmt x / normalizer (r.getQ.map (printed fmt))) =
      r.getP.map (· / normalizer (r.getQ.map (printed fmt))) := by
    apply List.map_congr_left
    intro a ha
    obtain ⟨c, hc, rfl⟩ := List.mem_map.1 ha
    simp only [he c (by simp [hc])]
  have hQ : r.getQ.map (fun x => printed fmt x / normalizer (r.getQ.map (printed fmt))) =
      r.getQ.map (· / normalizer (r.getQ.map (printed fmt))) := by
    apply List.map_congr_left
    intro a ha
    obtain ⟨c, hc, rfl⟩ := List.mem_map.1 ha
    simp only [he c (by simp [hc])]
  rw [rational_value r hs, rational_value r' h.standard, h.p, h.q, hP, hQ, polynomial_div, polynomial_div,
    div_div_div_cancel_right₀ hn, h.dimX, h.lo, h.hi, ← hd]

theorem range_map_arr (l : List ℝ) : (List.range l.length).map (fun k => arr l k) = l := by
  apply List.ext_getElem?
  intro i
  rcases Nat.lt_or_ge i l.length with hi | hi
  · simp [hi, arr]
  · rw [List.getElem?_eq_none (by simpa using hi), List.getElem?_eq_none hi]

/-- C34: if all the numbers are printed exactly, the function loaded in a new object has the same
    values as the one saved. -/
theorem rational_file_same_value (junk : ℝ) (fmt : ℝ → Decimal) (hp : PrintsDigits fmt) (f g : RatFn)
    (cs : List Rat1) (hf : f.rs = cs.map some) (hl : cs.length = f.dimY)
    (hc : ∀ r ∈ cs, r.dimX = f.dimX ∧ r.q ≠ [] ∧ r.Standard ∧ (r.lo, r.hi) = inflate f.lo f.hi)
    (hlo : f.lo.length = f.dimX) (hhi : f.hi.length = f.dimX)
    (hb : ∀ x ∈ f.lo ++ f.hi, printed fmt x = x) (he : ∀ r ∈ cs, ∀ c ∈ r.p ++ r.q, printed fmt c.a = c.a)
    (hd : 1 ≤ f.dimX) (hx : g.dimX = f.dimX) (hy : g.dimY = f.dimY) (hg : g.rs = List.replicate f.dimY none) (rest : Str) :
    ∃ g', g.load junk (f.saveCall fmt ++ rest) = some g' ∧ ∀ x, g'.value x = f.value x := by
  have hgn : ∀ k : ℕ, (g.rs[k]?).join = none := by
    intro k
    rw [hg, List.getElem?_replicate]
    split <;> rfl
  obtain ⟨g', h1, _, h3, h4, h5, h6, h7⟩ := rational_file_round_trip junk fmt hp f g cs hf hl
    (fun r hr => ⟨(hc r hr).1, (hc r hr).2.1⟩)
    ⟨by omega, by rw [hg, hy]; simp, fun k r hk => by have := hgn k; rw [hk] at this; cases this⟩ hx hy rest
  refine ⟨g', h1, fun x => ?_⟩
  have l1 : g'.lo = f.lo := by
    rw [h5, ← hlo]
    conv_rhs => rw [← range_map_arr f.lo]
    apply List.map_congr_left
    intro k hk
    have hk : k < f.lo.length := by simpa using hk
    apply hb
    have : arr f.lo k = f.lo[k] := by simp [arr, hk]
    rw [this]
    exact List.mem_append_left _ (List.getElem_mem hk)
  have l2 : g'.hi = f.hi := by
    rw [h6, ← hhi]
    conv_rhs => rw [← range_map_arr f.hi]
    apply List.map_congr_left
    intro k hk
    have hk : k < f.hi.length := by simpa using hk
    apply hb
    have : arr f.hi k = f.hi[k] := by simp [arr, hk]
    rw [this]
    exact List.mem_append_right _ (List.getElem_mem hk)
  unfold RatFn.value
  rw [h4]
  have key : ∀ k ∈ List.range f.dimY, (((g'.rs[k]?).join).bind fun r => r.value x) =
      (((f.rs[k]?).join).bind fun r => r.value x) := by
    intro k hk
    have hk : k < cs.length := by rw [hl]; simpa using hk
    obtain ⟨r', j1, _, _, j2⟩ := h7 k cs[k] (List.getElem?_eq_getElem hk)
    rw [hgn k, l1, l2] at j2
    obtain ⟨_, _, c3, c4⟩ := hc cs[k] (List.getElem_mem hk)
    rw [j1, hf, List.getElem?_map, List.getElem?_eq_getElem hk]
    exact readFrom_value fmt cs[k] r' _ j2 c3 c4 (he _ (List.getElem_mem hk)) x
  have mm : ∀ (u v : ℕ → Option ℝ) (l : List ℕ), (∀ k ∈ l, u k = v k) → l.mapM u = l.mapM v := by
    intro u v l
    induction l with
    | nil => intro _; rfl
    | cons a l ih =>
      intro h
      rw [List.mapM_cons, List.mapM_cons, h a (by simp), ih fun k hk => h k (by simp [hk])]
  exact mm _ _ _ key

/-- C34: with a denominator whose first coefficient is 1 and exact printing, the coefficients are
    the ones saved. -/
theorem readFrom_same_coefficients (fmt : ℝ → Decimal) (r r' : Rat1) (d : List ℝ × List ℝ)
    (h : ReadFrom fmt r r' d) (he : ∀ c ∈ r.p ++ r.q, printed fmt c.a = c.a) (h1 : arr r.getQ 0 = 1) :
    r'.getP = r.getP ∧ r'.getQ = r.getQ := by
  have hQ : r.getQ.map (printed fmt) = r.getQ := by
    conv_rhs => rw [← List.map_id r.getQ]
    apply List.map_congr_left
    intro a ha
    obtain ⟨c, hc, rfl⟩ := List.mem_map.1 ha
    exact he c (by simp [hc])
  have hn : normalizer r.getQ = 1 := by rw [normalizer, h1]; norm_num
  rw [h.p, h.q, hQ, hn]
  constructor
  · conv_rhs => rw [← List.map_id r.getP]
    apply List.map_congr_left
    intro a ha
    obtain ⟨c, hc, rfl⟩ := List.mem_map.1 ha
    simp only [he c (by simp [hc]), div_one, id]
  · conv_rhs => rw [← List.map_id r.getQ]
    apply List.map_congr_left
    intro a ha
    obtain ⟨c, hc, rfl⟩ := List.mem_map.1 ha
    simp only [he c (by simp [hc]), div_one, id]

/-- Limit of C34: a function with a channel that was never allocated is saved without error, and
    the file cannot be loaded. -/
theorem rational_file_missing_channel (junk : ℝ) (fmt : ℝ → Decimal) (hp : PrintsDigits fmt) (f g : RatFn)
    (hl : f.rs.length = f.dimY) (hc : ∀ r, some r ∈ f.rs → r.dimX = f.dimX ∧ r.q ≠ []) (hm : none ∈ f.rs)
    (hg : g.WellFormed) (hx : g.dimX = f.dimX) (hy : g.dimY = f.dimY) (rest : Str) (hr : Spaces rest) :
    g.load junk (f.saveCall fmt ++ rest) = none := by
  obtain ⟨ws, h1, h2⟩ := load_head junk fmt hp f g hx hl rest
  set cs := f.rs.filterMap id with hcs
  have hlt : cs.length < f.dimY := by
    rw [← hl, hcs]
    have := List.length_filterMap_lt_length_iff_exists (f := (id : Option Rat1 → Option Rat1)) (xs := f.rs)
    exact this.2 ⟨none, hm, rfl⟩
  obtain ⟨g', ws', i0, i1, i2, i3, i4, i5, i6, _, i8⟩ := loadChannels_saved junk fmt hp cs 0
    { g with lo := (List.range f.dimX).map fun k => printed fmt (arr f.lo k)
             hi := (List.range f.dimX).map fun k => printed fmt (arr f.hi k) } ws rest
    ⟨hg.dim, hg.len, hg.chan⟩ (by simp only; omega) (by
      intro r hr'
      rw [hcs, List.mem_filterMap] at hr'
      obtain ⟨o, ho, e⟩ := hr'
      cases o with
      | none => cases e
      | some r0 => cases e; simpa only [hx] using hc _ ho) h1
  have := i1 (f.dimY - cs.length - 1 + 1)
  rw [show cs.length + (f.dimY - cs.length - 1 + 1) = g.dimY by omega] at this
  rw [h2, this, RatFn.loadChannels]
  obtain ⟨r, f1, g1, _⟩ := get_wellFormed junk g' i2 (0 + cs.length) (by rw [i4]; simp only; omega)
  rw [g1]
  have hrw : (readWord (ws' ++ rest)).1 = [] := by
    unfold readWord
    have : (ws' ++ rest).dropWhile isSpace = [] := by
      rw [List.dropWhile_eq_nil_iff]
      intro c hc
      rcases List.mem_append.1 hc with h | h
      · exact i0 c h
      · exact hr c h
    rw [this]; rfl
  have hld : r.load junk (ws' ++ rest) = none := by
    unfold Rat1.load
    have hne : ([] : Str) ≠ "#NP".toList := by decide
    generalize "#NP".toList = kp at hne
    simp only [hrw]
    rw [if_pos hne]
  simp only [hld]

open Classical in
/-- how the example prints: exact for 1, 2 and 3 -/
def exampleFmt (x : ℝ) : Decimal :=
  if x = 1 then ⟨false, [1], [0, 0], some 0⟩ else if x = 2 then ⟨false, [2], [], none⟩
  else if x = 3 then ⟨false, [3], [], none⟩ else ⟨false, [0], [], none⟩

theorem exampleFmt_values : printed exampleFmt 0 = 0 ∧ printed exampleFmt 1 = 1 ∧ printed exampleFmt 2 = 2 ∧
    printed exampleFmt 3 = 3 := by
  refine ⟨?_, ?_, ?_, ?_⟩ <;> simp [printed, exampleFmt, Decimal.value, digitsNum]

theorem exampleFmt_digits : PrintsDigits exampleFmt := by
  intro x
  left
  unfold exampleFmt
  split
  · simp
  · split
    · simp
    · split <;> simp

/-- (2 + 3 u) / (1 + 2 u), u = 2 x - 1, on [0, 1]: saved, and loaded in a new object -/
def exampleRat1 : Rat1 := ⟨1, [⟨2, [0]⟩, ⟨3, [1]⟩], [⟨1, [0]⟩, ⟨2, [1]⟩], [0], [1]⟩

theorem exampleRat1_standard : exampleRat1.Standard := by
  have h0 : index2degree 1 0 = some [0] := by decide +kernel
  have h1 : index2degree 1 1 = some [1] := by decide +kernel
  refine ⟨by decide, fun i c hc => ?_, fun i c hc => ?_⟩
  · match i with
    | 0 => simp [exampleRat1] at hc; rw [← hc]; simp [exampleRat1, h0]
    | 1 => simp [exampleRat1] at hc; rw [← hc]; simp [exampleRat1, h1]
    | n + 2 => simp [exampleRat1] at hc
  · match i with
    | 0 => simp [exampleRat1] at hc; rw [← hc]; simp [exampleRat1, h0]
    | 1 => simp [exampleRat1] at hc; rw [← hc]; simp [exampleRat1, h1]
    | n + 2 => simp [exampleRat1] at hc

example (junk : ℝ) : ∃ g', RatFn.load junk ⟨1, 1, 5, 5, [], [], [none]⟩
      (RatFn.saveCall exampleFmt ⟨1, 1, 2, 2, [0], [1], [some exampleRat1]⟩ ++ ['\n']) = some g' ∧
    ∀ x, g'.value x = RatFn.value ⟨1, 1, 2, 2, [0], [1], [some exampleRat1]⟩ x := by
  obtain ⟨e0, e1, e2, e3⟩ := exampleFmt_values
  refine rational_file_same_value junk exampleFmt exampleFmt_digits ⟨1, 1, 2, 2, [0], [1], [some exampleRat1]⟩
    ⟨1, 1, 5, 5, [], [], [none]⟩ [exampleRat1] rfl rfl ?_ rfl rfl ?_ ?_
    (by norm_num) rfl rfl rfl ['\n']
  · intro r hr
    rw [List.mem_singleton.1 hr]
    refine ⟨rfl, by simp [exampleRat1], exampleRat1_standard, ?_⟩
    simp [inflate, exampleRat1]
  · intro x hx
    simp at hx
    rcases hx with rfl | rfl
    · exact e0
    · exact e1
  · intro r hr c hc
    rw [List.mem_singleton.1 hr] at hc
    simp [exampleRat1] at hc
    rcases hc with rfl | rfl | rfl | rfl <;> assumption

end
end Alta
