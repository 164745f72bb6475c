import Verif.Spec.Rational
import Verif.Props.RationalBasis
import Verif.Props.FunctionJac
import Mathlib.Algebra.BigOperators.Field
import Mathlib.Tactic.FieldSimp
import Mathlib.Tactic.Ring
import Mathlib.Tactic.Linarith
/-
Property C33: the value of a rational function and the update of its coefficients.
-/
namespace Alta
noncomputable section
open Finset

theorem index2degree_some (d i : ℕ) (hd : 1 ≤ d) :
    ∃ v, index2degree d i = some v ∧ v.length = d := (basis_enumerates d hd).1 i

theorem basis_of_standard (r : Rat1) (c : Coeff) (x : List ℝ) (i : ℕ) (hd : 1 ≤ r.dimX)
    (hc : c.deg = (index2degree r.dimX i).getD []) :
    r.basis c x = some (basisFn r.dimX r.lo r.hi i x) := by
  obtain ⟨v, h1, h2⟩ := index2degree_some r.dimX i hd
  have hcv : c.deg = v := by rw [hc, h1]; rfl
  unfold Rat1.basis
  rw [if_neg (by rw [hcv]; omega)]
  congr 1
  unfold basisFn monomial
  rw [h1, Option.getD_some, hcv]
  have : ∀ n, (List.range n).foldl (fun res k => res *
      (2 * ((arr x k - arr r.lo k) / (arr r.hi k - arr r.lo k) - 0.5)) ^ v.getD k 0) (1 : ℝ) =
      ∏ k ∈ range n, unitCoord r.lo r.hi x k ^ v.getD k 0 := by
    intro n
    induction n with
    | zero => rfl
    | succ n ih =>
      rw [List.range_succ, List.foldl_append, ih, prod_range_succ]
      simp only [List.foldl_cons, List.foldl_nil]
      congr 2
      unfold unitCoord
      ring_nf
  exact this r.dimX

theorem sumLoop_standard (r : Rat1) (x : List ℝ) (hd : 1 ≤ r.dimX) : ∀ (l : List Coeff) (off : ℕ) (res : ℝ),
    (∀ i c, l[i]? = some c → c.deg = (index2degree r.dimX (off + i)).getD []) →
    r.sumLoop x l res = some (res + ∑ i ∈ range l.length, arr (l.map Coeff.a) i * basisFn r.dimX r.lo r.hi (off + i) x) := by
  intro l
  induction l with
  | nil => intro off res _; simp [Rat1.sumLoop]
  | cons c l ih =>
    intro off res h
    rw [Rat1.sumLoop, basis_of_standard r c x off hd (h 0 c rfl)]
    simp only
    rw [ih (off + 1) _ (fun i c hi => by
      rw [show off + 1 + i = off + (i + 1) by omega]; exact h (i + 1) c (by simpa using hi))]
    rw [List.length_cons, sum_range_succ']
    congr 1
    have e : ∀ i, arr ((c :: l).map Coeff.a) (i + 1) = arr (l.map Coeff.a) i := fun i => rfl
    have e0 : arr ((c :: l).map Coeff.a) 0 = c.a := rfl
    have e2 : ∀ i, off + (i + 1) = off + 1 + i := fun i => by omega
    have e3 : ∑ i ∈ range l.length, arr ((c :: l).map Coeff.a) (i + 1) * basisFn r.dimX r.lo r.hi (off + (i + 1)) x =
        ∑ i ∈ range l.length, arr (l.map Coeff.a) i * basisFn r.dimX r.lo r.hi (off + 1 + i) x :=
      sum_congr rfl fun i _ => by rw [e i, e2 i]
    rw [e0, Nat.add_zero, e3]
    ring_nf

/-- The two sums are the numerator and the denominator. -/
theorem rational_parts (r : Rat1) (h : r.Standard) (x : List ℝ) :
    r.parts x = some (polynomial r.dimX r.lo r.hi r.getP x, polynomial r.dimX r.lo r.hi r.getQ x) := by
  have h1 := sumLoop_standard r x h.1 r.p 0 0 (by simpa using h.2.1)
  have h2 := sumLoop_standard r x h.1 r.q 0 0 (by simpa using h.2.2)
  unfold Rat1.parts
  rw [h1, h2]
  simp [polynomial, Rat1.getP, Rat1.getQ]

/-- C33 (value).  The value of a rational function is the ratio of the two polynomials. -/
theorem rational_value (r : Rat1) (h : r.Standard) (x : List ℝ) :
    r.value x = some (polynomial r.dimX r.lo r.hi r.getP x / polynomial r.dimX r.lo r.hi r.getQ x) := by
  unfold Rat1.value
  rw [rational_parts r h x]
  rfl

theorem resizeCoeffs_length (junk : ℝ) (d : ℕ) (l : List Coeff) (n : ℕ) :
    (resizeCoeffs junk d l n).length = n := by
  unfold resizeCoeffs
  split
  · simp
  · rename_i h; exact not_not.mp h

theorem resizeCoeffs_deg (junk : ℝ) (d : ℕ) (l : List Coeff) (n : ℕ)
    (h : ∀ i c, l[i]? = some c → c.deg = (index2degree d i).getD []) :
    ∀ i c, (resizeCoeffs junk d l n)[i]? = some c → c.deg = (index2degree d i).getD [] := by
  unfold resizeCoeffs
  split
  · intro i c hc
    rcases Nat.lt_or_ge i n with hi | hi
    · simp [hi] at hc
      rw [← hc]
    · rw [List.getElem?_eq_none (by simpa using hi)] at hc
      cases hc
  · exact h

/-- C33 (resize). -/
theorem resize_standard (junk : ℝ) (r : Rat1) (h : r.Standard) (np nq : ℕ) :
    (r.resize junk np nq).Standard ∧ (r.resize junk np nq).p.length = np ∧
      (r.resize junk np nq).q.length = nq := by
  unfold Rat1.resize
  have := h.1
  rw [if_neg (by omega)]
  exact ⟨⟨h.1, resizeCoeffs_deg _ _ _ _ h.2.1, resizeCoeffs_deg _ _ _ _ h.2.2⟩,
    resizeCoeffs_length _ _ _ _, resizeCoeffs_length _ _ _ _⟩

/-- C33 (constructor). -/
theorem mkRat1_standard (junk : ℝ) (dimX np nq : ℕ) (lo hi : List ℝ) (hd : 1 ≤ dimX) :
    (mkRat1 junk dimX np nq lo hi).Standard ∧ (mkRat1 junk dimX np nq lo hi).p.length = np ∧
      (mkRat1 junk dimX np nq lo hi).q.length = nq :=
  resize_standard junk _ ⟨hd, by simp, by simp⟩ np nq

theorem resize_dom (junk : ℝ) (r : Rat1) (np nq : ℕ) : (r.resize junk np nq).dimX = r.dimX ∧
    (r.resize junk np nq).lo = r.lo ∧ (r.resize junk np nq).hi = r.hi := by
  unfold Rat1.resize; split <;> exact ⟨rfl, rfl, rfl⟩

theorem normalizer_ne (b : List ℝ) : normalizer b ≠ 0 := by
  unfold normalizer
  split
  · rename_i h
    intro hc
    rw [hc, abs_zero] at h
    norm_num at h
  · exact one_ne_zero

theorem grow_self (junk : ℝ) (l : List Coeff) : growCoeffs junk l l.length = l := by
  apply List.ext_getElem?
  intro i
  unfold growCoeffs
  rcases Nat.lt_or_ge i l.length with hi | hi
  · simp [hi]
  · rw [List.getElem?_eq_none (by simpa using hi), List.getElem?_eq_none hi]

theorem zip_coeffs (l : List Coeff) (a : List ℝ) (g : ℝ → ℝ) (h : l.length = a.length) :
    (List.zipWith (fun c x => { c with a := g x : Coeff }) l a).map Coeff.a = a.map g := by
  induction l generalizing a with
  | nil => cases a with | nil => rfl | cons => simp at h
  | cons c l ih =>
    cases a with
    | nil => simp at h
    | cons x a => simp only [List.zipWith_cons_cons, List.map_cons, ih a (by simpa using h)]

theorem zip_degs (l : List Coeff) (a : List ℝ) (g : ℝ → ℝ) (i : ℕ) (c : Coeff)
    (h : (List.zipWith (fun c x => { c with a := g x : Coeff }) l a)[i]? = some c) :
    ∃ c', l[i]? = some c' ∧ c.deg = c'.deg := by
  rw [List.getElem?_zipWith] at h
  cases hl : l[i]? with
  | none => rw [hl] at h; simp at h
  | some c' =>
    cases ha : a[i]? with
    | none => rw [hl, ha] at h; simp at h
    | some x =>
      rw [hl, ha] at h
      simp only [Option.some.injEq] at h
      exact ⟨c', rfl, by rw [← h]⟩

theorem arr_map_div (a : List ℝ) (c : ℝ) (i : ℕ) : arr (a.map (· / c)) i = arr a i / c := by
  unfold arr
  simp only [List.getD, List.getElem?_map]
  cases a[i]? <;> simp

theorem polynomial_div (d : ℕ) (lo hi a x : List ℝ) (c : ℝ) :
    polynomial d lo hi (a.map (· / c)) x = polynomial d lo hi a x / c := by
  unfold polynomial
  rw [List.length_map, sum_div]
  apply sum_congr rfl
  intro i _
  rw [arr_map_div]; ring

/-- C33 (update).  `update(a, b)`, with as many coefficients as the function has, gives the function
    `Σ a_i p_i(x) / Σ b_i q_i(x)` at every `x`: the coefficients are all divided by the same number,
    chosen so that the first one of the denominator is 1 unless it is smaller than 1e-16. -/
theorem update_value (junk : ℝ) (r : Rat1) (h : r.Standard) (a b : List ℝ) (hb : b ≠ [])
    (ha : a.length = r.p.length) (hbl : b.length = r.q.length) :
    ∃ r', r.update junk a b = some r' ∧ r'.Standard ∧ r'.dimX = r.dimX ∧ r'.lo = r.lo ∧ r'.hi = r.hi ∧
      (∀ x, r'.value x = some (polynomial r.dimX r.lo r.hi a x / polynomial r.dimX r.lo r.hi b x)) ∧
      (∃ c, c ≠ 0 ∧ r'.getP = a.map (· / c) ∧ r'.getQ = b.map (· / c) ∧
        (|arr b 0| > 1e-16 → arr r'.getQ 0 = 1) ∧ (|arr b 0| ≤ 1e-16 → c = 1)) := by
  have hn := normalizer_ne b
  refine ⟨_, by rw [Rat1.update, if_neg hb], ?_⟩
  rw [ha, hbl, grow_self, grow_self]
  set r' : Rat1 := { r with
      p := List.zipWith (fun c x => { c with a := x / normalizer b }) r.p a
      q := List.zipWith (fun c x => { c with a := x / normalizer b }) r.q b } with hr'
  have hP : r'.getP = a.map (· / normalizer b) := zip_coeffs r.p a (· / normalizer b) ha.symm
  have hQ : r'.getQ = b.map (· / normalizer b) := zip_coeffs r.q b (· / normalizer b) hbl.symm
  have hS : r'.Standard := by
    refine ⟨h.1, fun i c hc => ?_, fun i c hc => ?_⟩
    · obtain ⟨c', h1, h2⟩ := zip_degs r.p a (· / normalizer b) i c hc
      rw [h2]; exact h.2.1 i c' h1
    · obtain ⟨c', h1, h2⟩ := zip_degs r.q b (· / normalizer b) i c hc
      rw [h2]; exact h.2.2 i c' h1
  refine ⟨hS, rfl, rfl, rfl, fun x => ?_, normalizer b, hn, hP, hQ, fun h0 => ?_, fun h0 => ?_⟩
  · rw [rational_value r' hS x, hP, hQ, polynomial_div, polynomial_div, div_div_div_cancel_right₀ hn]
  · rw [hQ, arr_map_div, normalizer, if_pos h0]
    apply div_self
    intro hc
    rw [hc, abs_zero] at h0
    norm_num at h0
  · rw [normalizer, if_neg (not_lt.mpr h0)]

/-- C33 (the way fitters use it).  `resize` to the sizes of `a` and `b`, then `update(a, b)`. -/
theorem resize_update_value (junk : ℝ) (r : Rat1) (h : r.Standard) (a b : List ℝ) (hb : b ≠ []) :
    ∃ r', (r.resize junk a.length b.length).update junk a b = some r' ∧ r'.Standard ∧
      r'.p.length = a.length ∧ r'.q.length = b.length ∧
      ∀ x, r'.value x = some (polynomial r.dimX r.lo r.hi a x / polynomial r.dimX r.lo r.hi b x) := by
  obtain ⟨h1, h2, h3⟩ := resize_standard junk r h a.length b.length
  obtain ⟨e1, e2, e3⟩ := resize_dom junk r a.length b.length
  obtain ⟨r', u1, u2, _, _, _, u3, c, _, hP, hQ, _⟩ := update_value junk _ h1 a b hb h2.symm h3.symm
  rw [e1, e2, e3] at u3
  refine ⟨r', u1, u2, ?_, ?_, u3⟩
  · have := congrArg List.length hP; simpa [Rat1.getP] using this
  · have := congrArg List.length hQ; simpa [Rat1.getQ] using this

/-- C33 (idempotent).  Giving its own coefficients to a function that was normalised changes
    nothing. -/
theorem update_self (junk : ℝ) (r : Rat1) (hq : r.q ≠ []) (h1 : arr r.getQ 0 = 1) :
    r.update junk r.getP r.getQ = some r := by
  have hn : normalizer r.getQ = 1 := by rw [normalizer, h1]; norm_num
  rw [Rat1.update, if_neg (by simpa [Rat1.getQ] using hq), hn]
  have : ∀ l : List Coeff, List.zipWith (fun c x => { c with a := x / 1 : Coeff })
      (growCoeffs junk l (l.map Coeff.a).length) (l.map Coeff.a) = l := by
    intro l
    rw [List.length_map, grow_self]
    induction l with
    | nil => rfl
    | cons c l ih => simpa using ih
  unfold Rat1.getP Rat1.getQ
  rw [this, this]

/-- C33 (limit).  Without `resize`, `update` with more coefficients than the function has leaves
    the exponents of the new ones empty: the value reads out of bounds. -/
theorem update_longer_undefined (junk : ℝ) (r : Rat1) (hd : 1 ≤ r.dimX) (a b : List ℝ) (hb : b ≠ [])
    (ha : r.p.length < a.length) (r' : Rat1) (hu : r.update junk a b = some r') (x : List ℝ) :
    r'.value x = none := by
  have key : ∀ (l : List Coeff) (i : ℕ) (c : Coeff) (res : ℝ), l[i]? = some c → c.deg = [] →
      r'.dimX = r.dimX → r'.sumLoop x l res = none := by
    intro l
    induction l with
    | nil => intro i c res hi; simp at hi
    | cons c0 l ih =>
      intro i c res hi hc hdim
      rw [Rat1.sumLoop]
      cases i with
      | zero =>
        simp only [List.getElem?_cons_zero, Option.some.injEq] at hi
        subst hi
        have : r'.basis c0 x = none := by
          unfold Rat1.basis
          rw [if_pos (by rw [hc, hdim]; exact hd)]
        rw [this]
      | succ i =>
        cases r'.basis c0 x with
        | none => rfl
        | some b => exact ih i c _ (by simpa using hi) hc hdim
  rw [Rat1.update, if_neg hb, Option.some.injEq] at hu
  subst hu
  unfold Rat1.value Rat1.parts
  have hlast : (List.zipWith (fun c x => { c with a := x / normalizer b : Coeff }) (growCoeffs junk r.p a.length) a)[r.p.length]? =
      some ⟨arr a r.p.length / normalizer b, []⟩ := by
    rw [List.getElem?_zipWith]
    have h1 : (growCoeffs junk r.p a.length)[r.p.length]? = some ⟨junk, []⟩ := by
      unfold growCoeffs; simp [ha]
    have h2 : a[r.p.length]? = some (arr a r.p.length) := by
      rw [List.getElem?_eq_getElem ha]
      simp [arr, List.getD, List.getElem?_eq_getElem ha]
    rw [h1, h2]
  have := key _ _ _ 0 hlast rfl rfl
  simp only
  rw [this]
  rfl

/-- `update(r)` takes the coefficients of `r`. -/
theorem copy_coeffs (junk : ℝ) (f r : Rat1) (hf : f.Standard) :
    (f.copyFrom junk r).Standard ∧ (f.copyFrom junk r).dimX = f.dimX ∧ (f.copyFrom junk r).lo = f.lo ∧
    (f.copyFrom junk r).hi = f.hi ∧ (f.copyFrom junk r).getP = r.getP ∧
    (f.copyFrom junk r).getQ = r.getQ := by
  obtain ⟨h1, h2, h3⟩ := resize_standard junk f hf r.p.length r.q.length
  obtain ⟨e1, e2, e3⟩ := resize_dom junk f r.p.length r.q.length
  set f' := f.resize junk r.p.length r.q.length with hf'
  have zc : ∀ (l m : List Coeff), l.length = m.length →
      (List.zipWith (fun c x => { c with a := x.a : Coeff }) l m).map Coeff.a = m.map Coeff.a := by
    intro l
    induction l with
    | nil => intro m h; cases m with | nil => rfl | cons => simp at h
    | cons c l ih =>
      intro m h
      cases m with
      | nil => simp at h
      | cons x m => simp only [List.zipWith_cons_cons, List.map_cons, ih m (by simpa using h)]
  have zd : ∀ (l m : List Coeff) (i : ℕ) (c : Coeff),
      (List.zipWith (fun c x => { c with a := x.a : Coeff }) l m)[i]? = some c → ∃ c', l[i]? = some c' ∧ c.deg = c'.deg := by
    intro l m i c h
    rw [List.getElem?_zipWith] at h
    cases hl : l[i]? with
    | none => rw [hl] at h; simp at h
    | some c' =>
      cases ha : m[i]? with
      | none => rw [hl, ha] at h; simp at h
      | some x =>
        rw [hl, ha] at h
        simp only [Option.some.injEq] at h
        exact ⟨c', rfl, by rw [← h]⟩
  set g := f.copyFrom junk r with hg
  have gp : g.p = List.zipWith (fun c x => { c with a := x.a : Coeff }) f'.p r.p := rfl
  have gq : g.q = List.zipWith (fun c x => { c with a := x.a : Coeff }) f'.q r.q := rfl
  have gd : g.dimX = f'.dimX := rfl
  have gS : g.Standard := by
    refine ⟨h1.1, fun i c hc => ?_, fun i c hc => ?_⟩
    · rw [gp] at hc
      obtain ⟨c', a1, a2⟩ := zd _ _ _ _ hc
      rw [a2, gd]; exact h1.2.1 i c' a1
    · rw [gq] at hc
      obtain ⟨c', a1, a2⟩ := zd _ _ _ _ hc
      rw [a2, gd]; exact h1.2.2 i c' a1
  have gP : g.getP = r.getP := by rw [Rat1.getP, gp]; exact zc _ _ h2
  have gQ : g.getQ = r.getQ := by rw [Rat1.getQ, gq]; exact zc _ _ h3
  exact ⟨gS, gd.trans e1, e2, e3, gP, gQ⟩

/-- C33 (copy).  `update(r)` makes the function equal to `r` everywhere, if they have the same
    domain: same numerator, same denominator. -/
theorem copy_parts (junk : ℝ) (f r : Rat1) (hf : f.Standard) (hr : r.Standard) (hd : f.dimX = r.dimX)
    (hlo : f.lo = r.lo) (hhi : f.hi = r.hi) (x : List ℝ) :
    (f.copyFrom junk r).parts x = r.parts x := by
  obtain ⟨gS, g1, g2, g3, gP, gQ⟩ := copy_coeffs junk f r hf
  rw [rational_parts _ gS, rational_parts r hr, gP, gQ, g1, g2, g3, hd, hlo, hhi]

/-- C33 (copy).  `update(r)` makes the function equal to `r` everywhere, if they have the same
    domain. -/
theorem copy_value (junk : ℝ) (f r : Rat1) (hf : f.Standard) (hr : r.Standard) (hd : f.dimX = r.dimX)
    (hlo : f.lo = r.lo) (hhi : f.hi = r.hi) (x : List ℝ) :
    (f.copyFrom junk r).value x = r.value x := by
  unfold Rat1.value
  rw [copy_parts junk f r hf hr hd hlo hhi]

/-- a function of two variables: after `resize(1, 2)` and `update([3], [2, 4])` on [0, 2]², the
    value at (2, 1) is 3 / (2 + 4 * 1) -/
example : ∃ r', ((mkRat1 0 2 0 0 [0, 0] [2, 2]).resize 0 1 2).update 0 [3] [2, 4] = some r' ∧
    r'.value [2, 1] = some (1 / 2) := by
  obtain ⟨r', h1, _, _, _, h2⟩ := resize_update_value 0 (mkRat1 0 2 0 0 [0, 0] [2, 2])
    (mkRat1_standard 0 2 0 0 _ _ (by norm_num)).1 [3] [2, 4] (by simp)
  refine ⟨r', h1, ?_⟩
  rw [h2]
  have d0 : index2degree 2 0 = some [0, 0] := by decide +kernel
  have d1 : index2degree 2 1 = some [1, 0] := by
    simp [index2degree, degreeLoop, List.replicate]
  have hd : (mkRat1 0 2 0 0 [0, 0] [2, 2]).dimX = 2 := rfl
  have hl : (mkRat1 0 2 0 0 [0, 0] [2, 2]).lo = [0, 0] := rfl
  have hh : (mkRat1 0 2 0 0 [0, 0] [2, 2]).hi = [2, 2] := rfl
  rw [hd, hl, hh]
  simp [polynomial, basisFn, monomial, unitCoord, sum_range_succ, prod_range_succ, d0, d1, arr]
  norm_num

end
end Alta
