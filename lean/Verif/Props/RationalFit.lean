import Verif.Proofs.Spectral
import Verif.Props.QuadprogFit
/-
C70: the fit of rational functions by the smallest eigenvector.
-/
namespace Alta
noncomputable section
open Finset

/-! ### All the channels -/

/-- The loop on the channels: every channel is fitted from a new function. -/
theorem fitEach_spec (fit : ℕ → Rat1 → Option (Bool × Rat1)) (junk : ℝ) (Y : ℕ) : ∀ (k j : ℕ) (f : RatFn), j + k = Y →
    f.dimY = Y → f.rs.length = Y → (∀ m, j ≤ m → m < Y → f.rs[m]? = some none) →
    (∀ f', fitEach fit junk k j f = some (true, f') → f'.dimX = f.dimX ∧ f'.dimY = Y ∧ (∀ m < j, f'.rs[m]? = f.rs[m]?) ∧
      ∀ m, j ≤ m → m < Y → ∃ r', fit m (mkRat1 junk f.dimX f.np f.nq (inflate f.lo f.hi).1 (inflate f.lo f.hi).2) =
        some (true, r') ∧ f'.rs[m]? = some (some r')) ∧
    ((∀ m, j ≤ m → m < Y → ∃ r', fit m (mkRat1 junk f.dimX f.np f.nq (inflate f.lo f.hi).1 (inflate f.lo f.hi).2) =
      some (true, r')) → ∃ f', fitEach fit junk k j f = some (true, f')) := by
  intro k
  induction k with
  | zero =>
    intro j f hj hy _ _
    refine ⟨?_, fun _ => ⟨f, rfl⟩⟩
    intro f' h
    cases h
    exact ⟨rfl, hy, fun _ _ => rfl, fun m h1 h2 => absurd h2 (by omega)⟩
  | succ k ih =>
    intro j f hj hy hl hnone
    have hjd : j < Y := by omega
    obtain ⟨r0, hr0⟩ : ∃ r0, r0 = mkRat1 junk f.dimX f.np f.nq (inflate f.lo f.hi).1 (inflate f.lo f.hi).2 := ⟨_, rfl⟩
    have hget : f.get junk j = some (r0, { f with rs := f.rs.set j (some r0) }) := by
      unfold RatFn.get
      rw [if_pos (by omega), hnone j le_rfl hjd, hr0]
    rw [← hr0]
    have next : ∀ r', _ := fun r' => ih (j + 1) { f with rs := (f.rs.set j (some r0)).set j (some r') } (by omega) hy
      (by simpa using hl) (by
        intro m h1 h2
        simp only
        rw [List.getElem?_set_ne (by omega), List.getElem?_set_ne (by omega)]
        exact hnone m (by omega) h2)
    simp only [← hr0] at next
    constructor
    · intro f' h
      rw [fitEach, hget] at h
      simp only [] at h
      split at h
      · cases h
      · rename_i ok rs' hfit
        cases ok with
        | false => simp at h
        | true =>
          simp only [if_true] at h
          obtain ⟨g1, g2, g3, g4⟩ := (next rs').1 f' h
          refine ⟨g1, g2, ?_, ?_⟩
          · intro m hm
            rw [g3 m (by omega), List.getElem?_set_ne (by omega), List.getElem?_set_ne (by omega)]
          · intro m h1 h2
            rcases Nat.eq_or_lt_of_le h1 with rfl | h1
            · refine ⟨rs', hfit, ?_⟩
              rw [g3 j (by omega), List.getElem?_set_self (by simp; omega)]
            · exact g4 m h1 h2
    · intro hall
      obtain ⟨r', hr'⟩ := hall j le_rfl hjd
      rw [fitEach, hget]
      simp only [hr', if_true]
      exact (next r').2 fun m h1 h2 => hall m (by omega) h2

/-! ### One channel -/

theorem point_of_lt (d : Store ℝ) (i : ℕ) (h : i < d.size) : d.get i = some (d.point i) := by
  obtain ⟨xi, _, _, _, h1, -⟩ := get_of_lt d i h
  unfold Store.point
  rw [h1]; rfl

theorem eigenColumn_eq (r : Rat1) (h : r.Standard) (dimX np nq ny : ℕ) (hp : r.p.length = np) (hq : r.q.length = nq)
    (v : List ℝ) : eigenColumn r dimX np nq ny v =
      some ((List.range (np + nq)).map (upperElement np (fun j => basisFn r.dimX r.lo r.hi j v)
        (fun j => basisFn r.dimX r.lo r.hi j v) (arr v (dimX + ny)))) := by
  have hcp := constraintPair_standard r h np nq hp hq v 0 (arr v (dimX + ny))
  unfold constraintPair at hcp
  obtain ⟨c, hc, hc2⟩ := Option.map_eq_some_iff.1 hcp
  rw [Prod.mk.injEq] at hc2
  rw [← hc2.1]
  unfold eigenColumn
  have : (fun j => if j < np then r.pAt v j else (r.qAt v (j - np)).map fun qi => -arr v (dimX + ny) * qi) =
      fun j => (constraintElement r np v 0 (arr v (dimX + ny)) j).map Prod.fst := by
    funext j
    unfold constraintElement
    split
    · cases r.pAt v j <;> rfl
    · cases r.qAt v (j - np) <;> rfl
  rw [this]
  have hmap : ∀ (l : List ℕ) (g : ℕ → Option (ℝ × ℝ)) c, l.mapM g = some c →
      l.mapM (fun j => (g j).map Prod.fst) = some (c.map Prod.fst) := by
    intro l
    induction l with
    | nil => intro g c h; cases h; rfl
    | cons a l ih =>
      intro g c h
      rw [List.mapM_cons] at h
      obtain ⟨b, hb, h⟩ := Option.bind_eq_some_iff.1 h
      obtain ⟨bs, hbs, h⟩ := Option.bind_eq_some_iff.1 h
      cases h
      rw [List.mapM_cons, hb, ih g bs hbs]
      rfl
  exact hmap _ _ c hc

/-- the columns of the matrix -/
def eigenColumns (d : Store ℝ) (r : Rat1) (np nq ny : ℕ) : List (List ℝ) :=
  (List.range d.size).map fun i => (List.range (np + nq)).map (upperElement np
    (fun j => basisFn r.dimX r.lo r.hi j (d.point i)) (fun j => basisFn r.dimX r.lo r.hi j (d.point i)) (d.ordinate i ny))

theorem eigenColumns_eq (d : Store ℝ) (r : Rat1) (h : r.Standard) (np nq ny : ℕ) (hp : r.p.length = np)
    (hq : r.q.length = nq) :
    ((List.range d.size).mapM fun i => (d.get i).bind (eigenColumn r d.dimX np nq ny)) =
      some (eigenColumns d r np nq ny) := by
  refine mapM_total _ _ _ fun i hi => ?_
  rw [point_of_lt d i (by simpa using hi), Option.bind_some, eigenColumn_eq r h d.dimX np nq ny hp hq]
  rfl

theorem sum_map_range_eq (n : ℕ) (g : ℕ → ℝ) : ((List.range n).map g).sum = ∑ i ∈ range n, g i := by
  induction n with
  | zero => rfl
  | succ n ih => rw [List.range_succ, List.map_append, List.sum_append, ih, sum_range_succ]; simp

theorem eigenColumns_quadratic (d : Store ℝ) (r : Rat1) (np nq ny : ℕ) (hd : r.dimX = d.dimX) (x : List ℝ)
    (hx : x.length = np + nq) :
    ((eigenColumns d r np nq ny).map fun c => (∑ j ∈ range (np + nq), arr c j * arr x j) ^ 2).sum =
      linearError d r.lo r.hi ny (x.take np) (x.drop np) := by
  unfold eigenColumns linearError
  rw [List.map_map, sum_map_range_eq]
  refine sum_congr rfl fun i _ => ?_
  simp only [Function.comp]
  rw [upper_dot]
  obtain ⟨e1, e2⟩ := numer_polynomial r.dimX np nq r.lo r.hi x (d.point i) hx
  rw [e1, e2, hd]

theorem coefficientNorm_split (x : List ℝ) (np nq : ℕ) (hx : x.length = np + nq) :
    coefficientNorm (x.take np) (x.drop np) = ∑ j ∈ range (np + nq), arr x j ^ 2 := by
  unfold coefficientNorm
  rw [sum_range_add, List.length_take, List.length_drop, Nat.min_eq_left (by omega), show x.length - np = nq by omega]
  congr 1
  · exact sum_congr rfl fun j hj => by rw [arr_take_lt _ _ _ (by simpa using hj)]
  · exact sum_congr rfl fun j _ => by rw [arr_drop_add]

/-- The eigenvectors and the eigenvalues of the matrix of a channel. -/
theorem eigen_optimum (solve : EigenSystem) (hs : solve.Sound) (d : Store ℝ) (r : Rat1) (np nq ny : ℕ)
    (hd : r.dimX = d.dimX) (l : List (ℝ × List ℝ)) (hl : solve (np + nq) (gram (eigenColumns d r np nq ny)) = some l) :
    (∀ e ∈ l, 0 ≤ e.1 ∧ e.2.length = np + nq ∧ coefficientNorm (e.2.take np) (e.2.drop np) = 1 ∧
      e.1 = linearError d r.lo r.hi ny (e.2.take np) (e.2.drop np)) ∧
    ∀ e ∈ l, (∀ e' ∈ l, e.1 ≤ e'.1) → ∀ a b : List ℝ, a.length = np → b.length = nq →
      linearError d r.lo r.hi ny (e.2.take np) (e.2.drop np) * coefficientNorm a b ≤ linearError d r.lo r.hi ny a b := by
  obtain ⟨h1, h2, h3⟩ := hs _ _ _ (gram_symm _) hl
  have unit : ∀ e ∈ l, ∑ j ∈ range (np + nq), arr e.2 j * arr e.2 j = 1 := by
    intro e he
    obtain ⟨k, hk, rfl⟩ := List.getElem_of_mem he
    have := h3 k k l[k] l[k] (List.getElem?_eq_getElem hk) (List.getElem?_eq_getElem hk)
    simpa using this
  have val : ∀ e ∈ l, e.1 = linearError d r.lo r.hi ny (e.2.take np) (e.2.drop np) := by
    intro e he
    rw [← eigenColumns_quadratic d r np nq ny hd e.2 (h2 e he).1]
    exact gram_eigenvalue _ _ _ _ (h2 e he).2 (unit e he)
  constructor
  · intro e he
    refine ⟨?_, (h2 e he).1, ?_, val e he⟩
    · rw [val e he]; exact sum_nonneg fun _ _ => sq_nonneg _
    · rw [coefficientNorm_split _ _ _ (h2 e he).1, ← unit e he]
      exact sum_congr rfl fun _ _ => sq _
  · intro e he hmin a b ha hb
    have hxl : (a ++ b).length = np + nq := by simp [ha, hb]
    obtain ⟨q1, q2⟩ := spectral_form (np + nq) (gram (eigenColumns d r np nq ny)) (fun k => (l.getD k (0, [])).1)
      (fun k j => arr (l.getD k (0, [])).2 j) (by
        intro k hk i hi
        have hkl : k < l.length := by omega
        have : l.getD k (0, []) = l[k] := by simp [List.getD, hkl]
        rw [this]
        exact (h2 l[k] (List.getElem_mem hkl)).2 i hi) (by
        intro k hk k' hk'
        have hkl : k < l.length := by omega
        have hkl' : k' < l.length := by omega
        have e1 : l.getD k (0, []) = l[k] := by simp [List.getD, hkl]
        have e2 : l.getD k' (0, []) = l[k'] := by simp [List.getD, hkl']
        rw [e1, e2]
        exact h3 k k' l[k] l[k'] (List.getElem?_eq_getElem hkl) (List.getElem?_eq_getElem hkl')) (arr (a ++ b))
    rw [gram_quadratic, eigenColumns_quadratic d r np nq ny hd _ hxl] at q1
    have hn := coefficientNorm_split _ _ _ hxl
    rw [List.take_left' ha, List.drop_left' ha] at q1 hn
    rw [hn, q1, q2, mul_sum, ← val e he]
    refine sum_le_sum fun k hk => ?_
    have hkl : k < l.length := by rw [h1]; simpa using hk
    have : l.getD k (0, []) = l[k] := by simp [List.getD, hkl]
    rw [this]
    exact mul_le_mul_of_nonneg_right (hmin _ (List.getElem_mem hkl)) (sq_nonneg _)

/-- One channel: the coefficients have the smallest error of all. -/
theorem eigenChannel_spec (solve : EigenSystem) (hs : solve.Sound) (junk : ℝ) (d : Store ℝ) (np nq ny : ℕ) (r : Rat1)
    (h : r.Standard) (hd : r.dimX = d.dimX) (hp : r.p.length = np) (hq : r.q.length = nq) :
    (∀ r', eigenChannel solve junk d np nq ny r = some (true, r') → ∃ a b : List ℝ, a.length = np ∧ b.length = nq ∧
      coefficientNorm a b = 1 ∧ (∃ c, c ≠ 0 ∧ ∀ x, r'.parts x =
        some (polynomial r.dimX r.lo r.hi a x / c, polynomial r.dimX r.lo r.hi b x / c)) ∧
      ∀ a' b' : List ℝ, a'.length = np → b'.length = nq →
        linearError d r.lo r.hi ny a b * coefficientNorm a' b' ≤ linearError d r.lo r.hi ny a' b') ∧
    (1 ≤ np → 1 ≤ nq → (solve (np + nq) (gram (eigenColumns d r np nq ny))).isSome →
      (∃ a b : List ℝ, a.length = np ∧ b.length = nq ∧ coefficientNorm a b = 1 ∧
        linearError d r.lo r.hi ny a b < maxDouble) →
      ∃ r', eigenChannel solve junk d np nq ny r = some (true, r')) := by
  have hcols := eigenColumns_eq d r h np nq ny hp hq
  cases hl : solve (np + nq) (gram (eigenColumns d r np nq ny)) with
  | none =>
    constructor
    · intro r' hr
      unfold eigenChannel at hr
      rw [hcols, Option.bind_some, hl] at hr
      simp at hr
    · intro _ _ h; cases h
  | some l =>
    obtain ⟨o1, o2⟩ := eigen_optimum solve hs d r np nq ny hd l hl
    have hsm := smallestEigen_spec l fun e he => (o1 e he).1
    constructor
    · intro r' hr
      unfold eigenChannel at hr
      rw [hcols, Option.bind_some, hl] at hr
      simp only [] at hr
      split at hr
      · simp at hr
      · rename_i hne
        split at hr
        · simp at hr
        · rename_i hn
          rcases hsm with ⟨e1, -⟩ | ⟨e1, -, e3⟩
          · exact absurd e1 hne
          · obtain ⟨p1, p2, p3, p4⟩ := o1 _ e1
            have hb : (smallestEigen l).2.drop np ≠ [] := by
              intro hc
              have := congrArg List.length hc
              rw [List.length_drop, List.length_nil] at this
              omega
            obtain ⟨r1, u1, u2, u3, u4, u5, -, c, hc, uP, uQ, -⟩ := update_value junk r h ((smallestEigen l).2.take np)
              ((smallestEigen l).2.drop np) hb (by rw [List.length_take]; omega) (by rw [List.length_drop]; omega)
            rw [u1] at hr
            simp only [Option.map_some, Option.some.injEq, Prod.mk.injEq, true_and] at hr
            subst hr
            refine ⟨_, _, by rw [List.length_take]; omega, by rw [List.length_drop]; omega, p3, ⟨c, hc, fun x => ?_⟩,
              o2 _ e1 e3⟩
            rw [rational_parts r1 u2 x, uP, uQ, u3, u4, u5, polynomial_div, polynomial_div]
    · intro hnp hnq _ ⟨a, b, ha, hb, hab, hlt⟩
      have hcase : (smallestEigen l).1 ≠ maxDouble ∧ smallestEigen l ∈ l := by
        rcases hsm with ⟨e1, e2⟩ | ⟨e1, e2, -⟩
        · exfalso
          -- every eigenvalue is too large
          have hne : l ≠ [] := by
            intro hc
            have := (hs _ _ _ (gram_symm _) hl).1
            rw [hc] at this
            simp at this
            omega
          obtain ⟨e, he, hmin⟩ : ∃ e ∈ l, ∀ e' ∈ l, e.1 ≤ e'.1 := by
            have : ∀ l : List (ℝ × List ℝ), l ≠ [] → ∃ e ∈ l, ∀ e' ∈ l, e.1 ≤ e'.1 := by
              intro l
              induction l with
              | nil => intro h; exact absurd rfl h
              | cons e l ih =>
                intro _
                by_cases hl : l = []
                · exact ⟨e, List.mem_cons_self, by intro e' he'; rw [hl] at he'; simp at he'; rw [he']⟩
                · obtain ⟨m, hm, hmin⟩ := ih hl
                  rcases le_total e.1 m.1 with hle | hle
                  · refine ⟨e, List.mem_cons_self, ?_⟩
                    intro e' he'
                    rcases List.mem_cons.1 he' with rfl | he'
                    · exact le_rfl
                    · exact hle.trans (hmin e' he')
                  · refine ⟨m, List.mem_cons_of_mem _ hm, ?_⟩
                    intro e' he'
                    rcases List.mem_cons.1 he' with rfl | he'
                    · exact hle
                    · exact hmin e' he'
            exact this l hne
          have := o2 e he hmin a b ha hb
          rw [hab, mul_one, ← (o1 e he).2.2.2] at this
          linarith [e2 e he]
        · exact ⟨e2.ne, e1⟩
      obtain ⟨p1, p2, p3, p4⟩ := o1 _ hcase.2
      have hb : (smallestEigen l).2.drop np ≠ [] := by
        intro hc
        have := congrArg List.length hc
        rw [List.length_drop, List.length_nil] at this
        omega
      obtain ⟨r1, u1, -⟩ := update_value junk r h ((smallestEigen l).2.take np)
        ((smallestEigen l).2.drop np) hb (by rw [List.length_take]; omega) (by rw [List.length_drop]; omega)
      refine ⟨r1, ?_⟩
      unfold eigenChannel
      rw [hcols, Option.bind_some, hl]
      simp only []
      rw [if_neg hcase.1, if_neg (by omega), u1]
      rfl

/-! ### The function -/

/-- The size of the data and that of the function agree. -/
structure RationalReady (d : Segments) (f : RatFn) : Prop where
  dims : 1 ≤ d.store.dimX
  input : f.dimX = d.store.dimX
  output : f.dimY = d.store.dimY

/-- C70: each channel of the function found is the quotient of the polynomials, of the sizes asked for, whose
    coefficients have the smallest sum of `(p(x) - y q(x))²` over the samples among all the vectors of the same
    length. -/
theorem eigen_rational_optimal (solve : EigenSystem) (hs : solve.Sound) (junk : ℝ) (d : Segments) (np nq : ℕ)
    (f f' : RatFn) (hf : RationalReady d f) (h : eigenRationalFit solve junk d np nq f = some (true, f')) :
    f'.dimX = f.dimX ∧ f'.dimY = f.dimY ∧
    ∀ m < d.store.dimY, ∃ a b : List ℝ, a.length = np ∧ b.length = nq ∧ coefficientNorm a b = 1 ∧
      f'.IsQuotient (inflate d.min d.max).1 (inflate d.min d.max).2 m a b ∧
      ∀ a' b' : List ℝ, a'.length = np → b'.length = nq →
        linearError d.store (inflate d.min d.max).1 (inflate d.min d.max).2 m a b * coefficientNorm a' b' ≤
          linearError d.store (inflate d.min d.max).1 (inflate d.min d.max).2 m a' b' := by
  unfold eigenRationalFit at h
  split at h
  · simp at h
  · obtain ⟨g1, g2, -, g4⟩ := (fitEach_spec (fun ny => eigenChannel solve junk d.store np nq ny) junk d.store.dimY
      d.store.dimY 0 (RatFn.setSize { f with lo := d.min, hi := d.max } np nq) (by omega) hf.output
      (by simp [RatFn.setSize, hf.output]) (by
        intro m _ hm
        have : m < f.dimY := by rw [hf.output]; exact hm
        simp [RatFn.setSize, this])).1 f' h
    refine ⟨g1, g2.trans hf.output.symm, fun m hm => ?_⟩
    obtain ⟨r', c1, c2⟩ := g4 m (Nat.zero_le _) hm
    have hdom := resize_dom junk ⟨f.dimX, [], [], (inflate d.min d.max).1, (inflate d.min d.max).2⟩ np nq
    obtain ⟨s1, s2, s3⟩ := mkRat1_standard junk f.dimX np nq (inflate d.min d.max).1 (inflate d.min d.max).2
      (by rw [hf.input]; exact hf.dims)
    obtain ⟨a, b, k1, k2, k3, ⟨c, hc, k4⟩, k5⟩ := (eigenChannel_spec solve hs junk d.store np nq m _ s1
      (hdom.1.trans hf.input) s2 s3).1 r' c1
    have e2 : (mkRat1 junk f.dimX np nq (inflate d.min d.max).1 (inflate d.min d.max).2).lo = (inflate d.min d.max).1 := hdom.2.1
    have e3 : (mkRat1 junk f.dimX np nq (inflate d.min d.max).1 (inflate d.min d.max).2).hi = (inflate d.min d.max).2 := hdom.2.2
    have e1 : (mkRat1 junk f.dimX np nq (inflate d.min d.max).1 (inflate d.min d.max).2).dimX = f.dimX := hdom.1
    rw [e2, e3] at k4 k5
    refine ⟨a, b, k1, k2, k3, ⟨r', c, c2, hc, fun x => ?_⟩, k5⟩
    rw [k4 x, e1, show f'.dimX = f.dimX from g1]

/-- C70: the values of a function one of whose channels is a quotient. -/
theorem IsQuotient.channel {f : RatFn} {lo hi : List ℝ} {m : ℕ} {a b : List ℝ} (h : f.IsQuotient lo hi m a b) (x : List ℝ) :
    ((f.rs[m]?).join).bind (fun r => r.value x) = some (polynomial f.dimX lo hi a x / polynomial f.dimX lo hi b x) := by
  obtain ⟨r, c, h1, h2, h3⟩ := h
  rw [h1]
  simp only [Option.join_some, Option.bind_some, Rat1.value, h3 x, Option.map_some]
  rw [div_div_div_cancel_right₀ h2]

/-- C70: when the data are the values of a rational function of the sizes asked for, the polynomials found satisfy
    `p(x) = y q(x)` at all the samples, and so the function has the value `y` where its denominator is not null. -/
theorem eigen_rational_exact (solve : EigenSystem) (hs : solve.Sound) (junk : ℝ) (d : Segments) (np nq : ℕ)
    (f f' : RatFn) (hf : RationalReady d f) (h : eigenRationalFit solve junk d np nq f = some (true, f')) (m : ℕ)
    (hm : m < d.store.dimY) (a' b' : List ℝ) (ha : a'.length = np) (hb : b'.length = nq) (hne : coefficientNorm a' b' ≠ 0)
    (hdata : ∀ i < d.store.size, polynomial d.store.dimX (inflate d.min d.max).1 (inflate d.min d.max).2 a' (d.store.point i) =
      d.store.ordinate i m *
        polynomial d.store.dimX (inflate d.min d.max).1 (inflate d.min d.max).2 b' (d.store.point i)) :
    ∃ a b : List ℝ, a.length = np ∧ b.length = nq ∧ coefficientNorm a b = 1 ∧
      f'.IsQuotient (inflate d.min d.max).1 (inflate d.min d.max).2 m a b ∧
      ∀ i < d.store.size, polynomial d.store.dimX (inflate d.min d.max).1 (inflate d.min d.max).2 a (d.store.point i) =
          d.store.ordinate i m *
            polynomial d.store.dimX (inflate d.min d.max).1 (inflate d.min d.max).2 b (d.store.point i) ∧
        (polynomial d.store.dimX (inflate d.min d.max).1 (inflate d.min d.max).2 b (d.store.point i) ≠ 0 →
        ((f'.rs[m]?).join).bind (fun r => r.value (d.store.point i)) = some (d.store.ordinate i m)) := by
  obtain ⟨e1, -, h3⟩ := eigen_rational_optimal solve hs junk d np nq f f' hf h
  obtain ⟨a, b, k1, k2, k3, k4, k5⟩ := h3 m hm
  refine ⟨a, b, k1, k2, k3, k4, fun i hi => ?_⟩
  have hz : linearError d.store (inflate d.min d.max).1 (inflate d.min d.max).2 m a' b' = 0 := by
    unfold linearError
    refine sum_eq_zero fun i hi => ?_
    rw [hdata i (mem_range.1 hi), sub_self]
    norm_num
  have hpos : 0 < coefficientNorm a' b' := by
    refine lt_of_le_of_ne ?_ hne.symm
    unfold coefficientNorm
    exact add_nonneg (sum_nonneg fun _ _ => sq_nonneg _) (sum_nonneg fun _ _ => sq_nonneg _)
  have h0 : linearError d.store (inflate d.min d.max).1 (inflate d.min d.max).2 m a b = 0 := by
    have := k5 a' b' ha hb
    rw [hz] at this
    have hnn : 0 ≤ linearError d.store (inflate d.min d.max).1 (inflate d.min d.max).2 m a b :=
      sum_nonneg fun _ _ => sq_nonneg _
    nlinarith
  have hi0 := (sum_eq_zero_iff_of_nonneg (fun _ _ => sq_nonneg _)).1 h0 i (mem_range.2 hi)
  have := pow_eq_zero_iff (two_ne_zero) |>.1 hi0
  refine ⟨by linarith, fun hq => ?_⟩
  rw [IsQuotient.channel k4, e1, hf.input]
  congr 1
  rw [div_eq_iff hq]
  linarith

/-- C70: the fit succeeds when the data have asymmetrical intervals, both sizes are at least 1, the decomposition
    succeeds, and some coefficients have an error that is not infinite. -/
theorem eigen_rational_succeeds (solve : EigenSystem) (hs : solve.Sound) (junk : ℝ) (d : Segments) (np nq : ℕ)
    (f : RatFn) (hf : RationalReady d f) (hk : d.store.kind = .asymmetrical) (hnp : 1 ≤ np) (hnq : 1 ≤ nq)
    (htotal : ∀ M : ℕ → ℕ → ℝ, (∀ i j, M i j = M j i) → (solve (np + nq) M).isSome)
    (hfin : ∀ m < d.store.dimY, ∃ a b : List ℝ, a.length = np ∧ b.length = nq ∧ coefficientNorm a b = 1 ∧
      linearError d.store (inflate d.min d.max).1 (inflate d.min d.max).2 m a b < maxDouble) :
    ∃ f', eigenRationalFit solve junk d np nq f = some (true, f') := by
  unfold eigenRationalFit
  rw [if_neg (by simp [hk])]
  refine (fitEach_spec (fun ny => eigenChannel solve junk d.store np nq ny) junk d.store.dimY
      d.store.dimY 0 (RatFn.setSize { f with lo := d.min, hi := d.max } np nq) (by omega) hf.output
      (by simp [RatFn.setSize, hf.output]) (by
        intro m _ hm
        have : m < f.dimY := by rw [hf.output]; exact hm
        simp [RatFn.setSize, this])).2 fun m _ hm => ?_
  have hdom := resize_dom junk ⟨f.dimX, [], [], (inflate d.min d.max).1, (inflate d.min d.max).2⟩ np nq
  obtain ⟨s1, s2, s3⟩ := mkRat1_standard junk f.dimX np nq (inflate d.min d.max).1 (inflate d.min d.max).2
      (by rw [hf.input]; exact hf.dims)
  have e2 : (mkRat1 junk f.dimX np nq (inflate d.min d.max).1 (inflate d.min d.max).2).lo = (inflate d.min d.max).1 := hdom.2.1
  have e3 : (mkRat1 junk f.dimX np nq (inflate d.min d.max).1 (inflate d.min d.max).2).hi = (inflate d.min d.max).2 := hdom.2.2
  refine (eigenChannel_spec solve hs junk d.store np nq m _ s1 (hdom.1.trans hf.input) s2 s3).2 hnp hnq (htotal _ (gram_symm _)) ?_
  rw [e2, e3]
  exact hfin m hm

end
end Alta
