import Verif.Props.Quadprog
/-
C53: the quadratic programming fitter of rational functions.
-/
namespace Alta
noncomputable section
open Finset

/-! ### One channel -/

theorem get_of_lt (d : Store ℝ) (i : ℕ) (hi : i < d.size) : ∃ xi x yl yu,
    d.get i = some xi ∧ d.getSegment i = some (x, yl, yu) ∧ ∀ k < d.dimX, arr xi k = arr x k := by
  have hx : ∀ k < d.dimX,
      arr ((d.raw.drop (i * d.columns)).take (d.dimX + d.dimY)) k = arr (segment (d.row i) 0 d.dimX) k := by
    intro k hk
    unfold segment Store.row
    rw [List.drop_zero, arr_take_lt _ _ _ (by omega), arr_take_lt _ _ _ hk,
      arr_take_lt _ _ _ (by unfold Store.columns; omega)]
  unfold Store.get Store.getSegment
  rw [if_pos hi, if_pos hi]
  cases d.kind
  · exact ⟨_, _, _, _, rfl, rfl, hx⟩
  · exact ⟨_, _, _, _, rfl, rfl, hx⟩
  · exact ⟨_, _, _, _, rfl, rfl, hx⟩

theorem getSegment_lt (d : Store ℝ) (i : ℕ) (s : List ℝ × List ℝ × List ℝ)
    (h : d.getSegment i = some s) : i < d.size := by
  by_contra hi
  unfold Store.getSegment at h
  rw [if_neg hi] at h
  cases h

/-- abscissa, lower and upper bound of a data point -/
def pointOf (d : Store ℝ) (i : ℕ) : List ℝ × List ℝ × List ℝ := (d.getSegment i).getD ([], [], [])

/-- the two columns of a data point -/
def pairOf (d : Store ℝ) (r : Rat1) (np nq ny i : ℕ) : List ℝ × List ℝ :=
  let b := fun j => basisFn r.dimX r.lo r.hi j (pointOf d i).1
  ((List.range (np + nq)).map (upperElement np b b (arr (pointOf d i).2.2 ny)),
   (List.range (np + nq)).map (lowerElement np b b (arr (pointOf d i).2.1 ny)))

theorem pointPair_eq (d : Store ℝ) (r : Rat1) (h : r.Standard) (np nq ny i : ℕ)
    (hd : r.dimX = d.dimX) (hp : r.p.length = np) (hq : r.q.length = nq) (hi : i < d.size) :
    pointPair d r np nq ny i = some (pairOf d r np nq ny i) := by
  obtain ⟨xi, x, yl, yu, h1, h2, h3⟩ := get_of_lt d i hi
  unfold pointPair pairOf pointOf
  rw [h1, h2]
  simp only [Option.bind_some, Option.getD_some]
  rw [constraintPair_standard r h np nq hp hq]
  have : ∀ j, basisFn r.dimX r.lo r.hi j xi = basisFn r.dimX r.lo r.hi j x :=
    fun j => basisFn_congr _ _ _ _ _ _ (by rw [hd]; exact h3)
  simp only [this]

/-- The program of a channel: the constraints of all the data points and no other. -/
theorem program_spec (d : Store ℝ) (r : Rat1) (h : r.Standard) (np nq ny : ℕ) (delta : ℝ)
    (hd : r.dimX = d.dimX) (hp : r.p.length = np) (hq : r.q.length = nq) :
    ∃ prog, (((List.range d.size).mapM (pointPair d r np nq ny)).bind fun pairs =>
        fillMatrix delta (np + nq) d.size pairs) = some prog ∧
      (∀ c ∈ prog, c.1.length = np + nq) ∧
      ∀ x, (∀ c ∈ prog, c.Holds x) ↔ ∀ i < d.size,
        let b := fun j => basisFn r.dimX r.lo r.hi j (pointOf d i).1
        (upperConstraint delta np nq b b (arr (pointOf d i).2.2 ny)).Holds x ∧
        (lowerConstraint delta np nq b b (arr (pointOf d i).2.1 ny)).Holds x := by
  rw [mapM_total _ _ (pairOf d r np nq ny)
    (fun i hi => pointPair_eq d r h np nq ny i hd hp hq (by simpa using hi))]
  obtain ⟨prog, h1, _, h2⟩ := fillMatrix_spec delta (np + nq) d.size
    ((List.range d.size).map (pairOf d r np nq ny)) (by simp)
  refine ⟨prog, h1, ?_, ?_⟩
  · intro c hc
    obtain ⟨pr, hpr, hc⟩ := (h2 c).1 hc
    obtain ⟨i, _, rfl⟩ := List.mem_map.1 hpr
    rcases hc with rfl | rfl <;> simp [withOffset, pairOf]
  · intro x
    constructor
    · intro hall i hi
      exact ⟨hall _ ((h2 _).2 ⟨_, List.mem_map.2 ⟨i, by simpa using hi, rfl⟩, Or.inl rfl⟩),
        hall _ ((h2 _).2 ⟨_, List.mem_map.2 ⟨i, by simpa using hi, rfl⟩, Or.inr rfl⟩)⟩
    · intro hall c hc
      obtain ⟨pr, hpr, hc⟩ := (h2 c).1 hc
      obtain ⟨i, hi, rfl⟩ := List.mem_map.1 hpr
      obtain ⟨e1, e2⟩ := hall i (by simpa using hi)
      rcases hc with rfl | rfl
      · exact e1
      · exact e2

theorem numer_polynomial (dd np nq : ℕ) (lo hi x z : List ℝ) (hx : x.length = np + nq) :
    numer np (fun j => basisFn dd lo hi j z) x = polynomial dd lo hi (x.take np) z ∧
    denom np nq (fun j => basisFn dd lo hi j z) x = polynomial dd lo hi (x.drop np) z := by
  unfold numer denom polynomial
  constructor
  · rw [List.length_take, Nat.min_eq_left (by omega)]
    exact sum_congr rfl fun j hj => by rw [arr_take_lt _ _ _ (by simpa using hj)]
  · rw [List.length_drop, show x.length - np = nq by omega]
    exact sum_congr rfl fun j _ => by rw [arr_drop_add]

theorem eventually_all (n : ℕ) (P : ℕ → ℝ → Prop)
    (h : ∀ i < n, ∃ L, ∀ s ≥ L, P i s) : ∃ L, ∀ s ≥ L, ∀ i < n, P i s := by
  induction n with
  | zero => exact ⟨0, fun _ _ i hi => absurd hi (Nat.not_lt_zero i)⟩
  | succ n ih =>
    obtain ⟨L1, h1⟩ := ih fun i hi => h i (by omega)
    obtain ⟨L2, h2⟩ := h n (by omega)
    refine ⟨max L1 L2, fun s hs i hi => ?_⟩
    rcases Nat.lt_or_ge i n with hin | hin
    · exact h1 s (le_trans (le_max_left _ _) hs) i hin
    · rw [show i = n by omega]
      exact h2 s (le_trans (le_max_right _ _) hs)

/-- lower bounds are not above upper bounds -/
def Store.Ordered (d : Store ℝ) : Prop :=
  ∀ i x yl yu, d.getSegment i = some (x, yl, yu) → ∀ ny < d.dimY, arr yl ny ≤ arr yu ny

theorem pointOf_eq (d : Store ℝ) (i : ℕ) (x yl yu : List ℝ)
    (h : d.getSegment i = some (x, yl, yu)) : pointOf d i = (x, yl, yu) := by
  rw [pointOf, h]; rfl

theorem polynomial_neg (dd : ℕ) (lo hi a x : List ℝ) :
    polynomial dd lo hi (a.map (- ·)) x = - polynomial dd lo hi a x := by
  have e : a.map (- ·) = a.map (· / (-1 : ℝ)) := by
    apply List.map_congr_left
    intro v _
    ring
  rw [e, polynomial_div]; ring

/-- a channel can be fitted exactly when its program has a solution -/
theorem fittable_iff (d : Store ℝ) (hord : d.Ordered) (r : Rat1) (np nq ny : ℕ)
    (delta : ℝ) (hdelta : 0 < delta) (hd : r.dimX = d.dimX) (hnp : 1 ≤ np) (hny : ny < d.dimY) :
    Fittable d r.lo r.hi np nq ny ↔ ∃ x : List ℝ, x.length = np + nq ∧ ∀ i < d.size,
        let b := fun j => basisFn r.dimX r.lo r.hi j (pointOf d i).1
        (upperConstraint delta np nq b b (arr (pointOf d i).2.2 ny)).Holds x ∧
        (lowerConstraint delta np nq b b (arr (pointOf d i).2.1 ny)).Holds x := by
  constructor
  · rintro ⟨a, b, ha, hb, hsign, hin⟩
    -- a solution with a negative denominator
    obtain ⟨a, b, ha, hb, hneg, hin⟩ : ∃ a b : List ℝ, a.length = np ∧ b.length = nq ∧
        (∀ i x yl yu, d.getSegment i = some (x, yl, yu) → polynomial d.dimX r.lo r.hi b x < 0) ∧
        ∀ i x yl yu, d.getSegment i = some (x, yl, yu) →
          arr yl ny < polynomial d.dimX r.lo r.hi a x / polynomial d.dimX r.lo r.hi b x ∧
          polynomial d.dimX r.lo r.hi a x / polynomial d.dimX r.lo r.hi b x < arr yu ny := by
      rcases hsign with hpos | hneg
      · refine ⟨a.map (- ·), b.map (- ·), by simpa using ha, by simpa using hb, ?_, ?_⟩
        · intro i x yl yu hs
          rw [polynomial_neg]
          have := hpos i x yl yu hs
          linarith
        · intro i x yl yu hs
          rw [polynomial_neg, polynomial_neg, neg_div_neg_eq]
          exact hin i x yl yu hs
      · exact ⟨a, b, ha, hb, hneg, hin⟩
    have hlen : (a ++ b).length = np + nq := by simp [ha, hb]
    obtain ⟨L, hL⟩ := eventually_all d.size (fun i s =>
        (upperConstraint delta np nq (fun j => basisFn r.dimX r.lo r.hi j (pointOf d i).1)
          (fun j => basisFn r.dimX r.lo r.hi j (pointOf d i).1) (arr (pointOf d i).2.2 ny)).Holds
            ((a ++ b).map (s * ·)) ∧
        (lowerConstraint delta np nq (fun j => basisFn r.dimX r.lo r.hi j (pointOf d i).1)
          (fun j => basisFn r.dimX r.lo r.hi j (pointOf d i).1) (arr (pointOf d i).2.1 ny)).Holds
            ((a ++ b).map (s * ·))) (by
      intro i hi
      obtain ⟨xi, x, yl, yu, _, hs, _⟩ := get_of_lt d i hi
      rw [pointOf_eq d i x yl yu hs]
      obtain ⟨e1, e2⟩ := numer_polynomial r.dimX np nq r.lo r.hi (a ++ b) x hlen
      rw [show (a ++ b).take np = a by rw [← ha]; simp] at e1
      rw [show (a ++ b).drop np = b by rw [← ha]; simp] at e2
      apply constraints_complete
      · rw [e2, hd]; exact hneg i x yl yu hs
      · rw [e1, e2, hd]; exact (hin i x yl yu hs).1
      · rw [e1, e2, hd]; exact (hin i x yl yu hs).2)
    exact ⟨(a ++ b).map (L * ·), by simp [ha, hb], fun i hi => hL L le_rfl i hi⟩
  · rintro ⟨x, hx, hall⟩
    have hsound : ∀ i z yl yu, d.getSegment i = some (z, yl, yu) →
        polynomial d.dimX r.lo r.hi (x.drop np) z < 0 ∧
        arr yl ny < polynomial d.dimX r.lo r.hi (x.take np) z / polynomial d.dimX r.lo r.hi (x.drop np) z ∧
        polynomial d.dimX r.lo r.hi (x.take np) z / polynomial d.dimX r.lo r.hi (x.drop np) z < arr yu ny := by
      intro i z yl yu hs
      obtain ⟨h1, h2⟩ := hall i (getSegment_lt d i _ hs)
      rw [pointOf_eq d i z yl yu hs] at h1 h2
      have := constraints_sound delta hdelta np nq hnp _ _ (basisFn_zero r.dimX r.lo r.hi z) _ _
        (hord i z yl yu hs ny hny) x h1 h2
      obtain ⟨e1, e2⟩ := numer_polynomial r.dimX np nq r.lo r.hi x z hx
      rw [e1, e2, hd] at this
      exact this
    exact ⟨x.take np, x.drop np, by simp [hx], by simp [hx],
      Or.inr fun i z yl yu hs => (hsound i z yl yu hs).1, fun i z yl yu hs => (hsound i z yl yu hs).2⟩

/-- What is known of a channel that was fitted. -/
def ChannelFits (d : Store ℝ) (ny : ℕ) (r : Rat1) : Prop :=
  ∀ i x yl yu, d.getSegment i = some (x, yl, yu) →
    ∃ p q, r.parts x = some (p, q) ∧ q ≠ 0 ∧ arr yl ny < p / q ∧ p / q < arr yu ny

theorem solution_fits (d : Store ℝ) (hord : d.Ordered) (junk delta : ℝ) (hdelta : 0 < delta)
    (r : Rat1) (h : r.Standard) (np nq ny : ℕ) (hp : r.p.length = np)
    (hq : r.q.length = nq) (hnp : 1 ≤ np) (hnq : 1 ≤ nq) (hny : ny < d.dimY) (x : List ℝ)
    (hx : x.length = np + nq)
    (hall : ∀ i < d.size,
        let b := fun j => basisFn r.dimX r.lo r.hi j (pointOf d i).1
        (upperConstraint delta np nq b b (arr (pointOf d i).2.2 ny)).Holds x ∧
        (lowerConstraint delta np nq b b (arr (pointOf d i).2.1 ny)).Holds x) :
    ∃ r', r.update junk (x.take np) (x.drop np) = some r' ∧ r'.Standard ∧ r'.dimX = r.dimX ∧
      ChannelFits d ny r' ∧ (0 < d.size → 0 < sumSquares x) := by
  have hb : x.drop np ≠ [] := by
    intro hc
    have := congrArg List.length hc
    rw [List.length_drop, List.length_nil] at this
    omega
  obtain ⟨r', u1, u2, u3, u4, u5, _, c, hc0, uP, uQ, _⟩ := update_value junk r h (x.take np)
    (x.drop np) hb (by rw [List.length_take]; omega) (by rw [List.length_drop]; omega)
  have key : ∀ i z yl yu, d.getSegment i = some (z, yl, yu) →
        polynomial r.dimX r.lo r.hi (x.drop np) z < 0 ∧
        arr yl ny < polynomial r.dimX r.lo r.hi (x.take np) z / polynomial r.dimX r.lo r.hi (x.drop np) z ∧
        polynomial r.dimX r.lo r.hi (x.take np) z / polynomial r.dimX r.lo r.hi (x.drop np) z < arr yu ny := by
    intro i z yl yu hs
    obtain ⟨h1, h2⟩ := hall i (getSegment_lt d i _ hs)
    rw [pointOf_eq d i z yl yu hs] at h1 h2
    have := constraints_sound delta hdelta np nq hnp _ _ (basisFn_zero r.dimX r.lo r.hi z) _ _
      (hord i z yl yu hs ny hny) x h1 h2
    obtain ⟨e1, e2⟩ := numer_polynomial r.dimX np nq r.lo r.hi x z hx
    rw [e1, e2] at this
    exact this
  refine ⟨r', u1, u2, u3, fun i z yl yu hs => ⟨_, _, rational_parts r' u2 z, ?_⟩, fun hsize => ?_⟩
  · rw [uP, uQ, u3, u4, u5, polynomial_div, polynomial_div, div_div_div_cancel_right₀ hc0]
    exact ⟨div_ne_zero (ne_of_lt (key i z yl yu hs).1) hc0, (key i z yl yu hs).2⟩
  obtain ⟨_, z, yl, yu, _, hs, _⟩ := get_of_lt d 0 hsize
  have hneg := (key 0 z yl yu hs).1
  by_contra hz
  have hz0 : sumSquares x = 0 := le_antisymm (not_lt.1 hz) (sumSquares_nonneg x)
  have hall0 : ∀ j, arr x j = 0 := by
    intro j
    rcases Nat.lt_or_ge j x.length with hj | hj
    · by_contra hne
      have := sumSquares_pos x j hj hne
      linarith
    · exact arr_beyond x j hj
  have : polynomial r.dimX r.lo r.hi (x.drop np) z = 0 := by
    unfold polynomial
    apply sum_eq_zero
    intro j _
    rw [arr_drop_add, hall0, zero_mul]
  linarith

/-- One channel: the fitter does not fail, it succeeds exactly when some rational function of that
    size fits the channel, and the function it leaves then passes through the segments. -/
theorem fitChannel_spec (solve : Solver) (hsound : solve.Sound) (junk delta : ℝ)
    (hdelta : 0 < delta) (d : Store ℝ) (hord : d.Ordered) (hsize : 0 < d.size) (np nq ny : ℕ)
    (hnp : 1 ≤ np) (hnq : 1 ≤ nq) (hny : ny < d.dimY) (r : Rat1) (h : r.Standard)
    (hd : r.dimX = d.dimX) (hp : r.p.length = np) (hq : r.q.length = nq) :
    ∃ ok r', fitChannel solve junk delta d np nq ny r = some (ok, r') ∧ r'.Standard ∧
      (ok = true → Fittable d r.lo r.hi np nq ny ∧ ChannelFits d ny r') ∧
      (solve.Complete → Fittable d r.lo r.hi np nq ny → ok = true) := by
  obtain ⟨prog, h1, h2, h3⟩ := program_spec d r h np nq ny delta hd hp hq
  have hfit := fittable_iff d hord r np nq ny delta hdelta hd hnp hny
  unfold fitChannel
  rw [← Option.bind_assoc, h1, Option.bind_some]
  cases hs : solve (np + nq) prog with
  | none =>
    refine ⟨false, r, rfl, h, by simp, fun hc hf => ?_⟩
    obtain ⟨x, hx, hall⟩ := hfit.1 hf
    have := hc (np + nq) prog h2 ⟨x, hx, (h3 x).2 hall⟩
    rw [hs] at this
    cases this
  | some x =>
    obtain ⟨hx, hall⟩ := hsound (np + nq) prog x h2 hs
    have hall' := (h3 x).1 hall
    obtain ⟨r', u1, u2, _, u3, u4⟩ := solution_fits d hord junk delta hdelta r h np nq ny hp hq
      hnp hnq hny x hx hall'
    refine ⟨true, r', ?_, u2, fun _ => ⟨hfit.2 ⟨x, hx, hall'⟩, u3⟩, fun _ _ => rfl⟩
    simp only [u1, Option.map_some]
    rw [(@decide_eq_true_iff _ (Classical.propDecidable _)).2 (u4 hsize)]

/-! ### All the channels -/

theorem fitChannels_spec (solve : Solver) (hsound : solve.Sound) (junk delta : ℝ)
    (hdelta : 0 < delta) (d : Store ℝ) (hord : d.Ordered) (hsize : 0 < d.size) (hdx : 1 ≤ d.dimX)
    (np nq : ℕ) (hnp : 1 ≤ np) (hnq : 1 ≤ nq) : ∀ (k j : ℕ) (f : RatFn), j + k = d.dimY →
    f.dimX = d.dimX → f.dimY = d.dimY → f.rs.length = d.dimY → f.np = np → f.nq = nq →
    (∀ m, j ≤ m → m < d.dimY → f.rs[m]? = some none) →
    ∃ ok f', fitChannels solve junk delta d np nq k j f = some (ok, f') ∧
      f'.dimX = d.dimX ∧ f'.dimY = d.dimY ∧ f'.lo = f.lo ∧ f'.hi = f.hi ∧
      (∀ m < j, f'.rs[m]? = f.rs[m]?) ∧
      (ok = true → ∀ m, j ≤ m → m < d.dimY →
        Fittable d (inflate f.lo f.hi).1 (inflate f.lo f.hi).2 np nq m ∧
        ∃ r, f'.rs[m]? = some (some r) ∧ ChannelFits d m r) ∧
      (solve.Complete → (∀ m, j ≤ m → m < d.dimY →
        Fittable d (inflate f.lo f.hi).1 (inflate f.lo f.hi).2 np nq m) → ok = true) := by
  intro k
  induction k with
  | zero =>
    intro j f hj hx hy _ _ _ _
    exact ⟨true, f, rfl, hx, hy, rfl, rfl, fun _ _ => rfl,
      fun _ m h1 h2 => absurd h2 (by omega), fun _ _ => rfl⟩
  | succ k ih =>
    intro j f hj hx hy hl hfp hfq hnone
    have hjd : j < d.dimY := by omega
    set b := inflate f.lo f.hi with hb
    set r0 := mkRat1 junk f.dimX f.np f.nq b.1 b.2 with hr0
    have hget : f.get junk j = some (r0, { f with rs := f.rs.set j (some r0) }) := by
      unfold RatFn.get
      rw [if_pos (by omega), hnone j le_rfl hjd]
    have hdom : r0.dimX = f.dimX ∧ r0.lo = b.1 ∧ r0.hi = b.2 := resize_dom ..
    obtain ⟨s1, s2, s3⟩ := mkRat1_standard junk f.dimX f.np f.nq b.1 b.2 (by omega)
    obtain ⟨t1, t2, t3⟩ := resize_standard junk r0 s1 np nq
    obtain ⟨e1, e2, e3⟩ := resize_dom junk r0 np nq
    obtain ⟨ok, r', c1, c2, c3, c4⟩ := fitChannel_spec solve hsound junk delta hdelta d hord hsize
      np nq j hnp hnq hjd (r0.resize junk np nq) t1 (by rw [e1, hdom.1, hx]) t2 t3
    rw [e2, e3, hdom.2.1, hdom.2.2] at c3 c4
    rw [fitChannels, hget]
    simp only
    rw [c1]
    simp only
    cases ok with
    | false =>
      refine ⟨false, { f with rs := (f.rs.set j (some r0)).set j (some r') }, rfl, hx, hy, rfl, rfl,
        ?_, by simp, fun hc hf => c4 hc (hf j le_rfl hjd)⟩
      intro m hm
      simp only
      rw [List.getElem?_set_ne (by omega), List.getElem?_set_ne (by omega)]
    | true =>
      obtain ⟨ok', f', g1, g2, g3, g4, g5, g6, g7, g8⟩ := ih (j + 1)
        { f with rs := (f.rs.set j (some r0)).set j (some r') } (by omega) hx hy
        (by simpa using hl) hfp hfq (by
          intro m h1 h2
          simp only
          rw [List.getElem?_set_ne (by omega), List.getElem?_set_ne (by omega)]
          exact hnone m (by omega) h2)
      simp only [if_true]
      refine ⟨ok', f', g1, g2, g3, g4, g5, ?_, ?_, ?_⟩
      · intro m hm
        rw [g6 m (by omega)]
        simp only
        rw [List.getElem?_set_ne (by omega), List.getElem?_set_ne (by omega)]
      · intro hok m h1 h2
        rcases Nat.eq_or_lt_of_le h1 with rfl | h1
        · refine ⟨(c3 rfl).1, r', ?_, (c3 rfl).2⟩
          rw [g6 j (by omega)]
          simp only
          rw [List.getElem?_set_self (by simp; omega)]
        · exact g7 hok m h1 h2
      · intro hc hf
        exact g8 hc fun m h1 h2 => hf m (by omega) h2

/-- the values of a function all of whose channels were fitted -/
theorem value_of_channels (d : Store ℝ) (f : RatFn) (hy : f.dimY = d.dimY)
    (h : ∀ m < d.dimY, ∃ r, f.rs[m]? = some (some r) ∧ ChannelFits d m r)
    (i : ℕ) (x yl yu : List ℝ) (hs : d.getSegment i = some (x, yl, yu)) :
    ∃ v, f.value x = some v ∧ v.length = d.dimY ∧
      ∀ m < d.dimY, arr yl m < arr v m ∧ arr v m < arr yu m ∧ ∃ r p q,
        f.rs[m]? = some (some r) ∧ r.parts x = some (p, q) ∧ q ≠ 0 ∧ arr v m = p / q := by
  have hch : ∀ m, ∃ v, m < d.dimY →
      (((f.rs[m]?).join).bind fun r => r.value x) = some v ∧ arr yl m < v ∧ v < arr yu m ∧ ∃ r p q,
        f.rs[m]? = some (some r) ∧ r.parts x = some (p, q) ∧ q ≠ 0 ∧ v = p / q := by
    intro m
    by_cases hm : m < d.dimY
    · obtain ⟨r, h1, h2⟩ := h m hm
      obtain ⟨p, q, h3, h4, h5, h6⟩ := h2 i x yl yu hs
      exact ⟨p / q, fun _ => ⟨by rw [h1]; simp [Rat1.value, h3], h5, h6, r, p, q, h1, h3, h4, rfl⟩⟩
    · exact ⟨0, fun hm' => absurd hm' hm⟩
  choose g hg using hch
  refine ⟨(List.range d.dimY).map g, ?_, by simp, ?_⟩
  · unfold RatFn.value
    rw [hy]
    exact mapM_total _ _ _ fun m hm => (hg m (by simpa using hm)).1
  · intro m hm
    rw [arr_range_map_lt _ _ _ hm]
    exact (hg m hm).2

/-! ### The growing sizes -/

/-- sizes tried by the fitter: both grow by one until their maximum -/
def triedSize (lo hi k : ℕ) : ℕ := min (lo + k) hi

theorem fitSizes_spec (solve : Solver) (hsound : solve.Sound) (junk delta : ℝ)
    (hdelta : 0 < delta) (d : Store ℝ) (hord : d.Ordered) (hsize : 0 < d.size) (hdx : 1 ≤ d.dimX)
    (maxNp maxNq : ℕ) : ∀ (n np nq : ℕ) (f : RatFn), (maxNp - np) + (maxNq - nq) = n →
    1 ≤ np → 1 ≤ nq → np ≤ maxNp → nq ≤ maxNq → f.dimX = d.dimX → f.dimY = d.dimY →
    ∃ ok f', fitSizes solve junk delta d maxNp maxNq np nq f = some (ok, f') ∧
      (ok = true → f'.dimY = d.dimY ∧
        (∀ m < d.dimY, ∃ r, f'.rs[m]? = some (some r) ∧ ChannelFits d m r) ∧
        ∃ k, ∀ m < d.dimY, Fittable d (inflate f.lo f.hi).1 (inflate f.lo f.hi).2
          (triedSize np maxNp k) (triedSize nq maxNq k) m) ∧
      (solve.Complete → (∃ k, ∀ m < d.dimY, Fittable d (inflate f.lo f.hi).1 (inflate f.lo f.hi).2
          (triedSize np maxNp k) (triedSize nq maxNq k) m) → ok = true) := by
  intro n
  induction n using Nat.strong_induction_on with
  | _ n ih =>
    intro np nq f hn h1p h1q hp hq hx hy
    obtain ⟨ok, f1, g1, g2, g3, g4, g5, _, g7, g8⟩ := fitChannels_spec solve hsound junk delta hdelta
      d hord hsize hdx np nq h1p h1q d.dimY 0 (f.setSize np nq) (by omega) hx hy
      (by simp [RatFn.setSize, hy]) rfl rfl (by
        intro m _ hm
        simp [RatFn.setSize, hy, hm])
    have hlo : (f.setSize np nq).lo = f.lo := rfl
    have hhi : (f.setSize np nq).hi = f.hi := rfl
    rw [hlo, hhi] at g7 g8
    have h0 : triedSize np maxNp 0 = np ∧ triedSize nq maxNq 0 = nq := by
      unfold triedSize; omega
    rw [fitSizes, if_pos (Or.inl hp), g1]
    cases ok with
    | true =>
      refine ⟨true, f1, rfl, fun _ => ⟨g3, fun m hm => (g7 rfl m (by omega) hm).2, 0, fun m hm => ?_⟩,
        fun _ _ => rfl⟩
      rw [h0.1, h0.2]
      exact (g7 rfl m (by omega) hm).1
    | false =>
      simp only
      have hno : solve.Complete → ¬ ∀ m < d.dimY,
          Fittable d (inflate f.lo f.hi).1 (inflate f.lo f.hi).2 np nq m := fun hc hf =>
        absurd (g8 hc fun m _ hm => hf m hm) (by simp)
      by_cases hend : np = maxNp ∧ nq = maxNq
      · rw [if_pos hend]
        refine ⟨false, f1, rfl, by simp, fun hc hk => ?_⟩
        obtain ⟨k, hk⟩ := hk
        have : triedSize np maxNp k = np ∧ triedSize nq maxNq k = nq := by
          unfold triedSize; omega
        rw [this.1, this.2] at hk
        exact absurd hk (hno hc)
      · rw [if_neg hend, if_pos (by omega)]
        obtain ⟨ok', f', e1, e2, e3⟩ := ih
          ((maxNp - (if np < maxNp then np + 1 else np)) + (maxNq - (if nq < maxNq then nq + 1 else nq)))
          (by split <;> split <;> omega) (if np < maxNp then np + 1 else np)
          (if nq < maxNq then nq + 1 else nq) f1 rfl (by split <;> omega) (by split <;> omega)
          (by split <;> omega) (by split <;> omega) g2 g3
        rw [g4, g5, hlo, hhi] at e2 e3
        have hstep : ∀ k, triedSize (if np < maxNp then np + 1 else np) maxNp k = triedSize np maxNp (k + 1) ∧
            triedSize (if nq < maxNq then nq + 1 else nq) maxNq k = triedSize nq maxNq (k + 1) := by
          intro k
          unfold triedSize
          constructor <;> split <;> omega
        refine ⟨ok', f', e1, fun hok => ?_, fun hc hk => ?_⟩
        · obtain ⟨a1, a2, k, a3⟩ := e2 hok
          refine ⟨a1, a2, k + 1, ?_⟩
          rw [(hstep k).1, (hstep k).2] at a3
          exact a3
        · obtain ⟨k, hk⟩ := hk
          apply e3 hc
          rcases k with _ | k
          · rw [h0.1, h0.2] at hk
            exact absurd hk (hno hc)
          · exact ⟨k, by rw [(hstep k).1, (hstep k).2]; exact hk⟩

/-- **C53.**  When the fitter `rational_fitter_quadprog` reports a success, the fitted function
    passes (strictly) through the vertical segment of every data point in every channel.  The
    hypotheses: the solver respects its contract, the margin `--delta` is positive, the data has
    ordered bounds and at least a point, the function has the dimensions of the data. -/
theorem quadprog_fit_sound (solve : Solver) (hsound : solve.Sound) (junk delta : ℝ)
    (hdelta : 0 < delta) (d : Segments) (hord : d.store.Ordered) (hsize : 0 < d.store.size)
    (hdx : 1 ≤ d.store.dimX) (np nq : ℕ) (minNp minNq : Option ℕ) (h1p : 1 ≤ minNp.getD np)
    (h1q : 1 ≤ minNq.getD nq) (f f' : RatFn) (hx : f.dimX = d.store.dimX) (hy : f.dimY = d.store.dimY)
    (hfit : quadprogFit solve junk delta d np nq minNp minNq f = some (true, f'))
    (i : ℕ) (x yl yu : List ℝ) (hs : d.store.getSegment i = some (x, yl, yu)) :
    ∃ v, f'.value x = some v ∧ v.length = d.store.dimY ∧
      ∀ m < d.store.dimY, arr yl m < arr v m ∧ arr v m < arr yu m ∧ ∃ r p q,
        f'.rs[m]? = some (some r) ∧ r.parts x = some (p, q) ∧ q ≠ 0 ∧ arr v m = p / q := by
  unfold quadprogFit at hfit
  split at hfit
  · cases hfit
  · obtain ⟨ok, f1, e1, e2, _⟩ := fitSizes_spec solve hsound junk delta hdelta d.store hord hsize hdx
      (max np (minNp.getD np)) (max nq (minNq.getD nq)) _ (minNp.getD np) (minNq.getD nq)
      { f with lo := d.min, hi := d.max } rfl h1p h1q (le_max_right _ _) (le_max_right _ _) hx hy
    rw [hfit] at e1
    simp only [Option.some.injEq, Prod.mk.injEq] at e1
    obtain ⟨rfl, rfl⟩ := e1
    obtain ⟨a1, a2, _⟩ := e2 rfl
    exact value_of_channels d.store f' a1 a2 i x yl yu hs

/-- **C53.**  The fitter ends, and it succeeds exactly when, for one of the sizes it tries (from the
    minimal to the maximal ones), each channel is fitted by a rational function of that size. -/
theorem quadprog_fit_complete (solve : Solver) (hsound : solve.Sound) (hcomplete : solve.Complete)
    (junk delta : ℝ)
    (hdelta : 0 < delta) (d : Segments) (hkind : d.store.kind = .asymmetrical)
    (hord : d.store.Ordered) (hsize : 0 < d.store.size)
    (hdx : 1 ≤ d.store.dimX) (np nq : ℕ) (minNp minNq : Option ℕ) (h1p : 1 ≤ minNp.getD np)
    (h1q : 1 ≤ minNq.getD nq) (f : RatFn) (hx : f.dimX = d.store.dimX) (hy : f.dimY = d.store.dimY) :
    ∃ ok f', quadprogFit solve junk delta d np nq minNp minNq f = some (ok, f') ∧
      (ok = true ↔ ∃ k, ∀ m < d.store.dimY,
        Fittable d.store (inflate d.min d.max).1 (inflate d.min d.max).2
          (min (minNp.getD np + k) (max np (minNp.getD np)))
          (min (minNq.getD nq + k) (max nq (minNq.getD nq))) m) := by
  unfold quadprogFit
  rw [if_neg (by simp [hkind])]
  obtain ⟨ok, f1, e1, e2, e3⟩ := fitSizes_spec solve hsound junk delta hdelta d.store hord hsize hdx
      (max np (minNp.getD np)) (max nq (minNq.getD nq)) _ (minNp.getD np) (minNq.getD nq)
      { f with lo := d.min, hi := d.max } rfl h1p h1q (le_max_right _ _) (le_max_right _ _) hx hy
  exact ⟨ok, f1, e1, fun hok => (e2 hok).2.2, fun hk => e3 hcomplete hk⟩

/-- Limit: a channel with an exact value (equal bounds) cannot be fitted. -/
theorem exact_value_not_fittable (d : Store ℝ) (lo hi : List ℝ) (np nq ny i : ℕ)
    (x yl yu : List ℝ) (hs : d.getSegment i = some (x, yl, yu)) (heq : arr yl ny = arr yu ny) :
    ¬ Fittable d lo hi np nq ny := by
  rintro ⟨a, b, _, _, _, h⟩
  have := h i x yl yu hs
  rw [heq] at this
  linarith [this.1, this.2]

/-! ### An instance -/

open Classical in
/-- a solver that respects its contract -/
def idealSolver : Solver := fun n prog =>
  if h : ∃ x : List ℝ, x.length = n ∧ ∀ c ∈ prog, Constraint.Holds c x then some h.choose else none

theorem idealSolver_sound : idealSolver.Sound := by
  intro n prog x _ h
  unfold idealSolver at h
  split at h
  · rename_i hx
    cases h
    exact hx.choose_spec
  · cases h

theorem idealSolver_complete : idealSolver.Complete := by
  intro n prog _ h
  unfold idealSolver
  rw [dif_pos h]
  rfl

/-- two points: at 0 the segment [1, 3], at 1 the segment [2, 4] -/
def twoPoints : Segments :=
  Segments.make ⟨1, 1, .UNKNOWN_INPUT, .UNKNOWN_OUTPUT, 2, [0, 2, 1, 3, 1, 3, 2, 4], .asymmetrical⟩

theorem twoPoints_segments (i : ℕ) (x yl yu : List ℝ)
    (h : twoPoints.store.getSegment i = some (x, yl, yu)) :
    (x = [0] ∧ yl = [1] ∧ yu = [3]) ∨ (x = [1] ∧ yl = [2] ∧ yu = [4]) := by
  have hi : i < 2 := getSegment_lt _ _ _ h
  have : i = 0 ∨ i = 1 := by omega
  rcases this with rfl | rfl
  · left
    simp [twoPoints, Segments.make, Store.getSegment, segment, Store.row, Store.columns, ciColumns] at h
    obtain ⟨rfl, rfl, rfl⟩ := h
    exact ⟨rfl, rfl, rfl⟩
  · right
    simp [twoPoints, Segments.make, Store.getSegment, segment, Store.row, Store.columns, ciColumns] at h
    obtain ⟨rfl, rfl, rfl⟩ := h
    exact ⟨rfl, rfl, rfl⟩

theorem twoPoints_ordered : twoPoints.store.Ordered := by
  intro i x yl yu h ny hny
  have hny0 : ny = 0 := by
    have : ny < 1 := hny
    omega
  subst hny0
  rcases twoPoints_segments i x yl yu h with ⟨_, rfl, rfl⟩ | ⟨_, rfl, rfl⟩ <;> simp [arr] <;> norm_num

theorem twoPoints_fittable : Fittable twoPoints.store (inflate twoPoints.min twoPoints.max).1
    (inflate twoPoints.min twoPoints.max).2 1 1 0 := by
  have hp : ∀ (c : ℝ) (x : List ℝ), polynomial twoPoints.store.dimX (inflate twoPoints.min twoPoints.max).1
      (inflate twoPoints.min twoPoints.max).2 [c] x = c := by
    intro c x
    unfold polynomial
    simp [basisFn_zero, arr]
  refine ⟨[5 / 2], [1], rfl, rfl, Or.inl fun i x yl yu h => ?_, fun i x yl yu h => ?_⟩
  · rw [hp]; norm_num
  · rw [hp, hp]
    rcases twoPoints_segments i x yl yu h with ⟨_, rfl, rfl⟩ | ⟨_, rfl, rfl⟩ <;> simp [arr] <;> norm_num

/-- The hypotheses of the two theorems are met, and the fitter finds a function with one
    coefficient in each polynomial that passes through both segments. -/
theorem twoPoints_fitted : ∃ f', quadprogFit idealSolver 0 1 twoPoints 1 1 none none
      ⟨1, 1, 0, 0, [], [], [none]⟩ = some (true, f') ∧
    ∃ v, f'.value [1] = some v ∧ 2 < arr v 0 ∧ arr v 0 < 4 := by
  have hord := twoPoints_ordered
  obtain ⟨ok, f', h1, h2⟩ := quadprog_fit_complete idealSolver idealSolver_sound idealSolver_complete
    0 1 one_pos twoPoints rfl hord (by simp [twoPoints, Segments.make])
    (by simp [twoPoints, Segments.make]) 1 1 none none (by simp) (by simp)
    ⟨1, 1, 0, 0, [], [], [none]⟩ rfl rfl
  have hok : ok = true := by
    refine h2.2 ⟨0, fun m hm => ?_⟩
    have hm0 : m = 0 := by
      have : m < 1 := hm
      omega
    subst hm0
    exact twoPoints_fittable
  subst hok
  refine ⟨f', h1, ?_⟩
  obtain ⟨v, v1, _, v2⟩ := quadprog_fit_sound idealSolver idealSolver_sound 0 1 one_pos twoPoints hord
    (by simp [twoPoints, Segments.make]) (by simp [twoPoints, Segments.make]) 1 1 none none (by simp)
    (by simp) ⟨1, 1, 0, 0, [], [], [none]⟩ f' rfl rfl h1 1 [1] [2] [4] (by
      simp [twoPoints, Segments.make, Store.getSegment, segment, Store.row, Store.columns, ciColumns])
  have := v2 0 (by simp [twoPoints, Segments.make])
  exact ⟨v, v1, this.1, this.2.1⟩

end
end Alta
