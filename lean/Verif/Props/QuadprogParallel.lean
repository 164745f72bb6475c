import Verif.Model.QuadprogParallel
import Verif.Props.QuadprogFit
import Mathlib.Data.List.Perm.Basic
import Mathlib.Data.List.Nodup
/-
C54: the parallel fitter of rational functions.
-/
namespace Alta
noncomputable section
open Finset

/-! ### The test of the training set -/

/-- The value of the function at a sample is in the segment, or it is not a number (the numerator
    and the denominator are null there). -/
def Passes (d : Store ℝ) (ny : ℕ) (r : Rat1) (i : ℕ) : Prop :=
  ∃ x yl yu p q, d.getSegment i = some (x, yl, yu) ∧ r.parts x = some (p, q) ∧
    ((p = 0 ∧ q = 0) ∨ (q ≠ 0 ∧ arr yl ny ≤ p / q ∧ p / q ≤ arr yu ny))

/-- distance of the value of the function to the middle of the segment -/
def deviation (d : Store ℝ) (ny : ℕ) (r : Rat1) (i : ℕ) : EReal :=
  let c := (r.parts (pointOf d i).1).getD (0, 0)
  sampleDev (arr (pointOf d i).2.1 ny) (arr (pointOf d i).2.2 ny) c.1 c.2

/-- invariant of the loop of `test_constraints` -/
structure TestInv (d : Store ℝ) (np nq ny : ℕ) (r : Rat1) (done : List ℕ) (s : TestState) : Prop where
  zero : s.failed = 0 → s.maxDev = 0 ∧ ∀ i ∈ done, Passes d ny r i
  pick : s.failed ≠ 0 → ∃ i ∈ done, s.pick = some (i, pairOf d r np nq ny i) ∧
    ¬ Passes d ny r i ∧ s.maxDev = deviation d ny r i
  worst : ∀ i ∈ done, ¬ Passes d ny r i → deviation d ny r i ≤ s.maxDev

theorem testStep_inv (d : Store ℝ) (hord : d.Ordered) (np nq ny : ℕ) (hny : ny < d.dimY) (r : Rat1)
    (h : r.Standard) (hp : r.p.length = np) (hq : r.q.length = nq)
    (done : List ℕ) (s : TestState) (hs : TestInv d np nq ny r done s) (i : ℕ) (hi : i < d.size) :
    ∃ s', testStep d np nq ny r s i = some s' ∧ TestInv d np nq ny r (done ++ [i]) s' := by
  obtain ⟨_, x, yl, yu, _, hseg, _⟩ := get_of_lt d i hi
  have hpt := pointOf_eq d i x yl yu hseg
  obtain ⟨p, q, hv⟩ : ∃ p q, r.parts x = some (p, q) := ⟨_, _, rational_parts r h x⟩
  have hpass : Passes d ny r i ↔ ¬ sampleFails (arr yl ny) (arr yu ny) p q := by
    unfold sampleFails
    push Not
    constructor
    · rintro ⟨x', yl', yu', p', q', h1, h2, h3⟩
      rw [hseg] at h1
      cases h1
      rw [hv] at h2
      cases h2
      rcases h3 with ⟨rfl, rfl⟩ | ⟨h4, h5, h6⟩
      · exact ⟨fun _ => rfl, fun h => absurd rfl h⟩
      · exact ⟨fun h => absurd h h4, fun _ => ⟨h6, h5⟩⟩
    · rintro ⟨h1, h2⟩
      refine ⟨x, yl, yu, p, q, hseg, hv, ?_⟩
      by_cases hq0 : q = 0
      · exact Or.inl ⟨h1 hq0, hq0⟩
      · exact Or.inr ⟨hq0, (h2 hq0).2, (h2 hq0).1⟩
  have hdev : deviation d ny r i = sampleDev (arr yl ny) (arr yu ny) p q := by
    unfold deviation
    rw [hpt]
    simp only [hv, Option.getD_some]
  have hpair : constraintPair r np nq x (arr yl ny) (arr yu ny) = some (pairOf d r np nq ny i) := by
    rw [constraintPair_standard r h np nq hp hq]
    unfold pairOf
    rw [hpt]
  unfold testStep
  rw [hseg]
  simp only [Option.bind_some, hv]
  have hle := hord i x yl yu hseg ny hny
  by_cases hfail : sampleFails (arr yl ny) (arr yu ny) p q
  · rw [if_pos hfail]
    have hnp : ¬ Passes d ny r i := by
      rw [hpass]
      exact fun hn => hn hfail
    have hpos : 0 < sampleDev (arr yl ny) (arr yu ny) p q := by
      unfold sampleDev
      split_ifs with hq0
      · exact EReal.zero_lt_top
      · rw [← EReal.coe_zero, EReal.coe_lt_coe_iff]
        apply abs_pos.2
        rcases hfail with ⟨hf, _⟩ | ⟨_, hf | hf⟩
        · exact absurd hf hq0
        · have : 0.5 * (arr yu ny + arr yl ny) - p / q < 0 := by norm_num; linarith
          exact ne_of_lt this
        · have : 0 < 0.5 * (arr yu ny + arr yl ny) - p / q := by norm_num; linarith
          exact ne_of_gt this
    by_cases hmax : s.maxDev < sampleDev (arr yl ny) (arr yu ny) p q
    · rw [if_pos hmax, hpair]
      refine ⟨_, rfl, ⟨by simp, fun _ => ⟨i, by simp, rfl, hnp, by rw [hdev]⟩, ?_⟩⟩
      intro j hj hnj
      simp only
      rcases List.mem_append.1 hj with hj | hj
      · exact le_trans (hs.worst j hj hnj) (le_of_lt hmax)
      · rw [List.mem_singleton.1 hj, hdev]
    · rw [if_neg hmax]
      have hne : s.failed ≠ 0 := by
        intro h0
        rw [(hs.zero h0).1] at hmax
        exact hmax hpos
      obtain ⟨k, hk, hk2, hk3, hk4⟩ := hs.pick hne
      refine ⟨_, rfl, ⟨by simp, fun _ => ⟨k, by simp [hk], hk2, hk3, hk4⟩, ?_⟩⟩
      intro j hj hnj
      rcases List.mem_append.1 hj with hj | hj
      · exact hs.worst j hj hnj
      · rw [List.mem_singleton.1 hj, hdev]
        exact not_lt.1 hmax
  · rw [if_neg hfail]
    have hps : Passes d ny r i := hpass.2 hfail
    refine ⟨s, rfl, ⟨?_, ?_, ?_⟩⟩
    · intro h0
      refine ⟨(hs.zero h0).1, fun j hj => ?_⟩
      rcases List.mem_append.1 hj with hj | hj
      · exact (hs.zero h0).2 j hj
      · rw [List.mem_singleton.1 hj]; exact hps
    · intro h0
      obtain ⟨k, hk, hk2⟩ := hs.pick h0
      exact ⟨k, by simp [hk], hk2⟩
    · intro j hj hnj
      rcases List.mem_append.1 hj with hj | hj
      · exact hs.worst j hj hnj
      · rw [List.mem_singleton.1 hj] at hnj
        exact absurd hps hnj

/-- `test_constraints` returns true exactly when the function passes through the segments of the
    whole training set; otherwise it takes out one of the samples that are not satisfied, the one
    that is the farthest from the middle of its segment, and adds its two constraints. -/
theorem testConstraints_spec (d : Store ℝ) (hord : d.Ordered) (np nq ny : ℕ) (hny : ny < d.dimY)
    (r : Rat1) (h : r.Standard) (hp : r.p.length = np) (hq : r.q.length = nq) (training : List ℕ)
    (ht : ∀ i ∈ training, i < d.size) :
    ∃ res, testConstraints d np nq ny r training = some res ∧
      (res = none ↔ ∀ i ∈ training, Passes d ny r i) ∧
      (∀ i c, res = some (i, c) → i ∈ training ∧ c = pairOf d r np nq ny i ∧ ¬ Passes d ny r i ∧
        ∀ j ∈ training, ¬ Passes d ny r j → deviation d ny r j ≤ deviation d ny r i) := by
  have key : ∀ (l done : List ℕ) (s : TestState), (∀ i ∈ l, i < d.size) → TestInv d np nq ny r done s →
      ∃ s', l.foldlM (testStep d np nq ny r) s = some s' ∧ TestInv d np nq ny r (done ++ l) s' := by
    intro l
    induction l with
    | nil => intro done s _ hs; exact ⟨s, rfl, by simpa using hs⟩
    | cons i l ih =>
      intro done s hl hs
      obtain ⟨s1, h1, h2⟩ := testStep_inv d hord np nq ny hny r h hp hq done s hs i (hl i (by simp))
      obtain ⟨s2, h3, h4⟩ := ih (done ++ [i]) s1 (fun j hj => hl j (by simp [hj])) h2
      refine ⟨s2, ?_, by simpa using h4⟩
      rw [List.foldlM_cons, h1]
      exact h3
  obtain ⟨s, h1, h2⟩ := key training [] ⟨0, 0, none⟩ ht ⟨by simp, by simp, by simp⟩
  rw [List.nil_append] at h2
  unfold testConstraints
  rw [h1, Option.bind_some]
  by_cases h0 : s.failed = 0
  · rw [if_pos h0]
    exact ⟨none, rfl, ⟨fun _ => (h2.zero h0).2, fun _ => rfl⟩, by simp⟩
  · rw [if_neg h0]
    obtain ⟨i, hi, hpick, hn, hdev⟩ := h2.pick h0
    rw [hpick]
    refine ⟨some (i, pairOf d r np nq ny i), rfl, ⟨by simp, fun hall => absurd (hall i hi) hn⟩, ?_⟩
    rintro j c hj
    cases hj
    refine ⟨hi, rfl, hn, fun k hk hnk => ?_⟩
    rw [← hdev]
    exact h2.worst k hk hnk

/-! ### The loop on the constraints -/

/-- The coefficients give a function that passes through all the segments, except where it is not a
    number. -/
def CoeffsPass (d : Store ℝ) (ny dimX : ℕ) (lo hi p q : List ℝ) : Prop :=
  ∀ i x yl yu, d.getSegment i = some (x, yl, yu) →
    (polynomial dimX lo hi p x = 0 ∧ polynomial dimX lo hi q x = 0) ∨
    (polynomial dimX lo hi q x ≠ 0 ∧
     arr yl ny ≤ polynomial dimX lo hi p x / polynomial dimX lo hi q x ∧
     polynomial dimX lo hi p x / polynomial dimX lo hi q x ≤ arr yu ny)

/-- invariant of the loop -/
structure ParInv (d : Store ℝ) (np nq ny : ℕ) (cols : List (List ℝ)) (training : List ℕ) (r : Rat1) :
    Prop where
  standard : r.Standard
  hp : r.p.length = np
  hq : r.q.length = nq
  nodup : training.Nodup
  lt : ∀ i ∈ training, i < d.size
  cover : ∀ i < d.size, i ∈ training ∨ ((pairOf d r np nq ny i).1 ∈ cols ∧ (pairOf d r np nq ny i).2 ∈ cols)
  only : ∀ c ∈ cols, ∃ i < d.size, c = (pairOf d r np nq ny i).1 ∨ c = (pairOf d r np nq ny i).2
  count : cols.length + 2 * training.length = 2 * d.size
  outside : 0 < d.size → ∃ i < d.size, i ∉ training

theorem pairOf_congr (d : Store ℝ) (r r' : Rat1) (np nq ny i : ℕ) (hd : r'.dimX = r.dimX)
    (hlo : r'.lo = r.lo) (hhi : r'.hi = r.hi) : pairOf d r' np nq ny i = pairOf d r np nq ny i := by
  unfold pairOf
  rw [hd, hlo, hhi]

theorem parLoop_spec (solve : Solver) (hsound : solve.Sound) (nextDelta : List (List ℝ) → ℝ → ℝ)
    (hnext : ∀ c e, 0 < e → 0 < nextDelta c e) (junk : ℝ) (d : Store ℝ) (hord : d.Ordered)
    (np nq ny : ℕ) (hnp : 1 ≤ np) (hnq : 1 ≤ nq) (hny : ny < d.dimY) : ∀ (n : ℕ) (delta : ℝ)
    (cols : List (List ℝ)) (training : List ℕ) (r : Rat1), r.dimX = d.dimX → 0 < delta →
    ParInv d np nq ny cols training r → training.length < n →
    ∃ res delta' r', parLoop solve nextDelta junk d np nq ny n delta cols training r =
        some (res, delta', r') ∧ 0 < delta' ∧ r'.Standard ∧ r'.p.length = np ∧ r'.q.length = nq ∧
      r'.dimX = r.dimX ∧ r'.lo = r.lo ∧ r'.hi = r.hi ∧
      (∀ p q, res = some (p, q) → p.length = np ∧ q.length = nq ∧
        CoeffsPass d ny r.dimX r.lo r.hi p q) ∧
      (solve.Complete → res = none → Fittable d r.lo r.hi np nq ny → 0 < d.size →
        training ≠ [] ∧ ∃ i < d.size, ¬ Passes d ny r' i) := by
  intro n
  induction n with
  | zero => intro _ _ training _ _ _ _ hn; omega
  | succ n ih =>
    intro delta cols training r hdx hdelta inv hn
    have hd' := hnext cols delta hdelta
    rw [parLoop]
    set delta' := nextDelta cols delta with hdel
    have hlen : ∀ c ∈ cols.map (withOffset delta'), c.1.length = np + nq := by
      intro c hc
      obtain ⟨c0, hc0, rfl⟩ := List.mem_map.1 hc
      obtain ⟨i, _, hi⟩ := inv.only c0 hc0
      rcases hi with rfl | rfl <;> simp [withOffset, pairOf]
    cases hs : solve (np + nq) (cols.map (withOffset delta')) with
    | none =>
      refine ⟨none, delta', r, rfl, hd', inv.standard, inv.hp, inv.hq, rfl, rfl, rfl, by simp, ?_⟩
      intro hc _ hf _
      exfalso
      obtain ⟨x, hx, hall⟩ := (fittable_iff d hord r np nq ny delta' hd' hdx hnp hny).1 hf
      have := hc (np + nq) _ hlen ⟨x, hx, by
        intro c hc
        obtain ⟨c0, hc0, rfl⟩ := List.mem_map.1 hc
        obtain ⟨i, hi, hi2⟩ := inv.only c0 hc0
        obtain ⟨e1, e2⟩ := hall i hi
        rcases hi2 with rfl | rfl
        · exact e1
        · exact e2⟩
      rw [hs] at this
      cases this
    | some x =>
      obtain ⟨hx, hall⟩ := hsound _ _ x hlen hs
      have hb : x.drop np ≠ [] := by
        intro hc
        have := congrArg List.length hc
        rw [List.length_drop, List.length_nil] at this
        omega
      obtain ⟨r', u1, u2, u3, u4, u5, _, c, hc0, uP, uQ, _⟩ := update_value junk r inv.standard
        (x.take np) (x.drop np) hb
        (by rw [List.length_take, inv.hp]; omega) (by rw [List.length_drop, inv.hq]; omega)
      have hp' : r'.p.length = np := by
        have := congrArg List.length uP
        simp [Rat1.getP] at this
        omega
      have hq' : r'.q.length = nq := by
        have := congrArg List.length uQ
        simp [Rat1.getQ] at this
        omega
      simp only [u1]
      -- what the constraints of the program say
      have hconstr : ∀ i < d.size, i ∉ training → ∀ z yl yu, d.getSegment i = some (z, yl, yu) →
          polynomial r.dimX r.lo r.hi (x.drop np) z < 0 ∧
          arr yl ny < polynomial r.dimX r.lo r.hi (x.take np) z / polynomial r.dimX r.lo r.hi (x.drop np) z ∧
          polynomial r.dimX r.lo r.hi (x.take np) z / polynomial r.dimX r.lo r.hi (x.drop np) z < arr yu ny := by
        intro i hi hit z yl yu hseg
        rcases inv.cover i hi with h | ⟨h1, h2⟩
        · exact absurd h hit
        have e1 := hall _ (List.mem_map.2 ⟨_, h1, rfl⟩)
        have e2 := hall _ (List.mem_map.2 ⟨_, h2, rfl⟩)
        have := constraints_sound delta' hd' np nq hnp
          (fun j => basisFn r.dimX r.lo r.hi j (pointOf d i).1)
          (fun j => basisFn r.dimX r.lo r.hi j (pointOf d i).1) (basisFn_zero _ _ _ _)
          (arr (pointOf d i).2.1 ny) (arr (pointOf d i).2.2 ny)
          (by rw [pointOf_eq d i z yl yu hseg]; exact hord i z yl yu hseg ny hny) x e1 e2
        rw [pointOf_eq d i z yl yu hseg] at this
        obtain ⟨f1, f2⟩ := numer_polynomial r.dimX np nq r.lo r.hi x z hx
        rw [f1, f2] at this
        exact this
      by_cases hsq : 0 < sumSquares x
      · rw [if_pos hsq]
        obtain ⟨res, t1, t2, t3⟩ := testConstraints_spec d hord np nq ny hny r' u2 hp' hq' training inv.lt
        rw [t1]
        cases res with
        | none =>
          refine ⟨some (x.take np, x.drop np), delta', r', rfl, hd', u2, hp', hq', u3, u4, u5, ?_, by simp⟩
          rintro p q hpq
          cases hpq
          refine ⟨by rw [List.length_take]; omega, by rw [List.length_drop]; omega, ?_⟩
          intro i z yl yu hseg
          have hi := getSegment_lt d i _ hseg
          by_cases hit : i ∈ training
          · obtain ⟨z', yl', yu', p, q, p1, p2, p3⟩ := t2.1 rfl i hit
            rw [hseg] at p1
            cases p1
            rw [rational_parts r' u2 z, uP, uQ, u3, u4, u5, polynomial_div, polynomial_div] at p2
            simp only [Option.some.injEq, Prod.mk.injEq] at p2
            rw [← p2.1, ← p2.2, div_div_div_cancel_right₀ hc0, div_eq_zero_iff, div_eq_zero_iff,
              or_iff_left hc0, or_iff_left hc0, ne_eq, div_eq_zero_iff, or_iff_left hc0] at p3
            exact p3
          · have := hconstr i hi hit z yl yu hseg
            exact Or.inr ⟨ne_of_lt this.1, le_of_lt this.2.1, le_of_lt this.2.2⟩
        | some ic =>
          obtain ⟨i, cu, cl⟩ := ic
          obtain ⟨hit, hc, hnpass, _⟩ := t3 i (cu, cl) rfl
          have hpo : (cu, cl) = pairOf d r np nq ny i := by
            rw [hc]; exact pairOf_congr d r r' np nq ny i u3 u4 u5
          have hcu : cu = (pairOf d r np nq ny i).1 := by rw [← hpo]
          have hcl : cl = (pairOf d r np nq ny i).2 := by rw [← hpo]
          have hpc : ∀ k, pairOf d r' np nq ny k = pairOf d r np nq ny k :=
            fun k => pairOf_congr d r r' np nq ny k u3 u4 u5
          simp only
          by_cases hmore : (cols ++ [cu, cl]).length < 2 * d.size
          · rw [if_pos hmore]
            have hlenE : (training.erase i).length + 1 = training.length := by
              rw [List.length_erase_of_mem hit]
              have : 0 < training.length := List.length_pos_of_mem hit
              omega
            obtain ⟨res', delta'', r'', g1, g2, g3, g4, g5, g6, g7, g8, g9, g10⟩ := ih delta'
              (cols ++ [cu, cl]) (training.erase i) r' (by rw [u3, hdx]) hd'
              { standard := u2
                hp := hp'
                hq := hq'
                nodup := inv.nodup.erase i
                lt := fun k hk => inv.lt k (List.mem_of_mem_erase hk)
                cover := by
                  intro k hk
                  rw [hpc]
                  by_cases hki : k = i
                  · right
                    subst hki
                    rw [← hcu, ← hcl]
                    simp
                  · rcases inv.cover k hk with h | ⟨h1, h2⟩
                    · left
                      exact (List.mem_erase_of_ne hki).2 h
                    · right
                      exact ⟨by simp [h1], by simp [h2]⟩
                only := by
                  intro c hc
                  rcases List.mem_append.1 hc with hc | hc
                  · obtain ⟨k, hk, hk2⟩ := inv.only c hc
                    refine ⟨k, hk, ?_⟩
                    rw [hpc]; exact hk2
                  · refine ⟨i, inv.lt i hit, ?_⟩
                    rw [hpc, ← hcu, ← hcl]
                    simpa using hc
                count := by
                  have := inv.count
                  simp only [List.length_append, List.length_cons, List.length_nil]
                  omega
                outside := fun h0 => by
                  obtain ⟨k, hk, hk2⟩ := inv.outside h0
                  exact ⟨k, hk, fun hc => hk2 (List.mem_of_mem_erase hc)⟩ } (by omega)
            rw [u3, u4, u5] at g9
            rw [u4, u5] at g10
            exact ⟨res', delta'', r'', g1, g2, g3, g4, g5, by rw [g6, u3], by rw [g7, u4],
              by rw [g8, u5], g9, fun a1 a2 a3 a4 => ⟨List.ne_nil_of_mem hit, (g10 a1 a2 a3 a4).2⟩⟩
          · rw [if_neg hmore]
            exact ⟨none, delta', r', rfl, hd', u2, hp', hq', u3, u4, u5, by simp,
              fun _ _ _ _ => ⟨List.ne_nil_of_mem hit, i, inv.lt i hit, hnpass⟩⟩
      · rw [if_neg hsq]
        refine ⟨none, delta', r', rfl, hd', u2, hp', hq', u3, u4, u5, by simp, ?_⟩
        intro _ _ _ hsize
        -- the null vector satisfies no constraint
        have hx0 : ∀ j, arr x j = 0 := by
          intro j
          rcases Nat.lt_or_ge j x.length with hj | hj
          · by_contra hne
            exact hsq (sumSquares_pos x j hj hne)
          · exact arr_beyond x j hj
        have hq0 : ∀ z, polynomial r.dimX r.lo r.hi (x.drop np) z = 0 := by
          intro z
          unfold polynomial
          apply sum_eq_zero
          intro j _
          rw [arr_drop_add, hx0, zero_mul]
        exfalso
        obtain ⟨k, hk, hk2⟩ := inv.outside hsize
        obtain ⟨_, z, yl, yu, _, hseg, _⟩ := get_of_lt d k hk
        have := (hconstr k hk hk2 z yl yu hseg).1
        rw [hq0 z] at this
        exact lt_irrefl _ this

/-! ### One channel -/

theorem startStep_pos (m : ℕ) : 1 ≤ startStep m := le_max_right _ _

theorem start_training (m : ℕ) : (startSet m).length + (trainingSet m).length = m := by
  unfold startSet trainingSet
  have := List.length_eq_length_filter_add (l := List.range m) (fun i => decide (i % startStep m = 0))
  rw [List.length_range] at this
  conv_rhs => rw [this]
  congr 2
  apply List.filter_congr
  intro i _
  simp

/-- All the samples of a small data set are in the first program. -/
theorem trainingSet_small (m : ℕ) (hm : m ≤ 198) : trainingSet m = [] := by
  have : startStep m = 1 := by unfold startStep; omega
  unfold trainingSet
  rw [this]
  simp [Nat.mod_one]

theorem parChannel_spec (solve : Solver) (hsound : solve.Sound) (nextDelta : List (List ℝ) → ℝ → ℝ)
    (hnext : ∀ c e, 0 < e → 0 < nextDelta c e) (junk : ℝ) (d : Store ℝ) (hord : d.Ordered)
    (np nq ny : ℕ) (hnp : 1 ≤ np) (hnq : 1 ≤ nq) (hny : ny < d.dimY) (delta : ℝ) (hdelta : 0 < delta)
    (r : Rat1) (h : r.Standard) (hdx : r.dimX = d.dimX) (hp : r.p.length = np) (hq : r.q.length = nq) :
    ∃ res delta' r', parChannel solve nextDelta junk d np nq ny delta r = some (res, delta', r') ∧
      0 < delta' ∧ r'.Standard ∧ r'.p.length = np ∧ r'.q.length = nq ∧
      r'.dimX = r.dimX ∧ r'.lo = r.lo ∧ r'.hi = r.hi ∧
      (∀ p q, res = some (p, q) → p.length = np ∧ q.length = nq ∧
        CoeffsPass d ny r.dimX r.lo r.hi p q) ∧
      (solve.Complete → res = none → Fittable d r.lo r.hi np nq ny → 0 < d.size →
        trainingSet d.size ≠ [] ∧ ∃ i < d.size, ¬ Passes d ny r' i) := by
  unfold parChannel
  rw [mapM_total _ _ (pairOf d r np nq ny) (fun i hi => pointPair_eq d r h np nq ny i hdx hp hq (by
    have := (List.mem_filter.1 hi).1
    simpa using this)), Option.bind_some]
  have hmem : ∀ c, (c ∈ ((startSet d.size).map (pairOf d r np nq ny)).flatMap fun c => [c.1, c.2]) ↔
      ∃ i < d.size, i % startStep d.size = 0 ∧
        (c = (pairOf d r np nq ny i).1 ∨ c = (pairOf d r np nq ny i).2) := by
    intro c
    simp only [List.mem_flatMap, List.mem_map, startSet, List.mem_filter, List.mem_range,
      decide_eq_true_eq, List.mem_cons, List.not_mem_nil, or_false]
    constructor
    · rintro ⟨_, ⟨i, ⟨h1, h2⟩, rfl⟩, h3⟩
      exact ⟨i, h1, h2, h3⟩
    · rintro ⟨i, h1, h2, h3⟩
      exact ⟨_, ⟨i, ⟨h1, h2⟩, rfl⟩, h3⟩
  apply parLoop_spec solve hsound nextDelta hnext junk d hord np nq ny hnp hnq hny _ delta _ _ r hdx
    hdelta _ (Nat.lt_succ_self _)
  exact
    { standard := h
      hp := hp
      hq := hq
      nodup := List.nodup_range.filter _
      lt := fun i hi => by simpa using (List.mem_filter.1 hi).1
      cover := by
        intro i hi
        by_cases hm : i % startStep d.size = 0
        · right
          exact ⟨(hmem _).2 ⟨i, hi, hm, Or.inl rfl⟩, (hmem _).2 ⟨i, hi, hm, Or.inr rfl⟩⟩
        · left
          simp [trainingSet, hi, hm]
      only := fun c hc => by
        obtain ⟨i, h1, _, h2⟩ := (hmem c).1 hc
        exact ⟨i, h1, h2⟩
      count := by
        have h1 := start_training d.size
        have h2 : ∀ l : List (List ℝ × List ℝ), (l.flatMap fun c => [c.1, c.2]).length = 2 * l.length := by
          intro l
          induction l with
          | nil => rfl
          | cons a l ih => simp [ih]; omega
        rw [h2, List.length_map]
        omega
      outside := fun h0 => ⟨0, h0, by simp [trainingSet]⟩ }

/-- Without `use_delta` the margin stays what it was. -/
theorem parLoop_delta (solve : Solver) (nextDelta : List (List ℝ) → ℝ → ℝ)
    (hn : ∀ c e, nextDelta c e = e) (junk : ℝ) (d : Store ℝ) (np nq ny : ℕ) :
    ∀ (n : ℕ) (delta : ℝ) (cols : List (List ℝ)) (training : List ℕ) (r : Rat1) res delta' r',
    parLoop solve nextDelta junk d np nq ny n delta cols training r = some (res, delta', r') →
    delta' = delta := by
  intro n
  induction n with
  | zero => intro _ _ _ _ _ _ _ h; cases h
  | succ n ih =>
    intro delta cols training r res delta' r' h
    rw [parLoop] at h
    simp only [hn] at h
    split at h
    · cases h; rfl
    · split at h
      · cases h
      · split at h
        · split at h
          · cases h
          · cases h; rfl
          · split at h
            · exact ih _ _ _ _ _ _ _ h
            · cases h; rfl
        · cases h; rfl

theorem parChannel_delta (solve : Solver) (nextDelta : List (List ℝ) → ℝ → ℝ)
    (hn : ∀ c e, nextDelta c e = e) (junk : ℝ) (d : Store ℝ) (np nq ny : ℕ) (delta : ℝ) (r : Rat1)
    (res : Option (List ℝ × List ℝ)) (delta' : ℝ) (r' : Rat1)
    (h : parChannel solve nextDelta junk d np nq ny delta r = some (res, delta', r')) :
    delta' = delta := by
  unfold parChannel at h
  obtain ⟨pairs, _, h⟩ := Option.bind_eq_some_iff.1 h
  exact parLoop_delta solve nextDelta hn junk d np nq ny _ _ _ _ _ _ _ _ h

/-! ### All the channels -/

/-- A channel of a candidate: in standard form, on the domain of the data, and it passes through the
    segments. -/
structure GoodChannel (d : Store ℝ) (lo hi : List ℝ) (m : ℕ) (r : Rat1) : Prop where
  standard : r.Standard
  dimX : r.dimX = d.dimX
  lo : r.lo = lo
  hi : r.hi = hi
  passes : ∀ i < d.size, Passes d m r i

theorem parChannels_spec (solve : Solver) (hsound : solve.Sound) (nextDelta : List (List ℝ) → ℝ → ℝ)
    (hnext : ∀ c e, 0 < e → 0 < nextDelta c e) (junk : ℝ) (d : Store ℝ) (hord : d.Ordered)
    (hdx : 1 ≤ d.dimX) (np nq : ℕ) (hnp : 1 ≤ np) (hnq : 1 ≤ nq) : ∀ (k j : ℕ) (delta : ℝ) (f : RatFn),
    j + k = d.dimY → 0 < delta →
    f.dimX = d.dimX → f.dimY = d.dimY → f.rs.length = d.dimY → f.np = np → f.nq = nq →
    (∀ m, j ≤ m → m < d.dimY → f.rs[m]? = some none) →
    ∃ res, parChannels solve nextDelta junk d np nq k j delta f = some res ∧
      (solve.Complete → 0 < d.size → trainingSet d.size = [] → (∀ m, j ≤ m → m < d.dimY →
        Fittable d (inflate f.lo f.hi).1 (inflate f.lo f.hi).2 np nq m) → res.isSome) ∧
      ∀ delta' f', res = some (delta', f') → 0 < delta' ∧
        f'.dimX = d.dimX ∧ f'.dimY = d.dimY ∧ f'.rs.length = d.dimY ∧ f'.lo = f.lo ∧ f'.hi = f.hi ∧
        ((∀ c e, nextDelta c e = e) → delta' = delta) ∧
        (∀ m < j, f'.rs[m]? = f.rs[m]?) ∧
        ∀ m, j ≤ m → m < d.dimY → ∃ r, f'.rs[m]? = some (some r) ∧
          GoodChannel d (inflate f.lo f.hi).1 (inflate f.lo f.hi).2 m r := by
  intro k
  induction k with
  | zero =>
    intro j delta f hj hdelta hx hy hl _ _ _
    refine ⟨some (delta, f), rfl, fun _ _ _ _ => rfl, ?_⟩
    rintro delta' f' h
    cases h
    exact ⟨hdelta, hx, hy, hl, rfl, rfl, fun _ => rfl, fun _ _ => rfl, fun m h1 h2 => absurd h2 (by omega)⟩
  | succ k ih =>
    intro j delta f hj hdelta hx hy hl hfp hfq hnone
    have hjd : j < d.dimY := by omega
    set b := inflate f.lo f.hi with hb
    set r0 := mkRat1 junk f.dimX f.np f.nq b.1 b.2 with hr0
    have hget : f.get junk j = some (r0, { f with rs := f.rs.set j (some r0) }) := by
      unfold RatFn.get
      rw [if_pos (by omega), hnone j le_rfl hjd]
    have hdom : r0.dimX = f.dimX ∧ r0.lo = b.1 ∧ r0.hi = b.2 := resize_dom ..
    obtain ⟨s1, s2, s3⟩ := mkRat1_standard junk f.dimX f.np f.nq b.1 b.2 (by omega)
    obtain ⟨t1, t2, t3⟩ := resize_standard junk r0 s1 np nq
    obtain ⟨e1, e2, e3⟩ := resize_dom junk r0 np nq
    obtain ⟨res, delta1, r1, c1, c2, c3, c4, c5, c6, c7, c8, c9, c10⟩ := parChannel_spec solve hsound
      nextDelta hnext junk d hord np nq j hnp hnq hjd delta hdelta (r0.resize junk np nq) t1
      (by rw [e1, hdom.1, hx]) t2 t3
    rw [parChannels, hget]
    simp only
    rw [c1]
    cases res with
    | none =>
      refine ⟨none, rfl, fun hc h0 ht hf => ?_, by simp⟩
      rw [e2, e3, hdom.2.1, hdom.2.2] at c10
      exact absurd ht (c10 hc rfl (hf j le_rfl hjd) h0).1
    | some pq =>
      obtain ⟨p, q⟩ := pq
      obtain ⟨hpl, hql, hpass⟩ := c9 p q rfl
      have hq0 : q ≠ [] := by
        intro hc
        rw [hc] at hql
        simp at hql
        omega
      obtain ⟨r2, u1, u2, u3, u4, u5, _, c, hc0, uP, uQ, _⟩ := update_value junk r1 c3 p q hq0
        (by rw [hpl, c4]) (by rw [hql, c5])
      simp only
      rw [u1]
      simp only
      have hgood : GoodChannel d b.1 b.2 j r2 := by
        refine ⟨u2, by rw [u3, c6, e1, hdom.1, hx], by rw [u4, c7, e2, hdom.2.1],
          by rw [u5, c8, e3, hdom.2.2], ?_⟩
        intro i hi
        obtain ⟨_, z, yl, yu, _, hseg, _⟩ := get_of_lt d i hi
        refine ⟨z, yl, yu, _, _, hseg, rational_parts r2 u2 z, ?_⟩
        rw [uP, uQ, u3, u4, u5, c6, c7, c8, polynomial_div, polynomial_div, div_div_div_cancel_right₀ hc0,
          div_eq_zero_iff, div_eq_zero_iff, or_iff_left hc0, or_iff_left hc0, ne_eq, div_eq_zero_iff,
          or_iff_left hc0]
        exact hpass i z yl yu hseg
      have hdeq : (∀ c e, nextDelta c e = e) → delta1 = delta := by
        intro hn
        exact parChannel_delta solve nextDelta hn junk d np nq j delta _ _ _ _ c1
      obtain ⟨res', g1, g0, g2⟩ := ih (j + 1) delta1
        { f with rs := (f.rs.set j (some r0)).set j (some r2) } (by omega) c2 hx hy
        (by simpa using hl) hfp hfq (by
          intro m h1 h2
          simp only
          rw [List.getElem?_set_ne (by omega), List.getElem?_set_ne (by omega)]
          exact hnone m (by omega) h2)
      refine ⟨res', g1, fun hc h0 ht hf => g0 hc h0 ht fun m h1 h2 => hf m (by omega) h2, ?_⟩
      intro delta' f' hres
      obtain ⟨k1, k2, k3, k4, k5, k6, k7, k8, k9⟩ := g2 delta' f' hres
      refine ⟨k1, k2, k3, k4, k5, k6, fun hn => (k7 hn).trans (hdeq hn), ?_, ?_⟩
      · intro m hm
        rw [k8 m (by omega)]
        simp only
        rw [List.getElem?_set_ne (by omega), List.getElem?_set_ne (by omega)]
      · intro m h1 h2
        rcases Nat.eq_or_lt_of_le h1 with rfl | h1
        · refine ⟨r2, ?_, hgood⟩
          rw [k8 j (by omega)]
          simp only
          rw [List.getElem?_set_self (by simp; omega)]
        · exact k9 m h1 h2

/-! ### Copy of a function -/

/-- numerator and denominator of a channel -/
def RatFn.channelParts (f : RatFn) (m : ℕ) (x : List ℝ) : Option (ℝ × ℝ) :=
  ((f.rs[m]?).join).bind fun r => r.parts x

theorem copyLoop_spec (junk : ℝ) (d : Store ℝ) (hdx : 1 ≤ d.dimX) (g : RatFn) (hgy : g.dimY = d.dimY) :
    ∀ (n k : ℕ) (f : RatFn), k + n = d.dimY → f.dimX = d.dimX → f.dimY = d.dimY →
    f.rs.length = d.dimY →
    (∀ m, k ≤ m → m < d.dimY → f.rs[m]? = some none) →
    (∀ m < d.dimY, ∃ r, g.rs[m]? = some (some r) ∧
      GoodChannel d (inflate f.lo f.hi).1 (inflate f.lo f.hi).2 m r) →
    ∃ f', RatFn.copyLoop junk g n k f = some f' ∧ f'.dimX = f.dimX ∧ f'.dimY = f.dimY ∧
      f'.rs.length = d.dimY ∧ f'.lo = f.lo ∧ f'.hi = f.hi ∧ f'.np = f.np ∧ f'.nq = f.nq ∧
      (∀ m < k, f'.rs[m]? = f.rs[m]?) ∧
      ∀ m, k ≤ m → m < d.dimY → ∀ x, f'.channelParts m x = g.channelParts m x := by
  intro n
  induction n with
  | zero =>
    intro k f hk hx hy hl _ _
    exact ⟨f, rfl, rfl, rfl, hl, rfl, rfl, rfl, rfl, fun _ _ => rfl, fun m h1 h2 => absurd h2 (by omega)⟩
  | succ n ih =>
    intro k f hk hx hy hl hnone hg
    have hkd : k < d.dimY := by omega
    set b := inflate f.lo f.hi with hb
    set r0 := mkRat1 junk f.dimX f.np f.nq b.1 b.2 with hr0
    have hget : f.get junk k = some (r0, { f with rs := f.rs.set k (some r0) }) := by
      unfold RatFn.get
      rw [if_pos (by omega), hnone k le_rfl hkd]
    have hdom : r0.dimX = f.dimX ∧ r0.lo = b.1 ∧ r0.hi = b.2 := resize_dom ..
    obtain ⟨s1, _, _⟩ := mkRat1_standard junk f.dimX f.np f.nq b.1 b.2 (by omega)
    obtain ⟨rg, hrg, hgood⟩ := hg k hkd
    have hgetg : g.get junk k = some (rg, g) := by
      unfold RatFn.get
      rw [if_pos (by omega), hrg]
    rw [RatFn.copyLoop, hget, hgetg]
    simp only
    obtain ⟨f', g1, g2, g3, g4, g5, g6, g7, g8, g9, g10⟩ := ih (k + 1)
      { f with rs := (f.rs.set k (some r0)).set k (some (r0.copyFrom junk rg)) } (by omega) hx hy
      (by simpa using hl) (by
        intro m h1 h2
        simp only
        rw [List.getElem?_set_ne (by omega), List.getElem?_set_ne (by omega)]
        exact hnone m (by omega) h2) hg
    refine ⟨f', g1, g2, g3, g4, g5, g6, g7, g8, ?_, ?_⟩
    · intro m hm
      rw [g9 m (by omega)]
      simp only
      rw [List.getElem?_set_ne (by omega), List.getElem?_set_ne (by omega)]
    · intro m h1 h2 x
      rcases Nat.eq_or_lt_of_le h1 with rfl | h1
      · unfold RatFn.channelParts
        rw [g9 k (by omega), hrg]
        simp only
        rw [List.getElem?_set_self (by simp; omega)]
        simp only [Option.join_some, Option.bind_some]
        exact copy_parts junk r0 rg s1 hgood.standard (by rw [hdom.1, hx, hgood.dimX])
          (by rw [hdom.2.1, hgood.lo]) (by rw [hdom.2.2, hgood.hi]) x
      · exact g10 m h1 h2 x

/-! ### The candidates -/

/-- The function passes through the vertical segments of the data in all the channels, except
    at samples where it is not a number. -/
def FnPasses (d : Store ℝ) (f : RatFn) : Prop :=
  ∀ i x yl yu, d.getSegment i = some (x, yl, yu) → ∀ m < d.dimY, ∃ p q,
    f.channelParts m x = some (p, q) ∧
    ((p = 0 ∧ q = 0) ∨ (q ≠ 0 ∧ arr yl m ≤ p / q ∧ p / q ≤ arr yu m))

theorem candidate_spec (solve : Solver) (hsound : solve.Sound) (cond : List (List ℝ) → ℝ)
    (useDelta : Bool) (hcond : useDelta = true → ∀ c, 0 < cond c) (junk : ℝ) (d : Store ℝ) (hord : d.Ordered)
    (hdx : 1 ≤ d.dimX) (r : RatFn) (hx : r.dimX = d.dimX) (hy : r.dimY = d.dimY)
    (N j : ℕ) (h1 : 1 ≤ j) (hj : j < N) :
    ∃ res, candidate solve cond useDelta junk d r N j = some res ∧
      (solve.Complete → 0 < d.size → d.size ≤ 198 → (∀ m < d.dimY,
        Fittable d (inflate r.lo r.hi).1 (inflate r.lo r.hi).2 (N - j) j m) → res.isSome) ∧
      ∀ delta rk, res = some (delta, rk) → 0 < delta ∧ (useDelta = false → delta = 1) ∧
        rk.dimY = d.dimY ∧ FnPasses d rk ∧
        ∀ m < d.dimY, ∃ c, rk.rs[m]? = some (some c) ∧
          GoodChannel d (inflate r.lo r.hi).1 (inflate r.lo r.hi).2 m c := by
  obtain ⟨res, e1, e0, e2⟩ := parChannels_spec solve hsound (nextDelta cond useDelta) (by
      intro c e he
      unfold nextDelta
      split
      · rename_i h
        exact hcond h c
      · exact he) junk d hord hdx (N - j) j (by omega) h1
    d.dimY 0 1 (RatFn.setSize ⟨r.dimX, r.dimY, 0, 0, r.lo, r.hi, []⟩ (N - j) j) (by omega) one_pos hx hy
    (by simp [RatFn.setSize, hy]) rfl rfl (by
      intro m _ hm
      simp [RatFn.setSize, hy, hm])
  refine ⟨res, e1, fun hc h0 hs hf => e0 hc h0 (trainingSet_small d.size hs) fun m _ hm => hf m hm, ?_⟩
  intro delta rk hres
  obtain ⟨a1, a2, a3, a4, a5, a6, a7, a8, a9⟩ := e2 delta rk hres
  have hgood : ∀ m < d.dimY, ∃ c, rk.rs[m]? = some (some c) ∧
          GoodChannel d (inflate r.lo r.hi).1 (inflate r.lo r.hi).2 m c := fun m hm => a9 m (by omega) hm
  refine ⟨a1, fun hu => a7 (by intro c e; simp [nextDelta, hu]), a3, ?_, hgood⟩
  intro i x yl yu hs m hm
  obtain ⟨c, hc1, hc2⟩ := hgood m hm
  obtain ⟨x', yl', yu', p, q, p1, p2, p3⟩ := hc2.passes i (getSegment_lt d i _ hs)
  rw [hs] at p1
  cases p1
  refine ⟨p, q, ?_, p3⟩
  unfold RatFn.channelParts
  rw [hc1]
  exact p2

/-! ### One round, for every schedule -/

/-- what the fitter minimises -/
def score (l2 : RatFn → ℝ) (useDelta : Bool) (c : ℝ × RatFn) : ℝ := if useDelta then c.1 else l2 c.2

/-- what is kept -/
def Best.score (useDelta : Bool) (b : Best) : ℝ := if useDelta then b.delta else b.dist

/-- Two functions with the same numerator and the same denominator in all the channels. -/
def SameParts (n : ℕ) (f g : RatFn) : Prop := ∀ m < n, ∀ x, f.channelParts m x = g.channelParts m x

/-- Invariant of the critical section: after the iterations `done`. -/
structure RoundInv (d : Store ℝ) (l2 : RatFn → ℝ) (useDelta : Bool) (N : ℕ) (r : RatFn)
    (cand : ℕ → Option (ℝ × RatFn)) (done : List ℕ) (b : Best) : Prop where
  dimX : b.r.dimX = r.dimX
  dimY : b.r.dimY = r.dimY
  lo : b.r.lo = r.lo
  hi : b.r.hi = r.hi
  least : ∀ j ∈ done, ∀ c, cand j = some c → b.score useDelta ≤ score l2 useDelta c
  kept : (b = ⟨dblMax, dblMax, r⟩) ∨
    (b.score useDelta < dblMax ∧ ∃ j ∈ done, ∃ c, cand j = some c ∧ b.delta = c.1 ∧ b.dist = l2 c.2 ∧
      b.r.np = N - j ∧ b.r.nq = j ∧ SameParts d.dimY b.r c.2)

theorem round_spec (solve : Solver) (hsound : solve.Sound) (cond : List (List ℝ) → ℝ)
    (useDelta : Bool) (hcond : useDelta = true → ∀ c, 0 < cond c) (junk : ℝ) (d : Store ℝ) (hord : d.Ordered)
    (hdx : 1 ≤ d.dimX) (l2 : RatFn → ℝ) (r : RatFn) (hx : r.dimX = d.dimX) (hy : r.dimY = d.dimY)
    (N : ℕ) (cand : ℕ → Option (ℝ × RatFn))
    (hcand : ∀ j, 1 ≤ j → j < N → candidate solve cond useDelta junk d r N j = some (cand j))
    (order : List ℕ) (ho : ∀ j ∈ order, 1 ≤ j ∧ j < N) :
    ∃ b, parallelRound solve cond useDelta junk d l2 N order r = some b ∧
      RoundInv d l2 useDelta N r cand order b := by
  have step : ∀ (done : List ℕ) (b : Best) (j : ℕ), 1 ≤ j → j < N →
      RoundInv d l2 useDelta N r cand done b →
      ∃ b', roundStep solve cond useDelta junk d l2 N r b j = some b' ∧
        RoundInv d l2 useDelta N r cand (done ++ [j]) b' := by
    intro done b j h1 hj inv
    obtain ⟨res, e1, _, e2⟩ := candidate_spec solve hsound cond useDelta hcond junk d hord hdx r hx hy N j h1 hj
    have hres : res = cand j := by
      rw [hcand j h1 hj] at e1
      exact (Option.some.inj e1).symm
    unfold roundStep
    rw [e1, Option.bind_some]
    cases hc : res with
    | none =>
      refine ⟨b, rfl, inv.dimX, inv.dimY, inv.lo, inv.hi, ?_, ?_⟩
      · intro k hk c hkc
        rcases List.mem_append.1 hk with hk | hk
        · exact inv.least k hk c hkc
        · rw [List.mem_singleton.1 hk, ← hres, hc] at hkc
          cases hkc
      · rcases inv.kept with h | ⟨h, k, hk, hrest⟩
        · exact Or.inl h
        · exact Or.inr ⟨h, k, by simp [hk], hrest⟩
    | some c =>
      obtain ⟨delta, rk⟩ := c
      obtain ⟨_, _, hky, _, hgood⟩ := e2 delta rk hc
      have hb : keepBest junk l2 useDelta N b j (some (delta, rk)) =
          if score l2 useDelta (delta, rk) < b.score useDelta then
            ((b.r.setSize (N - j) j).copyFrom junk rk).map fun r' => ⟨delta, l2 rk, r'⟩
          else some b := by
        unfold keepBest score Best.score
        cases useDelta <;> simp
      rw [hb]
      by_cases hlt : score l2 useDelta (delta, rk) < b.score useDelta
      · rw [if_pos hlt]
        obtain ⟨f', g1, g2, g3, _, g5, g6, g7, g8, _, g10⟩ := copyLoop_spec junk d hdx rk hky d.dimY 0
          (b.r.setSize (N - j) j) (by omega) (by simp [RatFn.setSize, inv.dimX, hx])
          (by simp [RatFn.setSize, inv.dimY, hy]) (by simp [RatFn.setSize, inv.dimY, hy]) (by
            intro m _ hm
            simp [RatFn.setSize, inv.dimY, hy, hm]) (by
            intro m hm
            simp only [RatFn.setSize, inv.lo, inv.hi]
            exact hgood m hm)
        have hcf : (b.r.setSize (N - j) j).copyFrom junk rk = some f' := by
          unfold RatFn.copyFrom
          rw [show (b.r.setSize (N - j) j).dimY = d.dimY by simp [RatFn.setSize, inv.dimY, hy]]
          exact g1
        rw [hcf]
        have hsc : Best.score useDelta ⟨delta, l2 rk, f'⟩ = score l2 useDelta (delta, rk) := rfl
        refine ⟨⟨delta, l2 rk, f'⟩, rfl, ?_, ?_, ?_, ?_, ?_, Or.inr ⟨?_, j, by simp, (delta, rk), ?_, rfl, rfl,
          ?_, ?_, ?_⟩⟩
        · simpa [RatFn.setSize, inv.dimX] using g2
        · simpa [RatFn.setSize, inv.dimY] using g3
        · simpa [RatFn.setSize, inv.lo] using g5
        · simpa [RatFn.setSize, inv.hi] using g6
        · intro k hk c hkc
          rw [hsc]
          rcases List.mem_append.1 hk with hk | hk
          · exact le_trans (le_of_lt hlt) (inv.least k hk c hkc)
          · rw [List.mem_singleton.1 hk, ← hres, hc] at hkc
            cases hkc
            exact le_refl _
        · rw [hsc]
          refine lt_of_lt_of_le hlt ?_
          rcases inv.kept with h | ⟨h, _⟩
          · rw [h]
            unfold Best.score
            split <;> exact le_refl _
          · exact le_of_lt h
        · rw [← hres, hc]
        · simpa [RatFn.setSize] using g7
        · simpa [RatFn.setSize] using g8
        · exact fun m hm x => g10 m (by omega) hm x
      · rw [if_neg hlt]
        refine ⟨b, rfl, inv.dimX, inv.dimY, inv.lo, inv.hi, ?_, ?_⟩
        · intro k hk c hkc
          rcases List.mem_append.1 hk with hk | hk
          · exact inv.least k hk c hkc
          · rw [List.mem_singleton.1 hk, ← hres, hc] at hkc
            cases hkc
            exact not_lt.1 hlt
        · rcases inv.kept with h | ⟨h, k, hk, hrest⟩
          · exact Or.inl h
          · exact Or.inr ⟨h, k, by simp [hk], hrest⟩
  have key : ∀ (l done : List ℕ) (b : Best), (∀ j ∈ l, 1 ≤ j ∧ j < N) →
      RoundInv d l2 useDelta N r cand done b →
      ∃ b', l.foldlM (roundStep solve cond useDelta junk d l2 N r) b = some b' ∧
        RoundInv d l2 useDelta N r cand (done ++ l) b' := by
    intro l
    induction l with
    | nil => intro done b _ inv; exact ⟨b, rfl, by simpa using inv⟩
    | cons j l ih =>
      intro done b hl inv
      obtain ⟨h1, h2⟩ := hl j (by simp)
      obtain ⟨b1, e1, e2⟩ := step done b j h1 h2 inv
      obtain ⟨b2, e3, e4⟩ := ih (done ++ [j]) b1 (fun k hk => hl k (by simp [hk])) e2
      refine ⟨b2, ?_, by simpa using e4⟩
      rw [List.foldlM_cons, e1]
      exact e3
  have := key order [] ⟨dblMax, dblMax, r⟩ ho ⟨rfl, rfl, rfl, rfl, by simp, Or.inl rfl⟩
  simp only [List.nil_append] at this
  exact this

/-! ### The growing number of coefficients -/

theorem one_lt_dblMax : 1 < dblMax := by
  unfold dblMax
  have h : (1 : ℝ) ≤ 2 ^ 1023 := one_le_pow₀ (by norm_num)
  generalize (2 : ℝ) ^ 1023 = z at h
  have h2 : (1 : ℝ) < 2 - 2 ^ (-52 : ℤ) := by norm_num
  nlinarith

/-- A schedule: for each number of coefficients, the order in which the iterations `1 .. N-1` of the
    parallel loop reach the critical section. -/
def Schedule (order : ℕ → List ℕ) : Prop := ∀ N, (order N).Perm (List.range' 1 (N - 1))

/-- Some candidate with `N` coefficients is acceptable. -/
def HasCandidate (solve : Solver) (cond : List (List ℝ) → ℝ) (useDelta : Bool) (junk : ℝ) (d : Store ℝ)
    (l2 : RatFn → ℝ) (r : RatFn) (N : ℕ) : Prop :=
  ∃ j, 1 ≤ j ∧ j < N ∧ ∃ c, candidate solve cond useDelta junk d r N j = some (some c) ∧
    score l2 useDelta c < dblMax

/-- `f` is a copy of a candidate with `N` coefficients that has the least score. -/
def BestCandidate (solve : Solver) (cond : List (List ℝ) → ℝ) (useDelta : Bool) (junk : ℝ) (d : Store ℝ)
    (l2 : RatFn → ℝ) (r : RatFn) (N : ℕ) (c : ℝ × RatFn) (f : RatFn) : Prop :=
  ∃ j, 1 ≤ j ∧ j < N ∧ candidate solve cond useDelta junk d r N j = some (some c) ∧
    score l2 useDelta c < dblMax ∧ f.np = N - j ∧ f.nq = j ∧ f.dimY = d.dimY ∧ SameParts d.dimY f c.2 ∧
    ∀ j', 1 ≤ j' → j' < N → ∀ c', candidate solve cond useDelta junk d r N j' = some (some c') →
      score l2 useDelta c ≤ score l2 useDelta c'

theorem parallelFit_spec (solve : Solver) (hsound : solve.Sound) (cond : List (List ℝ) → ℝ)
    (useDelta : Bool) (hcond : useDelta = true → ∀ c, 0 < cond c) (junk : ℝ) (d : Store ℝ) (hord : d.Ordered)
    (hdx : 1 ≤ d.dimX) (l2 : RatFn → ℝ) (r : RatFn) (hx : r.dimX = d.dimX) (hy : r.dimY = d.dimY)
    (order : ℕ → List ℕ) (ho : Schedule order) (maxN step : ℕ) (hstep : 1 ≤ step) :
    ∀ (n i : ℕ), maxN + 1 - i = n →
    ∃ ok f', parallelFit solve cond useDelta junk d l2 order maxN step i r = some (ok, f') ∧
      (ok = true → ∃ k, i + k * step ≤ maxN ∧
        (∀ k' < k, ¬ HasCandidate solve cond useDelta junk d l2 r (i + k' * step)) ∧
        ∃ c, BestCandidate solve cond useDelta junk d l2 r (i + k * step) c f') ∧
      (ok = false → ∀ k, i + k * step ≤ maxN →
        ¬ HasCandidate solve cond useDelta junk d l2 r (i + k * step)) := by
  intro n
  induction n using Nat.strong_induction_on with
  | _ n ih =>
    intro i hn
    rw [parallelFit]
    by_cases hi : i ≤ maxN
    · rw [if_pos hi]
      have hmem : ∀ j, j ∈ order i ↔ 1 ≤ j ∧ j < i := by
        intro j
        rw [(ho i).mem_iff, List.mem_range'_1]
        omega
      have hex : ∀ j, ∃ c, 1 ≤ j → j < i → candidate solve cond useDelta junk d r i j = some c := by
        intro j
        by_cases hj : 1 ≤ j ∧ j < i
        · obtain ⟨c, hc, _, _⟩ := candidate_spec solve hsound cond useDelta hcond junk d hord hdx r hx hy i j hj.1 hj.2
          exact ⟨c, fun _ _ => hc⟩
        · exact ⟨none, fun h1 h2 => absurd ⟨h1, h2⟩ hj⟩
      choose cand hcand using hex
      obtain ⟨b, e1, inv⟩ := round_spec solve hsound cond useDelta hcond junk d hord hdx l2 r hx hy i cand hcand
        (order i) (fun j hj => (hmem j).1 hj)
      rw [e1]
      simp only
      have hcandeq : ∀ j, 1 ≤ j → j < i → ∀ c, candidate solve cond useDelta junk d r i j = some (some c) ↔
          cand j = some c := by
        intro j h1 h2 c
        rw [hcand j h1 h2, Option.some.injEq]
      rcases inv.kept with hb | ⟨hlt, j, hj, c, hc, k1, k2, k3, k4, k5⟩
      · have hno : ¬ HasCandidate solve cond useDelta junk d l2 r i := by
          rintro ⟨j, h1, h2, c, hc, hs⟩
          have := inv.least j ((hmem j).2 ⟨h1, h2⟩) c ((hcandeq j h1 h2 c).1 hc)
          rw [hb] at this
          have hd : Best.score useDelta ⟨dblMax, dblMax, r⟩ = dblMax := by
            unfold Best.score; split <;> rfl
          rw [hd] at this
          linarith
        rw [hb]
        simp only
        rw [if_neg (lt_irrefl _), if_neg (by omega)]
        obtain ⟨ok, f', g1, g2, g3⟩ := ih (maxN + 1 - (i + step)) (by omega) (i + step) rfl
        refine ⟨ok, f', g1, ?_, ?_⟩
        · intro hok
          obtain ⟨k, a1, a2, a3⟩ := g2 hok
          refine ⟨k + 1, by rw [Nat.succ_mul]; omega, ?_, ?_⟩
          · intro k' hk'
            rcases k' with _ | k'
            · simpa using hno
            · have := a2 k' (by omega)
              rwa [show i + (k' + 1) * step = i + step + k' * step by rw [Nat.succ_mul]; omega]
          · rwa [show i + (k + 1) * step = i + step + k * step by rw [Nat.succ_mul]; omega]
        · intro hok k hk
          rcases k with _ | k
          · simpa using hno
          · have hk' : i + step + k * step ≤ maxN := by
              rw [Nat.succ_mul] at hk; omega
            have := g3 hok k hk'
            rwa [show i + (k + 1) * step = i + step + k * step by rw [Nat.succ_mul]; omega]
      · obtain ⟨h1, h2⟩ := (hmem j).1 hj
        have hcd := (hcandeq j h1 h2 c).2 hc
        have hsc : b.score useDelta = score l2 useDelta c := by
          unfold Best.score score
          rw [k1, k2]
        have hbd : b.delta < dblMax := by
          obtain ⟨res, q1, _, q2⟩ := candidate_spec solve hsound cond useDelta hcond junk d hord hdx r hx hy i j h1 h2
          rw [hcd] at q1
          cases q1
          obtain ⟨_, q3, _⟩ := q2 c.1 c.2 rfl
          cases hu : useDelta with
          | true =>
            rw [hu] at hlt
            exact hlt
          | false =>
            rw [k1, q3 hu]
            exact one_lt_dblMax
        rw [if_pos hbd]
        refine ⟨true, b.r, rfl, fun _ => ⟨0, by simpa using hi, by simp, c, ?_⟩, by simp⟩
        rw [Nat.zero_mul, Nat.add_zero]
        refine ⟨j, h1, h2, hcd, by rw [← hsc]; exact hlt, k3, k4, by rw [inv.dimY, hy], k5, ?_⟩
        intro j' h1' h2' c' hc'
        rw [← hsc]
        exact inv.least j' ((hmem j').2 ⟨h1', h2'⟩) c' ((hcandeq j' h1' h2' c').1 hc')
    · rw [if_neg hi]
      exact ⟨false, r, rfl, by simp, fun _ k hk => absurd hk (by omega)⟩

/-- **C54.**  The parallel fitter, for every schedule of its threads: it ends, it reports a success
    exactly when some number of coefficients it tries has an acceptable candidate, and the function
    is then a copy of a candidate of the first such number, with the least score among its candidates
    (L2 distance to the data, or delta with `use_delta`), and it passes through every vertical
    segment of the data in every channel. -/
theorem parallel_fit_all_schedules (solve : Solver) (hsound : solve.Sound) (cond : List (List ℝ) → ℝ)
    (useDelta : Bool) (hcond : useDelta = true → ∀ c, 0 < cond c) (junk : ℝ) (d : Segments)
    (hord : d.store.Ordered) (hdx : 1 ≤ d.store.dimX) (l2 : RatFn → ℝ) (f : RatFn)
    (hx : f.dimX = d.store.dimX) (hy : f.dimY = d.store.dimY) (order : ℕ → List ℕ) (ho : Schedule order)
    (minNp np step : Option ℕ) (hstep : 1 ≤ step.getD 1) :
    let tried := fun k => minNp.getD 10 + k * step.getD 1
    let maxN := np.getD (minNp.getD 10)
    let r : RatFn := { f with lo := d.min, hi := d.max }
    let has := HasCandidate solve cond useDelta junk d.store l2 r
    ∃ ok f', quadprogParallelFit solve cond useDelta junk d l2 order minNp np step f = some (ok, f') ∧
      (ok = true ↔ ∃ k, tried k ≤ maxN ∧ has (tried k)) ∧
      (ok = true → FnPasses d.store f' ∧ ∃ k, tried k ≤ maxN ∧ (∀ k' < k, ¬ has (tried k')) ∧
        ∃ c, BestCandidate solve cond useDelta junk d.store l2 r (tried k) c f') := by
  intro tried maxN r has
  obtain ⟨ok, f', e1, e2, e3⟩ := parallelFit_spec solve hsound cond useDelta hcond junk d.store hord hdx l2
    r hx hy order ho maxN (step.getD 1) hstep _ (minNp.getD 10) rfl
  refine ⟨ok, f', e1, ?_, ?_⟩
  · constructor
    · intro hok
      obtain ⟨k, a1, _, c, j, h1, h2, h3, h4, _⟩ := e2 hok
      exact ⟨k, a1, j, h1, h2, c, h3, h4⟩
    · rintro ⟨k, a1, a2⟩
      cases ok with
      | true => rfl
      | false => exact absurd a2 (e3 rfl k a1)
  · intro hok
    obtain ⟨k, a1, a2, c, hc⟩ := e2 hok
    refine ⟨?_, k, a1, a2, c, hc⟩
    obtain ⟨j, h1, h2, h3, _, _, _, h7, h8, _⟩ := hc
    obtain ⟨res, q1, _, q2⟩ := candidate_spec solve hsound cond useDelta hcond junk d.store hord hdx r hx hy _ j h1 h2
    rw [h3] at q1
    cases q1
    obtain ⟨_, _, _, q5, _⟩ := q2 c.1 c.2 rfl
    intro i x yl yu hs m hm
    rw [h8 m hm x]
    exact q5 i x yl yu hs m hm

/-- **C54.**  Two schedules: same success, same number of coefficients, same score; and the same
    function if the candidates have distinct scores. -/
theorem parallel_fit_schedule_independent (solve : Solver) (hsound : solve.Sound)
    (cond : List (List ℝ) → ℝ) (useDelta : Bool) (hcond : useDelta = true → ∀ c, 0 < cond c) (junk : ℝ)
    (d : Segments) (hord : d.store.Ordered) (hdx : 1 ≤ d.store.dimX) (l2 : RatFn → ℝ) (f : RatFn)
    (hx : f.dimX = d.store.dimX) (hy : f.dimY = d.store.dimY) (o1 o2 : ℕ → List ℕ) (h1 : Schedule o1)
    (h2 : Schedule o2) (minNp np step : Option ℕ) (hstep : 1 ≤ step.getD 1) :
    let r : RatFn := { f with lo := d.min, hi := d.max }
    ∃ ok f1 f2, quadprogParallelFit solve cond useDelta junk d l2 o1 minNp np step f = some (ok, f1) ∧
      quadprogParallelFit solve cond useDelta junk d l2 o2 minNp np step f = some (ok, f2) ∧
      (ok = true → ∃ N c1 c2, BestCandidate solve cond useDelta junk d.store l2 r N c1 f1 ∧
        BestCandidate solve cond useDelta junk d.store l2 r N c2 f2 ∧
        score l2 useDelta c1 = score l2 useDelta c2 ∧
        ((∀ j j' c c', candidate solve cond useDelta junk d.store r N j = some (some c) →
            candidate solve cond useDelta junk d.store r N j' = some (some c') →
            score l2 useDelta c = score l2 useDelta c' → j = j') →
          f1.np = f2.np ∧ f1.nq = f2.nq ∧ SameParts d.store.dimY f1 f2)) := by
  intro r
  obtain ⟨ok1, f1, a1, a2, a3⟩ := parallel_fit_all_schedules solve hsound cond useDelta hcond junk d hord hdx
    l2 f hx hy o1 h1 minNp np step hstep
  obtain ⟨ok2, f2, b1, b2, b3⟩ := parallel_fit_all_schedules solve hsound cond useDelta hcond junk d hord hdx
    l2 f hx hy o2 h2 minNp np step hstep
  have hok : ok1 = ok2 := by
    have : (ok1 = true) ↔ (ok2 = true) := a2.trans b2.symm
    cases ok1 <;> cases ok2 <;> simp_all
  subst hok
  refine ⟨ok1, f1, f2, a1, b1, fun hok => ?_⟩
  obtain ⟨_, k1, _, n1, c1, j1, p1, p2, p3, p4, p5, p6, p7, p8, p9⟩ := a3 hok
  obtain ⟨_, k2, _, n2, c2, j2, q1, q2, q3, q4, q5, q6, q7, q8, q9⟩ := b3 hok
  have hk : k1 = k2 := by
    rcases Nat.lt_trichotomy k1 k2 with h | h | h
    · exact absurd ⟨j1, p1, p2, c1, p3, p4⟩ (n2 k1 h)
    · exact h
    · exact absurd ⟨j2, q1, q2, c2, q3, q4⟩ (n1 k2 h)
  subst hk
  have hs : score l2 useDelta c1 = score l2 useDelta c2 := le_antisymm (p9 j2 q1 q2 c2 q3) (q9 j1 p1 p2 c1 p3)
  refine ⟨_, c1, c2, ⟨j1, p1, p2, p3, p4, p5, p6, p7, p8, p9⟩, ⟨j2, q1, q2, q3, q4, q5, q6, q7, q8, q9⟩, hs, ?_⟩
  intro hdist
  have hj := hdist j1 j2 c1 c2 p3 q3 hs
  subst hj
  rw [p3] at q3
  cases q3
  exact ⟨by rw [p5, q5], by rw [p6, q6], fun m hm x => by rw [p8 m hm x, q8 m hm x]⟩

/-- **C54.**  On small data sets, when the channels can be fitted with one of the splits of one of the
    numbers of coefficients, the parallel fitter succeeds (if the solver is complete and the scores
    are finite). -/
theorem parallel_fit_complete_small (solve : Solver) (hsound : solve.Sound) (hcomplete : solve.Complete)
    (cond : List (List ℝ) → ℝ) (useDelta : Bool) (hcond : useDelta = true → ∀ c, 0 < cond c) (junk : ℝ)
    (d : Segments) (hord : d.store.Ordered) (hdx : 1 ≤ d.store.dimX) (h0 : 0 < d.store.size)
    (hsize : d.store.size ≤ 198) (l2 : RatFn → ℝ) (hfin : ∀ c, score l2 useDelta c < dblMax) (f : RatFn)
    (hx : f.dimX = d.store.dimX) (hy : f.dimY = d.store.dimY) (order : ℕ → List ℕ) (ho : Schedule order)
    (minNp np step : Option ℕ) (hstep : 1 ≤ step.getD 1) (k j : ℕ)
    (hk : minNp.getD 10 + k * step.getD 1 ≤ np.getD (minNp.getD 10)) (hj1 : 1 ≤ j)
    (hj2 : j < minNp.getD 10 + k * step.getD 1)
    (hfit : ∀ m < d.store.dimY, Fittable d.store (inflate d.min d.max).1 (inflate d.min d.max).2
      (minNp.getD 10 + k * step.getD 1 - j) j m) :
    ∃ f', quadprogParallelFit solve cond useDelta junk d l2 order minNp np step f = some (true, f') ∧
      FnPasses d.store f' := by
  obtain ⟨ok, f', e1, e2, e3⟩ := parallel_fit_all_schedules solve hsound cond useDelta hcond junk d hord hdx
    l2 f hx hy order ho minNp np step hstep
  obtain ⟨res, q1, q2, _⟩ := candidate_spec solve hsound cond useDelta hcond junk d.store hord hdx
    { f with lo := d.min, hi := d.max } hx hy _ j hj1 hj2
  have hsome := q2 hcomplete h0 hsize hfit
  obtain ⟨c, rfl⟩ := Option.isSome_iff_exists.1 hsome
  have hok := e2.2 ⟨k, hk, j, hj1, hj2, c, q1, hfin c⟩
  subst hok
  exact ⟨f', e1, (e3 rfl).1⟩

/-- the hypotheses are met: two points, one coefficient in each polynomial, any schedule -/
example (order : ℕ → List ℕ) (ho : Schedule order) : ∃ f', quadprogParallelFit idealSolver (fun _ => 1) false 0
      twoPoints (fun _ => 0) order (some 2) (some 3) none ⟨1, 1, 0, 0, [], [], [none]⟩ = some (true, f') ∧
    FnPasses twoPoints.store f' := by
  apply parallel_fit_complete_small idealSolver idealSolver_sound idealSolver_complete _ _ (by simp) _ twoPoints
    twoPoints_ordered (by simp [twoPoints, Segments.make]) (by simp [twoPoints, Segments.make])
    (by simp [twoPoints, Segments.make]) _ (by
      intro c
      simp only [score, Bool.false_eq_true, if_false]
      linarith [one_lt_dblMax]) _ rfl rfl order ho _ _ _ (by simp) 0 1 (by simp) le_rfl (by simp)
  intro m hm
  have hm0 : m = 0 := by
    have : m < 1 := hm
    omega
  subst hm0
  exact twoPoints_fittable

/-- a schedule: the iterations end in reverse order -/
example : Schedule fun N => (List.range' 1 (N - 1)).reverse := fun _ => List.reverse_perm _

/-! ### Limits -/

/-- Limit: the last sample of the training set is never given to the solver: when the solution of
    the program of all the other samples fails there, the fitter gives up, although the program
    with all the constraints was not tried. -/
theorem parallel_gives_up (solve : Solver) (nextDelta : List (List ℝ) → ℝ → ℝ) (junk : ℝ)
    (d : Store ℝ) (hord : d.Ordered) (np nq ny : ℕ) (hny : ny < d.dimY) (n : ℕ) (delta : ℝ)
    (cols : List (List ℝ)) (i : ℕ) (r r' : Rat1) (x : List ℝ)
    (inv : ParInv d np nq ny cols [i] r)
    (hs : solve (np + nq) (cols.map (withOffset (nextDelta cols delta))) = some x)
    (hu : r.update junk (x.take np) (x.drop np) = some r') (hr' : r'.Standard) (hp : r'.p.length = np)
    (hq : r'.q.length = nq) (hfail : ¬ Passes d ny r' i) :
    parLoop solve nextDelta junk d np nq ny (n + 1) delta cols [i] r =
      some (none, nextDelta cols delta, r') := by
  rw [parLoop]
  simp only [hs, hu]
  by_cases hsq : 0 < sumSquares x
  · rw [if_pos hsq]
    obtain ⟨res, t1, t2, t3⟩ := testConstraints_spec d hord np nq ny hny r' hr' hp hq [i] inv.lt
    rw [t1]
    cases res with
    | none => exact absurd (t2.1 rfl i (by simp)) hfail
    | some ic =>
      obtain ⟨k, cu, cl⟩ := ic
      simp only
      rw [if_neg]
      have := inv.count
      simp only [List.length_append, List.length_cons, List.length_nil] at this ⊢
      omega
  · rw [if_neg hsq]

/-- Limit: a function that is not a number anywhere passes the test. -/
theorem test_accepts_nan (d : Store ℝ) (hord : d.Ordered) (np nq ny : ℕ) (hny : ny < d.dimY)
    (r : Rat1) (h : r.Standard) (hp : r.p.length = np) (hq : r.q.length = nq) (training : List ℕ)
    (ht : ∀ i ∈ training, i < d.size) (hp0 : ∀ j, arr r.getP j = 0) (hq0 : ∀ j, arr r.getQ j = 0) :
    testConstraints d np nq ny r training = some none := by
  obtain ⟨res, t1, t2, _⟩ := testConstraints_spec d hord np nq ny hny r h hp hq training ht
  rw [t1, t2.2]
  intro i hi
  obtain ⟨_, z, yl, yu, _, hseg, _⟩ := get_of_lt d i (ht i hi)
  refine ⟨z, yl, yu, _, _, hseg, rational_parts r h z, Or.inl ?_⟩
  unfold polynomial
  simp [hp0, hq0]

theorem foldl_set_keeps (idx : ℕ → ℕ) (v : ℕ → ℝ) (t : ℕ) : ∀ (l : List ℕ) (c : List ℝ),
    (∀ k ∈ l, idx k ≠ t) → (l.foldl (fun c k => c.set (idx k) (v k)) c)[t]? = c[t]? := by
  intro l
  induction l with
  | nil => intro c _; rfl
  | cons a l ih =>
    intro c h
    rw [List.foldl_cons, ih _ fun k hk => h k (by simp [hk])]
    exact List.getElem?_set_ne (h a (by simp))

/-- Limit: given data that are not asymmetrical vertical segments, the fitter converts them into a
    buffer whose rows overlap (the row number `i` starts at `i` instead of `i * elem_size`): most of
    the buffer, in particular the upper bounds of the last sample, is never written. -/
theorem conversion_leaves_junk (dimX dimY : ℕ) (hy : 1 ≤ dimY) (dt junk : ℝ) (rows : List (List ℝ))
    (hrows : ∀ x ∈ rows, x.length = dimX + dimY) (t : ℕ)
    (h1 : rows.length + (dimX + 3 * dimY) - 1 ≤ t) (h2 : t < rows.length * (dimX + 3 * dimY)) :
    (convertAll dimX dimY dt junk rows)[t]? = some junk := by
  have hrow : ∀ i < rows.length, ∀ c : List ℝ,
      (convertRow dimX dimY dt i (rows.getD i []) c)[t]? = c[t]? := by
    intro i hi c
    have hx : (rows.getD i []).length = dimX + dimY := by
      rw [List.getD_eq_getElem?_getD, List.getElem?_eq_getElem hi, Option.getD_some]
      exact hrows _ (List.getElem_mem hi)
    unfold convertRow
    simp only
    rw [foldl_set_keeps (fun k => i + k + dimX + 2 * dimY), foldl_set_keeps (fun k => i + k + dimX + dimY),
      foldl_set_keeps (fun k => i + k)]
    · intro k hk
      rw [List.mem_range, hx] at hk
      omega
    · intro k hk
      rw [List.mem_range] at hk
      omega
    · intro k hk
      rw [List.mem_range] at hk
      omega
  have hall : ∀ (l : List ℕ) (c : List ℝ), (∀ i ∈ l, i < rows.length) →
      (l.foldl (fun c i => convertRow dimX dimY dt i (rows.getD i []) c) c)[t]? = c[t]? := by
    intro l
    induction l with
    | nil => intro c _; rfl
    | cons a l ih =>
      intro c h
      rw [List.foldl_cons, ih _ fun k hk => h k (by simp [hk]), hrow a (h a (by simp))]
  unfold convertAll
  rw [hall _ _ fun i hi => by simpa using hi]
  simp [h2]

/-- two samples of one variable and one channel: the last of the 8 cells is not written -/
example (junk : ℝ) : (convertAll 1 1 (1 / 10) junk [[0, 1], [1, 2]])[7]? = some junk :=
  conversion_leaves_junk 1 1 le_rfl _ junk _ (by simp) 7 (by simp) (by simp)

end
end Alta
