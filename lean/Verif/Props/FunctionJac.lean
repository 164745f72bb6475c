import Verif.Props.Function
/-
Jacobians of compositions of nonlinear functions (C30, C31).
-/
namespace Alta
noncomputable section

/-! ### The writes of the loops -/

theorem index_inj {n a b i j : ℕ} (hi : i < n) (hj : j < n) (h : a * n + i = b * n + j) : a = b ∧ i = j := by
  have h1 : (a * n + i) / n = a := by
    rw [mul_comm, Nat.mul_add_div (by omega), Nat.div_eq_of_lt hi, Nat.add_zero]
  have h2 : (b * n + j) / n = b := by
    rw [mul_comm, Nat.mul_add_div (by omega), Nat.div_eq_of_lt hj, Nat.add_zero]
  have : a = b := by rw [← h1, h, h2]
  subst this
  exact ⟨rfl, by omega⟩

/-- the inner loop, over the outputs -/
theorem column_write (nbP m d : ℕ) (hm : m < nbP) (v : ℕ → ℝ) (j : ℕ → ℝ) (y k : ℕ) (hk : k < nbP) :
    ((List.range d).foldl (fun j y => Function.update j (y * nbP + m) (v y)) j) (y * nbP + k) =
      if y < d ∧ k = m then v y else j (y * nbP + k) := by
  induction d with
  | zero => simp
  | succ d ih =>
    rw [List.range_succ, List.foldl_append, List.foldl_cons, List.foldl_nil]
    by_cases h : y * nbP + k = d * nbP + m
    · obtain ⟨rfl, rfl⟩ := index_inj hk hm h
      simp
    · rw [Function.update_of_ne h, ih]
      by_cases h2 : y = d ∧ k = m
      · exact absurd (by rw [h2.1, h2.2]) h
      · congr 1
        apply propext
        constructor
        · rintro ⟨h3, h4⟩; exact ⟨by omega, h4⟩
        · rintro ⟨h3, h4⟩; refine ⟨?_, h4⟩
          rcases Nat.lt_or_ge y d with h5 | h5
          · exact h5
          · exact absurd ⟨by omega, h4⟩ h2

theorem writeBlock_apply (nbP nbF start d : ℕ) (hs : start + nbF ≤ nbP) (fj j : ℕ → ℝ) (y k : ℕ)
    (hy : y < d) (hk : k < nbP) :
    writeBlock nbP nbF start d fj j (y * nbP + k) =
      if start ≤ k ∧ k < start + nbF then fj (y * nbF + (k - start)) else j (y * nbP + k) := by
  unfold writeBlock
  suffices H : ∀ n ≤ nbF, ((List.range n).foldl (fun j i => (List.range d).foldl
      (fun j y => Function.update j (y * nbP + (i + start)) (fj (y * nbF + i))) j) j) (y * nbP + k) =
      if start ≤ k ∧ k < start + n then fj (y * nbF + (k - start)) else j (y * nbP + k) from H nbF le_rfl
  intro n hn
  induction n with
  | zero =>
    simp
  | succ n ih =>
    rw [List.range_succ, List.foldl_append, List.foldl_cons, List.foldl_nil,
      column_write nbP (n + start) d (by omega) (fun y => fj (y * nbF + n)) _ y k hk, ih (by omega)]
    by_cases h : k = n + start
    · subst h
      rw [if_pos ⟨hy, rfl⟩, if_pos (by omega)]
      congr 2; omega
    · rw [if_neg (fun c => h c.2)]
      congr 1
      apply propext
      omega

/-- a loop over the parameters that writes one row -/
theorem row_write (nbP y n start : ℕ) (hs : start + n ≤ nbP) (v : ℕ → ℝ) (j : ℕ → ℝ) (z k : ℕ) (hk : k < nbP) :
    ((List.range n).foldl (fun j i => Function.update j (y * nbP + (i + start)) (v i)) j) (z * nbP + k) =
      if z = y ∧ start ≤ k ∧ k < start + n then v (k - start) else j (z * nbP + k) := by
  induction n with
  | zero =>
    simp
  | succ n ih =>
    rw [List.range_succ, List.foldl_append, List.foldl_cons, List.foldl_nil]
    by_cases h : z * nbP + k = y * nbP + (n + start)
    · obtain ⟨rfl, rfl⟩ := index_inj hk (by omega) h
      rw [Function.update_self, if_pos (by omega)]
      congr 1; omega
    · rw [Function.update_of_ne h, ih (by omega)]
      congr 1
      apply propext
      constructor
      · rintro ⟨h1, h2, h3⟩; exact ⟨h1, h2, by omega⟩
      · rintro ⟨h1, h2, h3⟩
        refine ⟨h1, h2, ?_⟩
        rcases Nat.lt_or_ge k (start + n) with h4 | h4
        · exact h4
        · exact absurd (by rw [h1]; congr 1; omega) h

theorem productLoop_apply (nbF nbG d : ℕ) (a b : Bool) (jf jg vf vg j : ℕ → ℝ) (y k nbP : ℕ)
    (hn : nbP = (if !a then nbF else 0) + (if !b then nbG else 0)) (hy : y < d) (hk : k < nbP) :
    productLoop nbP nbF nbG d a b jf jg vf vg j (y * nbP + k) =
      if k < (if !a then nbF else 0) then jf (y * nbF + k) * vg y
      else jg (y * nbG + (k - (if !a then nbF else 0))) * vf y := by
  unfold productLoop
  -- one turn of the outer loop
  have turn : ∀ (z : ℕ) (j : ℕ → ℝ) (y : ℕ),
      (let j1 := if !a then
          (List.range nbF).foldl (fun j i => Function.update j (z * nbP + i) (jf (z * nbF + i) * vg z)) j
        else j
      if !b then
        (List.range nbG).foldl (fun j i =>
          if a then Function.update j (z * nbP + i) (jg (z * nbG + i) * vf z)
          else Function.update j (z * nbP + (i + nbF)) (jg (z * nbG + i) * vf z)) j1
      else j1) (y * nbP + k) =
      if y = z then (if k < (if !a then nbF else 0) then jf (z * nbF + k) * vg z
        else jg (z * nbG + (k - (if !a then nbF else 0))) * vf z) else j (y * nbP + k) := by
    intro z j y
    cases a <;> cases b <;> simp only [Bool.not_true, Bool.not_false, if_true, Bool.false_eq_true, if_false,
      Nat.zero_add, Nat.add_zero] at hn ⊢
    · have e1 := row_write nbP z nbF 0 (by omega) (fun i => jf (z * nbF + i) * vg z) j y k hk
      rw [row_write nbP z nbG nbF (by omega) (fun i => jg (z * nbG + i) * vf z) _ y k hk]
      simp only [Nat.add_zero, Nat.sub_zero, Nat.zero_add] at e1
      rw [e1]
      by_cases h : y = z
      · by_cases h2 : k < nbF
        · rw [if_neg (by omega), if_pos ⟨h, by omega, h2⟩, if_pos h, if_pos h2]
        · rw [if_pos (by omega), if_pos h, if_neg h2]
      · simp [h]
    · have e1 := row_write nbP z nbF 0 (by omega) (fun i => jf (z * nbF + i) * vg z) j y k hk
      simp only [Nat.add_zero, Nat.sub_zero, Nat.zero_add] at e1
      rw [e1]
      by_cases h : y = z
      · rw [if_pos ⟨h, by omega, by omega⟩, if_pos h, if_pos (by omega)]
      · simp [h]
    · have e1 := row_write nbP z nbG 0 (by omega) (fun i => jg (z * nbG + i) * vf z) j y k hk
      simp only [Nat.add_zero, Nat.sub_zero, Nat.zero_add] at e1
      rw [e1]
      by_cases h : y = z
      · rw [if_pos ⟨h, by omega, by omega⟩, if_pos h, if_neg (by omega), Nat.sub_zero]
      · simp [h]
    · omega
  suffices H : ∀ n, ((List.range n).foldl (fun j y =>
      let j1 := if !a then
          (List.range nbF).foldl (fun j i => Function.update j (y * nbP + i) (jf (y * nbF + i) * vg y)) j
        else j
      if !b then
        (List.range nbG).foldl (fun j i =>
          if a then Function.update j (y * nbP + i) (jg (y * nbG + i) * vf y)
          else Function.update j (y * nbP + (i + nbF)) (jg (y * nbG + i) * vf y)) j1
      else j1) j) (y * nbP + k) =
      if y < n then (if k < (if !a then nbF else 0) then jf (y * nbF + k) * vg y
        else jg (y * nbG + (k - (if !a then nbF else 0))) * vf y) else j (y * nbP + k) by
    rw [H d, if_pos hy]
  intro n
  induction n with
  | zero => simp
  | succ n ih =>
    rw [List.range_succ, List.foldl_append, List.foldl_cons, List.foldl_nil, turn n _ y, ih]
    by_cases h : y = n
    · subst h; simp
    · rw [if_neg h]
      congr 1
      apply propext
      omega

/-! ### The derivatives -/

theorem Fn.partValue_eq (input : Input) (x xf : List ℝ) (f : Fn)
    (h : convertInput (arr x) input f.par.input = some xf) (y : ℕ) :
    f.partValue input x y = f.valueAt xf y := by
  simp [Fn.partValue, Fn.valueAt, h]

theorem Fns.jac_def : ∀ (fs : Fns) (d : ℕ) (_ : fs.WF d) (input : Input) (x : List ℝ),
    fs.DefAt input x →
    (∀ m ∈ fs.toList, m.1 = false → ∀ xf, convertInput (arr x) input m.2.par.input = some xf →
      m.2.IsJacobianAt xf) →
    ∀ (nbP start : ℕ) (j : ℕ → ℝ), start + fs.nb ≤ nbP →
    ∃ j', fs.jacLoop input d nbP x start j = some j' ∧ ∀ y < d,
      (∀ k < nbP, (k < start ∨ start + fs.nb ≤ k) → j' (y * nbP + k) = j (y * nbP + k)) ∧
      ∀ i < fs.nb, HasDerivAt (fun t => (fs.set (fs.get.set i t)).sumAt input x y)
        (j' (y * nbP + (start + i))) (arr fs.get i)
  | .nil, d, _, input, x, _, _, nbP, start, j, _ =>
    ⟨j, rfl, fun y _ => ⟨fun _ _ _ => rfl, fun i hi => absurd hi (by simp [Fns.nb])⟩⟩
  | .cons b f rest, d, h, input, x, hd, hj, nbP, start, j, hs => by
    obtain ⟨⟨xf, h1, h2⟩, h3⟩ := hd
    have hj' : ∀ m ∈ rest.toList, m.1 = false →
        ∀ xf, convertInput (arr x) input m.2.par.input = some xf → m.2.IsJacobianAt xf :=
      fun m hm => hj m (by simp [Fns.toList, hm])
    by_cases hc : (f.nb > 0 && !b) = true
    · have hb : b = false := by revert hc; cases b <;> simp
      have hnb : (Fns.cons b f rest).nb = f.nb + rest.nb := by simp [Fns.nb, hb]
      have hget : (Fns.cons b f rest).get = f.params ++ rest.get := by
        rw [Fns.get, if_pos hc]; rfl
      have lp := f.params_length h.1.1
      rw [hnb] at hs
      obtain ⟨fj, k1, k2, k3⟩ := hj (b, f) (by simp [Fns.toList]) hb xf h1
      have hset : ∀ p q : List ℝ, p.length = f.nb →
          (Fns.cons b f rest).set (p ++ q) = .cons b (f.set p) (rest.set q) := by
        intro p q hp
        rw [Fns.set, if_pos hc, List.take_left' hp, List.drop_left' hp]
      have hsum : ∀ (p : List ℝ) (r : Fns) (y : ℕ),
          (Fns.cons b (f.set p) r).sumAt input x y = (f.set p).valueAt xf y + r.sumAt input x y := by
        intro p r y
        simp only [Fns.sumAt, Fns.toList, List.map_cons, List.sum_cons]
        rw [Fn.partValue_eq input x xf (f.set p) (by rw [f.set_par h.1.1]; exact h1)]
      obtain ⟨j', i1, i2⟩ := Fns.jac_def rest d h.2 input x h3 hj' nbP (start + f.nb)
        (writeBlock nbP f.nb start d (arr fj) j) (by omega)
      refine ⟨j', ?_, fun y hy => ⟨fun k hk hk2 => ?_, fun i hi => ?_⟩⟩
      · rw [Fns.jacLoop, if_pos hc]
        simp only [h1, k1]
        exact i1
      · rw [hnb] at hk2
        rw [(i2 y hy).1 k hk (by omega), writeBlock_apply _ _ _ _ (by omega) _ _ _ _ hy hk,
          if_neg (by omega)]
      · rw [hnb] at hi
        rw [hget]
        by_cases hif : i < f.nb
        · have e1 : ∀ t, (f.params ++ rest.get).set i t = f.params.set i t ++ rest.get := by
            intro t; rw [List.set_append_left _ _ (by omega)]
          have e2 : arr (f.params ++ rest.get) i = arr f.params i := by
            simp [arr, List.getD, List.getElem?_append_left (l₁ := f.params) (i := i) (by omega)]
          rw [(i2 y hy).1 (start + i) (by omega) (by omega),
            writeBlock_apply _ _ _ _ (by omega) _ _ _ _ hy (by omega), if_pos (by omega), e2]
          have e3 : start + i - start = i := by omega
          rw [e3]
          have e4 : ∀ t, ((Fns.cons b f rest).set ((f.params ++ rest.get).set i t)).sumAt input x y =
              (f.set (f.params.set i t)).valueAt xf y + rest.sumAt input x y := by
            intro t
            rw [e1, hset _ _ (by rw [List.length_set]; exact lp), hsum, Fns.set_get rest d h.2]
          simp only [e4]
          exact (k3 y (by rw [h.1.2]; exact hy) i hif).add_const _
        · have e1 : ∀ t, (f.params ++ rest.get).set i t = f.params ++ rest.get.set (i - f.nb) t := by
            intro t; rw [List.set_append_right _ _ (by omega), lp]
          have e2 : arr (f.params ++ rest.get) i = arr rest.get (i - f.nb) := by
            simp only [arr, List.getD]
            rw [List.getElem?_append_right (by omega), lp]
          have e4 : ∀ t, ((Fns.cons b f rest).set ((f.params ++ rest.get).set i t)).sumAt input x y =
              f.valueAt xf y + (rest.set (rest.get.set (i - f.nb) t)).sumAt input x y := by
            intro t
            rw [e1, hset _ _ lp, hsum, f.set_params h.1.1]
          simp only [e4]
          rw [e2]
          have e5 : start + i = start + f.nb + (i - f.nb) := by omega
          rw [e5]
          exact ((i2 y hy).2 (i - f.nb) (by omega)).const_add _
    · have hnb : (Fns.cons b f rest).nb = rest.nb := by
        revert hc; cases b <;> simp [Fns.nb]
      have hget : (Fns.cons b f rest).get = rest.get := by
        rw [Fns.get, if_neg hc, List.nil_append]
      rw [hnb] at hs
      obtain ⟨j', i1, i2⟩ := Fns.jac_def rest d h.2 input x h3 hj' nbP start j hs
      refine ⟨j', by rw [Fns.jacLoop, if_neg hc]; exact i1, fun y hy => ⟨?_, fun i hi => ?_⟩⟩
      · rw [hnb]; exact (i2 y hy).1
      · rw [hnb] at hi
        rw [hget]
        have e4 : ∀ p, ((Fns.cons b f rest).set p).sumAt input x y =
            f.partValue input x y + (rest.set p).sumAt input x y := by
          intro p
          rw [Fns.set, if_neg hc]
          simp [Fns.sumAt, Fns.toList]
        simp only [e4]
        exact ((i2 y hy).2 i hi).const_add _

theorem arr_map_range (n : ℕ) (g : ℕ → ℝ) (k : ℕ) (hk : k < n) : arr ((List.range n).map g) k = g k := by
  simp [arr, List.getD, hk]

theorem row_index_lt {d n y i : ℕ} (hy : y < d) (hi : i < n) : y * n + i < n * d := by
  have : (y + 1) * n ≤ d * n := Nat.mul_le_mul_right n hy
  calc y * n + i < y * n + n := by omega
    _ = (y + 1) * n := by ring
    _ ≤ d * n := this
    _ = n * d := by ring

/-- C30.  If the members of a compound that are not fixed compute their own Jacobian
    correctly at `x` expressed in their parametrization, then entry
    `y * nbParameters() + i` of the Jacobian of the compound is the derivative of its output
    `y` with respect to entry `i` of its parameter vector. -/
theorem compound_jacobian (q : Par) (fs : Fns) (hf : (Fn.compound q fs).WF) (x : List ℝ)
    (hd : (Fn.compound q fs).DefAt x)
    (hj : ∀ m ∈ fs.toList, m.1 = false → ∀ xf, convertInput (arr x) q.input m.2.par.input = some xf →
      m.2.IsJacobianAt xf) :
    (Fn.compound q fs).IsJacobianAt x := by
  obtain ⟨j', h1, h2⟩ := Fns.jac_def fs q.dimY hf q.input x hd hj fs.nb 0 (fun _ => 0) (by omega)
  refine ⟨(List.range (fs.nb * q.dimY)).map j', ?_, by simp [Fn.par, Fn.nb, mul_comm], ?_⟩
  · simp only [Fn.jac, h1]
  · intro y hy i hi
    have hy' : y < q.dimY := hy
    have hi' : i < fs.nb := hi
    have e0 : (Fn.compound q fs).params = fs.get :=
      composition_params _ hf (by intro σ c s; simp)
    have e1 : ∀ p, ((Fn.compound q fs).set p).valueAt x y = (fs.set p).sumAt q.input x y := by
      intro p
      have hw := Fn.set_WF _ hf p
      have hdd := Fn.set_DefAt _ hf p x hd
      obtain ⟨⟨v, v1, _, v3⟩, _⟩ := compound_value q (fs.set p) hw x hdd
      rw [Fn.valueAt_eq _ x v (by simpa [Fn.set] using v1), v3]
      rfl
    have e2 := arr_map_range (fs.nb * q.dimY) j' (y * fs.nb + i) (row_index_lt hy' hi')
    simp only [e1, e0]
    rw [show (Fn.compound q fs).nb = fs.nb from rfl, e2]
    simpa using (h2 y hy').2 i hi'

theorem Fn.part_def (input : Input) (x : List ℝ) (f : Fn) (hf : f.WF)
    (h : ∃ xf, convertInput (arr x) input f.par.input = some xf ∧ f.DefAt xf) :
    ∃ xf v, convertInput (arr x) input f.par.input = some xf ∧ f.value xf = some v ∧
      v.length = f.par.dimY ∧ ∀ y, f.partValue input x y = arr v y := by
  obtain ⟨xf, h1, h2⟩ := h
  obtain ⟨v, h3, h4⟩ := f.value_def hf xf h2
  exact ⟨xf, v, h1, h3, h4, fun y => by rw [Fn.partValue_eq input x xf f h1, Fn.valueAt_eq _ _ _ h3]⟩

/-- C31 (Jacobian).  If both factors compute their own Jacobian correctly at `x` expressed in
    their parametrization, then entry `y * nbParameters() + i` of the Jacobian of the product is
    the derivative of its output `y` with respect to entry `i` of its parameter vector, whatever
    factors are fixed. -/
theorem product_jacobian (q : Par) (f g : Fn) (a b : Bool) (hf : (Fn.product q f g a b).WF) (x : List ℝ)
    (hd : (Fn.product q f g a b).DefAt x)
    (hjf : ∀ xf, convertInput (arr x) q.input f.par.input = some xf → f.IsJacobianAt xf)
    (hjg : ∀ xg, convertInput (arr x) q.input g.par.input = some xg → g.IsJacobianAt xg) :
    (Fn.product q f g a b).IsJacobianAt x := by
  obtain ⟨xf, vf, c1, c2, c3, c4⟩ := Fn.part_def q.input x f hf.1 hd.1
  obtain ⟨xg, vg, d1, d2, d3, d4⟩ := Fn.part_def q.input x g hf.2.1 hd.2
  obtain ⟨jf, f1, f2, f3⟩ := hjf xf c1
  obtain ⟨jg, g1, g2, g3⟩ := hjg xg d1
  have lf := f.params_length hf.1
  have lg := g.params_length hf.2.1
  set nbP := (Fn.product q f g a b).nb with hnbP
  have hnb : nbP = (if !a then f.nb else 0) + (if !b then g.nb else 0) := by
    simp [hnbP, Fn.nb]
  have hj : (Fn.product q f g a b).jac x = some ((List.range (nbP * q.dimY)).map
      (productLoop nbP f.nb g.nb q.dimY a b (arr jf) (arr jg) (arr vf) (arr vg) (fun _ => 0))) := by
    rw [Fn.jac]
    simp only [d1, c1, c2, d2, f1, g1, ← hnb]
  refine ⟨_, hj, by simp [Fn.par, ← hnbP, mul_comm], ?_⟩
  intro y hy i hi
  have hy' : y < q.dimY := hy
  have hval : ∀ p, ((Fn.product q f g a b).set p).valueAt x y =
      (if a then f else f.set (p.take f.nb)).partValue q.input x y *
      (if b then g else g.set ((p.drop (if a then 0 else f.nb)).take g.nb)).partValue q.input x y := by
    intro p
    have hw := Fn.set_WF _ hf p
    have hdd := Fn.set_DefAt _ hf p x hd
    rw [(product_parameters q f g a b p).2.2] at hw hdd ⊢
    obtain ⟨v, v1, _, v3⟩ := product_value _ _ _ _ _ hw x hdd
    rw [Fn.valueAt_eq _ x v v1, v3 y hy']
  have pf : ∀ p, (f.set p).partValue q.input x y = (f.set p).valueAt xf y := fun p =>
    Fn.partValue_eq _ _ _ _ (by rw [f.set_par hf.1]; exact c1) y
  have pg : ∀ p, (g.set p).partValue q.input x y = (g.set p).valueAt xg y := fun p =>
    Fn.partValue_eq _ _ _ _ (by rw [g.set_par hf.2.1]; exact d1) y
  have e0 : (Fn.product q f g a b).params = (if a then [] else f.params) ++ (if b then [] else g.params) := by
    rw [composition_params _ hf (by intro σ c s; simp), (product_parameters q f g a b []).1]
  rw [← hnbP, arr_map_range _ _ _ (row_index_lt hy' hi),
    productLoop_apply f.nb g.nb q.dimY a b _ _ _ _ _ y i nbP hnb hy' hi, e0]
  simp only [hval]
  have hyf : y < f.par.dimY := by rw [hf.2.2.1]; exact hy'
  have hyg : y < g.par.dimY := by rw [hf.2.2.2]; exact hy'
  -- the entry of the vector belongs to the first factor, or to the second
  have hi2 : i < (if !a then f.nb else 0) + (if !b then g.nb else 0) := hnb ▸ hi
  by_cases hif : i < (if !a then f.nb else 0)
  · have ha : a = false := by revert hif; cases a <;> simp
    subst ha
    have hif' : i < f.nb := by simpa using hif
    have e1 : ∀ t, ((f.params ++ (if b then [] else g.params)).set i t) =
        f.params.set i t ++ (if b then [] else g.params) := by
      intro t; rw [List.set_append_left _ _ (by omega)]
    have e2 : arr (f.params ++ (if b then [] else g.params)) i = arr f.params i := by
      simp [arr, List.getD, List.getElem?_append_left (l₁ := f.params) (i := i) (by omega)]
    have e3 : ∀ t, List.take f.nb (f.params.set i t ++ (if b then [] else g.params)) = f.params.set i t :=
      fun t => List.take_left' (by simpa using lf)
    have e4 : ∀ t, List.drop f.nb (f.params.set i t ++ (if b then [] else g.params)) =
        (if b then [] else g.params) := fun t => List.drop_left' (by simpa using lf)
    have e5 : (if b = true then g else g.set (List.take g.nb (if b = true then [] else g.params))) = g := by
      cases b
      · simp only [Bool.false_eq_true, if_false]
        rw [List.take_of_length_le lg.le, g.set_params hf.2.1]
      · rfl
    simp only [Bool.false_eq_true, if_false, Bool.not_false, if_true, e1, e3, e4, e5, e2, if_pos hif', pf]
    rw [d4]
    exact (f3 y hyf i hif').mul_const _
  · rw [if_neg hif]
    have hb : b = false := by
      cases b with
      | false => rfl
      | true => exact absurd hi2 (by rw [show (if (!true) = true then g.nb else 0) = 0 from rfl, Nat.add_zero]; exact hif)
    subst hb
    have ln : (if a then [] else f.params).length = (if !a then f.nb else 0) := by
      cases a <;> simp [lf]
    have ln2 : (if a = true then 0 else f.nb) = (if !a then f.nb else 0) := by cases a <;> simp
    set n := (if !a then f.nb else 0) with hn
    have hig : i - n < g.nb := by simp at hi2; omega
    have e1 : ∀ t, (((if a then [] else f.params) ++ g.params).set i t) =
        (if a then [] else f.params) ++ g.params.set (i - n) t := by
      intro t; rw [List.set_append_right _ _ (by omega), ln]
    have e2 : arr ((if a then [] else f.params) ++ g.params) i = arr g.params (i - n) := by
      simp only [arr, List.getD]
      rw [List.getElem?_append_right (by omega), ln]
    have e4 : ∀ t, List.take g.nb (List.drop (if a = true then 0 else f.nb)
        ((if a then [] else f.params) ++ g.params.set (i - n) t)) = g.params.set (i - n) t := by
      intro t
      rw [ln2, List.drop_left' ln, List.take_of_length_le (by simp [lg])]
    have e5 : ∀ t, (if a = true then f else f.set (List.take f.nb
        ((if a then [] else f.params) ++ g.params.set (i - n) t))) = f := by
      intro t
      cases a
      · simp only [Bool.false_eq_true, if_false]
        rw [List.take_left' lf, f.set_params hf.1]
      · rfl
    simp only [Bool.false_eq_true, if_false, e1, e4, e5, e2, pg]
    rw [c4, mul_comm]
    exact (g3 y hyg (i - n) hig).const_mul _

mutual
/-- C30, C31.  A composition of lawful plugin objects, however nested and whatever is fixed,
    computes its Jacobian correctly as soon as each of its plugin objects does. -/
theorem Fn.jacobian_correct : ∀ (f : Fn) (_ : f.WF) (x : List ℝ), f.DefAt x → f.LeafJacobians x →
    f.IsJacobianAt x
  | .leaf c s, _, _, _, hl => hl
  | .compound q fs, h, x, hd, hl =>
    compound_jacobian q fs h x hd fun m hm _ xf hxf =>
      Fns.jacobian_correct fs q.dimY h q.input x hd hl m hm xf hxf
  | .product q f g a b, h, x, hd, hl =>
    product_jacobian q f g a b h x hd
      (fun xf hxf => Fn.jacobian_correct f h.1 xf
        (by obtain ⟨⟨z, h1, h2⟩, _⟩ := hd; rw [h1] at hxf; cases hxf; exact h2) (hl.1 xf hxf))
      (fun xg hxg => Fn.jacobian_correct g h.2.1 xg
        (by obtain ⟨_, z, h1, h2⟩ := hd; rw [h1] at hxg; cases hxg; exact h2) (hl.2 xg hxg))
theorem Fns.jacobian_correct : ∀ (fs : Fns) (d : ℕ) (_ : fs.WF d) (input : Input) (x : List ℝ),
    fs.DefAt input x → fs.LeafJacobians input x → ∀ m ∈ fs.toList, ∀ xf,
    convertInput (arr x) input m.2.par.input = some xf → m.2.IsJacobianAt xf
  | .nil, _, _, _, _, _, _, m, hm, _, _ => by simp [Fns.toList] at hm
  | .cons b f rest, d, h, input, x, hd, hl, m, hm, xf, hxf => by
    simp only [Fns.toList, List.mem_cons] at hm
    rcases hm with rfl | hm
    · exact Fn.jacobian_correct f h.1.1 xf
        (by obtain ⟨⟨z, h1, h2⟩, _⟩ := hd; simp only at hxf; rw [h1] at hxf; cases hxf; exact h2) (hl.1 xf hxf)
    · exact Fns.jacobian_correct rest d h.2 input x hd.2 hl.2 m hm xf hxf
end

end
end Alta
