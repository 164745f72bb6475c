import Verif.Model.Lobes
import Verif.Spec.Function
import Verif.Props.Function
import Verif.Props.FunctionJac
import Mathlib.Analysis.Calculus.Deriv.Comp
/-
Vectors stored block by block, and the Jacobian of a function whose channels depend on blocks
of the parameter vector.
-/
namespace Alta
noncomputable section

theorem blocks_succ (n : ℕ) (f : ℕ → List ℝ) : blocks (n + 1) f = blocks n f ++ f n := by
  simp [blocks, List.range_succ, List.flatMap_append]

theorem blocks_length (n K : ℕ) (f : ℕ → List ℝ) (h : ∀ i < n, (f i).length = K) :
    (blocks n f).length = n * K := by
  induction n with
  | zero => simp [blocks]
  | succ n ih =>
    rw [blocks_succ, List.length_append, ih (fun i hi => h i (by omega)), h n (by omega)]
    ring

theorem arr_blocks (n K : ℕ) (f : ℕ → List ℝ) (h : ∀ i < n, (f i).length = K) (i a : ℕ) (hi : i < n)
    (ha : a < K) : arr (blocks n f) (i * K + a) = arr (f i) a := by
  induction n with
  | zero => omega
  | succ n ih =>
    have hl := blocks_length n K f (fun i hi => h i (by omega))
    rw [blocks_succ]
    unfold arr
    rcases Nat.lt_or_ge i n with h1 | h1
    · have : i * K + a < n * K := by
        calc i * K + a < (i + 1) * K := by rw [Nat.add_mul]; omega
          _ ≤ n * K := Nat.mul_le_mul_right K h1
      have e := ih (fun i hi => h i (by omega)) h1
      unfold arr at e
      rw [List.getD, List.getElem?_append_left (by omega)]
      exact e
    · have : i = n := by omega
      subst this
      rw [List.getD, List.getElem?_append_right (by omega), hl]
      have : i * K + a - i * K = a := by omega
      rw [this, List.getD]

theorem blocks_congr (n : ℕ) (f g : ℕ → List ℝ) (h : ∀ i < n, f i = g i) : blocks n f = blocks n g := by
  induction n with
  | zero => rfl
  | succ n ih => rw [blocks_succ, blocks_succ, ih (fun i hi => h i (by omega)), h n (by omega)]

theorem readInto_lt (n : ℕ) (p : List ℝ) (idx : ℕ → ℕ) (old : ℕ → ℝ) (i : ℕ) (hi : i < n) :
    readInto n p idx old i = arr p (idx i) := by simp [readInto, hi]

theorem readInto_readInto (n : ℕ) (p q : List ℝ) (idx : ℕ → ℕ) (old : ℕ → ℝ) :
    readInto n q idx (readInto n p idx old) = readInto n q idx old := by
  funext i; simp only [readInto]; split <;> simp_all

theorem readInto_self (n : ℕ) (p : List ℝ) (idx : ℕ → ℕ) (old : ℕ → ℝ)
    (h : ∀ i < n, arr p (idx i) = old i) : readInto n p idx old = old := by
  funext i; simp only [readInto]; split
  · exact h i (by assumption)
  · rfl

/-- two vectors of the same size with the same entries -/
theorem list_ext_arr (l m : List ℝ) (h : l.length = m.length) (he : ∀ i < l.length, arr l i = arr m i) :
    l = m := by
  apply List.ext_getElem h
  intro i h1 h2
  have := he i h1
  simpa [arr, List.getD, h1, h2] using this

theorem split_index {K i : ℕ} (hK : 0 < K) : i = i / K * K + i % K ∧ i % K < K :=
  ⟨by rw [mul_comm]; exact (Nat.div_add_mod i K).symm, Nat.mod_lt _ hK⟩

theorem block_lt {K M i : ℕ} (h : i < M * K) : i / K < M :=
  Nat.div_lt_of_lt_mul (by rw [mul_comm]; exact h)

/-- the entries of the vector `l` written block by block -/
theorem list_eq_blocks (l : List ℝ) (n K : ℕ) (hK : 0 < K) (f : ℕ → List ℝ) (hl : l.length = n * K)
    (hf : ∀ i < n, (f i).length = K) (h : ∀ i < n, ∀ a < K, arr (f i) a = arr l (i * K + a)) :
    blocks n f = l := by
  apply list_ext_arr
  · rw [blocks_length n K f hf, hl]
  · intro i hi
    rw [blocks_length n K f hf] at hi
    obtain ⟨e, hm⟩ := split_index (i := i) hK
    rw [e, arr_blocks n K f hf _ _ (block_lt hi) hm, h _ (block_lt hi) _ hm]

theorem arr_set_eq (l : List ℝ) (i : ℕ) (t : ℝ) (h : i < l.length) : arr (l.set i t) i = t := by
  simp [arr, List.getD, h]

theorem arr_set_ne (l : List ℝ) (i j : ℕ) (t : ℝ) (h : i ≠ j) : arr (l.set i t) j = arr l j := by
  simp [arr, List.getD, List.getElem?_set_ne h]

theorem arr_map_range' (n : ℕ) (g : ℕ → ℝ) (k : ℕ) (hk : k < n) : arr ((List.range n).map g) k = g k := by
  simp [arr, List.getD, hk]

/-- The parameter vector of a function consists of `M` blocks of `K` entries; channel `y` of the
    value is the sum of `φ` over the blocks in `B y`, plus a constant.  Then the derivative of
    channel `y` with respect to entry `a` of block `b` is that of `φ`, if `b` is in `B y`, else zero. -/
theorem blocks_derivative {σ : Type} (c : Cls σ) (hc : c.Lawful) (s : σ) (x : List ℝ) (K M : ℕ)
    (hnb : c.nb s = M * K)
    (B : ℕ → Finset ℕ) (hB : ∀ y < (c.par s).dimY, ∀ b ∈ B y, b < M)
    (φ : (ℕ → ℝ) → ℝ) (k0 : ℕ → ℝ)
    (hφ : ∀ q r : ℕ → ℝ, (∀ a < K, q a = r a) → φ q = φ r)
    (hval : ∀ p : List ℝ, p.length = M * K → ∃ v, c.value (c.set s p) x = some v ∧
      ∀ y < (c.par s).dimY, arr v y = k0 y + ∑ b ∈ B y, φ (fun a => arr p (b * K + a)))
    (y : ℕ) (hy' : y < (c.par s).dimY) (b : ℕ) (hbM : b < M) (a : ℕ) (hm : a < K) (D : ℝ)
    (hd : b ∈ B y → HasDerivAt (fun t => φ (Function.update (fun a => arr (c.get s) (b * K + a)) a t))
        D (arr (c.get s) (b * K + a))) :
    HasDerivAt (fun t => ((Fn.leaf c s).set ((Fn.leaf c s).params.set (b * K + a) t)).valueAt x y)
      (if b ∈ B y then D else 0) (arr (Fn.leaf c s).params (b * K + a)) := by
  classical
  have hpl : (Fn.leaf c s).params.length = M * K := by
    rw [Fn.params_length (Fn.leaf c s) hc]; exact hnb
  have hpe : ∀ j < M * K, arr (Fn.leaf c s).params j = arr (c.get s) j := by
    intro j hj
    have e : (Fn.leaf c s).params = (c.get s).take (M * K) := by rw [← hnb]; rfl
    rw [e]; simp [arr, List.getD, List.getElem?_take_of_lt hj]
  have lt_of : ∀ b' < M, ∀ a' < K, b' * K + a' < M * K := by
    intro b' hb' a' ha'
    calc b' * K + a' < (b' + 1) * K := by rw [Nat.add_mul]; omega
      _ ≤ M * K := Nat.mul_le_mul_right K hb'
  have hv : ∀ t, ((Fn.leaf c s).set ((Fn.leaf c s).params.set (b * K + a) t)).valueAt x y =
      k0 y + ∑ b' ∈ B y, φ (fun a' => arr ((Fn.leaf c s).params.set (b * K + a) t) (b' * K + a')) := by
    intro t
    obtain ⟨v, h1, h2⟩ := hval ((Fn.leaf c s).params.set (b * K + a) t) (by simp [hpl])
    rw [Fn.valueAt_eq ((Fn.leaf c s).set ((Fn.leaf c s).params.set (b * K + a) t)) x v h1, h2 y hy']
  simp only [hv]
  rw [hpe _ (lt_of b hbM a hm)]
  -- the term of each block
  have term : ∀ b' ∈ B y, HasDerivAt
      (fun t => φ (fun a' => arr ((Fn.leaf c s).params.set (b * K + a) t) (b' * K + a')))
      (if b' = b then D else 0) (arr (c.get s) (b * K + a)) := by
    intro b' hb'
    have hb'M := hB y hy' b' hb'
    by_cases h : b' = b
    · rw [if_pos h]
      rw [h] at hb' hb'M ⊢
      have hfun : (fun t => φ (fun a' => arr ((Fn.leaf c s).params.set (b * K + a) t) (b * K + a'))) =
          fun t => φ (Function.update (fun a' => arr (c.get s) (b * K + a')) a t) := by
        funext t
        apply hφ
        intro a' ha'
        by_cases h2 : a' = a
        · subst h2
          rw [Function.update_self, arr_set_eq _ _ _ (by rw [hpl]; exact lt_of _ hbM _ hm)]
        · rw [Function.update_of_ne h2, arr_set_ne _ _ _ _ (by omega), hpe _ (lt_of _ hbM _ ha')]
      rw [hfun]
      exact hd hb'
    · rw [if_neg h]
      have hfun : (fun t => φ (fun a' => arr ((Fn.leaf c s).params.set (b * K + a) t) (b' * K + a'))) =
          fun _ => φ (fun a' => arr (Fn.leaf c s).params (b' * K + a')) := by
        funext t
        apply hφ
        intro a' ha'
        rw [arr_set_ne]
        intro he
        exact h (index_inj hm ha' he).1.symm
      rw [hfun]
      exact hasDerivAt_const _ _
  have hsum : HasDerivAt
      (fun t => ∑ b' ∈ B y, φ (fun a' => arr ((Fn.leaf c s).params.set (b * K + a) t) (b' * K + a')))
      (∑ b' ∈ B y, if b' = b then D else 0)
      (arr (c.get s) (b * K + a)) := HasDerivAt.fun_sum term
  have hs : (∑ b' ∈ B y, if b' = b then D else 0) = if b ∈ B y then D else 0 := by
    rw [Finset.sum_ite_eq']
  rw [hs] at hsum
  exact hsum.const_add (k0 y)

/-- If moreover the Jacobian has, in row `y`, the block `D b` for the blocks `b` in `B y` and zeros
    for the others, `D b` being the list of the partial derivatives of `φ` at block `b`, the Jacobian
    is correct. -/
theorem blocks_jacobian {σ : Type} (c : Cls σ) (hc : c.Lawful) (s : σ) (x : List ℝ) (K M : ℕ) (hK : 0 < K)
    (hnb : c.nb s = M * K)
    (B : ℕ → Finset ℕ) (hB : ∀ y < (c.par s).dimY, ∀ b ∈ B y, b < M)
    (φ : (ℕ → ℝ) → ℝ) (D : ℕ → ℕ → ℝ) (k0 : ℕ → ℝ)
    (hφ : ∀ q r : ℕ → ℝ, (∀ a < K, q a = r a) → φ q = φ r)
    (hval : ∀ p : List ℝ, p.length = M * K → ∃ v, c.value (c.set s p) x = some v ∧
      ∀ y < (c.par s).dimY, arr v y = k0 y + ∑ b ∈ B y, φ (fun a => arr p (b * K + a)))
    (J : List ℝ) (hJ : c.jac s x = some J) (hJl : J.length = (c.par s).dimY * (M * K))
    (hJe : ∀ y < (c.par s).dimY, ∀ b < M, ∀ a < K,
      arr J (y * (M * K) + (b * K + a)) = if b ∈ B y then D b a else 0)
    (hd : ∀ y < (c.par s).dimY, ∀ b ∈ B y, ∀ a < K,
      HasDerivAt (fun t => φ (Function.update (fun a => arr (c.get s) (b * K + a)) a t))
        (D b a) (arr (c.get s) (b * K + a))) :
    (Fn.leaf c s).IsJacobianAt x := by
  refine ⟨J, hJ, fun _ => by simpa [Fn.par, Fn.nb, hnb] using hJl, ?_⟩
  intro y hy i hi
  have hy' : y < (c.par s).dimY := hy
  have hi' : i < M * K := by simpa [Fn.nb, hnb] using hi
  obtain ⟨e, hm⟩ := split_index (i := i) hK
  have hbM : i / K < M := block_lt hi'
  rw [show (Fn.leaf c s).nb = M * K from hnb, e, hJe y hy' _ hbM _ hm]
  exact blocks_derivative c hc s x K M hnb B hB φ k0 hφ hval y hy' _ hbM _ hm _
    (fun hb => hd y hy' _ hb _ hm)

/-- The case of one block per channel. -/
theorem diag_jacobian {σ : Type} (c : Cls σ) (hc : c.Lawful) (s : σ) (x : List ℝ) (K : ℕ) (hK : 0 < K)
    (hnb : c.nb s = K * (c.par s).dimY) (φ : (ℕ → ℝ) → ℝ)
    (hφ : ∀ q r : ℕ → ℝ, (∀ a < K, q a = r a) → φ q = φ r)
    (hval : ∀ p : List ℝ, p.length = (c.par s).dimY * K → ∃ v, c.value (c.set s p) x = some v ∧
      ∀ y < (c.par s).dimY, arr v y = φ (fun a => arr p (y * K + a)))
    (D : ℕ → List ℝ) (Z : List ℝ) (hZ : Z = List.replicate K 0)
    (hJ : c.jac s x = some (blocks (c.par s).dimY fun i => blocks (c.par s).dimY fun j =>
      if i = j then D j else Z))
    (hDl : ∀ i < (c.par s).dimY, (D i).length = K)
    (hd : ∀ y < (c.par s).dimY, ∀ a < K,
      HasDerivAt (fun t => φ (Function.update (fun a => arr (c.get s) (y * K + a)) a t))
        (arr (D y) a) (arr (c.get s) (y * K + a))) :
    (Fn.leaf c s).IsJacobianAt x := by
  have hl : ∀ i < (c.par s).dimY, ∀ j < (c.par s).dimY, (if i = j then D j else Z).length = K := by
    intro i _ j hj; split
    · exact hDl j hj
    · simp [hZ]
  have hrow : ∀ i < (c.par s).dimY, (blocks (c.par s).dimY fun j => if i = j then D j else Z).length =
      (c.par s).dimY * K := fun i hi => blocks_length _ K _ (hl i hi)
  refine blocks_jacobian c hc s x K (c.par s).dimY hK (by rw [hnb, mul_comm]) (fun y => {y})
    (fun y hy b hb => by simp at hb; omega) φ (fun b a => arr (D b) a) (fun _ => 0) hφ ?_ _ hJ
    (blocks_length _ _ _ hrow) ?_ ?_
  · intro p hp
    obtain ⟨v, h1, h2⟩ := hval p hp
    exact ⟨v, h1, fun y hy => by simp [h2 y hy]⟩
  · intro y hy b hb a ha
    have hlt : b * K + a < (c.par s).dimY * K := by
      calc b * K + a < (b + 1) * K := by rw [Nat.add_mul]; omega
        _ ≤ _ := Nat.mul_le_mul_right K hb
    rw [arr_blocks _ _ _ hrow y _ hy hlt, arr_blocks _ K _ (hl y hy) b a hb ha]
    by_cases h : y = b
    · subst h; simp
    · have h' : ¬ b = y := fun e => h e.symm
      simp [h, h', hZ, arr, List.getD, ha]
  · intro y hy b hb a ha
    have : b = y := by simpa using hb
    subst this
    exact hd b hy a ha

/-- The case of one parameter per channel. -/
theorem one_jacobian {σ : Type} (c : Cls σ) (hc : c.Lawful) (s : σ) (x : List ℝ)
    (hnb : c.nb s = (c.par s).dimY) (φ : ℝ → ℝ)
    (hval : ∀ p : List ℝ, p.length = (c.par s).dimY → ∃ v, c.value (c.set s p) x = some v ∧
      ∀ y < (c.par s).dimY, arr v y = φ (arr p y))
    (J : List ℝ) (hJ : c.jac s x = some J) (hJl : J.length = (c.par s).dimY * (c.par s).dimY)
    (hJ0 : ∀ y < (c.par s).dimY, ∀ i < (c.par s).dimY, y ≠ i → arr J (y * (c.par s).dimY + i) = 0)
    (hd : ∀ y < (c.par s).dimY,
      HasDerivAt φ (arr J (y * (c.par s).dimY + y)) (arr (c.get s) y)) :
    (Fn.leaf c s).IsJacobianAt x := by
  refine blocks_jacobian c hc s x 1 (c.par s).dimY (by norm_num) (by rw [hnb, mul_one]) (fun y => {y})
    (fun y hy b hb => by simp at hb; omega) (fun q => φ (q 0))
    (fun b a => arr J (b * (c.par s).dimY + b)) (fun _ => 0)
    (fun q r h => by rw [h 0 (by norm_num)]) ?_ J hJ (by rw [mul_one]; exact hJl) ?_ ?_
  · intro p hp
    obtain ⟨v, h1, h2⟩ := hval p (by rw [hp, mul_one])
    exact ⟨v, h1, fun y hy => by simp [h2 y hy]⟩
  · intro y hy b hb a ha
    have ha0 : a = 0 := by omega
    subst ha0
    simp only [mul_one, add_zero]
    by_cases h : y = b
    · subst h; simp
    · have h' : ¬ b = y := fun e => h e.symm
      simp [hJ0 y hy b hb h, h']
  · intro y hy b hb a ha
    have : b = y := by simpa using hb
    subst this
    have ha0 : a = 0 := by omega
    subst ha0
    simp only [mul_one, add_zero, Function.update_self]
    exact hd b hy

theorem diagonal_entry (n : ℕ) (D : ℕ → ℝ) (y i : ℕ) (hy : y < n) (hi : i < n) :
    arr (diagonal n D) (y * n + i) = if i = y then D i else 0 := by
  unfold diagonal
  rw [arr_blocks n n _ (by simp) y i hy hi, arr_map_range _ _ _ hi]

theorem diagonal_length (n : ℕ) (D : ℕ → ℝ) : (diagonal n D).length = n * n := by
  unfold diagonal
  exact blocks_length n n _ (by simp)

/-- one entry that is not the derivative -/
theorem not_jacobian (f : Fn) (x j : List ℝ) (hj : f.jac x = some j) (y i : ℕ) (hy : y < f.par.dimY)
    (hi : i < f.nb) (D : ℝ)
    (hD : HasDerivAt (fun t => (f.set (f.params.set i t)).valueAt x y) D (arr f.params i))
    (hne : arr j (y * f.nb + i) ≠ D) : ¬ f.IsJacobianAt x := by
  rintro ⟨j', h1, _, h3⟩
  rw [hj] at h1
  cases h1
  exact hne ((h3 y hy i hi).unique hD)

theorem leaf_params {σ : Type} (c : Cls σ) (s : σ) (h : (c.get s).length ≤ c.nb s) :
    (Fn.leaf c s).params = c.get s := List.take_of_length_le h

/-- the derivative in the case of one block per channel -/
theorem diag_derivative {σ : Type} (c : Cls σ) (hc : c.Lawful) (s : σ) (x : List ℝ) (K : ℕ)
    (hnb : c.nb s = K * (c.par s).dimY) (φ : (ℕ → ℝ) → ℝ)
    (hφ : ∀ q r : ℕ → ℝ, (∀ a < K, q a = r a) → φ q = φ r)
    (hval : ∀ p : List ℝ, p.length = (c.par s).dimY * K → ∃ v, c.value (c.set s p) x = some v ∧
      ∀ y < (c.par s).dimY, arr v y = φ (fun a => arr p (y * K + a)))
    (y : ℕ) (hy : y < (c.par s).dimY) (a : ℕ) (ha : a < K) (D : ℝ)
    (hd : HasDerivAt (fun t => φ (Function.update (fun a => arr (c.get s) (y * K + a)) a t))
        D (arr (c.get s) (y * K + a))) :
    HasDerivAt (fun t => ((Fn.leaf c s).set ((Fn.leaf c s).params.set (y * K + a) t)).valueAt x y)
      D (arr (Fn.leaf c s).params (y * K + a)) := by
  have := blocks_derivative c hc s x K (c.par s).dimY (by rw [hnb, mul_comm]) (fun y => {y})
    (fun y hy b hb => by
      have : b = y := by simpa using hb
      rw [this]; exact hy) φ (fun _ => 0) hφ
    (fun p hp => by
      obtain ⟨v, h1, h2⟩ := hval p hp
      exact ⟨v, h1, fun y hy => by simp [h2 y hy]⟩) y hy y hy a ha D (fun _ => hd)
  simpa using this

/-- the derivative in the case of one parameter per channel -/
theorem one_derivative {σ : Type} (c : Cls σ) (hc : c.Lawful) (s : σ) (x : List ℝ)
    (hnb : c.nb s = (c.par s).dimY) (φ : ℝ → ℝ)
    (hval : ∀ p : List ℝ, p.length = (c.par s).dimY → ∃ v, c.value (c.set s p) x = some v ∧
      ∀ y < (c.par s).dimY, arr v y = φ (arr p y))
    (y : ℕ) (hy : y < (c.par s).dimY) (D : ℝ) (hd : HasDerivAt φ D (arr (c.get s) y)) :
    HasDerivAt (fun t => ((Fn.leaf c s).set ((Fn.leaf c s).params.set y t)).valueAt x y)
      D (arr (Fn.leaf c s).params y) := by
  have := diag_derivative c hc s x 1 (by rw [hnb, one_mul]) (fun q => φ (q 0))
    (fun q r h => by rw [h 0 (by norm_num)])
    (fun p hp => by
      obtain ⟨v, h1, h2⟩ := hval p (by rw [hp, mul_one])
      exact ⟨v, h1, fun y hy => by simp [h2 y hy]⟩) y hy 0 (by norm_num) D
    (by simpa using hd)
  simpa using this

/-- the entries of a Jacobian made of diagonal blocks -/
theorem diag_entry (n K : ℕ) (D : ℕ → List ℝ) (Z : List ℝ) (hZ : Z = List.replicate K 0)
    (hDl : ∀ i < n, (D i).length = K) (y z a : ℕ) (hy : y < n) (hz : z < n) (ha : a < K) :
    arr (blocks n fun i => blocks n fun j => if i = j then D j else Z) (y * (K * n) + (z * K + a)) =
      if z = y then arr (D z) a else 0 := by
  have hl : ∀ i < n, ∀ j < n, (if i = j then D j else Z).length = K := by
    intro i _ j hj; split
    · exact hDl j hj
    · simp [hZ]
  have hrow : ∀ i < n, (blocks n fun j => if i = j then D j else Z).length = K * n :=
    fun i hi => by rw [blocks_length _ K _ (hl i hi), mul_comm]
  have hlt : z * K + a < K * n := by
    calc z * K + a < (z + 1) * K := by rw [Nat.add_mul]; omega
      _ ≤ n * K := Nat.mul_le_mul_right K hz
      _ = K * n := mul_comm _ _
  rw [arr_blocks _ _ _ hrow y _ hy hlt, arr_blocks _ K _ (hl y hy) z a hz ha]
  by_cases h : y = z
  · subst h; simp
  · have h' : ¬ z = y := fun e => h e.symm
    simp [h, h', hZ, arr, List.getD, ha]

/-- the derivative of any channel in the case of one block per channel -/
theorem diag_derivative_all {σ : Type} (c : Cls σ) (hc : c.Lawful) (s : σ) (x : List ℝ) (K : ℕ)
    (hnb : c.nb s = K * (c.par s).dimY) (φ : (ℕ → ℝ) → ℝ)
    (hφ : ∀ q r : ℕ → ℝ, (∀ a < K, q a = r a) → φ q = φ r)
    (hval : ∀ p : List ℝ, p.length = (c.par s).dimY * K → ∃ v, c.value (c.set s p) x = some v ∧
      ∀ y < (c.par s).dimY, arr v y = φ (fun a => arr p (y * K + a)))
    (y : ℕ) (hy : y < (c.par s).dimY) (z : ℕ) (hz : z < (c.par s).dimY) (a : ℕ) (ha : a < K) (D : ℝ)
    (hd : HasDerivAt (fun t => φ (Function.update (fun a => arr (c.get s) (z * K + a)) a t))
        D (arr (c.get s) (z * K + a))) :
    HasDerivAt (fun t => ((Fn.leaf c s).set ((Fn.leaf c s).params.set (z * K + a) t)).valueAt x y)
      (if z = y then D else 0) (arr (Fn.leaf c s).params (z * K + a)) := by
  have := blocks_derivative c hc s x K (c.par s).dimY (by rw [hnb, mul_comm]) (fun y => {y})
    (fun y hy b hb => by
      have : b = y := by simpa using hb
      rw [this]; exact hy) φ (fun _ => 0) hφ
    (fun p hp => by
      obtain ⟨v, h1, h2⟩ := hval p hp
      exact ⟨v, h1, fun y hy => by simp [h2 y hy]⟩) y hy z hz a ha D (fun _ => hd)
  simpa using this

end
end Alta
