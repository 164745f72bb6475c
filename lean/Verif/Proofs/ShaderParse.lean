import Verif.Proofs.ShaderBodies
/-
Reading the expressions of the exported shaders: numbers, vectors, calls, products, sums.
-/
namespace Alta
open Glsl Real
noncomputable section

/-- the expression of a number -/
def numE (d : Decimal) : Expr := if d.neg then .neg (.num d.unsigned) else .num d.unsigned

/-- words that can be read as one atom, whatever follows -/
def AtomOf (e : Expr) (ts : List Token) : Prop :=
  0 < ts.length ∧ ∀ (k : ℕ) (rest : List Token), 10 * ts.length ≤ k → pAtom k (ts ++ rest) = some (e, rest)

/-- a word that is not part of what is before it -/
def EndsAtom (ts : List Token) : Prop :=
  (∃ w r, ts = .ident w :: r) ∨ ∃ c r, ts = .sym c :: r ∧ c ≠ '.' ∧ c ≠ '['

theorem pAtom_minus (k : ℕ) (r : List Token) : pAtom k (.sym '-' :: r) = none := by
  cases k <;> rfl

theorem pUnary_of_atom (k : ℕ) (ts : List Token) (e : Expr) (rest : List Token) (h : pAtom k ts = some (e, rest)) :
    pUnary (k + 1) ts = pSuffix k e rest := by
  rw [pUnary.eq_def]
  simp only
  split
  · rw [pAtom_minus] at h; cases h
  · rw [h]; rfl

theorem pSuffix_stop (k : ℕ) (e : Expr) (ts : List Token) (h : EndsAtom ts) : pSuffix (k + 1) e ts = some (e, ts) := by
  rcases h with ⟨w, r, rfl⟩ | ⟨c, r, rfl, h1, h2⟩
  · rfl
  rw [pSuffix.eq_def]
  simp only
  split
  · rename_i heq; simp only [List.cons.injEq, Token.sym.injEq] at heq; exact absurd heq.1 h1
  · rename_i heq; simp only [List.cons.injEq, Token.sym.injEq] at heq; exact absurd heq.1 h2
  · rfl

theorem pUnary_atom (e : Expr) (ts : List Token) (h : AtomOf e ts) (k : ℕ) (hk : 10 * ts.length < k) (rest : List Token)
    (hr : EndsAtom rest) : pUnary k (ts ++ rest) = some (e, rest) := by
  obtain ⟨h0, h⟩ := h
  obtain ⟨k, rfl⟩ : ∃ j, k = j + 1 + 1 := ⟨k - 2, by omega⟩
  rw [pUnary_of_atom (k + 1) _ _ _ (h (k + 1) rest (by omega)), pSuffix_stop _ _ _ hr]

/-- the end of an expression -/
def EndsExpr (ts : List Token) : Prop := (∃ w r, ts = .ident w :: r) ∨ ∃ c r, ts = .sym c :: r ∧ (c = ')' ∨ c = ',' ∨ c = ';')

theorem EndsExpr.atom {ts : List Token} (h : EndsExpr ts) : EndsAtom ts := by
  rcases h with h | ⟨c, r, rfl, h⟩
  · exact .inl h
  refine .inr ⟨c, r, rfl, ?_, ?_⟩ <;> rintro rfl <;> revert h <;> decide

theorem pProdTail_stop (k : ℕ) (e : Expr) (ts : List Token) (h : EndsExpr ts) :
    pProdTail (k + 1) e ts = some (e, ts) := by
  rcases h with ⟨w, r, rfl⟩ | ⟨c, r, rfl, h⟩
  · rfl
  rcases h with rfl | rfl | rfl <;> rfl

theorem pSumTail_stop (k : ℕ) (e : Expr) (ts : List Token) (h : EndsExpr ts) :
    pSumTail (k + 1) e ts = some (e, ts) := by
  rcases h with ⟨w, r, rfl⟩ | ⟨c, r, rfl, h⟩
  · rfl
  rcases h with rfl | rfl | rfl <;> rfl

theorem pExpr_of_sum (k : ℕ) (ts : List Token) (e : Expr) (rest : List Token) (h : pSum k ts = some (e, rest))
    (hr : EndsExpr rest) : pExpr (k + 1) ts = some (e, rest) := by
  rw [pExpr.eq_def]
  simp only [h, Option.bind_some]
  rcases hr with ⟨w, r, rfl⟩ | ⟨c, r, rfl, hc⟩
  · rfl
  rcases hc with rfl | rfl | rfl <;> rfl

theorem pExpr_of_unary (k : ℕ) (ts : List Token) (e : Expr) (rest : List Token)
    (h : pUnary (k + 1) ts = some (e, rest)) (hr : EndsExpr rest) : pExpr (k + 4) ts = some (e, rest) := by
  apply pExpr_of_sum _ _ _ _ _ hr
  have h1 : pProd (k + 2) ts = some (e, rest) := by
    rw [pProd.eq_def]
    simp only [h, Option.bind_some]
    exact pProdTail_stop _ _ _ hr
  rw [pSum.eq_def]
  simp only [h1, Option.bind_some]
  exact pSumTail_stop _ _ _ hr

theorem pExpr_atom (e : Expr) (ts : List Token) (h : AtomOf e ts) (k : ℕ) (hk : 10 * ts.length + 4 < k)
    (rest : List Token) (hr : EndsExpr rest) : pExpr k (ts ++ rest) = some (e, rest) := by
  obtain ⟨k, rfl⟩ : ∃ j, k = j + 4 := ⟨k - 4, by omega⟩
  exact pExpr_of_unary k _ _ _ (pUnary_atom e ts h _ (by omega) rest hr.atom) hr

theorem pExpr_number (d : Decimal) (k : ℕ) (rest : List Token) (hr : EndsExpr rest) :
    pExpr (k + 8) (d.toks ++ rest) = some (numE d, rest) := by
  apply pExpr_of_unary (k + 4) _ _ _ _ hr
  unfold Decimal.toks numE
  have hs := fun j e => pSuffix_stop j e rest hr.atom
  cases d.neg with
  | false =>
    show pUnary (k + 5) (.num d.unsigned :: rest) = _
    rw [pUnary_of_atom (k + 4) _ (.num d.unsigned) rest rfl, hs]
    rfl
  | true =>
    show (pUnary (k + 4) (.num d.unsigned :: rest)).map _ = _
    rw [pUnary_of_atom (k + 3) _ (.num d.unsigned) rest rfl, hs]
    rfl

/-! ### Vectors -/

/-- the expressions of the numbers -/
def numArgs (fmt : ℝ → Decimal) : List ℝ → Args
  | [] => .nil
  | x :: rest => .cons (numE (fmt x)) (numArgs fmt rest)

theorem listToks_cons (fmt : ℝ → Decimal) (x : ℝ) (l : List ℝ) (hl : l ≠ []) :
    listToks fmt (x :: l) = (fmt x).toks ++ ([.sym ','] ++ listToks fmt l) := by
  cases l with
  | nil => exact absurd rfl hl
  | cons y l => rw [listToks.eq_def]; simp

theorem toks_length (d : Decimal) : 0 < d.toks.length := by simp [Decimal.toks]

theorem pMore_numbers (fmt : ℝ → Decimal) (l : List ℝ) (hl : l ≠ []) (rest : List Token) (k : ℕ)
    (hk : 10 * (listToks fmt l).length ≤ k) :
    pMore (k + 3) ([.sym ','] ++ listToks fmt l ++ (.sym ')' :: rest)) = some (numArgs fmt l, rest) := by
  induction l generalizing k with
  | nil => exact absurd rfl hl
  | cons x l ih =>
    have h0 := toks_length (fmt x)
    have hp : ∀ ts, pMore (k + 3) (.sym ',' :: ts) = (pExpr (k + 2) ts).bind fun a =>
      (pMore (k + 2) a.2).map fun b => (.cons a.1 b.1, b.2) := fun ts => rfl
    by_cases hn : l = []
    · subst hn
      obtain ⟨j, rfl⟩ : ∃ j, k = j + 6 := ⟨k - 6, by simp [listToks] at hk; omega⟩
      show pMore (j + 6 + 3) (.sym ',' :: ((fmt x).toks ++ (.sym ')' :: rest))) = _
      rw [hp, pExpr_number (fmt x) j _ (.inr ⟨')', rest, rfl, by simp⟩)]
      rfl
    · rw [listToks_cons fmt x l hn] at hk ⊢
      simp only [List.length_append] at hk
      obtain ⟨j, rfl⟩ : ∃ j, k = j + 6 := ⟨k - 6, by omega⟩
      have e : [Token.sym ','] ++ ((fmt x).toks ++ ([.sym ','] ++ listToks fmt l)) ++ (.sym ')' :: rest) =
          .sym ',' :: ((fmt x).toks ++ ([.sym ','] ++ listToks fmt l ++ (.sym ')' :: rest))) := by simp
      rw [e, hp, pExpr_number (fmt x) j _ (.inr ⟨',', _, rfl, by simp⟩ : EndsExpr ([Token.sym ','] ++ listToks fmt l ++ (.sym ')' :: rest)))]
      simp only [Option.bind_some]
      rw [ih hn (j + 5) (by omega)]
      rfl

theorem pArgs_numbers (fmt : ℝ → Decimal) (l : List ℝ) (hl : l ≠ []) (rest : List Token) (k : ℕ)
    (hk : 10 * (listToks fmt l).length ≤ k) :
    pArgs (k + 3) (listToks fmt l ++ (.sym ')' :: rest)) = some (numArgs fmt l, rest) := by
  obtain ⟨x, l, rfl⟩ : ∃ x r, l = x :: r := by
    cases l with
    | nil => exact absurd rfl hl
    | cons x l => exact ⟨x, l, rfl⟩
  have h0 := toks_length (fmt x)
  have hp : ∀ ts, (∀ r, ts ≠ .sym ')' :: r) → pArgs (k + 3) ts = (pExpr (k + 2) ts).bind fun a =>
      (pMore (k + 2) a.2).map fun b => (.cons a.1 b.1, b.2) := by
    intro ts hts
    rw [pArgs.eq_def]
    simp only
  have hd : ∀ s r, (fmt x).toks ++ s ≠ .sym ')' :: r := by
    intro s r
    unfold Decimal.toks
    cases (fmt x).neg <;> simp
  by_cases hn : l = []
  · subst hn
    obtain ⟨j, rfl⟩ : ∃ j, k = j + 6 := ⟨k - 6, by simp [listToks] at hk; omega⟩
    show pArgs (j + 6 + 3) ((fmt x).toks ++ (.sym ')' :: rest)) = _
    rw [hp _ (hd _), pExpr_number (fmt x) j _ (.inr ⟨')', rest, rfl, by simp⟩)]
    rfl
  · rw [listToks_cons fmt x l hn] at hk ⊢
    simp only [List.length_append] at hk
    obtain ⟨j, rfl⟩ : ∃ j, k = j + 6 := ⟨k - 6, by omega⟩
    have e : ((fmt x).toks ++ ([.sym ','] ++ listToks fmt l)) ++ (.sym ')' :: rest) =
        (fmt x).toks ++ ([.sym ','] ++ listToks fmt l ++ (.sym ')' :: rest)) := by simp
    rw [e, hp _ (hd _), pExpr_number (fmt x) j _ (.inr ⟨',', _, rfl, by simp⟩ : EndsExpr ([Token.sym ','] ++ listToks fmt l ++ (.sym ')' :: rest)))]
    simp only [Option.bind_some]
    rw [pMore_numbers fmt l hn rest (j + 5) (by omega)]
    rfl

/-- the expression `vec3(...)` -/
def vecE (fmt : ℝ → Decimal) (n : ℕ) (v : ℕ → ℝ) : Expr :=
  .call ['v', 'e', 'c', '3'] (numArgs fmt ((List.range n).map v))

theorem vec3_atom (fmt : ℝ → Decimal) (n : ℕ) (hn : 0 < n) (v : ℕ → ℝ) : AtomOf (vecE fmt n v) (vec3Toks fmt n v) := by
  refine ⟨by simp [vec3Toks], fun k rest hk => ?_⟩
  unfold vec3Toks at hk ⊢
  simp only [List.length_append, List.length_cons, List.length_nil] at hk
  obtain ⟨j, rfl⟩ : ∃ j, k = j + 3 + 1 := ⟨k - 4, by omega⟩
  have e : [Token.ident ['v', 'e', 'c', '3'], .sym '('] ++ listToks fmt ((List.range n).map v) ++ [.sym ')'] ++ rest =
      .ident ['v', 'e', 'c', '3'] :: .sym '(' :: (listToks fmt ((List.range n).map v) ++ (.sym ')' :: rest)) := by simp
  rw [e]
  have hp : ∀ ts, pAtom (j + 3 + 1) (.ident ['v', 'e', 'c', '3'] :: .sym '(' :: ts) =
      (pArgs (j + 3) ts).map fun a => (.call ['v', 'e', 'c', '3'] a.1, a.2) := fun ts => rfl
  rw [hp, pArgs_numbers fmt _ (by simp; omega) rest j (by omega)]
  rfl

/-! ### Calls -/

/-- the vectors passed to a function -/
def vecArgs (fmt : ℝ → Decimal) (n : ℕ) : List (ℕ → ℝ) → Args
  | [] => .nil
  | v :: rest => .cons (vecE fmt n v) (vecArgs fmt n rest)

theorem pMore_vectors (fmt : ℝ → Decimal) (n : ℕ) (hn : 0 < n) (vs : List (ℕ → ℝ)) (rest : List Token) (k : ℕ)
    (hk : 10 * (vectorToks fmt n vs).length ≤ k) :
    pMore (k + 1) (vectorToks fmt n vs ++ (.sym ')' :: rest)) = some (vecArgs fmt n vs, rest) := by
  induction vs generalizing k with
  | nil => rfl
  | cons v vs ih =>
    have hv := vec3_atom fmt n hn v
    have hv0 := hv.1
    unfold vectorToks at hk ⊢
    simp only [List.length_append, List.length_cons, List.length_nil] at hk
    have e : [Token.sym ','] ++ vec3Toks fmt n v ++ vectorToks fmt n vs ++ (.sym ')' :: rest) =
        .sym ',' :: (vec3Toks fmt n v ++ (vectorToks fmt n vs ++ (.sym ')' :: rest))) := by simp
    have hp : ∀ ts, pMore (k + 1) (.sym ',' :: ts) = (pExpr k ts).bind fun a =>
      (pMore k a.2).map fun b => (.cons a.1 b.1, b.2) := fun ts => rfl
    have hend : EndsExpr (vectorToks fmt n vs ++ (.sym ')' :: rest)) := by
      cases vs with
      | nil => exact (.inr ⟨')', rest, rfl, by simp⟩)
      | cons w ws => exact (.inr ⟨',', _, rfl, by simp⟩)
    rw [e, hp, pExpr_atom _ _ hv k (by omega) _ hend]
    simp only [Option.bind_some]
    obtain ⟨j, rfl⟩ : ∃ j, k = j + 1 := ⟨k - 1, by omega⟩
    rw [ih j (by omega)]
    rfl

/-- the expression of a call -/
def callE (fmt : ℝ → Decimal) (name : Str) (n : ℕ) (vs : List (ℕ → ℝ)) : Expr :=
  .call name (.cons (.var ['L']) (.cons (.var ['V']) (.cons (.var ['N']) (.cons (.var ['X']) (.cons (.var ['Y'])
    (vecArgs fmt n vs))))))

theorem pExpr_var (x : Str) (hx : reserved x = false) (k : ℕ) (ts : List Token) :
    pExpr (k + 6) (.ident x :: .sym ',' :: ts) = some (.var x, .sym ',' :: ts) := by
  apply pExpr_of_unary (k + 2) _ _ _ _ (.inr ⟨',', ts, rfl, by simp⟩)
  have h : pAtom (k + 2) (.ident x :: .sym ',' :: ts) = some (.var x, .sym ',' :: ts) := by
    show (if reserved x then none else _) = _
    rw [hx]; rfl
  rw [pUnary_of_atom (k + 2) _ _ _ h, pSuffix_stop _ _ _ (.inr ⟨',', ts, rfl, by decide, by decide⟩)]

theorem pMore_var (x : Str) (hx : reserved x = false) (k : ℕ) (ts : List Token) (a : Args) (r : List Token)
    (h : pMore (k + 6) (.sym ',' :: ts) = some (a, r)) :
    pMore (k + 7) (.sym ',' :: .ident x :: .sym ',' :: ts) = some (.cons (.var x) a, r) := by
  show (pExpr (k + 6) _).bind _ = _
  rw [pExpr_var x hx]
  simp only [Option.bind_some, h, Option.map_some]

theorem call_atom (fmt : ℝ → Decimal) (name : Str) (h : IsName name) (n : ℕ) (hn : 0 < n) (v : ℕ → ℝ)
    (vs : List (ℕ → ℝ)) : AtomOf (callE fmt name n (v :: vs)) (callToks fmt name n (v :: vs)) := by
  refine ⟨by simp [callToks], fun k rest hk => ?_⟩
  unfold callToks at hk ⊢
  simp only [List.length_append, List.length_cons, List.length_nil] at hk
  obtain ⟨j, rfl⟩ : ∃ j, k = j + 20 := ⟨k - 20, by omega⟩
  have hm := pMore_vectors fmt n hn (v :: vs) rest (j + 13) (by omega)
  have e : vectorToks fmt n (v :: vs) ++ (.sym ')' :: rest) =
      .sym ',' :: (vec3Toks fmt n v ++ (vectorToks fmt n vs ++ (.sym ')' :: rest))) := by simp [vectorToks]
  rw [e] at hm
  have e2 : [Token.ident name, .sym '(', .ident ['L'], .sym ',', .ident ['V'], .sym ',', .ident ['N'], .sym ',',
      .ident ['X'], .sym ',', .ident ['Y']] ++ vectorToks fmt n (v :: vs) ++ [.sym ')'] ++ rest =
      .ident name :: .sym '(' :: .ident ['L'] :: .sym ',' :: .ident ['V'] :: .sym ',' :: .ident ['N'] :: .sym ',' ::
      .ident ['X'] :: .sym ',' :: .ident ['Y'] ::
        .sym ',' :: (vec3Toks fmt n v ++ (vectorToks fmt n vs ++ (.sym ')' :: rest))) := by simp [vectorToks]
  rw [e2]
  generalize vec3Toks fmt n v ++ (vectorToks fmt n vs ++ (.sym ')' :: rest)) = ts at hm
  have h1 := pMore_var ['Y'] (by decide) (j + 8) _ _ _ hm
  have h2 := pMore_var ['X'] (by decide) (j + 9) _ _ _ h1
  have h3 := pMore_var ['N'] (by decide) (j + 10) _ _ _ h2
  have h4 := pMore_var ['V'] (by decide) (j + 11) _ _ _ h3
  have h5 : pArgs (j + 19) (.ident ['L'] :: .sym ',' :: .ident ['V'] :: .sym ',' :: .ident ['N'] :: .sym ',' ::
      .ident ['X'] :: .sym ',' :: .ident ['Y'] :: .sym ',' :: ts) = some (.cons (.var ['L']) (.cons (.var ['V'])
        (.cons (.var ['N']) (.cons (.var ['X']) (.cons (.var ['Y']) (vecArgs fmt n (v :: vs)))))), rest) := by
    rw [pArgs.eq_def]
    simp only
    rw [pExpr_var ['L'] (by decide) (j + 12)]
    simp only [Option.bind_some, h4, Option.map_some]
  show (if reserved name then none else (pArgs (j + 19) _).map fun a => (Expr.call name a.1, a.2)) = _
  rw [h5, h.2.2.2]
  rfl

end
end Alta
