import Verif.Proofs.ShaderParse
/-
Reading the exported shaders: sums, products, the function `BRDF`, the list of functions.
-/
namespace Alta
open Glsl Real
noncomputable section

/-- words that can be read as one expression -/
def ExprOf (e : Expr) (ts : List Token) : Prop :=
  0 < ts.length ∧ ∀ (k : ℕ) (rest : List Token), 10 * ts.length + 10 ≤ k → EndsExpr rest →
    pExpr k (ts ++ rest) = some (e, rest)

theorem AtomOf.expr {e : Expr} {ts : List Token} (h : AtomOf e ts) : ExprOf e ts :=
  ⟨h.1, fun k rest hk hr => pExpr_atom e ts h k (by omega) rest hr⟩

/-! ### Products -/

/-- the words of a product -/
def prodToks (a b : List Token) : List Token := [.sym '('] ++ a ++ [.sym '*'] ++ b ++ [.sym ')']

theorem prod_atom (e f : Expr) (a b : List Token) (ha : AtomOf e a) (hb : AtomOf f b) :
    AtomOf (.bin .mul e f) (prodToks a b) := by
  refine ⟨by simp [prodToks], fun k rest hk => ?_⟩
  unfold prodToks at hk ⊢
  simp only [List.length_append, List.length_cons, List.length_nil] at hk
  obtain ⟨j, rfl⟩ : ∃ j, k = j + 6 := ⟨k - 6, by omega⟩
  have e1 : [Token.sym '('] ++ a ++ [.sym '*'] ++ b ++ [.sym ')'] ++ rest =
      .sym '(' :: (a ++ (.sym '*' :: (b ++ (.sym ')' :: rest)))) := by simp
  have hend : EndsExpr (.sym ')' :: rest) := .inr ⟨')', rest, rfl, by simp⟩
  have h1 : pUnary (j + 2) (a ++ (.sym '*' :: (b ++ (.sym ')' :: rest)))) = some (e, .sym '*' :: (b ++ (.sym ')' :: rest))) :=
    pUnary_atom e a ha _ (by omega) _ (.inr ⟨'*', _, rfl, by decide, by decide⟩)
  have h2 : pProdTail (j + 2) e (.sym '*' :: (b ++ (.sym ')' :: rest))) = some (.bin .mul e f, .sym ')' :: rest) := by
    show (pUnary (j + 1) (b ++ (.sym ')' :: rest))).bind _ = _
    rw [pUnary_atom f b hb _ (by omega) _ hend.atom]
    exact pProdTail_stop j _ _ hend
  have h3 : pProd (j + 3) (a ++ (.sym '*' :: (b ++ (.sym ')' :: rest)))) = some (.bin .mul e f, .sym ')' :: rest) := by
    rw [pProd.eq_def]
    simp only [h1, Option.bind_some, h2]
  have h4 : pSum (j + 4) (a ++ (.sym '*' :: (b ++ (.sym ')' :: rest)))) = some (.bin .mul e f, .sym ')' :: rest) := by
    rw [pSum.eq_def]
    simp only [h3, Option.bind_some]
    exact pSumTail_stop _ _ _ hend
  rw [e1]
  show (pExpr (j + 5) (a ++ (.sym '*' :: (b ++ (.sym ')' :: rest))))).bind _ = _
  rw [pExpr_of_sum (j + 4) _ _ _ h4 hend]
  rfl

/-! ### Sums -/

/-- the words of the terms after the first one -/
def plusTail : List (Expr × List Token) → List Token
  | [] => []
  | p :: rest => .sym '+' :: (p.2 ++ plusTail rest)

/-- the sum -/
def sumE : Expr → List (Expr × List Token) → Expr
  | a, [] => a
  | a, p :: rest => sumE (.bin .add a p.1) rest

/-- the next symbol is a plus, or ends the expression -/
def EndsTerm (ts : List Token) : Prop := (∃ w r, ts = .ident w :: r) ∨ ∃ c r, ts = .sym c :: r ∧ (c = '+' ∨ c = ')' ∨ c = ',' ∨ c = ';')

theorem EndsExpr.term {ts : List Token} (h : EndsExpr ts) : EndsTerm ts := by
  rcases h with h | ⟨c, r, rfl, h⟩
  · exact .inl h
  exact .inr ⟨c, r, rfl, .inr h⟩

theorem EndsTerm.atom {ts : List Token} (h : EndsTerm ts) : EndsAtom ts := by
  rcases h with h | ⟨c, r, rfl, h⟩
  · exact .inl h
  refine .inr ⟨c, r, rfl, ?_, ?_⟩ <;> rintro rfl <;> revert h <;> decide

theorem plusTail_ends (l : List (Expr × List Token)) (rest : List Token) (hr : EndsExpr rest) :
    EndsTerm (plusTail l ++ rest) := by
  cases l with
  | nil => exact hr.term
  | cons p l => exact .inr ⟨'+', _, rfl, by simp⟩

theorem pProd_atom (e : Expr) (ts : List Token) (h : AtomOf e ts) (k : ℕ) (hk : 10 * ts.length + 2 < k)
    (rest : List Token) (hr : EndsTerm rest) : pProd k (ts ++ rest) = some (e, rest) := by
  obtain ⟨k, rfl⟩ : ∃ j, k = j + 1 + 1 := ⟨k - 2, by omega⟩
  rw [pProd.eq_def]
  simp only [pUnary_atom e ts h (k + 1) (by omega) rest hr.atom, Option.bind_some]
  rcases hr with ⟨w, r, rfl⟩ | ⟨c, r, rfl, h⟩
  · rfl
  rcases h with rfl | rfl | rfl | rfl <;> rfl

theorem pSumTail_atoms (l : List (Expr × List Token)) (hl : ∀ p ∈ l, AtomOf p.1 p.2) (a : Expr) (k : ℕ)
    (rest : List Token) (hk : 10 * (plusTail l).length + 1 ≤ k) (hr : EndsExpr rest) :
    pSumTail k a (plusTail l ++ rest) = some (sumE a l, rest) := by
  induction l generalizing a k with
  | nil =>
    obtain ⟨k, rfl⟩ : ∃ j, k = j + 1 := ⟨k - 1, by omega⟩
    exact pSumTail_stop _ _ _ hr
  | cons p l ih =>
    unfold plusTail at hk ⊢
    simp only [List.length_append, List.length_cons] at hk
    obtain ⟨k, rfl⟩ : ∃ j, k = j + 1 := ⟨k - 1, by omega⟩
    have e : Token.sym '+' :: (p.2 ++ plusTail l) ++ rest = .sym '+' :: (p.2 ++ (plusTail l ++ rest)) := by simp
    rw [e]
    show (pProd k (p.2 ++ (plusTail l ++ rest))).bind _ = _
    rw [pProd_atom p.1 p.2 (hl p (by simp)) k (by omega) _ (plusTail_ends l rest hr)]
    simp only [Option.bind_some]
    exact ih (fun q hq => hl q (by simp [hq])) _ k (by omega)

theorem sum_expr (p : Expr × List Token) (l : List (Expr × List Token)) (hp : AtomOf p.1 p.2)
    (hl : ∀ q ∈ l, AtomOf q.1 q.2) : ExprOf (sumE p.1 l) (p.2 ++ plusTail l) := by
  refine ⟨by simp only [List.length_append]; have := hp.1; omega, fun k rest hk hr => ?_⟩
  simp only [List.length_append] at hk
  obtain ⟨k, rfl⟩ : ∃ j, k = j + 2 := ⟨k - 2, by omega⟩
  apply pExpr_of_sum (k + 1) _ _ _ _ hr
  rw [pSum.eq_def, List.append_assoc]
  simp only [pProd_atom p.1 p.2 hp k (by omega) _ (plusTail_ends l rest hr), Option.bind_some]
  exact pSumTail_atoms l hl _ k rest (by omega) hr

/-! ### The function `BRDF` -/

/-- `res` -/
def resW : Str := ['r', 'e', 's']

/-- the words of the statements after the first one -/
def addToks : List (Expr × List Token) → List Token
  | [] => [.ident ['r', 'e', 't', 'u', 'r', 'n'], .ident resW, .sym ';', .sym '}']
  | p :: rest => [.ident resW, .sym '+', .sym '='] ++ p.2 ++ [.sym ';'] ++ addToks rest

/-- the statements after the first one -/
def addStmts : List (Expr × List Token) → Stmts
  | [] => .cons (.ret (.var resW)) .nil
  | p :: rest => .cons (.addAssign resW p.1) (addStmts rest)

theorem pStmts_add (l : List (Expr × List Token)) (hl : ∀ p ∈ l, ExprOf p.1 p.2) (k : ℕ) (rest : List Token)
    (hk : 10 * (addToks l).length + 10 ≤ k) : pStmts k (addToks l ++ rest) = some (addStmts l, rest) := by
  induction l generalizing k with
  | nil =>
    obtain ⟨k, rfl⟩ : ∃ j, k = j + 20 := ⟨k - 20, by simp [addToks] at hk; omega⟩
    rfl
  | cons p l ih =>
    unfold addToks at hk ⊢
    simp only [List.length_append, List.length_cons, List.length_nil] at hk
    obtain ⟨k, rfl⟩ : ∃ j, k = j + 2 := ⟨k - 2, by omega⟩
    have e : [Token.ident resW, .sym '+', .sym '='] ++ p.2 ++ [.sym ';'] ++ addToks l ++ rest =
        .ident resW :: .sym '+' :: .sym '=' :: (p.2 ++ (.sym ';' :: (addToks l ++ rest))) := by simp
    rw [e]
    have h1 : pStmt (k + 1) (.ident resW :: .sym '+' :: .sym '=' :: (p.2 ++ (.sym ';' :: (addToks l ++ rest)))) =
        some (.addAssign resW p.1, addToks l ++ rest) := by
      show ((pExpr k (p.2 ++ (.sym ';' :: (addToks l ++ rest)))).bind _) = _
      rw [(hl p (by simp)).2 k _ (by omega) (.inr ⟨';', _, rfl, by simp⟩)]
      rfl
    show (pStmt (k + 1) _).bind _ = _
    rw [h1]
    simp only [Option.bind_some]
    rw [ih (fun q hq => hl q (by simp [hq])) (k + 1) (by omega)]
    rfl

/-- the words of the beginning of the function -/
def brdfHead : List Token :=
  [.ident ['v', 'e', 'c', '3'], .ident ['B', 'R', 'D', 'F'], .sym '(', .ident ['v', 'e', 'c', '3'], .ident ['L'],
   .sym ',', .ident ['v', 'e', 'c', '3'], .ident ['V'], .sym ',', .ident ['v', 'e', 'c', '3'], .ident ['N'],
   .sym ',', .ident ['v', 'e', 'c', '3'], .ident ['X'], .sym ',', .ident ['v', 'e', 'c', '3'], .ident ['Y'],
   .sym ')', .sym '{', .ident ['v', 'e', 'c', '3'], .ident resW, .sym '=']

/-- the words of the function -/
def brdfToks (p : Expr × List Token) (l : List (Expr × List Token)) : List Token :=
  brdfHead ++ p.2 ++ [.sym ';'] ++ addToks l

/-- the parameters of the function -/
def brdfParams : List (Ty × Str) := [(.vec3, ['L']), (.vec3, ['V']), (.vec3, ['N']), (.vec3, ['X']), (.vec3, ['Y'])]

/-- the function -/
def brdfDef (p : Expr × List Token) (l : List (Expr × List Token)) : FunDef :=
  ⟨.vec3, ['B', 'R', 'D', 'F'], brdfParams, .cons (.decl .vec3 resW p.1) (addStmts l)⟩

theorem brdf_parse (p : Expr × List Token) (l : List (Expr × List Token)) (hp : ExprOf p.1 p.2)
    (hl : ∀ q ∈ l, ExprOf q.1 q.2) (k : ℕ) (hk : 10 * (brdfToks p l).length ≤ k) (rest : List Token) :
    pFun k (brdfToks p l ++ rest) = some (brdfDef p l, rest) := by
  unfold brdfToks at hk ⊢
  simp only [List.length_append, List.length_cons, List.length_nil] at hk
  have hh : brdfHead.length = 22 := rfl
  obtain ⟨k, rfl⟩ : ∃ j, k = j + 20 := ⟨k - 20, by omega⟩
  have e : brdfHead ++ p.2 ++ [.sym ';'] ++ addToks l ++ rest =
      brdfHead ++ (p.2 ++ (.sym ';' :: (addToks l ++ rest))) := by simp
  rw [e]
  have h1 : pStmt (k + 19) (.ident ['v', 'e', 'c', '3'] :: .ident resW :: .sym '=' ::
      (p.2 ++ (.sym ';' :: (addToks l ++ rest)))) = some (.decl .vec3 resW p.1, addToks l ++ rest) := by
    show ((pExpr (k + 18) (p.2 ++ (.sym ';' :: (addToks l ++ rest)))).bind _) = _
    rw [hp.2 (k + 18) _ (by omega) (.inr ⟨';', _, rfl, by simp⟩)]
    rfl
  have h2 : pStmts (k + 20) (.ident ['v', 'e', 'c', '3'] :: .ident resW :: .sym '=' ::
      (p.2 ++ (.sym ';' :: (addToks l ++ rest)))) = some (.cons (.decl .vec3 resW p.1) (addStmts l), rest) := by
    show (pStmt (k + 19) _).bind _ = _
    rw [h1]
    simp only [Option.bind_some]
    rw [pStmts_add l hl (k + 19) rest (by omega)]
    rfl
  show (pStmts (k + 20) (.ident ['v', 'e', 'c', '3'] :: .ident resW :: .sym '=' ::
      (p.2 ++ (.sym ';' :: (addToks l ++ rest))))).map _ = _
  rw [h2]
  rfl

/-! ### The list of functions -/

/-- words that can be read as a function -/
def FunOf (d : FunDef) (ts : List Token) : Prop :=
  0 < ts.length ∧ ∀ (k : ℕ) (rest : List Token), 40 ≤ k → pFun k (ts ++ rest) = some (d, rest)

theorem FunOf.mk' (d : FunDef) (ts : List Token) (h0 : 0 < ts.length)
    (h : ∀ m rest, pFun (m + 40) (ts ++ rest) = some (d, rest)) : FunOf d ts :=
  ⟨h0, fun k rest hk => by obtain ⟨m, rfl⟩ : ∃ m, k = m + 40 := ⟨k - 40, by omega⟩
                           exact h m rest⟩

theorem pProgram_funs (m : ℕ) (hm : 40 ≤ m) (l : List (FunDef × List Token)) (hl : ∀ p ∈ l, FunOf p.1 p.2)
    (d : FunDef) (ts : List Token) (hd : pFun m ts = some (d, [])) (h0 : 0 < ts.length) (k : ℕ)
    (hk : (l.flatMap (·.2)).length + ts.length ≤ k) :
    pProgram m k (l.flatMap (·.2) ++ ts) = some (l.map (·.1) ++ [d]) := by
  induction l generalizing k with
  | nil =>
    simp only [List.flatMap_nil, List.nil_append, List.length_nil] at hk ⊢
    obtain ⟨k, rfl⟩ : ∃ j, k = j + 1 := ⟨k - 1, by omega⟩
    cases ts with
    | nil => simp at h0
    | cons t ts =>
      rw [pProgram.eq_def]
      simp only [hd, Option.bind_some, List.map_nil]
      cases k <;> rfl
  | cons p l ih =>
    have hp := hl p (by simp)
    have hp0 := hp.1
    simp only [List.flatMap_cons, List.length_append, List.append_assoc] at hk ⊢
    obtain ⟨k, rfl⟩ : ∃ j, k = j + 1 := ⟨k - 1, by omega⟩
    have h1 := hp.2 m (l.flatMap (·.2) ++ ts) hm
    generalize hT : p.2 ++ (l.flatMap (·.2) ++ ts) = T at h1
    cases T with
    | nil =>
      have := congrArg List.length hT
      simp only [List.length_append, List.length_nil] at this
      omega
    | cons t T =>
      rw [pProgram.eq_def]
      simp only [h1, Option.bind_some]
      rw [ih (fun q hq => hl q (by simp [hq])) k (by omega)]
      rfl

end
end Alta
