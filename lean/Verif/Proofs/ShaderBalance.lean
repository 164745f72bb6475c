import Verif.Props.ShaderLimits
/-
The parentheses of a program are balanced.
-/
namespace Alta
open Glsl

namespace Glsl

/-- opening minus closing parentheses -/
def tokBal : List Token → ℤ
  | [] => 0
  | .sym '(' :: r => tokBal r + 1
  | .sym ')' :: r => tokBal r - 1
  | _ :: r => tokBal r

theorem tokBal_sym (c : Char) (r : List Token) (h1 : c ≠ '(') (h2 : c ≠ ')') : tokBal (.sym c :: r) = tokBal r := by
  rw [tokBal.eq_def]
  split <;> simp_all

theorem tokBal_open (r : List Token) : tokBal (.sym '(' :: r) = tokBal r + 1 := rfl
theorem tokBal_close (r : List Token) : tokBal (.sym ')' :: r) = tokBal r - 1 := rfl
theorem tokBal_ident (w : Str) (r : List Token) : tokBal (.ident w :: r) = tokBal r := rfl
theorem tokBal_num (w : Str) (r : List Token) : tokBal (.num w :: r) = tokBal r := rfl

/-- a part of the reader that leaves the balance unchanged -/
def Keeps {α : Type} (d : ℤ) (f : List Token → Option (α × List Token)) : Prop :=
  ∀ ts a r, f ts = some (a, r) → tokBal ts = tokBal r + d

theorem expect_open (ts r : List Token) (h : expect '(' ts = some r) : tokBal ts = tokBal r + 1 := by
  unfold expect at h
  split at h
  · split at h
    · rename_i hc
      subst hc
      cases h
      rfl
    · simp at h
  · simp at h

theorem expect_close (ts r : List Token) (h : expect ')' ts = some r) : tokBal ts = tokBal r - 1 := by
  unfold expect at h
  split at h
  · split at h
    · rename_i hc
      subst hc
      cases h
      rfl
    · simp at h
  · simp at h

theorem expect_other (c : Char) (h1 : c ≠ '(') (h2 : c ≠ ')') (ts r : List Token) (h : expect c ts = some r) :
    tokBal ts = tokBal r := by
  unfold expect at h
  split at h
  · split at h
    · rename_i hc
      subst hc
      cases h
      exact tokBal_sym _ _ h1 h2
    · simp at h
  · simp at h

/-- all the parts of the reader of expressions -/
structure KeepsAll (n : ℕ) : Prop where
  expr : Keeps 0 (pExpr n)
  sum : Keeps 0 (pSum n)
  sumTail : ∀ a, Keeps 0 (pSumTail n a)
  prod : Keeps 0 (pProd n)
  prodTail : ∀ a, Keeps 0 (pProdTail n a)
  unary : Keeps 0 (pUnary n)
  atom : Keeps 0 (pAtom n)
  suffix : ∀ a, Keeps 0 (pSuffix n a)
  args : Keeps (-1) (pArgs n)
  more : Keeps (-1) (pMore n)

theorem keepsAll (n : ℕ) : KeepsAll n := by
  induction n with
  | zero =>
    constructor
    · intro ts b r h; rw [pExpr.eq_def] at h; simp at h
    · intro ts b r h; rw [pSum.eq_def] at h; simp at h
    · intro a ts b r h; rw [pSumTail.eq_def] at h; simp at h
    · intro ts b r h; rw [pProd.eq_def] at h; simp at h
    · intro a ts b r h; rw [pProdTail.eq_def] at h; simp at h
    · intro ts b r h; rw [pUnary.eq_def] at h; simp at h
    · intro ts b r h; rw [pAtom.eq_def] at h; simp at h
    · intro a ts b r h; rw [pSuffix.eq_def] at h; simp at h
    · intro ts b r h; rw [pArgs.eq_def] at h; simp at h
    · intro ts b r h; rw [pMore.eq_def] at h; simp at h
  | succ n ih =>
    constructor
    · intro ts b r h
      rw [pExpr.eq_def] at h
      simp only [Option.bind_eq_some_iff] at h
      obtain ⟨⟨a, q⟩, ha, h⟩ := h
      have h1 := ih.sum _ _ _ ha
      rw [h1]
      simp only at h
      split at h
      all_goals first
        | (simp only [Option.map_eq_some_iff] at h
           obtain ⟨⟨c, q'⟩, hc, h⟩ := h
           have h2 := ih.sum _ _ _ hc
           cases h
           simp only [tokBal_sym _ _ (show ('<' : Char) ≠ '(' by decide) (by decide),
             tokBal_sym _ _ (show ('>' : Char) ≠ '(' by decide) (by decide),
             tokBal_sym _ _ (show ('=' : Char) ≠ '(' by decide) (by decide), h2]
           omega)
        | (cases h; omega)
    · intro ts b r h
      rw [pSum.eq_def] at h
      simp only [Option.bind_eq_some_iff] at h
      obtain ⟨⟨a, q⟩, ha, h⟩ := h
      have h1 := ih.prod _ _ _ ha
      have h2 := ih.sumTail _ _ _ _ h
      simp only at h2
      omega
    · intro a ts b r h
      rw [pSumTail.eq_def] at h
      simp only at h
      split at h
      all_goals first
        | (simp only [Option.bind_eq_some_iff] at h
           obtain ⟨⟨c, q'⟩, hc, h⟩ := h
           have h1 := ih.prod _ _ _ hc
           have h2 := ih.sumTail _ _ _ _ h
           simp only at h2
           simp only [tokBal_sym _ _ (show ('+' : Char) ≠ '(' by decide) (by decide),
             tokBal_sym _ _ (show ('-' : Char) ≠ '(' by decide) (by decide)]
           omega)
        | (cases h; omega)
    · intro ts b r h
      rw [pProd.eq_def] at h
      simp only [Option.bind_eq_some_iff] at h
      obtain ⟨⟨a, q⟩, ha, h⟩ := h
      have h1 := ih.unary _ _ _ ha
      have h2 := ih.prodTail _ _ _ _ h
      simp only at h2
      omega
    · intro a ts b r h
      rw [pProdTail.eq_def] at h
      simp only at h
      split at h
      all_goals first
        | (simp only [Option.bind_eq_some_iff] at h
           obtain ⟨⟨c, q'⟩, hc, h⟩ := h
           have h1 := ih.unary _ _ _ hc
           have h2 := ih.prodTail _ _ _ _ h
           simp only at h2
           simp only [tokBal_sym _ _ (show ('*' : Char) ≠ '(' by decide) (by decide),
             tokBal_sym _ _ (show ('/' : Char) ≠ '(' by decide) (by decide)]
           omega)
        | (cases h; omega)
    · intro ts b r h
      rw [pUnary.eq_def] at h
      simp only at h
      split at h
      · simp only [Option.map_eq_some_iff] at h
        obtain ⟨⟨c, q'⟩, hc, h⟩ := h
        have h2 := ih.unary _ _ _ hc
        cases h
        simp only [tokBal_sym _ _ (show ('-' : Char) ≠ '(' by decide) (by decide)]
        omega
      · simp only [Option.bind_eq_some_iff] at h
        obtain ⟨⟨a, q⟩, ha, h⟩ := h
        have h1 := ih.atom _ _ _ ha
        have h2 := ih.suffix _ _ _ _ h
        simp only at h2
        omega
    · intro ts b r h
      rw [pAtom.eq_def] at h
      simp only at h
      split at h
      · cases h; simp only [tokBal_num]; omega
      · split at h
        · simp at h
        · simp only [Option.map_eq_some_iff] at h
          obtain ⟨⟨c, q'⟩, hc, h⟩ := h
          have h2 := ih.args _ _ _ hc
          cases h
          simp only [tokBal_ident, tokBal_open]
          omega
      · split at h
        · simp at h
        · cases h; simp only [tokBal_ident]; omega
      · simp only [Option.bind_eq_some_iff, Option.map_eq_some_iff] at h
        obtain ⟨⟨a, q⟩, ha, q', hq, h⟩ := h
        have h1 := ih.expr _ _ _ ha
        have h2 := expect_close _ _ hq
        simp only at h2
        cases h
        simp only [tokBal_open]
        omega
      · simp at h
    · intro a ts b r h
      rw [pSuffix.eq_def] at h
      simp only at h
      split at h
      · have h2 := ih.suffix _ _ _ _ h
        simp only [tokBal_sym _ _ (show ('.' : Char) ≠ '(' by decide) (by decide), tokBal_ident]
        omega
      · have h2 := ih.suffix _ _ _ _ h
        simp only [tokBal_sym _ _ (show ('[' : Char) ≠ '(' by decide) (by decide),
          tokBal_sym _ _ (show (']' : Char) ≠ '(' by decide) (by decide), tokBal_num]
        omega
      · cases h; omega
    · intro ts b r h
      rw [pArgs.eq_def] at h
      simp only at h
      split at h
      · cases h; simp only [tokBal_close]; omega
      · simp only [Option.bind_eq_some_iff, Option.map_eq_some_iff] at h
        obtain ⟨⟨a, q⟩, ha, ⟨c, q'⟩, hq, h⟩ := h
        have h1 := ih.expr _ _ _ ha
        have h2 := ih.more _ _ _ hq
        simp only at h2
        cases h
        show _ = tokBal q' + _
        omega
    · intro ts b r h
      rw [pMore.eq_def] at h
      simp only at h
      split at h
      · cases h; simp only [tokBal_close]; omega
      · simp only [Option.bind_eq_some_iff, Option.map_eq_some_iff] at h
        obtain ⟨⟨a, q⟩, ha, ⟨c, q'⟩, hq, h⟩ := h
        have h1 := ih.expr _ _ _ ha
        have h2 := ih.more _ _ _ hq
        simp only at h2
        cases h
        simp only [tokBal_sym _ _ (show (',' : Char) ≠ '(' by decide) (by decide)]
        omega
      · simp at h

theorem pDecl_keeps (n : ℕ) : Keeps 0 (pDecl n) := by
  intro ts b r h
  rw [pDecl.eq_def] at h
  split at h
  · simp only [Option.bind_eq_some_iff, Option.map_eq_some_iff] at h
    obtain ⟨t, -, ⟨a, q⟩, ha, q', hq, h⟩ := h
    have h1 := (keepsAll n).expr _ _ _ ha
    have h2 := expect_other ';' (by decide) (by decide) _ _ hq
    simp only at h2
    cases h
    simp only [tokBal_sym _ _ (show ('=' : Char) ≠ '(' by decide) (by decide), tokBal_ident]
    omega
  · simp only [Option.map_eq_some_iff] at h
    obtain ⟨t, -, h⟩ := h
    cases h
    simp only [tokBal_sym _ _ (show (';' : Char) ≠ '(' by decide) (by decide), tokBal_ident]
    omega
  · simp at h

theorem pAssign_keeps (n : ℕ) : Keeps 0 (pAssign n) := by
  intro ts b r h
  rw [pAssign.eq_def] at h
  split at h
  all_goals first
    | (simp only [Option.bind_eq_some_iff, Option.map_eq_some_iff] at h
       obtain ⟨⟨a, q⟩, ha, q', hq, h⟩ := h
       have h1 := (keepsAll n).expr _ _ _ ha
       have h2 := expect_other ';' (by decide) (by decide) _ _ hq
       simp only at h2
       cases h
       simp only [tokBal_sym _ _ (show ('=' : Char) ≠ '(' by decide) (by decide),
         tokBal_sym _ _ (show ('+' : Char) ≠ '(' by decide) (by decide),
         tokBal_sym _ _ (show ('.' : Char) ≠ '(' by decide) (by decide), tokBal_ident]
       omega)
    | simp at h

theorem pStmt_keeps (n : ℕ) : Keeps 0 (pStmt n) ∧ Keeps 0 (pStmts n) := by
  induction n with
  | zero =>
    constructor
    · intro ts b r h; rw [pStmt.eq_def] at h; simp at h
    · intro ts b r h; rw [pStmts.eq_def] at h; simp at h
  | succ n ih =>
    constructor
    · intro ts b r h
      rw [pStmt.eq_def] at h
      simp only at h
      split at h
      · rename_i w rest
        split at h
        · simp only [Option.bind_eq_some_iff, Option.map_eq_some_iff] at h
          obtain ⟨⟨a, q⟩, ha, q', hq, h⟩ := h
          have h1 := (keepsAll n).expr _ _ _ ha
          have h2 := expect_other ';' (by decide) (by decide) _ _ hq
          simp only at h2
          cases h
          simp only [tokBal_ident]
          omega
        · split at h
          · simp only [Option.bind_eq_some_iff] at h
            obtain ⟨q1, hq1, ⟨c, q2⟩, hc, q3, hq3, q4, hq4, ⟨t, q5⟩, ht, h⟩ := h
            have e1 := expect_open _ _ hq1
            have e2 := (keepsAll n).expr _ _ _ hc
            have e3 := expect_close _ _ hq3
            have e4 := expect_other '{' (by decide) (by decide) _ _ hq4
            have e5 := ih.2 _ _ _ ht
            simp only at h e3
            have key : tokBal q5 = tokBal r := by
              split at h
              · simp only [Option.bind_eq_some_iff, Option.map_eq_some_iff] at h
                obtain ⟨q6, hq6, ⟨e, q7⟩, he, h⟩ := h
                have e6 := expect_other '{' (by decide) (by decide) _ _ hq6
                have e7 := ih.2 _ _ _ he
                cases h
                simp only [tokBal_ident]
                omega
              · cases h; rfl
            simp only [tokBal_ident]
            omega
          · split at h
            · have e1 := pDecl_keeps n _ _ _ h
              simp only [tokBal_ident]
              omega
            · split at h
              · exact pDecl_keeps n _ _ _ h
              · exact pAssign_keeps n _ _ _ h
      · simp at h
    · intro ts b r h
      rw [pStmts.eq_def] at h
      simp only at h
      split at h
      · cases h
        simp only [tokBal_sym _ _ (show ('}' : Char) ≠ '(' by decide) (by decide)]
        omega
      · simp only [Option.bind_eq_some_iff, Option.map_eq_some_iff] at h
        obtain ⟨⟨s, q⟩, hs, ⟨t, q'⟩, ht, h⟩ := h
        have e1 := ih.1 _ _ _ hs
        have e2 := ih.2 _ _ _ ht
        simp only at e2
        cases h
        show _ = tokBal q' + _
        omega

theorem pParams_keeps (n : ℕ) : Keeps (-1) (pParams n) := by
  induction n with
  | zero => intro ts b r h; rw [pParams.eq_def] at h; simp at h
  | succ n ih =>
    intro ts b r h
    rw [pParams.eq_def] at h
    simp only at h
    split at h
    · simp only [Option.bind_eq_some_iff, Option.map_eq_some_iff] at h
      obtain ⟨t, -, ⟨c, q⟩, hq, h⟩ := h
      have e1 := ih _ _ _ hq
      cases h
      simp only [tokBal_sym _ _ (show (',' : Char) ≠ '(' by decide) (by decide), tokBal_ident]
      omega
    · simp only [Option.map_eq_some_iff] at h
      obtain ⟨t, -, h⟩ := h
      cases h
      simp only [tokBal_close, tokBal_ident]
      omega
    · simp at h

theorem pFun_keeps (n : ℕ) : Keeps 0 (pFun n) := by
  intro ts b r h
  rw [pFun.eq_def] at h
  split at h
  · simp only [Option.bind_eq_some_iff, Option.map_eq_some_iff] at h
    obtain ⟨t, -, ⟨p, q⟩, hp, q', hq, ⟨c, q''⟩, hc, h⟩ := h
    have e1 := pParams_keeps n _ _ _ hp
    have e2 := expect_other '{' (by decide) (by decide) _ _ hq
    have e3 := (pStmt_keeps n).2 _ _ _ hc
    simp only at e2
    cases h
    simp only [tokBal_open, tokBal_ident]
    omega
  · simp at h

theorem pProgram_keeps (m n : ℕ) (ts : List Token) (fs : List FunDef) (h : pProgram m n ts = some fs) :
    tokBal ts = 0 := by
  induction n generalizing ts fs with
  | zero =>
    cases ts with
    | nil => rfl
    | cons t ts => simp [pProgram] at h
  | succ n ih =>
    cases ts with
    | nil => rfl
    | cons t ts =>
      simp only [pProgram, Option.bind_eq_some_iff, Option.map_eq_some_iff] at h
      obtain ⟨⟨f, q⟩, hf, gs, hg, h⟩ := h
      have e1 := pFun_keeps m _ _ _ hf
      have e2 := ih _ _ hg
      simp only at e2
      omega

/-- opening minus closing parentheses of a text -/
def charBal : Str → ℤ
  | [] => 0
  | c :: r => charBal r + (if c = '(' then 1 else if c = ')' then -1 else 0)

theorem charBal_append (a b : Str) : charBal (a ++ b) = charBal a + charBal b := by
  induction a with
  | nil => simp [charBal]
  | cons c a ih => simp only [List.cons_append, charBal, ih]; ring

theorem charBal_count (s : Str) : charBal s = (s.count '(' : ℤ) - s.count ')' := by
  induction s with
  | nil => rfl
  | cons c s ih =>
    simp only [charBal, ih, List.count_cons]
    by_cases h1 : c = '('
    · subst h1; simp; ring
    · by_cases h2 : c = ')'
      · subst h2; simp; ring
      · simp [h1, h2]

theorem tokBal_append (a b : List Token) : tokBal (a ++ b) = tokBal a + tokBal b := by
  induction a with
  | nil => simp [tokBal]
  | cons t a ih =>
    cases t with
    | ident w => simpa only [List.cons_append, tokBal_ident] using ih
    | num w => simpa only [List.cons_append, tokBal_num] using ih
    | sym c =>
      by_cases h1 : c = '('
      · subst h1; simp only [List.cons_append, tokBal_open, ih]; ring
      · by_cases h2 : c = ')'
        · subst h2; simp only [List.cons_append, tokBal_close, ih]; ring
        · simp only [List.cons_append, tokBal_sym _ _ h1 h2, ih]

theorem tokBal_flush (w : Str) : tokBal (flush w) = 0 := by
  unfold flush
  split
  · rfl
  · split <;> rfl

theorem tokBal_lexStep (st : LexState) (c : Char) :
    tokBal (lexStep st c).done = tokBal st.done + charBal [c] := by
  unfold lexStep
  split
  · rename_i h
    have h1 : c ≠ '(' := by rintro rfl; simp [isLetter, isDigit] at h
    have h2 : c ≠ ')' := by rintro rfl; simp [isLetter, isDigit] at h
    simp [charBal, h1, h2]
  · simp only [tokBal_append, tokBal_flush]
    by_cases h1 : c = '('
    · subst h1
      have : isSpace '(' = false := by decide
      simp [this, charBal, tokBal]
    · by_cases h2 : c = ')'
      · subst h2
        have : isSpace ')' = false := by decide
        simp [this, charBal, tokBal]
      · have : tokBal (if isSpace c then [] else [.sym c]) = 0 := by
          split
          · rfl
          · rw [tokBal_sym _ _ h1 h2]; rfl
        simp [this, charBal, h1, h2]

theorem tokBal_run (s : Str) (st : LexState) :
    tokBal (s.foldl lexStep st).done = tokBal st.done + charBal s := by
  induction s generalizing st with
  | nil => simp [charBal]
  | cons c s ih =>
    rw [List.foldl_cons, ih, tokBal_lexStep]
    simp only [charBal]
    ring

theorem tokBal_lex (s : Str) : tokBal (lex s) = charBal s := by
  unfold lex
  simp only [tokBal_append, tokBal_flush, tokBal_run]
  simp [tokBal]

/-- A program has as many closing parentheses as opening ones. -/
theorem parse_balanced (s : Str) (fs : List FunDef) (h : parse s = some fs) :
    s.count '(' = s.count ')' := by
  have h1 := pProgram_keeps _ _ _ _ h
  rw [tokBal_lex, charBal_count] at h1
  omega

end Glsl
end Alta
