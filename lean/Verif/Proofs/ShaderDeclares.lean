import Verif.Proofs.ShaderBalance
/-
A program has no declaration of a variable like `vec3 x(0.0)`.
-/
namespace Alta
open Glsl

namespace Glsl

/-- The words begin with a type, a name, an opening parenthesis and a number. -/
def BadHead : List Token → Prop
  | .ident t :: .ident _ :: .sym c :: .num _ :: _ => (tyOf t).isSome = true ∧ c = '('
  | _ => False

/-- These four words follow each other somewhere. -/
def Bad : List Token → Prop
  | [] => False
  | t :: r => BadHead (t :: r) ∨ Bad r

/-- The next word is a name. -/
def AtIdent : List Token → Prop
  | .ident _ :: _ => True
  | _ => False

theorem bad_sym (c : Char) (r : List Token) : Bad (.sym c :: r) ↔ Bad r := by simp [Bad, BadHead]
theorem bad_num (w : Str) (r : List Token) : Bad (.num w :: r) ↔ Bad r := by simp [Bad, BadHead]
theorem bad_ident (w : Str) (r : List Token) (h : Bad (.ident w :: r)) : Bad r ∨ AtIdent r := by
  rcases h with h | h
  · cases r with
    | nil => simp [BadHead] at h
    | cons t r => cases t <;> simp_all [BadHead, AtIdent]
  · exact Or.inl h
theorem bad_word (w : Str) (hw : tyOf w = none) (r : List Token) (h : Bad (.ident w :: r)) : Bad r := by
  rcases h with h | h
  · exfalso
    unfold BadHead at h
    split at h
    · rename_i e
      cases e
      simp [hw] at h
    · exact h
  · exact h
theorem bad_ident_sym (w : Str) (c : Char) (r : List Token) (h : Bad (.ident w :: .sym c :: r)) : Bad r := by
  rcases h with h | h
  · simp [BadHead] at h
  · exact (bad_sym _ _).1 h
theorem bad_ident_ident (w x : Str) (c : Char) (r : List Token) (hc : c ≠ '(') (h : Bad (.ident w :: .ident x :: .sym c :: r)) :
    Bad r := by
  rcases h with h | h
  · exfalso
    unfold BadHead at h
    split at h
    · rename_i e
      cases e
      exact hc h.2
    · exact h
  · exact bad_ident_sym _ _ _ h

theorem expect_bad (c : Char) (ts r : List Token) (h : expect c ts = some r) (hb : Bad ts ∨ AtIdent ts) : Bad r := by
  unfold expect at h
  split at h
  · split at h
    · rename_i hc
      subst hc
      cases h
      rcases hb with hb | hb
      · exact (bad_sym _ _).1 hb
      · exact hb.elim
    · simp at h
  · simp at h

/-- a part of the reader that reads none of them, except a name -/
def Leaves {α : Type} (f : List Token → Option (α × List Token)) : Prop :=
  ∀ ts a r, f ts = some (a, r) → Bad ts → Bad r ∨ AtIdent r

/-- the same after a name -/
def LeavesAfter {α : Type} (f : List Token → Option (α × List Token)) : Prop :=
  ∀ ts a r, f ts = some (a, r) → (Bad ts ∨ AtIdent ts) → Bad r ∨ AtIdent r

/-- a part of the reader that reads none of them -/
def LeavesAll {α : Type} (f : List Token → Option (α × List Token)) : Prop :=
  ∀ ts a r, f ts = some (a, r) → Bad ts → Bad r

/-- all the parts of the reader of expressions -/
structure LeavesExpr (n : ℕ) : Prop where
  expr : Leaves (pExpr n)
  sum : Leaves (pSum n)
  sumTail : ∀ a, LeavesAfter (pSumTail n a)
  prod : Leaves (pProd n)
  prodTail : ∀ a, LeavesAfter (pProdTail n a)
  unary : Leaves (pUnary n)
  atom : Leaves (pAtom n)
  suffix : ∀ a, LeavesAfter (pSuffix n a)
  args : LeavesAll (pArgs n)
  more : ∀ ts a r, pMore n ts = some (a, r) → (Bad ts ∨ AtIdent ts) → Bad r

theorem after_sym (c : Char) (r : List Token) (h : Bad (.sym c :: r) ∨ AtIdent (.sym c :: r)) : Bad r := by
  rcases h with h | h
  · exact (bad_sym _ _).1 h
  · exact h.elim

theorem leavesExpr (n : ℕ) : LeavesExpr n := by
  induction n with
  | zero =>
    constructor
    · intro ts b r h; rw [pExpr.eq_def] at h; simp at h
    · intro ts b r h; rw [pSum.eq_def] at h; simp at h
    · intro a ts b r h; rw [pSumTail.eq_def] at h; simp at h
    · intro ts b r h; rw [pProd.eq_def] at h; simp at h
    · intro a ts b r h; rw [pProdTail.eq_def] at h; simp at h
    · intro ts b r h; rw [pUnary.eq_def] at h; simp at h
    · intro ts b r h; rw [pAtom.eq_def] at h; simp at h
    · intro a ts b r h; rw [pSuffix.eq_def] at h; simp at h
    · intro ts b r h; rw [pArgs.eq_def] at h; simp at h
    · intro ts b r h; rw [pMore.eq_def] at h; simp at h
  | succ n ih =>
    constructor
    · intro ts b r h hb
      rw [pExpr.eq_def] at h
      simp only [Option.bind_eq_some_iff] at h
      obtain ⟨⟨a, q⟩, ha, h⟩ := h
      have h1 := ih.sum _ _ _ ha hb
      simp only at h
      split at h
      all_goals first
        | (simp only [Option.map_eq_some_iff] at h
           obtain ⟨⟨c, q'⟩, hc, h⟩ := h
           have h2 := after_sym _ _ h1
           try simp only [bad_sym] at h2
           have h3 := ih.sum _ _ _ hc h2
           cases h
           exact h3)
        | (cases h; exact h1)
    · intro ts b r h hb
      rw [pSum.eq_def] at h
      simp only [Option.bind_eq_some_iff] at h
      obtain ⟨⟨a, q⟩, ha, h⟩ := h
      exact ih.sumTail _ _ _ _ h (ih.prod _ _ _ ha hb)
    · intro a ts b r h hb
      rw [pSumTail.eq_def] at h
      simp only at h
      split at h
      all_goals first
        | (simp only [Option.bind_eq_some_iff] at h
           obtain ⟨⟨c, q'⟩, hc, h⟩ := h
           exact ih.sumTail _ _ _ _ h (ih.prod _ _ _ hc (after_sym _ _ hb)))
        | (cases h; exact hb)
    · intro ts b r h hb
      rw [pProd.eq_def] at h
      simp only [Option.bind_eq_some_iff] at h
      obtain ⟨⟨a, q⟩, ha, h⟩ := h
      exact ih.prodTail _ _ _ _ h (ih.unary _ _ _ ha hb)
    · intro a ts b r h hb
      rw [pProdTail.eq_def] at h
      simp only at h
      split at h
      all_goals first
        | (simp only [Option.bind_eq_some_iff] at h
           obtain ⟨⟨c, q'⟩, hc, h⟩ := h
           exact ih.prodTail _ _ _ _ h (ih.unary _ _ _ hc (after_sym _ _ hb)))
        | (cases h; exact hb)
    · intro ts b r h hb
      rw [pUnary.eq_def] at h
      simp only at h
      split at h
      · simp only [Option.map_eq_some_iff] at h
        obtain ⟨⟨c, q'⟩, hc, h⟩ := h
        cases h
        exact ih.unary _ _ _ hc ((bad_sym _ _).1 hb)
      · simp only [Option.bind_eq_some_iff] at h
        obtain ⟨⟨a, q⟩, ha, h⟩ := h
        exact ih.suffix _ _ _ _ h (ih.atom _ _ _ ha hb)
    · intro ts b r h hb
      rw [pAtom.eq_def] at h
      simp only at h
      split at h
      · cases h; exact Or.inl ((bad_num _ _).1 hb)
      · split at h
        · simp at h
        · simp only [Option.map_eq_some_iff] at h
          obtain ⟨⟨c, q'⟩, hc, h⟩ := h
          cases h
          exact Or.inl (ih.args _ _ _ hc (bad_ident_sym _ _ _ hb))
      · split at h
        · simp at h
        · cases h; exact bad_ident _ _ hb
      · simp only [Option.bind_eq_some_iff, Option.map_eq_some_iff] at h
        obtain ⟨⟨a, q⟩, ha, q', hq, h⟩ := h
        cases h
        exact Or.inl (expect_bad _ _ _ hq (ih.expr _ _ _ ha ((bad_sym _ _).1 hb)))
      · simp at h
    · intro a ts b r h hb
      rw [pSuffix.eq_def] at h
      simp only at h
      split at h
      · exact ih.suffix _ _ _ _ h (bad_ident _ _ (after_sym _ _ hb))
      · have h2 := after_sym _ _ hb
        simp only [bad_num, bad_sym] at h2
        exact ih.suffix _ _ _ _ h (Or.inl h2)
      · cases h; exact hb
    · intro ts b r h hb
      rw [pArgs.eq_def] at h
      simp only at h
      split at h
      · cases h; exact (bad_sym _ _).1 hb
      · simp only [Option.bind_eq_some_iff, Option.map_eq_some_iff] at h
        obtain ⟨⟨a, q⟩, ha, ⟨c, q'⟩, hq, h⟩ := h
        cases h
        exact ih.more _ _ _ hq (ih.expr _ _ _ ha hb)
    · intro ts b r h hb
      rw [pMore.eq_def] at h
      simp only at h
      split at h
      · cases h; exact after_sym _ _ hb
      · simp only [Option.bind_eq_some_iff, Option.map_eq_some_iff] at h
        obtain ⟨⟨a, q⟩, ha, ⟨c, q'⟩, hq, h⟩ := h
        cases h
        exact ih.more _ _ _ hq (ih.expr _ _ _ ha (after_sym _ _ hb))
      · simp at h

theorem pDecl_leaves (n : ℕ) : LeavesAll (pDecl n) := by
  intro ts b r h hb
  rw [pDecl.eq_def] at h
  split at h
  · simp only [Option.bind_eq_some_iff, Option.map_eq_some_iff] at h
    obtain ⟨t, -, ⟨a, q⟩, ha, q', hq, h⟩ := h
    cases h
    exact expect_bad _ _ _ hq ((leavesExpr n).expr _ _ _ ha (bad_ident_ident _ _ _ _ (by decide) hb))
  · simp only [Option.map_eq_some_iff] at h
    obtain ⟨t, -, h⟩ := h
    cases h
    exact bad_ident_ident _ _ _ _ (by decide) hb
  · simp at h

theorem pAssign_leaves (n : ℕ) : LeavesAll (pAssign n) := by
  intro ts b r h hb
  rw [pAssign.eq_def] at h
  split at h
  · simp only [Option.bind_eq_some_iff, Option.map_eq_some_iff] at h
    obtain ⟨⟨a, q⟩, ha, q', hq, h⟩ := h
    cases h
    exact expect_bad _ _ _ hq ((leavesExpr n).expr _ _ _ ha (bad_ident_sym _ _ _ hb))
  · simp only [Option.bind_eq_some_iff, Option.map_eq_some_iff] at h
    obtain ⟨⟨a, q⟩, ha, q', hq, h⟩ := h
    cases h
    exact expect_bad _ _ _ hq ((leavesExpr n).expr _ _ _ ha ((bad_sym _ _).1 (bad_ident_sym _ _ _ hb)))
  · simp only [Option.bind_eq_some_iff, Option.map_eq_some_iff] at h
    obtain ⟨⟨a, q⟩, ha, q', hq, h⟩ := h
    cases h
    exact expect_bad _ _ _ hq ((leavesExpr n).expr _ _ _ ha (bad_ident_sym _ _ _ (bad_ident_sym _ _ _ hb)))
  · simp at h

theorem pStmt_leaves (n : ℕ) : LeavesAll (pStmt n) ∧ LeavesAll (pStmts n) := by
  induction n with
  | zero =>
    constructor
    · intro ts b r h; rw [pStmt.eq_def] at h; simp at h
    · intro ts b r h; rw [pStmts.eq_def] at h; simp at h
  | succ n ih =>
    constructor
    · intro ts b r h hb
      rw [pStmt.eq_def] at h
      simp only at h
      split at h
      · rename_i w rest
        split at h
        · rename_i hw
          subst hw
          simp only [Option.bind_eq_some_iff, Option.map_eq_some_iff] at h
          obtain ⟨⟨a, q⟩, ha, q', hq, h⟩ := h
          cases h
          exact expect_bad _ _ _ hq ((leavesExpr n).expr _ _ _ ha (bad_word _ (by decide) _ hb))
        · split at h
          · rename_i hw
            subst hw
            simp only [Option.bind_eq_some_iff] at h
            obtain ⟨q1, hq1, ⟨c, q2⟩, hc, q3, hq3, q4, hq4, ⟨t, q5⟩, ht, h⟩ := h
            have e1 := expect_bad _ _ _ hq1 (Or.inl (bad_word _ (by decide) _ hb))
            have e3 := expect_bad _ _ _ hq3 ((leavesExpr n).expr _ _ _ hc e1)
            have e4 := expect_bad _ _ _ hq4 (Or.inl e3)
            have e5 := ih.2 _ _ _ ht e4
            simp only at h
            split at h
            · simp only [Option.bind_eq_some_iff, Option.map_eq_some_iff] at h
              obtain ⟨q6, hq6, ⟨e, q7⟩, he, h⟩ := h
              cases h
              exact ih.2 _ _ _ he (expect_bad _ _ _ hq6 (Or.inl (bad_word _ (by decide) _ e5)))
            · cases h; exact e5
          · split at h
            · rename_i hw
              subst hw
              exact pDecl_leaves n _ _ _ h (bad_word _ (by decide) _ hb)
            · split at h
              · exact pDecl_leaves n _ _ _ h hb
              · exact pAssign_leaves n _ _ _ h hb
      · simp at h
    · intro ts b r h hb
      rw [pStmts.eq_def] at h
      simp only at h
      split at h
      · cases h
        exact (bad_sym _ _).1 hb
      · simp only [Option.bind_eq_some_iff, Option.map_eq_some_iff] at h
        obtain ⟨⟨s, q⟩, hs, ⟨t, q'⟩, ht, h⟩ := h
        cases h
        exact ih.2 _ _ _ ht (ih.1 _ _ _ hs hb)

theorem pParams_leaves (n : ℕ) : LeavesAll (pParams n) := by
  induction n with
  | zero => intro ts b r h; rw [pParams.eq_def] at h; simp at h
  | succ n ih =>
    intro ts b r h hb
    rw [pParams.eq_def] at h
    simp only at h
    split at h
    · simp only [Option.bind_eq_some_iff, Option.map_eq_some_iff] at h
      obtain ⟨t, -, ⟨c, q⟩, hq, h⟩ := h
      cases h
      exact ih _ _ _ hq (bad_ident_ident _ _ _ _ (by decide) hb)
    · simp only [Option.map_eq_some_iff] at h
      obtain ⟨t, -, h⟩ := h
      cases h
      exact bad_ident_ident _ _ _ _ (by decide) hb
    · simp at h

theorem pParams_num (n : ℕ) (w : Str) (r : List Token) : pParams n (.num w :: r) = none := by
  cases n <;> rfl

theorem pFun_leaves (n : ℕ) : LeavesAll (pFun n) := by
  intro ts b r h hb
  rw [pFun.eq_def] at h
  split at h
  · rename_i rest
    simp only [Option.bind_eq_some_iff, Option.map_eq_some_iff] at h
    obtain ⟨t, -, ⟨p, q⟩, hp, q', hq, ⟨c, q''⟩, hc, h⟩ := h
    have e : Bad rest := by
      rcases hb with hb | hb
      · exfalso
        cases rest with
        | nil => simp [BadHead] at hb
        | cons x rest =>
          cases x with
          | num w => rw [pParams_num] at hp; simp at hp
          | ident w => simp [BadHead] at hb
          | sym w => simp [BadHead] at hb
      · exact bad_ident_sym _ _ _ hb
    cases h
    exact (pStmt_leaves n).2 _ _ _ hc (expect_bad _ _ _ hq (Or.inl (pParams_leaves n _ _ _ hp e)))
  · simp at h

theorem pProgram_leaves (m n : ℕ) (ts : List Token) (fs : List FunDef) (h : pProgram m n ts = some fs) : ¬ Bad ts := by
  induction n generalizing ts fs with
  | zero =>
    cases ts with
    | nil => exact id
    | cons t ts => simp [pProgram] at h
  | succ n ih =>
    cases ts with
    | nil => exact id
    | cons t ts =>
      simp only [pProgram, Option.bind_eq_some_iff, Option.map_eq_some_iff] at h
      obtain ⟨⟨f, q⟩, hf, gs, hg, h⟩ := h
      exact fun hb => ih _ _ hg (pFun_leaves m _ _ _ hf hb)

theorem bad_append_right (a b : List Token) (h : Bad b) : Bad (a ++ b) := by
  induction a with
  | nil => exact h
  | cons t a ih => exact Or.inr ih

theorem bad_append_left (a b : List Token) (h : Bad a) : Bad (a ++ b) := by
  induction a with
  | nil => exact h.elim
  | cons t a ih =>
    rcases h with h | h
    · left
      unfold BadHead at h
      split at h
      · rename_i e
        injection e with e1 e2
        subst e1
        subst e2
        exact h
      · exact h.elim
    · exact Or.inr (ih h)

/-- A text with this declaration, after a space, is not a program. -/
theorem parse_declares (a b : Str) (x : Str) (hx : lexRun ⟨[], []⟩ x = ⟨lexRun ⟨[], []⟩ x |>.done, []⟩)
    (hb : Bad (lexRun ⟨[], []⟩ x).done) : parse (a ++ (' ' :: x) ++ b) = none := by
  cases h : parse (a ++ (' ' :: x) ++ b) with
  | none => rfl
  | some fs =>
    refine absurd ?_ (pProgram_leaves _ _ _ _ h)
    have e : lexRun ⟨[], []⟩ (a ++ (' ' :: x) ++ b) =
        ⟨(lexRun ⟨[], []⟩ a).done ++ flush (lexRun ⟨[], []⟩ a).word ++ (lexRun ⟨[], []⟩ x).done ++
          (lexRun ⟨[], []⟩ b).done, (lexRun ⟨[], []⟩ b).word⟩ := by
      rw [lexRun_append, lexRun_append, lexRun_cons]
      have e1 : lexStep (lexRun ⟨[], []⟩ a) ' ' = ⟨(lexRun ⟨[], []⟩ a).done ++ flush (lexRun ⟨[], []⟩ a).word, []⟩ := by
        generalize lexRun ⟨[], []⟩ a = st
        unfold lexStep
        rw [if_neg (by simp [isLetter, isDigit])]
        simp [isSpace]
      rw [e1, lexRun_of _ _ _ _ _ hx, lexRun_of _ _ b _ _ rfl]
      rfl
    show Bad ((lexRun ⟨[], []⟩ (a ++ (' ' :: x) ++ b)).done ++ flush (lexRun ⟨[], []⟩ (a ++ (' ' :: x) ++ b)).word)
    rw [e]
    exact bad_append_left _ _ (bad_append_left _ _ (bad_append_right _ _ hb))

end Glsl
end Alta
