import Verif.Spec.Cpp
import Verif.Model.CppExport
import Verif.Proofs.ShaderParse
import Verif.Proofs.ShaderEval
/-
Reading the C++ exported for a rational function.
-/
namespace Alta
open Glsl Real

/-! ### Words -/

/-- the words of `*pow(x[k], e)` -/
def starToks (k e : ℕ) : List Token :=
  [.sym '*', .ident ['p', 'o', 'w'], .sym '(', .ident ['x'], .sym '[', .num (showNat k), .sym ']', .sym ',',
    .num (showNat e), .sym ')']

theorem flush_showNat (n : ℕ) : flush (showNat n) = [.num (showNat n)] := by
  obtain ⟨d, hd, r, h⟩ := showNat_head n
  unfold flush
  rw [if_neg (by rw [h]; simp), if_pos (by rw [h]; exact (digitChar_spec d hd).1)]

theorem lexRun_showNat (D : List Token) (n : ℕ) : lexRun ⟨D, []⟩ (showNat n) = ⟨D, showNat n⟩ := by
  rw [lexRun_word D [] _ (fun c hc => by simp [showNat_all_digit n c hc])]
  rfl

theorem lexRun_star (D : List Token) (w : Str) (k e : ℕ) :
    lexRun ⟨D, w⟩ ("*pow(x[".toList ++ showNat k ++ "], ".toList ++ showNat e ++ ")".toList) =
      ⟨D ++ flush w ++ starToks k e, []⟩ := by
  have e1 : "*pow(x[".toList = '*' :: "pow(x[".toList := by decide +kernel
  have e2 : "], ".toList = ']' :: ", ".toList := by decide +kernel
  have e3 : ")".toList = [')'] := by decide
  have h1 : lexRun ⟨[], []⟩ "pow(x[".toList =
      ⟨[.ident ['p', 'o', 'w'], .sym '(', .ident ['x'], .sym '['], []⟩ := by decide +kernel
  have h2 : lexRun ⟨[], []⟩ ", ".toList = ⟨[.sym ','], []⟩ := by decide +kernel
  have hs := fun D w => lexStep_end D w '*' (by decide) (by decide) (by decide) (by decide) (by decide) (by decide)
  have hb := fun D w => lexStep_end D w ']' (by decide) (by decide) (by decide) (by decide) (by decide) (by decide)
  have hp := fun D w => lexStep_end D w ')' (by decide) (by decide) (by decide) (by decide) (by decide) (by decide)
  rw [e1, e2, e3]
  generalize "pow(x[".toList = a at h1 ⊢
  generalize ", ".toList = b at h2 ⊢
  rw [lexRun_append, lexRun_append, lexRun_append, lexRun_append, lexRun_cons _ '*', hs, lexRun_of _ _ _ _ _ h1, lexRun_showNat,
    lexRun_cons _ ']', hb, lexRun_of _ _ _ _ _ h2, lexRun_showNat, lexRun_cons, hp, flush_showNat, flush_showNat]
  simp [starToks, lexRun]

/-- the words of a term -/
noncomputable def termToks (fmt : ℝ → Decimal) (d : ℕ) (c : Coeff) : List Token :=
  (fmt c.a).toks ++ (List.range d).flatMap fun k => starToks k (c.deg.getD k 0)

theorem lexRun_text (D : List Token) (d : Decimal) (h : d.ip ≠ []) :
    lexRun ⟨D, []⟩ d.text = ⟨D ++ (if d.neg then [.sym '-'] else []), d.unsigned⟩ := by
  rw [d.text_unsigned, lexRun_append]
  have hs : lexRun ⟨D, []⟩ (if d.neg then ['-'] else []) = ⟨D ++ (if d.neg then [.sym '-'] else []), []⟩ := by
    cases d.neg with
    | false => simp [lexRun]
    | true =>
      show lexStep ⟨D, []⟩ '-' = _
      rw [lexStep_done]; rfl
  rw [hs, lexRun_unsigned _ d h]

theorem lexRun_stars (D : List Token) (g : ℕ → ℕ) (l : List ℕ) :
    lexRun ⟨D, []⟩ (l.flatMap fun k => "*pow(x[".toList ++ showNat k ++ "], ".toList ++ showNat (g k) ++ ")".toList) =
      ⟨D ++ l.flatMap fun k => starToks k (g k), []⟩ := by
  induction l generalizing D with
  | nil => simp [lexRun]
  | cons k l ih =>
    rw [List.flatMap_cons, lexRun_append, lexRun_star, ih, List.flatMap_cons]
    simp [flush]

theorem lexRun_term (fmt : ℝ → Decimal) (hf : PrintsInteger fmt) (d : ℕ) (hd : 1 ≤ d) (c : Coeff) (D : List Token) :
    lexRun ⟨D, []⟩ (cppTerm fmt d c) = ⟨D ++ termToks fmt d c, []⟩ := by
  obtain ⟨d, rfl⟩ : ∃ j, d = j + 1 := ⟨d - 1, by omega⟩
  unfold cppTerm termToks
  rw [lexRun_append, lexRun_text _ _ (hf _), List.range_succ_eq_map, List.flatMap_cons, lexRun_append, lexRun_star,
    lexRun_stars, flush_unsigned _ (hf _), List.flatMap_cons]
  simp [Decimal.toks]

/-- the words of a sum -/
noncomputable def cppSumToks (fmt : ℝ → Decimal) (d : ℕ) : List Coeff → List Token
  | [] => []
  | [c] => termToks fmt d c
  | c :: rest => termToks fmt d c ++ [.sym '+'] ++ cppSumToks fmt d rest

theorem lexRun_cppSum (fmt : ℝ → Decimal) (hf : PrintsInteger fmt) (d : ℕ) (hd : 1 ≤ d) (l : List Coeff) (D : List Token) :
    lexRun ⟨D, []⟩ (cppSum fmt d l) = ⟨D ++ cppSumToks fmt d l, []⟩ := by
  unfold cppSum
  have hp : ∀ D : List Token, lexRun ⟨D, []⟩ " + ".toList = ⟨D ++ [.sym '+'], []⟩ := fun D => by
    have h : lexRun ⟨[], []⟩ " + ".toList = ⟨[.sym '+'], []⟩ := by decide +kernel
    exact lexRun_of _ _ _ _ _ h
  induction l generalizing D with
  | nil => simp [plusList, cppSumToks, lexRun]
  | cons c l ih =>
    cases l with
    | nil => exact lexRun_term fmt hf d hd c D
    | cons c' l =>
      rw [List.map_cons, List.map_cons, plusList, lexRun_append, lexRun_append, lexRun_term fmt hf d hd, hp,
        ← List.map_cons, ih]
      · have el : cppSumToks fmt d (c :: c' :: l) = termToks fmt d c ++ [.sym '+'] ++ cppSumToks fmt d (c' :: l) := by
          rw [cppSumToks.eq_def]
        rw [el]
        simp only [List.append_assoc]
      · simp

/-! ### Expressions -/

/-- the expression `pow(x[k], e)` -/
def powE (k e : ℕ) : Expr :=
  .call ['p', 'o', 'w'] (.cons (.index (.var ['x']) (showNat k)) (.cons (.num (showNat e)) .nil))

/-- a product with powers -/
def starsE (g : ℕ → ℕ) : Expr → List ℕ → Expr
  | e, [] => e
  | e, k :: l => starsE g (.bin .mul e (powE k (g k))) l

/-- the expression of a term -/
noncomputable def termE (fmt : ℝ → Decimal) (d : ℕ) (c : Coeff) : Expr :=
  starsE (fun k => c.deg.getD k 0) (numE (fmt c.a)) (List.range d)

/-- the end of a product -/
def EndsProd (ts : List Token) : Prop := EndsExpr ts ∨ ∃ r, ts = .sym '+' :: r

theorem EndsProd.atom {ts : List Token} (h : EndsProd ts) : EndsAtom ts := by
  rcases h with h | ⟨r, rfl⟩
  · exact h.atom
  · exact .inr ⟨'+', r, rfl, by decide, by decide⟩

theorem pUnary_pow (n k e : ℕ) (rest : List Token) (hr : EndsAtom rest) :
    pUnary (n + 12) (.ident ['p', 'o', 'w'] :: .sym '(' :: .ident ['x'] :: .sym '[' :: .num (showNat k) :: .sym ']' ::
      .sym ',' :: .num (showNat e) :: .sym ')' :: rest) = some (powE k e, rest) := by
  have ha : pAtom (n + 11) (.ident ['p', 'o', 'w'] :: .sym '(' :: .ident ['x'] :: .sym '[' :: .num (showNat k) :: .sym ']' ::
      .sym ',' :: .num (showNat e) :: .sym ')' :: rest) = some (powE k e, rest) := by
    unfold powE
    generalize showNat k = a
    generalize showNat e = b
    rfl
  rw [pUnary_of_atom _ _ _ _ ha, pSuffix_stop _ _ _ hr]

theorem endsAtom_stars (g : ℕ → ℕ) (l : List ℕ) (rest : List Token) (hr : EndsAtom rest) :
    EndsAtom ((l.flatMap fun k => starToks k (g k)) ++ rest) := by
  cases l with
  | nil => exact hr
  | cons k l => exact .inr ⟨'*', _, rfl, by decide, by decide⟩

theorem pProdTail_stars (g : ℕ → ℕ) (l : List ℕ) (e : Expr) (rest : List Token) (hr : EndsProd rest) :
    ∀ n, pProdTail (n + 13 + l.length) e ((l.flatMap fun k => starToks k (g k)) ++ rest) = some (starsE g e l, rest) := by
  induction l generalizing e with
  | nil =>
    intro n
    show pProdTail (n + 12 + 1) e rest = _
    rcases hr with h | ⟨r, rfl⟩
    · exact pProdTail_stop _ _ _ h
    · rfl
  | cons k l ih =>
    intro n
    have hu := pUnary_pow (n + 1 + l.length) k (g k) _ (endsAtom_stars g l rest hr.atom)
    have e1 : (((k :: l).flatMap fun k => starToks k (g k)) ++ rest) = .sym '*' :: .ident ['p', 'o', 'w'] :: .sym '(' ::
        .ident ['x'] :: .sym '[' :: .num (showNat k) :: .sym ']' :: .sym ',' :: .num (showNat (g k)) :: .sym ')' ::
        ((l.flatMap fun k => starToks k (g k)) ++ rest) := by
      simp [starToks]
    have e2 : n + 13 + (k :: l).length = (n + 13 + l.length) + 1 := by simp; omega
    rw [e1, e2]
    show (pUnary (n + 13 + l.length) _).bind _ = _
    rw [show n + 13 + l.length = n + 1 + l.length + 12 by omega, hu, Option.bind_some,
      show n + 1 + l.length + 12 = n + 13 + l.length by omega]
    exact ih _ n

theorem pUnary_number (d : Decimal) (k : ℕ) (rest : List Token) (hr : EndsAtom rest) :
    pUnary (k + 3) (d.toks ++ rest) = some (numE d, rest) := by
  have hs := fun j e => pSuffix_stop j e rest hr
  unfold Decimal.toks numE
  cases d.neg with
  | false =>
    show pUnary (k + 3) (.num d.unsigned :: rest) = _
    rw [pUnary_of_atom (k + 2) _ (.num d.unsigned) rest rfl, hs]
    rfl
  | true =>
    show (pUnary (k + 2) (.num d.unsigned :: rest)).map _ = _
    rw [pUnary_of_atom (k + 1) _ (.num d.unsigned) rest rfl, hs]
    rfl

theorem pProd_term (fmt : ℝ → Decimal) (d : ℕ) (c : Coeff) (rest : List Token) (hr : EndsProd rest) (n : ℕ) :
    pProd (n + 14 + d) (termToks fmt d c ++ rest) = some (termE fmt d c, rest) := by
  have hu := pUnary_number (fmt c.a) (n + 10 + d) _ (endsAtom_stars (fun k => c.deg.getD k 0) (List.range d) rest hr.atom)
  have ht := pProdTail_stars (fun k => c.deg.getD k 0) (List.range d) (numE (fmt c.a)) rest hr n
  rw [List.length_range] at ht
  unfold termToks
  rw [List.append_assoc]
  rw [show n + 14 + d = (n + 13 + d) + 1 by omega]
  show (pUnary (n + 13 + d) _).bind _ = _
  rw [show n + 13 + d = n + 10 + d + 3 by omega, hu, Option.bind_some, show n + 10 + d + 3 = n + 13 + d by omega]
  exact ht

/-- the terms after the first one -/
noncomputable def sumTailE (fmt : ℝ → Decimal) (d : ℕ) : Expr → List Coeff → Expr
  | e, [] => e
  | e, c :: l => sumTailE fmt d (.bin .add e (termE fmt d c)) l

/-- the expression of a sum -/
noncomputable def cppSumE (fmt : ℝ → Decimal) (d : ℕ) : List Coeff → Expr
  | [] => .num []
  | c :: l => sumTailE fmt d (termE fmt d c) l

theorem cppSumToks_cons (fmt : ℝ → Decimal) (d : ℕ) (c : Coeff) (l : List Coeff) :
    cppSumToks fmt d (c :: l) = termToks fmt d c ++ l.flatMap fun c => .sym '+' :: termToks fmt d c := by
  induction l generalizing c with
  | nil => simp [cppSumToks]
  | cons c' l ih =>
    have el : cppSumToks fmt d (c :: c' :: l) = termToks fmt d c ++ [.sym '+'] ++ cppSumToks fmt d (c' :: l) := by
      rw [cppSumToks.eq_def]
    rw [el, ih, List.flatMap_cons]
    simp

theorem endsProd_terms (fmt : ℝ → Decimal) (d : ℕ) (l : List Coeff) (rest : List Token) (hr : EndsExpr rest) :
    EndsProd ((l.flatMap fun c => .sym '+' :: termToks fmt d c) ++ rest) := by
  cases l with
  | nil => exact .inl hr
  | cons c l => exact .inr ⟨_, rfl⟩

theorem pSumTail_terms (fmt : ℝ → Decimal) (d : ℕ) (l : List Coeff) (e : Expr) (rest : List Token) (hr : EndsExpr rest) :
    ∀ n, pSumTail (n + 15 + d + l.length) e ((l.flatMap fun c => .sym '+' :: termToks fmt d c) ++ rest) =
      some (sumTailE fmt d e l, rest) := by
  induction l generalizing e with
  | nil =>
    intro n
    rw [show n + 15 + d + ([] : List Coeff).length = n + 14 + d + 1 by simp; omega]
    exact pSumTail_stop (n + 14 + d) _ _ hr
  | cons c l ih =>
    intro n
    have hp := pProd_term fmt d c _ (endsProd_terms fmt d l rest hr) (n + 1 + l.length)
    have e1 : ((c :: l).flatMap fun c => .sym '+' :: termToks fmt d c) ++ rest =
        .sym '+' :: (termToks fmt d c ++ ((l.flatMap fun c => .sym '+' :: termToks fmt d c) ++ rest)) := by simp
    rw [e1, show n + 15 + d + (c :: l).length = (n + 15 + d + l.length) + 1 by simp; omega]
    show (pProd (n + 15 + d + l.length) _).bind _ = _
    rw [show n + 15 + d + l.length = n + 1 + l.length + 14 + d by omega, hp, Option.bind_some,
      show n + 1 + l.length + 14 + d = n + 15 + d + l.length by omega]
    exact ih _ n

theorem pExpr_cppSum (fmt : ℝ → Decimal) (d : ℕ) (l : List Coeff) (hl : l ≠ []) (rest : List Token) (hr : EndsExpr rest)
    (n : ℕ) (hn : 20 + d + l.length ≤ n) :
    pExpr n (cppSumToks fmt d l ++ rest) = some (cppSumE fmt d l, rest) := by
  cases l with
  | nil => exact absurd rfl hl
  | cons c l =>
    simp only [List.length_cons] at hn
    obtain ⟨n, rfl⟩ : ∃ j, n = (j + 15 + d + l.length) + 1 + 1 := ⟨n - 17 - d - l.length, by omega⟩
    apply pExpr_of_sum _ _ _ _ _ hr
    have hp := pProd_term fmt d c _ (endsProd_terms fmt d l rest hr) (n + 1 + l.length)
    rw [cppSumToks_cons, List.append_assoc]
    show (pProd (n + 15 + d + l.length) _).bind _ = _
    rw [show n + 15 + d + l.length = n + 1 + l.length + 14 + d by omega, hp, Option.bind_some,
      show n + 1 + l.length + 14 + d = n + 15 + d + l.length by omega]
    exact pSumTail_terms fmt d l _ rest hr n

/-! ### Lengths -/

theorem toks_bound (fmt : ℝ → Decimal) (d : ℕ) (c : Coeff) : 10 * d + 1 ≤ (termToks fmt d c).length := by
  unfold termToks
  rw [List.length_append, List.length_flatMap]
  have h1 := toks_length (fmt c.a)
  have h2 : ((List.range d).map fun k => (starToks k (c.deg.getD k 0)).length).sum = 10 * d := by
    have : (fun k => (starToks k (c.deg.getD k 0)).length) = fun _ => 10 := by funext k; rfl
    rw [this]; simp [mul_comm]
  omega

theorem cppSum_bound (fmt : ℝ → Decimal) (d : ℕ) (l : List Coeff) (hl : l ≠ []) :
    10 * d + l.length ≤ (cppSumToks fmt d l).length := by
  cases l with
  | nil => exact absurd rfl hl
  | cons c l =>
    rw [cppSumToks_cons, List.length_append, List.length_flatMap]
    have h1 := toks_bound fmt d c
    have h2 : l.length ≤ (l.map fun c => (Token.sym '+' :: termToks fmt d c).length).sum := by
      induction l with
      | nil => simp
      | cons c' l ih => simp only [List.map_cons, List.sum_cons, List.length_cons] at ih ⊢; have := ih (by simp); omega
    simp only [List.length_cons] at *
    omega

end Alta
