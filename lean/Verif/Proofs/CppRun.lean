import Verif.Proofs.CppParse
import Verif.Spec.Rational
/-
Running the C++ exported for a rational function.
-/
namespace Alta
open Glsl Real
noncomputable section

/-! ### Directives -/

theorem code_append (a s : Str) (h : '#' ∉ a) (p : Cpp.Place) (hp : p ≠ .directive) :
    ∃ q, q ≠ .directive ∧ Cpp.code p (a ++ s) = a ++ Cpp.code q s := by
  induction a generalizing p with
  | nil => exact ⟨p, hp, rfl⟩
  | cons c a ih =>
    have hc : c ≠ '#' := fun e => h (by simp [e])
    have ha : '#' ∉ a := fun e => h (by simp [e])
    cases p with
    | start =>
      obtain ⟨q, h1, h2⟩ := ih ha (if isSpace c then .start else .inside) (by split <;> simp)
      exact ⟨q, h1, by rw [List.cons_append, Cpp.code, if_neg hc, h2]; rfl⟩
    | inside =>
      obtain ⟨q, h1, h2⟩ := ih ha (if c = '\n' then .start else .inside) (by split <;> simp)
      exact ⟨q, h1, by rw [List.cons_append, Cpp.code, h2]; rfl⟩
    | directive => exact absurd rfl hp

theorem code_whole (a : Str) (h : '#' ∉ a) (p : Cpp.Place) (hp : p ≠ .directive) : Cpp.code p a = a := by
  obtain ⟨q, -, h2⟩ := code_append a [] h p hp
  have : Cpp.code q [] = [] := by cases q <;> rfl
  rw [List.append_nil] at h2
  rw [h2, this, List.append_nil]

theorem code_directive (w s : Str) (h : '\n' ∉ w) : Cpp.code .directive (w ++ '\n' :: s) = '\n' :: Cpp.code .start s := by
  induction w with
  | nil => rfl
  | cons c w ih =>
    have hc : c ≠ '\n' := fun e => h (by simp [e])
    rw [List.cons_append, Cpp.code, if_neg hc]
    exact ih (fun e => h (by simp [e]))

theorem directives_directive (w u s : Str) (h : '\n' ∉ w) :
    Cpp.directives .directive u (w ++ '\n' :: s) = (u ++ w) :: Cpp.directives .start [] s := by
  induction w generalizing u with
  | nil => simp [Cpp.directives]
  | cons c w ih =>
    have hc : c ≠ '\n' := fun e => h (by simp [e])
    rw [List.cons_append, Cpp.directives, if_neg hc, ih _ (fun e => h (by simp [e]))]
    simp

theorem parse_included (s : Str) : Cpp.parse ("#include <Eigen/Core>\n".toList ++ s) =
    Cpp.pFile (100 + 10 * (lex ('\n' :: Cpp.code .start s)).length) (lex ('\n' :: Cpp.code .start s)) := by
  have e : "#include <Eigen/Core>\n".toList = '#' :: ("include <Eigen/Core>".toList ++ ['\n']) := by decide +kernel
  have hn : '\n' ∉ "include <Eigen/Core>".toList := by decide +kernel
  unfold Cpp.parse
  rw [e]
  generalize "include <Eigen/Core>".toList = w at hn ⊢
  have e2 : '#' :: (w ++ ['\n']) ++ s = '#' :: (w ++ '\n' :: s) := by simp
  have h1 : Cpp.directives .start [] ('#' :: (w ++ '\n' :: s)) = w :: Cpp.directives .start [] s := by
    have := directives_directive w [] s hn
    rw [Cpp.directives, if_pos rfl, this]
    rfl
  have h2 : Cpp.code .start ('#' :: (w ++ '\n' :: s)) = '\n' :: Cpp.code .start s := by
    rw [Cpp.code, if_pos rfl, code_directive w s hn]
  rw [e2, h1, h2, if_pos (by simp)]

/-! ### Characters -/

theorem hash_showNat (n : ℕ) : '#' ∉ showNat n := fun h => by
  have := showNat_all_digit n '#' h
  revert this; decide

theorem hash_digits (l : List (Fin 10)) : '#' ∉ showDigits l := fun h => by
  have := isDigit_showDigits l '#' h
  revert this; decide

theorem hash_text (d : Decimal) : '#' ∉ d.text := by
  unfold Decimal.text
  simp only [List.mem_append, not_or]
  refine ⟨⟨⟨?_, hash_digits _⟩, ?_⟩, ?_⟩
  · split <;> simp
  · split
    · simp
    · simp only [List.mem_cons, not_or]; exact ⟨by decide, hash_digits _⟩
  · split
    · simp
    · unfold showInt
      split
      · simp only [List.mem_cons, not_or]; exact ⟨by decide, by decide, hash_showNat _⟩
      · simp only [List.mem_cons, not_or]; exact ⟨by decide, hash_showNat _⟩

theorem hash_term (fmt : ℝ → Decimal) (d : ℕ) (c : Coeff) : '#' ∉ cppTerm fmt d c := by
  unfold cppTerm
  have h1 : '#' ∉ "*pow(x[".toList := by decide +kernel
  have h2 : '#' ∉ "], ".toList := by decide +kernel
  have h3 : '#' ∉ ")".toList := by decide +kernel
  generalize "*pow(x[".toList = a at h1 ⊢
  generalize "], ".toList = b at h2 ⊢
  generalize ")".toList = e at h3 ⊢
  simp only [List.mem_append, List.mem_flatMap, not_or, not_exists, not_and]
  exact ⟨hash_text _, fun k _ => ⟨⟨⟨⟨h1, hash_showNat _⟩, h2⟩, hash_showNat _⟩, h3⟩⟩

theorem hash_plus (l : List Str) (h : ∀ s ∈ l, '#' ∉ s) : '#' ∉ plusList l := by
  have hp : '#' ∉ " + ".toList := by decide +kernel
  generalize hq : " + ".toList = p at hp
  induction l with
  | nil => simp [plusList]
  | cons x l ih =>
    cases l with
    | nil => exact h x (by simp)
    | cons y l =>
      rw [plusList, hq]
      · simp only [List.mem_append, not_or]
        exact ⟨⟨h x (by simp), hp⟩, ih (fun s hs => h s (by simp [hs]))⟩
      · simp

theorem hash_sum (fmt : ℝ → Decimal) (d : ℕ) (l : List Coeff) : '#' ∉ cppSum fmt d l := by
  apply hash_plus
  intro s hs
  obtain ⟨c, -, rfl⟩ := List.mem_map.mp hs
  exact hash_term fmt d c

theorem hash_body (fmt : ℝ → Decimal) (r : Rat1) : '#' ∉ r.cppBody fmt := by
  unfold Rat1.cppBody
  have h1 : '#' ∉ "\tdouble num = ".toList := by decide +kernel
  have h2 : '#' ∉ ";\n".toList := by decide +kernel
  have h3 : '#' ∉ "\tdouble den = ".toList := by decide +kernel
  have h4 : '#' ∉ "\tres[0] = num / den;\n".toList := by decide +kernel
  generalize "\tdouble num = ".toList = a at h1 ⊢
  generalize ";\n".toList = b at h2 ⊢
  generalize "\tdouble den = ".toList = c at h3 ⊢
  generalize "\tres[0] = num / den;\n".toList = e at h4 ⊢
  simp only [List.mem_append, not_or]
  exact ⟨⟨⟨⟨⟨⟨h1, hash_sum _ _ _⟩, h2⟩, h3⟩, hash_sum _ _ _⟩, h2⟩, h4⟩

/-! ### Words of the file -/

/-- the words of a channel -/
def bodyToks (fmt : ℝ → Decimal) (r : Rat1) : List Token :=
  [.ident ['d', 'o', 'u', 'b', 'l', 'e'], .ident ['n', 'u', 'm'], .sym '='] ++ cppSumToks fmt r.dimX r.p ++
  [.sym ';', .ident ['d', 'o', 'u', 'b', 'l', 'e'], .ident ['d', 'e', 'n'], .sym '='] ++ cppSumToks fmt r.dimX r.q ++
  [.sym ';', .ident ['r', 'e', 's'], .sym '[', .num ['0'], .sym ']', .sym '=', .ident ['n', 'u', 'm'], .sym '/',
    .ident ['d', 'e', 'n'], .sym ';']

theorem lexRun_cppBody (fmt : ℝ → Decimal) (hf : PrintsInteger fmt) (r : Rat1) (hd : 1 ≤ r.dimX) (D : List Token) :
    lexRun ⟨D, []⟩ (r.cppBody fmt ++ ['\n']) = ⟨D ++ bodyToks fmt r, []⟩ := by
  unfold Rat1.cppBody bodyToks
  have h1 : lexRun ⟨[], []⟩ "\tdouble num = ".toList =
      ⟨[.ident ['d', 'o', 'u', 'b', 'l', 'e'], .ident ['n', 'u', 'm'], .sym '='], []⟩ := by decide +kernel
  have h2 : lexRun ⟨[], []⟩ ";\n".toList = ⟨[.sym ';'], []⟩ := by decide +kernel
  have h3 : lexRun ⟨[], []⟩ "\tdouble den = ".toList =
      ⟨[.ident ['d', 'o', 'u', 'b', 'l', 'e'], .ident ['d', 'e', 'n'], .sym '='], []⟩ := by decide +kernel
  have h4 : lexRun ⟨[], []⟩ "\tres[0] = num / den;\n".toList =
      ⟨[.ident ['r', 'e', 's'], .sym '[', .num ['0'], .sym ']', .sym '=', .ident ['n', 'u', 'm'], .sym '/',
        .ident ['d', 'e', 'n'], .sym ';'], []⟩ := by decide +kernel
  have h5 : lexRun ⟨[], []⟩ ['\n'] = ⟨[], []⟩ := by decide +kernel
  generalize "\tdouble num = ".toList = a at h1 ⊢
  generalize ";\n".toList = b at h2 ⊢
  generalize "\tdouble den = ".toList = c at h3 ⊢
  generalize "\tres[0] = num / den;\n".toList = e at h4 ⊢
  rw [lexRun_append, lexRun_append, lexRun_append, lexRun_append, lexRun_append, lexRun_append, lexRun_append,
    lexRun_of _ _ _ _ _ h1, lexRun_cppSum fmt hf _ hd, lexRun_of _ _ _ _ _ h2, lexRun_of _ _ _ _ _ h3,
    lexRun_cppSum fmt hf _ hd, lexRun_of _ _ _ _ _ h2, lexRun_of _ _ _ _ _ h4, lexRun_of _ _ _ _ _ h5]
  simp

theorem lexRun_channels (fmt : ℝ → Decimal) (hf : PrintsInteger fmt) (rs : List Rat1) (hd : ∀ r ∈ rs, 1 ≤ r.dimX)
    (D : List Token) :
    lexRun ⟨D, []⟩ (rs.flatMap fun r => r.cppBody fmt ++ ['\n']) = ⟨D ++ rs.flatMap (bodyToks fmt), []⟩ := by
  induction rs generalizing D with
  | nil => simp [lexRun]
  | cons r rs ih =>
    rw [List.flatMap_cons, lexRun_append, lexRun_cppBody fmt hf r (hd r (by simp)), ih (fun r hr => hd r (by simp [hr]))]
    simp

/-- the words of the file before the statements of the channels -/
def headToks (dimY : ℕ) : List Token :=
  [.ident "typedef".toList, .ident "Eigen".toList, .sym ':', .sym ':', .ident "VectorXd".toList, .ident ['v', 'e', 'c'],
    .sym ';', .ident ['v', 'e', 'c'], .ident "brdf".toList, .sym '(', .ident "const".toList, .ident ['v', 'e', 'c'],
    .sym '&', .ident ['x'], .sym ')', .sym '{', .ident ['v', 'e', 'c'], .ident ['r', 'e', 's'], .sym '(',
    .num (showNat dimY), .sym ')', .sym ';']

/-- the words after them -/
def endToks : List Token := [.ident "return".toList, .ident ['r', 'e', 's'], .sym ';', .sym '}']

/-- the file starts with its directive -/
theorem cppFile_eq (dimY : ℕ) (call : Str) : cppFile dimY call = "#include <Eigen/Core>\n".toList ++
    ("typedef Eigen::VectorXd vec;\n\nvec brdf(const vec& x)\n{\n\tvec res(".toList ++ showNat dimY ++
  ");\n".toList ++ (call ++ "\treturn res;\n}\n\n".toList)) := by
  unfold cppFile
  have : "#include <Eigen/Core>\ntypedef Eigen::VectorXd vec;\n\nvec brdf(const vec& x)\n{\n\tvec res(".toList =
    "#include <Eigen/Core>\n".toList ++ "typedef Eigen::VectorXd vec;\n\nvec brdf(const vec& x)\n{\n\tvec res(".toList := by
    decide +kernel
  rw [this]
  simp only [List.append_assoc]

theorem hash_head (dimY : ℕ) : '#' ∉ "typedef Eigen::VectorXd vec;\n\nvec brdf(const vec& x)\n{\n\tvec res(".toList ++
    showNat dimY ++ ");\n".toList := by
  have h1 : '#' ∉ "typedef Eigen::VectorXd vec;\n\nvec brdf(const vec& x)\n{\n\tvec res(".toList := by decide +kernel
  have h2 : '#' ∉ ");\n".toList := by decide +kernel
  simp only [List.mem_append, not_or]
  exact ⟨⟨h1, hash_showNat _⟩, h2⟩

theorem lexRun_head (dimY : ℕ) : lexRun ⟨[], []⟩ ('\n' :: ("typedef Eigen::VectorXd vec;\n\nvec brdf(const vec& x)\n{\n\tvec res(".toList ++
    showNat dimY ++ ");\n".toList)) = ⟨headToks dimY, []⟩ := by
  have h1 : lexRun ⟨[], []⟩ ('\n' :: "typedef Eigen::VectorXd vec;\n\nvec brdf(const vec& x)\n{\n\tvec res(".toList) =
      ⟨[.ident "typedef".toList, .ident "Eigen".toList, .sym ':', .sym ':', .ident "VectorXd".toList, .ident ['v', 'e', 'c'],
    .sym ';', .ident ['v', 'e', 'c'], .ident "brdf".toList, .sym '(', .ident "const".toList, .ident ['v', 'e', 'c'],
    .sym '&', .ident ['x'], .sym ')', .sym '{', .ident ['v', 'e', 'c'], .ident ['r', 'e', 's'], .sym '('], []⟩ := by
    decide +kernel
  have e2 : ");\n".toList = ')' :: ";\n".toList := by decide +kernel
  have h2 : lexRun ⟨[], []⟩ ";\n".toList = ⟨[.sym ';'], []⟩ := by decide +kernel
  have hp := fun D w => lexStep_end D w ')' (by decide) (by decide) (by decide) (by decide) (by decide) (by decide)
  unfold headToks
  rw [e2]
  generalize ";\n".toList = b at h2 ⊢
  generalize "typedef Eigen::VectorXd vec;\n\nvec brdf(const vec& x)\n{\n\tvec res(".toList = a at h1 ⊢
  have e : '\n' :: (a ++ showNat dimY ++ ')' :: b) = ('\n' :: a) ++ (showNat dimY ++ (')' :: b)) := by simp
  rw [e, lexRun_append, h1, lexRun_append, lexRun_showNat, lexRun_cons, hp, lexRun_of _ _ _ _ _ h2, flush_showNat]
  simp

theorem lex_cppFile (fmt : ℝ → Decimal) (hf : PrintsInteger fmt) (dimY : ℕ) (rs : List Rat1) (hd : ∀ r ∈ rs, 1 ≤ r.dimX) :
    Cpp.parse (cppFile dimY (rs.flatMap fun r => r.cppBody fmt ++ ['\n'])) =
      Cpp.pFile (100 + 10 * (headToks dimY ++ rs.flatMap (bodyToks fmt) ++ endToks).length)
        (headToks dimY ++ rs.flatMap (bodyToks fmt) ++ endToks) := by
  have he : lexRun ⟨[], []⟩ "\treturn res;\n}\n\n".toList = ⟨endToks, []⟩ := by decide +kernel
  have hh : '#' ∉ "\treturn res;\n}\n\n".toList := by decide +kernel
  rw [cppFile_eq, parse_included]
  have hc : '#' ∉ rs.flatMap fun r => r.cppBody fmt ++ ['\n'] := by
    simp only [List.mem_flatMap, List.mem_append, not_exists, not_and, not_or]
    exact fun r _ => ⟨hash_body fmt r, by decide⟩
  have hd' := hash_head dimY
  have hl := lexRun_head dimY
  generalize "typedef Eigen::VectorXd vec;\n\nvec brdf(const vec& x)\n{\n\tvec res(".toList ++
    showNat dimY ++ ");\n".toList = A at hd' hl ⊢
  generalize "\treturn res;\n}\n\n".toList = E at he hh ⊢
  rw [code_whole _ (by simp only [List.mem_append, not_or]; exact ⟨hd', hc, hh⟩) _ (by simp)]
  have hx : lex ('\n' :: (A ++ ((rs.flatMap fun r => r.cppBody fmt ++ ['\n']) ++ E))) =
      headToks dimY ++ rs.flatMap (bodyToks fmt) ++ endToks := by
    have : lexRun ⟨[], []⟩ ('\n' :: (A ++ ((rs.flatMap fun r => r.cppBody fmt ++ ['\n']) ++ E))) =
        ⟨headToks dimY ++ rs.flatMap (bodyToks fmt) ++ endToks, []⟩ := by
      rw [← List.cons_append, lexRun_append, hl, lexRun_append, lexRun_channels fmt hf rs hd, lexRun_of _ _ _ _ _ he]
    show (lexRun ⟨[], []⟩ _).done ++ flush (lexRun ⟨[], []⟩ _).word = _
    rw [this]
    simp [flush]
  rw [hx]

/-! ### Statements -/

/-- the expression `num / den` -/
def quotE : Expr := .bin .div (.var ['n', 'u', 'm']) (.var ['d', 'e', 'n'])

/-- the statements of a channel -/
def bodyStmts (fmt : ℝ → Decimal) (r : Rat1) : List Cpp.Stmt :=
  [.double ['n', 'u', 'm'] (cppSumE fmt r.dimX r.p), .double ['d', 'e', 'n'] (cppSumE fmt r.dimX r.q),
    .setAt ['r', 'e', 's'] ['0'] quotE]

/-- the channel has coefficients -/
def Rat1.HasTerms (r : Rat1) : Prop := r.p ≠ [] ∧ r.q ≠ []

theorem pStmt_double (x : Str) (hx : Cpp.keyword x = false) (n : ℕ) (T : Str) (ts rest : List Token) (e : Expr)
    (h : pExpr n ts = some (e, .sym ';' :: rest)) :
    Cpp.pStmt n T (.ident ['d', 'o', 'u', 'b', 'l', 'e'] :: .ident x :: .sym '=' :: ts) = some (.double x e, rest) := by
  simp only [Cpp.pStmt]
  rw [if_pos ⟨by decide +kernel, hx⟩, h]
  rfl

theorem pStmt_quot (n : ℕ) (T : Str) (rest : List Token) :
    Cpp.pStmt (n + 20) T (.ident ['r', 'e', 's'] :: .sym '[' :: .num ['0'] :: .sym ']' :: .sym '=' :: .ident ['n', 'u', 'm'] ::
      .sym '/' :: .ident ['d', 'e', 'n'] :: .sym ';' :: rest) = some (.setAt ['r', 'e', 's'] ['0'] quotE, rest) := by
  simp only [Cpp.pStmt]
  rw [if_pos (by decide +kernel)]
  rfl

theorem pStmts_step (m n : ℕ) (T : Str) (ts : List Token) (w : Str) (h : ts.head? = some (.ident w)) (s : Cpp.Stmt)
    (r : List Token) (rest : List Cpp.Stmt) (h1 : Cpp.pStmt n T ts = some (s, r))
    (h2 : Cpp.pStmts m n T r = some rest) : Cpp.pStmts (m + 1) n T ts = some (s :: rest) := by
  rw [Cpp.pStmts, if_neg (by rintro rfl; cases h), h1, Option.bind_some, h2, Option.map_some]

theorem pStmts_body (fmt : ℝ → Decimal) (r : Rat1) (hr : r.HasTerms) (m n : ℕ) (T : Str)
    (hn : 100 + 10 * (bodyToks fmt r).length ≤ n) (ts : List Token) (rest : List Cpp.Stmt)
    (h : Cpp.pStmts m n T ts = some rest) :
    Cpp.pStmts (m + 3) n T (bodyToks fmt r ++ ts) = some (bodyStmts fmt r ++ rest) := by
  have b1 := cppSum_bound fmt r.dimX r.p hr.1
  have b2 := cppSum_bound fmt r.dimX r.q hr.2
  unfold bodyToks at hn ⊢
  simp only [List.length_append, List.length_cons, List.length_nil] at hn
  have e : [Token.ident ['d', 'o', 'u', 'b', 'l', 'e'], .ident ['n', 'u', 'm'], .sym '='] ++ cppSumToks fmt r.dimX r.p ++
      [.sym ';', .ident ['d', 'o', 'u', 'b', 'l', 'e'], .ident ['d', 'e', 'n'], .sym '='] ++ cppSumToks fmt r.dimX r.q ++
      [.sym ';', .ident ['r', 'e', 's'], .sym '[', .num ['0'], .sym ']', .sym '=', .ident ['n', 'u', 'm'], .sym '/',
        .ident ['d', 'e', 'n'], .sym ';'] ++ ts =
      .ident ['d', 'o', 'u', 'b', 'l', 'e'] :: .ident ['n', 'u', 'm'] :: .sym '=' :: (cppSumToks fmt r.dimX r.p ++
        (.sym ';' :: (.ident ['d', 'o', 'u', 'b', 'l', 'e'] :: .ident ['d', 'e', 'n'] :: .sym '=' :: (cppSumToks fmt r.dimX r.q ++
          (.sym ';' :: (.ident ['r', 'e', 's'] :: .sym '[' :: .num ['0'] :: .sym ']' :: .sym '=' :: .ident ['n', 'u', 'm'] ::
            .sym '/' :: .ident ['d', 'e', 'n'] :: .sym ';' :: ts)))))) := by simp
  rw [e]
  have hsemi : ∀ l : List Token, EndsExpr (.sym ';' :: l) := fun l => .inr ⟨';', l, rfl, by simp⟩
  have h1 := pExpr_cppSum fmt r.dimX r.p hr.1 _ (hsemi (.ident ['d', 'o', 'u', 'b', 'l', 'e'] :: .ident ['d', 'e', 'n'] :: .sym '=' :: (cppSumToks fmt r.dimX r.q ++
          (.sym ';' :: (.ident ['r', 'e', 's'] :: .sym '[' :: .num ['0'] :: .sym ']' :: .sym '=' :: .ident ['n', 'u', 'm'] ::
            .sym '/' :: .ident ['d', 'e', 'n'] :: .sym ';' :: ts))))) n (by omega)
  have h2 := pExpr_cppSum fmt r.dimX r.q hr.2 _ (hsemi (.ident ['r', 'e', 's'] :: .sym '[' :: .num ['0'] :: .sym ']' :: .sym '=' :: .ident ['n', 'u', 'm'] ::
            .sym '/' :: .ident ['d', 'e', 'n'] :: .sym ';' :: ts)) n (by omega)
  obtain ⟨n', rfl⟩ : ∃ j, n = j + 20 := ⟨n - 20, by omega⟩
  exact pStmts_step _ _ _ _ _ rfl _ _ _ (pStmt_double _ (by decide +kernel) _ _ _ _ _ h1)
    (pStmts_step _ _ _ _ _ rfl _ _ _ (pStmt_double _ (by decide +kernel) _ _ _ _ _ h2)
      (pStmts_step _ _ _ _ _ rfl _ _ _ (pStmt_quot n' T ts) h))

theorem pStmts_channels (fmt : ℝ → Decimal) (rs : List Rat1) (hr : ∀ r ∈ rs, r.HasTerms) (n : ℕ) (T : Str)
    (hn : 100 + 10 * (rs.flatMap (bodyToks fmt)).length ≤ n) (m : ℕ) (ts : List Token) (rest : List Cpp.Stmt)
    (h : Cpp.pStmts m n T ts = some rest) :
    Cpp.pStmts (m + 3 * rs.length) n T (rs.flatMap (bodyToks fmt) ++ ts) = some (rs.flatMap (bodyStmts fmt) ++ rest) := by
  induction rs with
  | nil => exact h
  | cons r rs ih =>
    rw [List.flatMap_cons, List.length_append] at hn
    rw [List.flatMap_cons, List.flatMap_cons, List.append_assoc, List.append_assoc,
      show m + 3 * (r :: rs).length = m + 3 * rs.length + 3 by simp; omega]
    exact pStmts_body fmt r (hr r (by simp)) _ n T (by omega) _ _ (ih (fun r h => hr r (by simp [h])) (by omega))

theorem pStmts_more (n : ℕ) (T : Str) : ∀ (m m' : ℕ) (ts : List Token) (l : List Cpp.Stmt), m ≤ m' →
    Cpp.pStmts m n T ts = some l → Cpp.pStmts m' n T ts = some l := by
  intro m
  induction m with
  | zero => intro m' ts l _ h; cases h
  | succ m ih =>
    intro m' ts l hm h
    obtain ⟨m', rfl⟩ : ∃ j, m' = j + 1 := ⟨m' - 1, by omega⟩
    rw [Cpp.pStmts] at h ⊢
    split at h
    · rename_i ht
      rw [if_pos ht]; exact h
    · rename_i ht
      rw [if_neg ht]
      obtain ⟨s, h1, h2⟩ := Option.bind_eq_some_iff.mp h
      obtain ⟨rest, h3, h4⟩ := Option.map_eq_some_iff.mp h2
      rw [h1, Option.bind_some, ih m' _ _ (by omega) h3, Option.map_some, h4]

/-- the function of an exported file -/
def cppDef (fmt : ℝ → Decimal) (dimY : ℕ) (rs : List Rat1) : Cpp.FunDef :=
  ⟨"brdf".toList, ['x'], .vector ['r', 'e', 's'] (showNat dimY) :: (rs.flatMap (bodyStmts fmt) ++ [.ret ['r', 'e', 's']])⟩

theorem pFile_channels (fmt : ℝ → Decimal) (dimY : ℕ) (rs : List Rat1) (hr : ∀ r ∈ rs, r.HasTerms) (n : ℕ)
    (hn : 100 + 10 * (headToks dimY ++ rs.flatMap (bodyToks fmt) ++ endToks).length ≤ n) :
    Cpp.pFile n (headToks dimY ++ rs.flatMap (bodyToks fmt) ++ endToks) = some (cppDef fmt dimY rs) := by
  simp only [List.length_append] at hn
  have hb : 3 * rs.length ≤ (rs.flatMap (bodyToks fmt)).length := by
    clear hr hn
    induction rs with
    | nil => simp
    | cons r rs ih =>
      rw [List.flatMap_cons, List.length_append]
      have : 3 ≤ (bodyToks fmt r).length := by
        unfold bodyToks; simp only [List.length_append, List.length_cons]; omega
      simp only [List.length_cons]; omega
  have h1 : Cpp.pStmts 2 n ['v', 'e', 'c'] endToks = some [.ret ['r', 'e', 's']] := by
    apply pStmts_step 1 n _ _ _ rfl (.ret ['r', 'e', 's']) [.sym '}'] [] _ rfl
    simp only [endToks, Cpp.pStmt]
    rw [if_pos (by decide +kernel)]
  have h2 := pStmts_channels fmt rs hr n ['v', 'e', 'c'] (by omega) 2 _ _ h1
  have h3 : Cpp.pStmts (2 + 3 * rs.length + 1) n ['v', 'e', 'c'] (.ident ['v', 'e', 'c'] :: .ident ['r', 'e', 's'] :: .sym '(' ::
      .num (showNat dimY) :: .sym ')' :: .sym ';' :: (rs.flatMap (bodyToks fmt) ++ endToks)) =
      some (.vector ['r', 'e', 's'] (showNat dimY) :: (rs.flatMap (bodyStmts fmt) ++ [.ret ['r', 'e', 's']])) := by
    apply pStmts_step _ n _ _ _ rfl _ _ _ _ h2
    simp only [Cpp.pStmt]
    rw [if_pos (by decide +kernel)]
  have h4 := pStmts_more n _ _ n _ _ (by omega) h3
  have e : headToks dimY ++ rs.flatMap (bodyToks fmt) ++ endToks = .ident "typedef".toList :: .ident "Eigen".toList :: .sym ':' ::
      .sym ':' :: .ident "VectorXd".toList :: .ident ['v', 'e', 'c'] ::
      .sym ';' :: .ident ['v', 'e', 'c'] :: .ident "brdf".toList :: .sym '(' :: .ident "const".toList :: .ident ['v', 'e', 'c'] ::
      .sym '&' :: .ident ['x'] :: .sym ')' :: .sym '{' :: .ident ['v', 'e', 'c'] :: .ident ['r', 'e', 's'] :: .sym '(' ::
      .num (showNat dimY) :: .sym ')' :: .sym ';' :: (rs.flatMap (bodyToks fmt) ++ endToks) := by
    unfold headToks
    rw [List.append_assoc]
    rfl
  rw [e]
  simp only [Cpp.pFile]
  rw [if_pos (by decide +kernel), h4]
  rfl

theorem parse_cppFile (fmt : ℝ → Decimal) (hf : PrintsInteger fmt) (dimY : ℕ) (rs : List Rat1)
    (hd : ∀ r ∈ rs, 1 ≤ r.dimX) (hr : ∀ r ∈ rs, r.HasTerms) :
    Cpp.parse (cppFile dimY (rs.flatMap fun r => r.cppBody fmt ++ ['\n'])) = some (cppDef fmt dimY rs) := by
  rw [lex_cppFile fmt hf dimY rs hd, pFile_channels fmt dimY rs hr _ le_rfl]

end
end Alta
