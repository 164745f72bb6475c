import Verif.Props.CppExport
import Verif.Props.ShaderWrongExamples
import Verif.Props.OrthoBasis
/-
Property C79: what the C++ export does not do.
-/
namespace Alta
open Glsl Real
noncomputable section

/-! ### The domain is not written -/

/-- The file does not depend on the domain: the same program is written for functions that differ by it. -/
theorem cpp_domain_lost (fmt : ℝ → Decimal) (r : Rat1) (dimX np nq : ℕ) (lo hi lo' hi' lo1 hi1 lo1' hi1' : List ℝ) :
    RatFn.exportCpp fmt ⟨dimX, 1, np, nq, lo, hi, [some { r with lo := lo1, hi := hi1 }]⟩ =
      RatFn.exportCpp fmt ⟨dimX, 1, np, nq, lo', hi', [some { r with lo := lo1', hi := hi1' }]⟩ := rfl

/-! ### Channels -/

theorem exec_twice (fmt : ℝ → Decimal) (r r' : Rat1) (env : Cpp.Env) (rest : List Cpp.Stmt) :
    Cpp.exec ['x'] env (bodyStmts fmt r ++ (bodyStmts fmt r' ++ rest)) = none := by
  simp only [bodyStmts, List.cons_append, List.nil_append]
  rw [Cpp.exec]
  split
  · rfl
  cases Cpp.eval env (cppSumE fmt r.dimX r.p) with
  | none => rfl
  | some a =>
    rw [Option.bind_some, Cpp.exec]
    split
    · rfl
    cases Cpp.eval ((['n', 'u', 'm'], .d a) :: env) (cppSumE fmt r.dimX r.q) with
    | none => rfl
    | some b =>
      rw [Option.bind_some, Cpp.exec]
      split
      · rfl
      split
      · split
        · rename_i l k h1 h2 h3
          cases Cpp.eval ((['d', 'e', 'n'], .d b) :: (['n', 'u', 'm'], .d a) :: env) quotE with
          | none => rfl
          | some c =>
            rw [Option.bind_some, Cpp.exec, if_pos (by simp)]
        · rfl
      · rfl

/-- **C79, limit.** A function with two channels or more is not exported as a program: the variables are declared again
    for the second channel. -/
theorem cpp_channels_not_a_program (fmt : ℝ → Decimal) (hf : CppFmt fmt) (f : RatFn) (hd : ∀ r ∈ f.channels, 1 ≤ r.dimX)
    (hr : ∀ r ∈ f.channels, r.HasTerms) (h2 : 2 ≤ f.channels.length) (x : List ℝ) : Cpp.run (f.exportCpp fmt) x = none := by
  rw [exportCpp_channels, run_cppFile fmt hf _ _ hd hr]
  match hc : f.channels, h2 with
  | r :: r' :: rs, _ =>
    rw [List.flatMap_cons, List.flatMap_cons, List.append_assoc, List.append_assoc]
    exact exec_twice fmt r r' _ _

/-- **C79, limit.** If the only channel that is allocated is not the first one, it is written as the first one, and the
    other elements of the result are not initialised. -/
theorem cpp_other_channel (fmt : ℝ → Decimal) (hf : CppFmt fmt) (f : RatFn) (r : Rat1) (k : ℕ) (hk : k < f.dimY)
    (hc : f.rs[k]? = some (some r)) (ho : ∀ j, j ≠ k → (f.rs[j]?).join = none)
    (hs : r.Standard) (hr : r.HasTerms) (z : List ℝ)
    (hq : polynomial r.dimX r.lo r.hi (r.getQ.map (printed fmt)) z ≠ 0) :
    Cpp.run (f.exportCpp fmt) (unitPoint r.dimX r.lo r.hi z) =
      some ((List.replicate f.dimY none).set 0 ((r.asPrinted fmt).value z)) := by
  have hch : f.channels = [r] := by
    unfold RatFn.channels
    obtain ⟨m, e⟩ : ∃ m, f.dimY = k + (m + 1) := ⟨f.dimY - k - 1, by omega⟩
    rw [e, List.range_add, List.filterMap_append, List.range_succ_eq_map, List.map_cons, List.filterMap_cons]
    have h1 : (List.range k).filterMap (fun k => (f.rs[k]?).join) = [] := by
      rw [List.filterMap_eq_nil_iff]
      intro j hj
      exact ho j (by have := List.mem_range.mp hj; omega)
    have h2 : (((List.range m).map Nat.succ).map (k + ·)).filterMap (fun k => (f.rs[k]?).join) = [] := by
      rw [List.filterMap_eq_nil_iff]
      intro j hj
      obtain ⟨i, hi, rfl⟩ := List.mem_map.mp hj
      obtain ⟨i', -, rfl⟩ := List.mem_map.mp hi
      exact ho _ (by omega)
    rw [h1, h2]
    simp [hc]
  rw [run_one_channel fmt hf f r hch hs hr _ (by simp [unitPoint]) (by rw [polynomial_unitPoint]; exact hq),
    polynomial_unitPoint, polynomial_unitPoint, asPrinted_value fmt r hs]

/-! ### Shaders -/

/-- **C79, limit.** The shader of a rational function is not written: the program is ended as soon as a channel is
    allocated. -/
theorem rational_shader_stops (f : RatFn) (k : ℕ) (hk : k < f.dimY) (r : Rat1) (h : f.rs[k]? = some (some r)) :
    f.exportShader = none := by
  unfold RatFn.exportShader
  rw [if_pos]
  rw [List.any_eq_true]
  exact ⟨k, List.mem_range.mpr hk, by simp [h]⟩

/-! ### Nonlinear functions -/

theorem plusList_head (l : List Str) (x : Str) : ∃ r, plusList (x :: l) = x ++ r := by
  cases l with
  | nil => exact ⟨[], by simp [plusList]⟩
  | cons y l =>
    refine ⟨" + ".toList ++ plusList (y :: l), ?_⟩
    rw [plusList]
    · simp only [List.append_assoc]
    · simp

theorem callText_head (fmt : ℝ → Decimal) (name : Str) (n : ℕ) (vs : List (ℕ → ℝ)) :
    ∃ r, callText fmt name n vs = name ++ '(' :: r := by
  have e : "(L, V, N, X, Y".toList = '(' :: "L, V, N, X, Y".toList := by decide +kernel
  unfold callText
  rw [e]
  exact ⟨"L, V, N, X, Y".toList ++ vectorList fmt n vs ++ ")".toList, by simp only [List.append_assoc, List.cons_append]⟩

/-- the call starts with the name of a function -/
theorem shaderCall_head (fmt : ℝ → Decimal) (o : LobeObj) (h : o.shaderCall fmt ≠ []) :
    ∃ name r, o.shaderCall fmt = name ++ '(' :: r ∧ IsName name ∧ '#' ∉ name := by
  have hl : ∀ (n : ℕ) (g : ℕ → Str) (name : Str), IsName name → '#' ∉ name → (∀ k, ∃ r, g k = name ++ '(' :: r) →
      plusList ((List.range n).map g) ≠ [] → ∃ name r, plusList ((List.range n).map g) = name ++ '(' :: r ∧ IsName name ∧ '#' ∉ name := by
    intro n g name h1 h2 h3 h4
    cases n with
    | zero => exact absurd rfl h4
    | succ n =>
      rw [List.range_succ_eq_map, List.map_cons]
      obtain ⟨r, e⟩ := plusList_head ((List.range n).map Nat.succ |>.map g) (g 0)
      obtain ⟨r', e'⟩ := h3 0
      exact ⟨name, r' ++ r, by rw [e, e']; simp, h1, h2⟩
  cases o with
  | blinn s => obtain ⟨r, e⟩ := callText_head fmt "blinn".toList s.par.dimY [s.ks, s.N]; exact ⟨_, r, e, by decide +kernel, by decide +kernel⟩
  | retroblinn s => obtain ⟨r, e⟩ := callText_head fmt "retroblinn".toList s.par.dimY [s.ks, s.N]; exact ⟨_, r, e, by decide +kernel, by decide +kernel⟩
  | beckmann s => obtain ⟨r, e⟩ := callText_head fmt "beckmann".toList s.par.dimY [s.ks, s.a]; exact ⟨_, r, e, by decide +kernel, by decide +kernel⟩
  | retrobeckmann s => obtain ⟨r, e⟩ := callText_head fmt "retrobeckmann".toList s.par.dimY [s.ks, s.a]; exact ⟨_, r, e, by decide +kernel, by decide +kernel⟩
  | ward s => obtain ⟨r, e⟩ := callText_head fmt "ward".toList s.par.dimY [s.ks, s.ax, s.ay]; exact ⟨_, r, e, by decide +kernel, by decide +kernel⟩
  | abc s => obtain ⟨r, e⟩ := callText_head fmt "abc".toList s.par.dimY [s.a, s.b, s.c]; exact ⟨_, r, e, by decide +kernel, by decide +kernel⟩
  | diffuse s =>
    refine ⟨['v', 'e', 'c', '3'], numberList fmt ((List.range s.par.dimY).map s.kd) ++ ")".toList, ?_, by decide +kernel, by decide⟩
    show vec3Text fmt s.par.dimY s.kd = _
    unfold vec3Text
    rw [show "vec3(".toList = ['v', 'e', 'c', '3', '('] by decide +kernel]
    simp
  | sg s => obtain ⟨r, e⟩ := callText_head fmt "spherical_gaussian".toList s.par.dimY [s.ks, s.n]; exact ⟨_, r, e, by decide +kernel, by decide +kernel⟩
  | isoLafortune s =>
    exact hl s.n _ "lafortune".toList (by decide +kernel) (by decide +kernel) (fun k => callText_head fmt _ _ _) h
  | lafortune s =>
    exact hl s.n _ "lafortune".toList (by decide +kernel) (by decide +kernel) (fun k => callText_head fmt _ _ _) h
  | schlickFresnel s => obtain ⟨r, e⟩ := callText_head fmt "schlick_fresnel".toList s.par.dimY [s.R]; exact ⟨_, r, e, by decide +kernel, by decide +kernel⟩
  | normalizedSchlick s => obtain ⟨r, e⟩ := callText_head fmt "normalized_schlick_fresnel".toList s.par.dimY [s.R]; exact ⟨_, r, e, by decide +kernel, by decide +kernel⟩
  | retroSchlick s => obtain ⟨r, e⟩ := callText_head fmt "retro_schlick_fresnel".toList s.par.dimY [s.R]; exact ⟨_, r, e, by decide +kernel, by decide +kernel⟩
  | schlickMasking s =>
    refine ⟨"masking_schlick".toList, "L, V, N, X, Y, vec3".toList ++
      numberList fmt ((List.range s.par.dimY).map s.R) ++ "))".toList, ?_, by decide +kernel, by decide +kernel⟩
    show "masking_schlick(L, V, N, X, Y, vec3".toList ++ numberList fmt ((List.range s.par.dimY).map s.R) ++ "))".toList = _
    rw [show "masking_schlick(L, V, N, X, Y, vec3".toList = "masking_schlick".toList ++ '(' :: "L, V, N, X, Y, vec3".toList by decide +kernel]
    simp only [List.append_assoc, List.cons_append]
  | smith s => obtain ⟨r, e⟩ := callText_head fmt "shadowing_smith".toList s.par.dimY [s.R]; exact ⟨_, r, e, by decide +kernel, by decide +kernel⟩
  | walterSmith s =>
    refine ⟨"walter_smith".toList, "L, V, N, X, Y, ".toList ++ "vec3(".toList ++
      numberList fmt ((List.range s.par.dimY).map s.R) ++ ") ) ".toList, ?_, by decide +kernel, by decide +kernel⟩
    show "walter_smith(L, V, N, X, Y, ".toList ++ "vec3(".toList ++ numberList fmt ((List.range s.par.dimY).map s.R) ++ ") ) ".toList = _
    rw [show "walter_smith(L, V, N, X, Y, ".toList = "walter_smith".toList ++ '(' :: "L, V, N, X, Y, ".toList by decide +kernel]
    simp only [List.append_assoc, List.cons_append]
  | sgd s => exact absurd rfl h

/-- a file whose function calls something -/
theorem call_not_a_program (dimY : ℕ) (name r : Str) (h : IsName name) (hh : '#' ∉ name) :
    Cpp.parse (cppFile dimY (name ++ '(' :: r)) = none := by
  rw [cppFile_eq, parse_included]
  obtain ⟨g1, g2, g3, g4⟩ := h
  have hd' := hash_head dimY
  have hl := lexRun_head dimY
  generalize "typedef Eigen::VectorXd vec;\n\nvec brdf(const vec& x)\n{\n\tvec res(".toList ++
    showNat dimY ++ ");\n".toList = A at hd' hl ⊢
  generalize "\treturn res;\n}\n\n".toList = E
  obtain ⟨q, -, hq⟩ := code_append (A ++ (name ++ ['('])) (r ++ E)
    (by simp only [List.mem_append, not_or]; exact ⟨hd', hh, by decide⟩) .start (by simp)
  have e : A ++ (name ++ '(' :: r ++ E) = A ++ (name ++ ['(']) ++ (r ++ E) := by simp
  rw [e, hq]
  have hfl : flush name = [.ident name] := by unfold flush; rw [if_neg g1, g2]; rfl
  have hp := fun D w => lexStep_end D w '(' (by decide) (by decide) (by decide) (by decide) (by decide) (by decide)
  have hrun : lexRun ⟨[], []⟩ ('\n' :: (A ++ (name ++ ['(']))) = ⟨headToks dimY ++ [.ident name, .sym '('], []⟩ := by
    rw [← List.cons_append, lexRun_append, hl, lexRun_append, lexRun_word _ _ _ g3, lexRun_cons, hp, List.nil_append, hfl]
    simp [lexRun]
  obtain ⟨T, hT⟩ : ∃ T, lex ('\n' :: (A ++ (name ++ ['(']) ++ Cpp.code q (r ++ E))) = headToks dimY ++ .ident name :: .sym '(' :: T := by
    have : lexRun ⟨[], []⟩ ('\n' :: (A ++ (name ++ ['(']) ++ Cpp.code q (r ++ E))) =
        ⟨headToks dimY ++ [.ident name, .sym '('] ++ (lexRun ⟨[], []⟩ (Cpp.code q (r ++ E))).done,
          (lexRun ⟨[], []⟩ (Cpp.code q (r ++ E))).word⟩ := by
      rw [← List.cons_append, lexRun_append, hrun, lexRun_done]
    refine ⟨(lexRun ⟨[], []⟩ (Cpp.code q (r ++ E))).done ++ flush (lexRun ⟨[], []⟩ (Cpp.code q (r ++ E))).word, ?_⟩
    show (lexRun ⟨[], []⟩ _).done ++ flush (lexRun ⟨[], []⟩ _).word = _
    rw [this]
    simp
  rw [hT]
  have hn : ∀ n, 100 ≤ n → Cpp.pStmts n n ['v', 'e', 'c'] (.ident ['v', 'e', 'c'] :: .ident ['r', 'e', 's'] :: .sym '(' ::
      .num (showNat dimY) :: .sym ')' :: .sym ';' :: .ident name :: .sym '(' :: T) = none := by
    intro n hn
    obtain ⟨n, rfl⟩ : ∃ j, n = j + 1 + 1 := ⟨n - 2, by omega⟩
    have h1 : Cpp.pStmt (n + 1 + 1) ['v', 'e', 'c'] (.ident ['v', 'e', 'c'] :: .ident ['r', 'e', 's'] :: .sym '(' ::
      .num (showNat dimY) :: .sym ')' :: .sym ';' :: .ident name :: .sym '(' :: T) =
        some (.vector ['r', 'e', 's'] (showNat dimY), .ident name :: .sym '(' :: T) := by
      simp only [Cpp.pStmt]
      rw [if_pos (by decide +kernel)]
    have h2 : Cpp.pStmt (n + 1 + 1) ['v', 'e', 'c'] (.ident name :: .sym '(' :: T) = none := by
      cases T <;> rfl
    rw [Cpp.pStmts, if_neg (by simp), h1, Option.bind_some]
    show (Cpp.pStmts (n + 1) (n + 1 + 1) ['v', 'e', 'c'] (.ident name :: .sym '(' :: T)).map _ = none
    rw [Cpp.pStmts, if_neg (by simp), h2]
    rfl
  have e : headToks dimY ++ .ident name :: .sym '(' :: T = .ident "typedef".toList :: .ident "Eigen".toList :: .sym ':' ::
      .sym ':' :: .ident "VectorXd".toList :: .ident ['v', 'e', 'c'] ::
      .sym ';' :: .ident ['v', 'e', 'c'] :: .ident "brdf".toList :: .sym '(' :: .ident "const".toList :: .ident ['v', 'e', 'c'] ::
      .sym '&' :: .ident ['x'] :: .sym ')' :: .sym '{' :: .ident ['v', 'e', 'c'] :: .ident ['r', 'e', 's'] :: .sym '(' ::
      .num (showNat dimY) :: .sym ')' :: .sym ';' :: .ident name :: .sym '(' :: T := by
    unfold headToks
    rfl
  rw [e]
  simp only [Cpp.pFile]
  rw [if_pos (by decide +kernel), hn _ (by omega)]
  rfl

/-- **C79, limit.** A nonlinear function of one class, exported as C++, is not a program: a call is written, of a function that
    is not defined, without the end of the statement. -/
theorem nonlinear_cpp_not_a_program (fmt : ℝ → Decimal) (o : LobeObj) (h : o.shaderCall fmt ≠ []) (x : List ℝ) :
    Cpp.run (o.exportCpp fmt) x = none := by
  suffices hp : Cpp.parse (o.exportCpp fmt) = none by
    unfold Cpp.run; rw [hp]; rfl
  unfold LobeObj.exportCpp
  obtain ⟨name, r, e, h1, h2⟩ := shaderCall_head fmt o h
  by_cases hb : o.saveBody = []
  · rw [hb, List.nil_append, e]
    exact call_not_a_program _ _ _ h1 h2
  · have hl : ∃ s, o.saveBody = "vec3 lafortune(".toList ++ s := by
      cases o with
      | lafortune s =>
        refine ⟨"vec3 L, vec3 V, vec3 N, vec3 X, vec3 Y, vec3 Cx, vec3 Cy, vec3 Cz, vec3 Nl)\n".toList ++
          (lafortuneBody.tail.flatMap fun l => l ++ ['\n']), ?_⟩
        have : ∀ s : LafortuneS, LobeObj.saveBody (.lafortune s) = lafortuneBody.flatMap fun l => l ++ ['\n'] := fun _ => rfl
        rw [this]
        decide +kernel
      | _ => exact absurd rfl hb
    obtain ⟨s, hs⟩ := hl
    rw [hs, List.append_assoc]
    generalize s ++ cppFile o.par.dimY (o.shaderCall fmt) = t
    have h0 : '#' ∉ "vec3 lafortune(".toList := by decide +kernel
    have hx : lexRun ⟨[], []⟩ "vec3 lafortune(".toList = ⟨[.ident "vec3".toList, .ident "lafortune".toList, .sym '('], []⟩ := by
      decide +kernel
    generalize "vec3 lafortune(".toList = A at h0 hx
    obtain ⟨q, -, hq⟩ := code_append A t h0 .start (by simp)
    unfold Cpp.parse
    split
    · rw [hq]
      obtain ⟨T, hT⟩ : ∃ T, lex (A ++ Cpp.code q t) = .ident "vec3".toList :: .ident "lafortune".toList :: .sym '(' :: T := by
        refine ⟨(lexRun ⟨[], []⟩ (Cpp.code q t)).done ++ flush (lexRun ⟨[], []⟩ (Cpp.code q t)).word, ?_⟩
        show (lexRun ⟨[], []⟩ _).done ++ flush (lexRun ⟨[], []⟩ _).word = _
        rw [lexRun_append, hx, lexRun_done]
        simp
      rw [hT]
      cases T <;> rfl
    · rfl

/-! ### Examples -/

/-- numbers with digits after the point -/
def cppFmtEx (x : ℝ) : Decimal :=
  if x = 1 then ⟨false, [1], [0, 0], some 0⟩ else if x = 2 then ⟨false, [2], [0], none⟩
  else if x = 3 then ⟨false, [3], [0], none⟩ else if x = -1 then ⟨true, [1], [0], none⟩ else ⟨false, [0], [0], none⟩

theorem cppFmtEx_values : printed cppFmtEx 0 = 0 ∧ printed cppFmtEx 1 = 1 ∧ printed cppFmtEx 2 = 2 ∧ printed cppFmtEx 3 = 3 ∧
    printed cppFmtEx (-1) = -1 := by
  refine ⟨?_, ?_, ?_, ?_, ?_⟩ <;> norm_num [printed, cppFmtEx, Decimal.value, digitsNum]

theorem cppFmtEx_ok : CppFmt cppFmtEx := by
  intro x
  unfold cppFmtEx
  split_ifs <;> simp

/-- at the point `x = 1/2` of the domain `[0, 1]`, mapped to 0, the function is 2; the program computes 2 at 0, and
    `7/4` at `1/2` -/
example : exampleRat1.value [1 / 2] = some 2 ∧
    Cpp.run (RatFn.exportCpp cppFmtEx ⟨1, 1, 2, 2, [0], [1], [some exampleRat1]⟩) [0] = some [some 2] ∧
    Cpp.run (RatFn.exportCpp cppFmtEx ⟨1, 1, 2, 2, [0], [1], [some exampleRat1]⟩) [1 / 2] = some [some (7 / 4)] := by
  obtain ⟨-, e1, e2, e3, -⟩ := cppFmtEx_values
  have h0 : index2degree 1 0 = some [0] := by decide +kernel
  have h1 : index2degree 1 1 = some [1] := by decide +kernel
  have hr : exampleRat1.HasTerms := by simp [Rat1.HasTerms, exampleRat1]
  have hP : exampleRat1.getP.map (printed cppFmtEx) = [2, 3] := by simp [exampleRat1, Rat1.getP, e2, e3]
  have hQ : exampleRat1.getQ.map (printed cppFmtEx) = [1, 2] := by simp [exampleRat1, Rat1.getQ, e1, e2]
  have hpoly : ∀ lo hi a b z : ℝ, polynomial 1 [lo] [hi] [a, b] [z] = a + b * (2 * (z - lo) / (hi - lo) - 1) := by
    intro lo hi a b z
    simp [polynomial, basisFn, monomial, Finset.sum_range_succ, h0, h1, unitCoord, arr]
  have hc : RatFn.channels ⟨1, 1, 2, 2, [0], [1], [some exampleRat1]⟩ = [exampleRat1] := rfl
  have hrep : ∀ t : ℝ, List.replicate 1 t = [t] := fun t => rfl
  have hrun := fun (z : ℝ) h => run_one_channel cppFmtEx cppFmtEx_ok ⟨1, 1, 2, 2, [0], [1], [some exampleRat1]⟩ exampleRat1 hc
    exampleRat1_standard hr [z] (le_refl 1) h
  simp only [hP, hQ, show exampleRat1.dimX = 1 from rfl, hrep, hpoly] at hrun
  refine ⟨?_, ?_, ?_⟩
  · rw [rational_value _ exampleRat1_standard]
    show some (polynomial 1 [0] [1] [2, 3] [1 / 2] / polynomial 1 [0] [1] [1, 2] [1 / 2]) = _
    rw [hpoly, hpoly]
    norm_num
  · rw [hrun 0 (by norm_num)]
    norm_num
  · rw [hrun (1 / 2) (by norm_num)]
    norm_num

/-- **C79, limit.** The basis is not written: for the function of the Chebychev plugin with the coefficients `[0, 0, 1]` and `[1]`
    on `[-1, 1]`, whose value at 0 is -1, the program computes 0. -/
theorem cpp_basis_lost : ∃ r : Rat1, r.Standard ∧ RatKind.value .chebychev .UNKNOWN_INPUT r [0] = some (-1) ∧
    Cpp.run (RatFn.exportCpp cppFmtEx ⟨1, 1, 3, 1, [-1], [1], [some r]⟩) [0] = some [some 0] := by
  obtain ⟨e0, e1, -, -, -⟩ := cppFmtEx_values
  have h0 : index2degree 1 0 = some [0] := by decide +kernel
  have h1 : index2degree 1 1 = some [1] := by decide +kernel
  have h2 : index2degree 1 2 = some [2] := by decide +kernel
  set r : Rat1 := ⟨1, [⟨0, [0]⟩, ⟨0, [1]⟩, ⟨1, [2]⟩], [⟨1, [0]⟩], [-1], [1]⟩ with hrd
  have hs : r.Standard := by
    refine ⟨le_refl _, fun i c hc => ?_, fun i c hc => ?_⟩
    · match i with
      | 0 => simp [r] at hc; rw [← hc]; simp [r, h0]
      | 1 => simp [r] at hc; rw [← hc]; simp [r, h1]
      | 2 => simp [r] at hc; rw [← hc]; simp [r, h2]
      | n + 3 => simp [r] at hc
    · match i with
      | 0 => simp [r] at hc; rw [← hc]; simp [r, h0]
      | n + 1 => simp [r] at hc
  have c2 : chebyshevT 2 0 = -1 := by rw [← recursiveChebychev_eq, recursiveChebychev]; norm_num
  have c1 : chebyshevT 1 0 = 0 := by rw [← recursiveChebychev_eq, recursiveChebychev]
  have c0 : chebyshevT 0 0 = 1 := by rw [← recursiveChebychev_eq, recursiveChebychev]
  refine ⟨r, hs, ?_, ?_⟩
  · rw [ortho_value .chebychev (Or.inl rfl) _ _ (le_refl _)]
    have u : unitCoord [-1] [1] [0] 0 = 0 := by simp [unitCoord, arr]; norm_num
    simp only [r, combination, tensorFn, Rat1.getP, Rat1.getQ, RatKind.classical, Finset.sum_range_succ, Finset.prod_range_succ,
      Finset.range_zero, Finset.prod_empty, Finset.sum_empty, h0, h1, h2, u, arr, List.map_cons, List.map_nil, List.length_cons,
      List.length_nil, Option.getD_some, List.getD_cons_zero, List.getD_cons_succ, c0, c1, c2]
    norm_num [c0, c1, c2, h2, u]
  · have hP : r.getP.map (printed cppFmtEx) = [0, 0, 1] := by simp [r, Rat1.getP, e0, e1]
    have hQ : r.getQ.map (printed cppFmtEx) = [1] := by simp [r, Rat1.getQ, e1]
    have hrun := run_one_channel cppFmtEx cppFmtEx_ok ⟨1, 1, 3, 1, [-1], [1], [some r]⟩ r rfl hs (by simp [Rat1.HasTerms, r]) [0] (le_refl 1)
    rw [hP, hQ] at hrun
    have p1 : polynomial r.dimX (List.replicate r.dimX (-1)) (List.replicate r.dimX 1) [0, 0, 1] [0] = 0 := by
      show polynomial 1 [-1] [1] [0, 0, 1] [0] = 0
      simp [polynomial, basisFn, monomial, Finset.sum_range_succ, h0, h1, h2, unitCoord, arr]
      norm_num
    have p2 : polynomial r.dimX (List.replicate r.dimX (-1)) (List.replicate r.dimX 1) [1] [0] = 1 := by
      show polynomial 1 [-1] [1] [1] [0] = 1
      simp [polynomial, basisFn, monomial, Finset.sum_range_succ, h0, unitCoord, arr]
    rw [p1, p2] at hrun
    rw [hrun (by norm_num)]
    norm_num

/-- three channels -/
example (x : List ℝ) : Cpp.run (RatFn.exportCpp cppFmtEx ⟨1, 3, 2, 2, [0], [1], [some exampleRat1, some exampleRat1, some exampleRat1]⟩) x =
    none := by
  have hc : RatFn.channels ⟨1, 3, 2, 2, [0], [1], [some exampleRat1, some exampleRat1, some exampleRat1]⟩ =
    [exampleRat1, exampleRat1, exampleRat1] := rfl
  apply cpp_channels_not_a_program cppFmtEx cppFmtEx_ok
  · rw [hc]; simp [exampleRat1]
  · rw [hc]; simp [Rat1.HasTerms, exampleRat1]
  · rw [hc]; simp

/-- the second channel only -/
example : Cpp.run (RatFn.exportCpp cppFmtEx ⟨1, 3, 2, 2, [0], [1], [none, some exampleRat1, none]⟩) (unitPoint 1 [0] [1] [1 / 2]) =
    some [(exampleRat1.asPrinted cppFmtEx).value [1 / 2], none, none] := by
  obtain ⟨-, e1, e2, e3, -⟩ := cppFmtEx_values
  have hr : exampleRat1.HasTerms := by simp [Rat1.HasTerms, exampleRat1]
  have h0 : index2degree 1 0 = some [0] := by decide +kernel
  have h1 : index2degree 1 1 = some [1] := by decide +kernel
  have hQ : exampleRat1.getQ.map (printed cppFmtEx) = [1, 2] := by simp [exampleRat1, Rat1.getQ, e1, e2]
  refine cpp_other_channel cppFmtEx cppFmtEx_ok ⟨1, 3, 2, 2, [0], [1], [none, some exampleRat1, none]⟩ exampleRat1 1 (by decide) rfl ?_
    exampleRat1_standard hr [1 / 2] ?_
  · intro j hj
    match j with
    | 0 => rfl
    | 1 => exact absurd rfl hj
    | 2 => rfl
    | n + 3 => rfl
  · rw [hQ]
    show polynomial 1 [0] [1] [1, 2] [1 / 2] ≠ 0
    simp [polynomial, basisFn, monomial, Finset.sum_range_succ, h0, h1, unitCoord, arr]

example (x : List ℝ) : Cpp.run (shaderBlinn.exportCpp shaderFmtEx) x = none :=
  nonlinear_cpp_not_a_program _ _ (by
    obtain ⟨r, e⟩ := callText_head shaderFmtEx "blinn".toList 1 [fun _ => 2, fun _ => 3]
    show callText _ _ _ _ ≠ []
    rw [show callText shaderFmtEx "blinn".toList 1 [fun _ => 2, fun _ => 3] = _ from e]
    simp) x

end
end Alta
