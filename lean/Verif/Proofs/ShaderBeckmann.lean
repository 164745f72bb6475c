import Verif.Proofs.ShaderSingle
/-
The functions of the shaders of the classes retrobeckmann and beckmann: words, grammar, values.
-/
namespace Alta
open Glsl Real

/-! ### Words and grammar -/

/-- The words of the lines of `g_beckmann` for a component. -/
def gLinesToks (x : Str) : List Token :=
  [.ident ['i', 'f'], .sym '(', .ident ['c'], .sym '.', .ident x, .sym '<', .num ['1', '.', '6', 'f'], .sym ')', .sym '{',
   .ident ['r'], .sym '.', .ident x, .sym '=', .sym '(', .num ['3', '.', '5', '3', '5'], .sym '*', .ident ['c'], .sym '.',
   .ident x, .sym '+', .num ['2', '.', '1', '8', '1'], .sym '*', .ident ['c'], .sym '.', .ident x, .sym '*',
   .ident ['c'], .sym '.', .ident x, .sym ')', .sym '/', .sym '(', .num ['1'], .sym '+',
   .num ['2', '.', '2', '7', '6'], .sym '*', .ident ['c'], .sym '.', .ident x, .sym '+',
   .num ['2', '.', '5', '7', '7'], .sym '*', .ident ['c'], .sym '.', .ident x, .sym '*', .ident ['c'], .sym '.',
   .ident x, .sym ')', .sym ';', .sym '}', .ident ['e', 'l', 's', 'e'], .sym '{', .ident ['r'], .sym '.', .ident x,
   .sym '=', .num ['1', '.', '0', 'f'], .sym ';', .sym '}']

/-- The words of `gBeckmannBody`. -/
def gBeckmannToks : List Token :=
  [.ident ['v', 'e', 'c', '3'], .ident ['g', '_', 'b', 'e', 'c', 'k', 'm', 'a', 'n', 'n'], .sym '(',
   .ident ['v', 'e', 'c', '3'], .ident ['M'], .sym ',', .ident ['v', 'e', 'c', '3'], .ident ['N'], .sym ',',
   .ident ['v', 'e', 'c', '3'], .ident ['a'], .sym ')', .sym '{', .ident ['f', 'l', 'o', 'a', 't'], .ident ['d'],
   .sym '=', .ident ['d', 'o', 't'], .sym '(', .ident ['M'], .sym ',', .ident ['N'], .sym ')', .sym ';',
   .ident ['v', 'e', 'c', '3'], .ident ['c'], .sym '=', .ident ['d'], .sym '/', .sym '(', .ident ['a'], .sym '*',
   .ident ['s', 'q', 'r', 't'], .sym '(', .num ['1', '.', '0', 'f'], .sym '-', .ident ['d'], .sym ')', .sym ')', .sym ';',
   .ident ['v', 'e', 'c', '3'], .ident ['r'], .sym ';'] ++ gLinesToks ['x'] ++ gLinesToks ['y'] ++ gLinesToks ['z'] ++
  [.ident ['r', 'e', 't', 'u', 'r', 'n'], .ident ['r'], .sym ';', .sym '}']

/-- a component of the variable `c` -/
def gField (x : Str) : Expr := .field (.var ['c']) x

/-- The rational expression of a component. -/
def gRatio (x : Str) : Expr :=
  .bin .div (.bin .add (.bin .mul (.num ['3', '.', '5', '3', '5']) (gField x))
      (.bin .mul (.bin .mul (.num ['2', '.', '1', '8', '1']) (gField x)) (gField x)))
    (.bin .add (.bin .add (.num ['1']) (.bin .mul (.num ['2', '.', '2', '7', '6']) (gField x)))
      (.bin .mul (.bin .mul (.num ['2', '.', '5', '7', '7']) (gField x)) (gField x)))

/-- The statement of a component. -/
def gStmt (x : Str) : Stmt :=
  .ite (.bin .lt (gField x) (.num ['1', '.', '6', 'f'])) (.cons (.setField ['r'] x (gRatio x)) .nil)
    (.cons (.setField ['r'] x (.num ['1', '.', '0', 'f'])) .nil)

/-- The function defined by `gBeckmannBody`. -/
def gBeckmannDef : FunDef :=
  ⟨.vec3, ['g', '_', 'b', 'e', 'c', 'k', 'm', 'a', 'n', 'n'], [(.vec3, ['M']), (.vec3, ['N']), (.vec3, ['a'])],
   .cons (.decl .float ['d'] (.call ['d', 'o', 't'] (.cons (.var ['M']) (.cons (.var ['N']) .nil))))
   (.cons (.decl .vec3 ['c'] (.bin .div (.var ['d']) (.bin .mul (.var ['a'])
      (.call ['s', 'q', 'r', 't'] (.cons (.bin .sub (.num ['1', '.', '0', 'f']) (.var ['d'])) .nil)))))
   (.cons (.declOnly .vec3 ['r'])
   (.cons (gStmt ['x']) (.cons (gStmt ['y']) (.cons (gStmt ['z']) (.cons (.ret (.var ['r'])) .nil))))))⟩

set_option maxRecDepth 4096 in
theorem gBeckmann_parse (m : ℕ) (rest : List Token) :
    pFun (m + 40) (gBeckmannToks ++ rest) = some (gBeckmannDef, rest) := rfl

set_option maxRecDepth 4096 in
theorem gBeckmann_lex : lexRun ⟨[], []⟩ (endLines gBeckmannBody) = ⟨gBeckmannToks, []⟩ := by decide +kernel

/-- The words of the function `beckmann`. -/
def beckmannToks (w : Str) : List Token :=
  [.ident ['v', 'e', 'c', '3'], .ident ['b', 'e', 'c', 'k', 'm', 'a', 'n', 'n'], .sym '(',
   .ident ['v', 'e', 'c', '3'], .ident ['L'], .sym ',', .ident ['v', 'e', 'c', '3'], .ident ['V'],
   .sym ',', .ident ['v', 'e', 'c', '3'], .ident ['N'], .sym ',', .ident ['v', 'e', 'c', '3'], .ident ['X'],
   .sym ',', .ident ['v', 'e', 'c', '3'], .ident ['Y'], .sym ',', .ident ['v', 'e', 'c', '3'],
   .ident ['k', 's'], .sym ',', .ident ['v', 'e', 'c', '3'], .ident ['a'], .sym ')', .sym '{',
   .ident ['v', 'e', 'c', '3'], .ident ['H'], .sym '=',
   .ident ['n', 'o', 'r', 'm', 'a', 'l', 'i', 'z', 'e'], .sym '(', .ident ['L'], .sym '+', .ident ['V'],
   .sym ')', .sym ';', .ident ['f', 'l', 'o', 'a', 't'], .ident ['h', 'n'], .sym '=', .ident ['d', 'o', 't'],
   .sym '(', .ident ['H'], .sym ',', .ident ['N'], .sym ')', .sym ';', .ident ['f', 'l', 'o', 'a', 't'],
   .ident ['l', 'n'], .sym '=', .ident ['d', 'o', 't'], .sym '(', .ident ['L'], .sym ',', .ident ['N'],
   .sym ')', .sym ';', .ident ['f', 'l', 'o', 'a', 't'], .ident ['v', 'n'], .sym '=', .ident ['d', 'o', 't'],
   .sym '(', .ident ['V'], .sym ',', .ident ['N'], .sym ')', .sym ';', .ident ['r', 'e', 't', 'u', 'r', 'n'],
   .ident ['k', 's'], .sym '/', .sym '(', .num ['4'], .sym '*', .num w, .sym '*', .ident ['a'], .sym '*',
   .ident ['a'], .sym '*', .ident ['l', 'n'], .sym '*', .ident ['v', 'n'], .sym ')', .sym '*',
   .ident ['e', 'x', 'p'], .sym '(', .sym '(', .ident ['h', 'n'], .sym '*', .ident ['h', 'n'], .sym '-',
   .num ['1', '.', '0'], .sym ')', .sym '/', .sym '(', .ident ['a'], .sym '*', .ident ['a'], .sym '*',
   .ident ['h', 'n'], .sym '*', .ident ['h', 'n'], .sym ')', .sym ')', .sym '*',
   .ident ['g', '_', 'b', 'e', 'c', 'k', 'm', 'a', 'n', 'n'], .sym '(', .ident ['L'], .sym ',', .ident ['N'], .sym ',',
   .ident ['a'], .sym ')', .sym '*', .ident ['g', '_', 'b', 'e', 'c', 'k', 'm', 'a', 'n', 'n'], .sym '(', .ident ['V'],
   .sym ',', .ident ['N'], .sym ',', .ident ['a'], .sym ')', .sym ';', .sym '}']

/-- a call of `g_beckmann` -/
def gCall (x : Str) : Expr :=
  .call ['g', '_', 'b', 'e', 'c', 'k', 'm', 'a', 'n', 'n'] (.cons (.var x) (.cons (.var ['N']) (.cons (.var ['a']) .nil)))

/-- the lobe, without the shadowing; `x` is the variable of the cosine -/
def beckE (w x : Str) : Expr :=
  .bin .mul (.bin .div (.var ['k', 's']) (.bin .mul (.bin .mul (.bin .mul (.bin .mul (.bin .mul (.num ['4']) (.num w))
    (.var ['a'])) (.var ['a'])) (.var ['l', 'n'])) (.var ['v', 'n'])))
    (.call ['e', 'x', 'p'] (.cons (.bin .div (.bin .sub (.bin .mul (.var x) (.var x)) (.num ['1', '.', '0']))
      (.bin .mul (.bin .mul (.bin .mul (.var ['a']) (.var ['a'])) (.var x)) (.var x))) .nil))

/-- The function `beckmann`. -/
def beckmannDef (w : Str) : FunDef :=
  ⟨.vec3, ['b', 'e', 'c', 'k', 'm', 'a', 'n', 'n'],
  [(.vec3, ['L']), (.vec3, ['V']), (.vec3, ['N']), (.vec3, ['X']), (.vec3, ['Y']), (.vec3, ['k', 's']), (.vec3, ['a'])],
  .cons (.decl .vec3 ['H']
    (.call ['n', 'o', 'r', 'm', 'a', 'l', 'i', 'z', 'e'] (.cons (.bin .add (.var ['L']) (.var ['V'])) .nil)))
  (.cons (.decl .float ['h', 'n'] (.call ['d', 'o', 't'] (.cons (.var ['H']) (.cons (.var ['N']) .nil))))
  (.cons (.decl .float ['l', 'n'] (.call ['d', 'o', 't'] (.cons (.var ['L']) (.cons (.var ['N']) .nil))))
  (.cons (.decl .float ['v', 'n'] (.call ['d', 'o', 't'] (.cons (.var ['V']) (.cons (.var ['N']) .nil))))
  (.cons (.ret (.bin .mul (.bin .mul (beckE w ['h', 'n']) (gCall ['L'])) (gCall ['V']))) .nil))))⟩

set_option maxRecDepth 4096 in
theorem beckmann_parse (w : Str) (m : ℕ) (rest : List Token) :
    pFun (m + 40) (beckmannToks w ++ rest) = some (beckmannDef w, rest) := rfl

noncomputable section

/-- the words of a text with a positive number in it -/
theorem lexRun_split (fmt : ℝ → Decimal) (x : ℝ) (h : (fmt x).ip ≠ []) (hd : (fmt x).neg = false) (A B : Str)
    (TA TB : List Token) (h1 : lexRun ⟨[], []⟩ A = ⟨TA, []⟩) (h2 : lexRun ⟨[], []⟩ B = ⟨TB, []⟩) :
    lexRun ⟨[], []⟩ (A ++ ((fmt x).text ++ [' ']) ++ B) = ⟨TA ++ [.num (fmt x).unsigned] ++ TB, []⟩ := by
  rw [lexRun_append, lexRun_append, h1, lexRun_space _ _ h hd, lexRun_of _ _ _ _ _ h2]

theorem endLines_number (A C : List Str) (u w t : Str) :
    endLines (A ++ [u ++ t ++ (' ' :: w)] ++ C) = endLines A ++ u ++ (t ++ [' ']) ++ (w ++ ['\n'] ++ endLines C) := by
  simp [endLines]

/-- the lines before the number -/
def retrobeckmannBefore : List Str :=
  ["vec3 retrobeckmann(vec3 L, vec3 V, vec3 N, vec3 X, vec3 Y, vec3 ks, vec3 a)".toList,
   "{".toList, "\tvec3  R   = 2*dot(V,N)*N - V;".toList, "\tvec3  B   = normalize(L + R);".toList,
   "\tfloat bn  = dot(B,N);".toList, "\tfloat ln  = dot(L,N);".toList, "\tfloat vn  = dot(V,N);".toList, "\t".toList]

set_option maxRecDepth 4096 in
theorem retrobeckmann_lex (fmt : ℝ → Decimal) (h : (fmt π).ip ≠ []) (hd : (fmt π).neg = false) :
    lexRun ⟨[], []⟩ (endLines (retrobeckmannBody fmt)) = ⟨retrobeckmannToks (fmt π).unsigned, []⟩ := by
  have e : retrobeckmannBody fmt = retrobeckmannBefore ++ ["\treturn ks / (4 * ".toList ++ (fmt π).text ++
     " * a*a * ln*vn) * exp((bn*bn - 1.0) / (a*a*bn*bn));".toList] ++ ["}".toList] := rfl
  have s : " * a*a * ln*vn) * exp((bn*bn - 1.0) / (a*a*bn*bn));".toList =
      ' ' :: "* a*a * ln*vn) * exp((bn*bn - 1.0) / (a*a*bn*bn));".toList := by decide +kernel
  have h1 : lexRun ⟨[], []⟩ (endLines retrobeckmannBefore ++ "\treturn ks / (4 * ".toList) =
      ⟨(retrobeckmannToks []).take 87, []⟩ := by decide +kernel
  have h2 : lexRun ⟨[], []⟩ ("* a*a * ln*vn) * exp((bn*bn - 1.0) / (a*a*bn*bn));".toList ++ ['\n'] ++ endLines ["}".toList]) =
      ⟨(retrobeckmannToks []).drop 88, []⟩ := by decide +kernel
  rw [e, s, endLines_number, lexRun_split fmt π h hd _ _ _ _ h1 h2]
  rfl

/-- the lines before the number -/
def beckmannBefore : List Str :=
  ["vec3 beckmann(vec3 L, vec3 V, vec3 N, vec3 X, vec3 Y, vec3 ks, vec3 a)".toList,
   "{".toList, "\tvec3  H   = normalize(L + V);".toList,
   "\tfloat hn  = dot(H,N);".toList, "\tfloat ln  = dot(L,N);".toList, "\tfloat vn  = dot(V,N);".toList, "\t".toList]

set_option maxRecDepth 4096 in
theorem beckmann_lex (fmt : ℝ → Decimal) (h : (fmt π).ip ≠ []) (hd : (fmt π).neg = false) :
    lexRun ⟨[], []⟩ (endLines (beckmannBody fmt)) = ⟨gBeckmannToks ++ beckmannToks (fmt π).unsigned, []⟩ := by
  have e : beckmannBody fmt = gBeckmannBody ++ ([[]] ++ (beckmannBefore ++ ["\treturn ks / (4 * ".toList ++ (fmt π).text ++
     " * a*a * ln*vn) * exp((hn*hn - 1.0) / (a*a*hn*hn)) * g_beckmann(L,N,a) * g_beckmann(V,N,a);".toList] ++
     ["}".toList])) := rfl
  have s : " * a*a * ln*vn) * exp((hn*hn - 1.0) / (a*a*hn*hn)) * g_beckmann(L,N,a) * g_beckmann(V,N,a);".toList =
      ' ' :: "* a*a * ln*vn) * exp((hn*hn - 1.0) / (a*a*hn*hn)) * g_beckmann(L,N,a) * g_beckmann(V,N,a);".toList := by
    decide +kernel
  have h1 : lexRun ⟨[], []⟩ (endLines beckmannBefore ++ "\treturn ks / (4 * ".toList) =
      ⟨(beckmannToks []).take 71, []⟩ := by decide +kernel
  have h2 : lexRun ⟨[], []⟩ ("* a*a * ln*vn) * exp((hn*hn - 1.0) / (a*a*hn*hn)) * g_beckmann(L,N,a) * g_beckmann(V,N,a);".toList ++
      ['\n'] ++ endLines ["}".toList]) = ⟨(beckmannToks []).drop 72, []⟩ := by decide +kernel
  have h0 : lexRun ⟨[], []⟩ (endLines [[]]) = ⟨[], []⟩ := by decide +kernel
  rw [e, s, endLines_append, endLines_append, endLines_number, lexRun_append, gBeckmann_lex, lexRun_append,
    lexRun_of _ _ _ _ _ h0, lexRun_of _ _ _ _ _ (lexRun_split fmt π h hd _ _ _ _ h1 h2)]
  rfl

/-! ### Values -/

/-- the value of the lobe of the shader: `q` is the number written for π, `d` the cosine and `c` the product of the
    cosines of the directions -/
def beckShade (q ks a d c : ℝ) : ℝ := ks / (4 * q * a * a * c) * exp ((d * d - 1) / (a * a * d * d))

theorem beckE_value (fs : List Fun) (h : NoBuiltin fs) (env : Env) (w x : Str) (q : ℝ) (hw : numVal w = some q) (hq : q ≠ 0)
    (ks a : V3) (d ln vn : ℝ) (ha : a.x ≠ 0 ∧ a.y ≠ 0 ∧ a.z ≠ 0) (hl : ln ≠ 0) (hv : vn ≠ 0) (hd : d ≠ 0)
    (h1 : env.get ['k', 's'] = some (.v ks)) (h2 : env.get ['a'] = some (.v a)) (h3 : env.get x = some (.f d))
    (h4 : env.get ['l', 'n'] = some (.f ln)) (h5 : env.get ['v', 'n'] = some (.f vn)) :
    eval fs env (beckE w x) = some (.v ⟨beckShade q ks.x a.x d (ln * vn), beckShade q ks.y a.y d (ln * vn),
      beckShade q ks.z a.z d (ln * vn)⟩) := by
  obtain ⟨a1, a2, a3⟩ := ha
  have d1 : ∀ t : ℝ, t ≠ 0 → 4 * q * t * t * ln * vn ≠ 0 := fun t ht =>
    mul_ne_zero (mul_ne_zero (mul_ne_zero (mul_ne_zero (mul_ne_zero (by norm_num) hq) ht) ht) hl) hv
  have d2 : ∀ t : ℝ, t ≠ 0 → t * t * d * d ≠ 0 := fun t ht => mul_ne_zero (mul_ne_zero (mul_ne_zero ht ht) hd) hd
  unfold beckE
  simp only [eval, evals, binVal, arith, V3.map2, h1, h2, h3, h4, h5, hw, numVal_4, numVal_1_0, Option.map_some,
    Option.bind_some, call_exp fs h, divOp, if_neg (d1 _ a1), if_neg (d1 _ a2), if_neg (d1 _ a3), if_neg (d2 _ a1),
    if_neg (d2 _ a2), if_neg (d2 _ a3)]
  simp only [beckShade, mul_assoc]

theorem retrobeckmann_run (fs : List Fun) (h : NoBuiltin fs) (w : Str) (q : ℝ) (hw : numVal w = some q) (hq : q ≠ 0)
    (L V ks a : V3) (h0 : sumLen L (mirrored V) ≠ 0) (hl : L.z ≠ 0) (hv : V.z ≠ 0) (ha : a.x ≠ 0 ∧ a.y ≠ 0 ∧ a.z ≠ 0)
    (d : ℝ) (hd : d = (L.z + V.z) / sumLen L (mirrored V)) (hd0 : d ≠ 0) :
    ((retrobeckmannDef w).toFun fs).run [.v L, .v V, .v axisZ, .v axisX, .v axisY, .v ks, .v a] =
      some (.v ⟨beckShade q ks.x a.x d (L.z * V.z), beckShade q ks.y a.y d (L.z * V.z), beckShade q ks.z a.z d (L.z * V.z)⟩) := by
  have e1 : axisZ.x = 0 := rfl
  have e2 : axisZ.y = 0 := rfl
  have e3 : axisZ.z = 1 := rfl
  have hh := normalize_back fs h L V h0
  rw [← hd] at hh
  unfold retrobeckmannDef FunDef.toFun
  simp only [List.zipWith_cons_cons, List.zipWith_nil_left]
  rw [execs_decl _ _ _ _ _ _ (.v ⟨-V.x, -V.y, V.z⟩) (by
      simp [eval, evals, Env.get, binVal, arith, V3.map2, call_dot fs h, dot_Z, numVal_2, e1, e2, e3, two_sub]) (by trivial),
    execs_decl _ _ _ _ _ _ (.v ⟨(L.x + -V.x) / sumLen L (mirrored V), (L.y + -V.y) / sumLen L (mirrored V), d⟩) (by
      simp [eval, evals, Env.get, binVal, arith, V3.map2, hh]) (by trivial),
    execs_decl _ _ _ _ _ _ (.f d) (by
      simp [eval, evals, Env.get, call_dot fs h, dot_Z]) (by trivial),
    execs_decl _ _ _ _ _ _ (.f L.z) (by
      simp [eval, evals, Env.get, call_dot fs h, dot_Z]) (by trivial),
    execs_decl _ _ _ _ _ _ (.f V.z) (by
      simp [eval, evals, Env.get, call_dot fs h, dot_Z]) (by trivial)]
  rw [execs.eq_def]
  simp only
  rw [exec.eq_def]
  simp only
  have := fun env h1 h2 h3 h4 h5 => beckE_value fs h env w ['b', 'n'] q hw hq ks a d L.z V.z ha hl hv hd0 h1 h2 h3 h4 h5
  unfold beckE at this
  rw [this _ (by simp [Env.get]) (by simp [Env.get]) (by simp [Env.get]) (by simp [Env.get]) (by simp [Env.get])]
  simp [Val.HasTy]

/-- The shadowing of the shader. -/
def gShade (t a : ℝ) : ℝ :=
  let c := t / (a * √(1 - t))
  if c < 1.6 then (3.535 * c + 2.181 * c * c) / (1 + 2.276 * c + 2.577 * c * c) else 1

theorem numVal_1_6f : numVal ['1', '.', '6', 'f'] = some 1.6 := by
  rw [numVal]
  have : strtod ['1', '.', '6'] = some (1.6, []) := by decide +kernel
  simp [this]
theorem numVal_3_535 : numVal ['3', '.', '5', '3', '5'] = some 3.535 := by
  rw [numVal]
  have : strtod ['3', '.', '5', '3', '5'] = some (3.535, []) := by decide +kernel
  simp [this]
theorem numVal_2_181 : numVal ['2', '.', '1', '8', '1'] = some 2.181 := by
  rw [numVal]
  have : strtod ['2', '.', '1', '8', '1'] = some (2.181, []) := by decide +kernel
  simp [this]
theorem numVal_2_276 : numVal ['2', '.', '2', '7', '6'] = some 2.276 := by
  rw [numVal]
  have : strtod ['2', '.', '2', '7', '6'] = some (2.276, []) := by decide +kernel
  simp [this]
theorem numVal_2_577 : numVal ['2', '.', '5', '7', '7'] = some 2.577 := by
  rw [numVal]
  have : strtod ['2', '.', '5', '7', '7'] = some (2.577, []) := by decide +kernel
  simp [this]

theorem gDenom_pos (c : ℝ) : 0 < 1 + 2.276 * c + 2.577 * c * c := by
  nlinarith [sq_nonneg (2 * 2.577 * c + 2.276)]

/-- one component of the shadowing -/
def gTerm (c : ℝ) : ℝ := if c < 1.6 then (3.535 * c + 2.181 * c * c) / (1 + 2.276 * c + 2.577 * c * c) else 1

theorem gStmt_exec (fs : List Fun) (x : Str) (R C R' : V3) (t : ℝ) (env : Env) (hC : V3.comp C x = some t)
    (hR : V3.setComp R x (gTerm t) = some R') :
    exec fs ((['r'], .v R) :: (['c'], .v C) :: env) (gStmt x) = some ((['r'], .v R') :: (['c'], .v C) :: env, none) := by
  have hf : eval fs ((['r'], .v R) :: (['c'], .v C) :: env) (gField x) = some (.f t) := by
    simp [gField, eval, Env.get, hC]
  have hr : eval fs ((['r'], .v R) :: (['c'], .v C) :: env) (gRatio x) =
      some (.f ((3.535 * t + 2.181 * t * t) / (1 + 2.276 * t + 2.577 * t * t))) := by
    unfold gRatio
    simp only [eval, hf, numVal_3_535, numVal_2_181, numVal_2_276, numVal_2_577, numVal_1, Option.map_some,
      Option.bind_some, binVal, arith, divOp, if_neg (gDenom_pos t).ne']
  unfold gStmt
  rw [exec.eq_def]
  simp only [eval, hf, numVal_1_6f, Option.map_some, Option.bind_some, binVal]
  by_cases h : t < 1.6
  · rw [gTerm, if_pos h] at hR
    rw [if_pos h, execs.eq_def]
    simp only
    rw [exec.eq_def]
    simp only [hr]
    simp [Env.get, Env.assign, hR, Val.ty, execs]
  · rw [gTerm, if_neg h] at hR
    rw [if_neg h, execs.eq_def]
    simp only
    rw [exec.eq_def]
    simp only [eval, numVal_1_0f]
    simp [Env.get, Env.assign, hR, Val.ty, execs]

theorem g_run (fs : List Fun) (h : NoBuiltin fs) (M a : V3) (ha : a.x ≠ 0 ∧ a.y ≠ 0 ∧ a.z ≠ 0) (h1 : M.z < 1) :
    (gBeckmannDef.toFun fs).run [.v M, .v axisZ, .v a] =
      some (.v ⟨gShade M.z a.x, gShade M.z a.y, gShade M.z a.z⟩) := by
  obtain ⟨a1, a2, a3⟩ := ha
  have hs : √(1 - M.z) ≠ 0 := (Real.sqrt_pos.mpr (by linarith)).ne'
  have d1 : ∀ t : ℝ, t ≠ 0 → t * √(1 - M.z) ≠ 0 := fun t ht => mul_ne_zero ht hs
  unfold gBeckmannDef FunDef.toFun
  simp only [List.zipWith_cons_cons, List.zipWith_nil_left]
  rw [execs_decl _ _ _ _ _ _ (.f M.z) (by simp [eval, evals, Env.get, call_dot fs h, dot_Z]) (by trivial),
    execs_decl _ _ _ _ _ _ (.v ⟨M.z / (a.x * √(1 - M.z)), M.z / (a.y * √(1 - M.z)), M.z / (a.z * √(1 - M.z))⟩) (by
      simp [eval, evals, Env.get, binVal, arith, V3.map2, call_sqrt fs h _ (show 0 ≤ 1 - M.z by linarith), numVal_1_0f,
        divOp, d1 _ a1, d1 _ a2, d1 _ a3, hs, a1, a2, a3]) (by trivial)]
  rw [execs.eq_def]
  simp only
  rw [exec.eq_def]
  simp only [Option.bind_some]
  rw [execs.eq_def]
  simp only
  rw [gStmt_exec fs ['x'] _ _ _ _ _ rfl rfl]
  simp only [Option.bind_some]
  rw [execs.eq_def]
  simp only
  rw [gStmt_exec fs ['y'] _ _ _ _ _ rfl rfl]
  simp only [Option.bind_some]
  rw [execs.eq_def]
  simp only
  rw [gStmt_exec fs ['z'] _ _ _ _ _ rfl rfl]
  simp only [Option.bind_some]
  rw [execs.eq_def]
  simp only
  rw [exec.eq_def]
  simp [eval, Env.get, Val.HasTy, gTerm, gShade]

theorem beckmann_run (w : Str) (q : ℝ) (hw : numVal w = some q) (hq : q ≠ 0)
    (L V ks a : V3) (h0 : sumLen L V ≠ 0) (hl : L.z ≠ 0) (hv : V.z ≠ 0) (hl1 : L.z < 1) (hv1 : V.z < 1)
    (ha : a.x ≠ 0 ∧ a.y ≠ 0 ∧ a.z ≠ 0) (d : ℝ) (hd : d = (L.z + V.z) / sumLen L V) (hd0 : d ≠ 0) :
    ((beckmannDef w).toFun [gBeckmannDef.toFun []]).run [.v L, .v V, .v axisZ, .v axisX, .v axisY, .v ks, .v a] =
      some (.v ⟨beckShade q ks.x a.x d (L.z * V.z) * gShade L.z a.x * gShade V.z a.x,
        beckShade q ks.y a.y d (L.z * V.z) * gShade L.z a.y * gShade V.z a.y,
        beckShade q ks.z a.z d (L.z * V.z) * gShade L.z a.z * gShade V.z a.z⟩) := by
  have h : NoBuiltin [gBeckmannDef.toFun []] := by
    intro g hg
    obtain rfl := List.mem_singleton.mp hg
    show gBeckmannDef.name ∉ builtinNames
    decide +kernel
  have hh := normalize_sum _ h L V h0
  rw [← hd] at hh
  have hg : ∀ M : V3, M.z < 1 → callFun [gBeckmannDef.toFun []] ['g', '_', 'b', 'e', 'c', 'k', 'm', 'a', 'n', 'n']
      [.v M, .v axisZ, .v a] = some (.v ⟨gShade M.z a.x, gShade M.z a.y, gShade M.z a.z⟩) := by
    intro M hM
    refine Eq.trans ?_ (g_run [] (by simp [NoBuiltin]) M a ha hM)
    exact call_unique [gBeckmannDef.toFun []] (by simp) (gBeckmannDef.toFun []) (by simp) _ rfl
  generalize hF : [gBeckmannDef.toFun []] = fs at h hh hg
  unfold beckmannDef FunDef.toFun
  simp only [List.zipWith_cons_cons, List.zipWith_nil_left]
  rw [execs_decl _ _ _ _ _ _ (.v ⟨(L.x + V.x) / sumLen L V, (L.y + V.y) / sumLen L V, d⟩) (by
      simp [eval, evals, Env.get, binVal, arith, V3.map2, hh]) (by trivial),
    execs_decl _ _ _ _ _ _ (.f d) (by
      simp [eval, evals, Env.get, call_dot fs h, dot_Z]) (by trivial),
    execs_decl _ _ _ _ _ _ (.f L.z) (by
      simp [eval, evals, Env.get, call_dot fs h, dot_Z]) (by trivial),
    execs_decl _ _ _ _ _ _ (.f V.z) (by
      simp [eval, evals, Env.get, call_dot fs h, dot_Z]) (by trivial)]
  rw [execs.eq_def]
  simp only
  rw [exec.eq_def]
  simp only
  rw [eval.eq_def]
  simp only
  rw [eval.eq_def]
  simp only
  rw [beckE_value fs h _ w ['h', 'n'] q hw hq ks a d L.z V.z ha hl hv hd0
    (by simp [Env.get]) (by simp [Env.get]) (by simp [Env.get]) (by simp [Env.get]) (by simp [Env.get])]
  simp [gCall, eval, evals, Env.get, hg L hl1, hg V hv1, binVal, arith, V3.map2, Val.HasTy]

end
end Alta
