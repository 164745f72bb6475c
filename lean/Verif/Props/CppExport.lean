import Verif.Proofs.CppRun
import Verif.Props.RationalFile
/-
Property C79: a rational function exported as C++.
-/
namespace Alta
open Glsl Real
noncomputable section

/-- Numbers are written with digits before and after the point (`std::scientific`). -/
def CppFmt (fmt : ℝ → Decimal) : Prop := ∀ x, (fmt x).ip ≠ [] ∧ (fmt x).fp ≠ []

/-- The function whose coefficients are those that are written. -/
def Rat1.asPrinted (fmt : ℝ → Decimal) (r : Rat1) : Rat1 :=
  { r with p := r.p.map fun c => { c with a := printed fmt c.a }, q := r.q.map fun c => { c with a := printed fmt c.a } }

/-- The point of `[-1, 1]^d` that corresponds to a point of the domain. -/
def unitPoint (d : ℕ) (lo hi z : List ℝ) : List ℝ := (List.range d).map (unitCoord lo hi z)

/-! ### Literals -/

theorem showNat_zero (n : ℕ) (h : (showNat n).head? = some '0') : n = 0 := by
  induction n using Nat.strong_induction_on with
  | _ n ih =>
    rw [showNat] at h
    split at h
    · rename_i hn
      simp only [List.head?_cons, Option.some.injEq] at h
      interval_cases n <;> first | rfl | (revert h; decide)
    · rename_i hn
      obtain ⟨d, hd, r, e⟩ := showNat_head (n / 10)
      have := ih (n / 10) (by omega) (by rw [e] at h ⊢; simpa using h)
      omega

theorem natVal_showNat (n : ℕ) : Cpp.natVal (showNat n) = some n := by
  unfold Cpp.natVal
  rw [if_pos, digitsVal_showNat]
  refine ⟨showNat_ne_nil n, showNat_all_digit n, fun h => ?_⟩
  rw [showNat_zero n h, showNat]
  rfl

theorem litVal_showNat (n : ℕ) : Cpp.litVal (showNat n) = some (n : ℝ) := by
  unfold Cpp.litVal
  rw [if_pos (showNat_all_digit n), natVal_showNat]
  rfl

theorem litVal_unsigned (d : Decimal) (h : d.ip ≠ []) (h' : d.fp ≠ []) :
    Cpp.litVal d.unsigned = some (({ d with neg := false } : Decimal).value : ℝ) := by
  unfold Cpp.litVal
  have hdot : '.' ∈ d.unsigned := by
    unfold Decimal.unsigned
    simp [h']
  rw [if_neg (fun hh => by have := hh '.' hdot; revert this; decide)]
  have e : d.unsigned = [] ++ (({ d with neg := false } : Decimal).text ++ []) := by
    rw [Decimal.text_unsigned]
    simp [Decimal.unsigned]
  rw [e, strtod_text [] [] ({ d with neg := false } : Decimal) (by simp) (.inl h) (by simp [NumberEnds])]

theorem evalCpp_number (env : Cpp.Env) (d : Decimal) (h : d.ip ≠ []) (h' : d.fp ≠ []) :
    Cpp.eval env (numE d) = some ((d.value : ℚ) : ℝ) := by
  have hv := litVal_unsigned d h h'
  unfold numE
  cases hd : d.neg with
  | false =>
    have : ({ d with neg := false } : Decimal) = d := by cases d; simp_all
    rw [this] at hv
    simp only [Bool.false_eq_true, if_false, Cpp.eval, hv]
  | true =>
    simp only [if_true, Cpp.eval, hv, Option.map_some]
    congr 1
    simp [Decimal.value, hd]

/-! ### Expressions -/

theorem powOp_nat (x : ℝ) (n : ℕ) : Cpp.powOp x n = some (x ^ n) := by
  unfold Cpp.powOp
  rw [if_neg, rpow_natCast]
  rintro (⟨-, h⟩ | ⟨-, h⟩)
  · exact h ⟨n, by simp⟩
  · exact absurd h (by simp)

theorem eval_powE (env : Cpp.Env) (x : List ℝ) (h : env.get ['x'] = some (.v (x.map some))) (k e : ℕ) (hk : k < x.length) :
    Cpp.eval env (powE k e) = some (arr x k ^ e) := by
  have hpow : (['p', 'o', 'w'] : Str) = "pow".toList := by decide
  have hx : ((x.map some)[k]?).join = some (arr x k) := by
    rw [List.getElem?_map, List.getElem?_eq_getElem hk]
    simp [arr, hk]
  simp only [powE, Cpp.eval, Cpp.evals, h, natVal_showNat, hx, litVal_showNat, Option.bind_some, Option.map_some, if_pos hpow,
    powOp_nat]

theorem eval_starsE (env : Cpp.Env) (x : List ℝ) (h : env.get ['x'] = some (.v (x.map some))) (g : ℕ → ℕ) (l : List ℕ)
    (hl : ∀ k ∈ l, k < x.length) (e : Expr) (a : ℝ) (he : Cpp.eval env e = some a) :
    Cpp.eval env (starsE g e l) = some (a * (l.map fun k => arr x k ^ g k).prod) := by
  induction l generalizing e a with
  | nil => simp [starsE, he]
  | cons k l ih =>
    rw [starsE, ih (fun k hk => hl k (by simp [hk])) _ (a * arr x k ^ g k)]
    · simp [mul_assoc]
    · simp only [Cpp.eval, he, eval_powE env x h k (g k) (hl k (by simp)), Option.bind_some, Cpp.binOp]

/-- value of a term -/
def termVal (fmt : ℝ → Decimal) (d : ℕ) (x : List ℝ) (c : Coeff) : ℝ :=
  printed fmt c.a * ((List.range d).map fun k => arr x k ^ c.deg.getD k 0).prod

theorem eval_termE (fmt : ℝ → Decimal) (hf : CppFmt fmt) (env : Cpp.Env) (x : List ℝ)
    (h : env.get ['x'] = some (.v (x.map some))) (d : ℕ) (hd : d ≤ x.length) (c : Coeff) :
    Cpp.eval env (termE fmt d c) = some (termVal fmt d x c) :=
  eval_starsE env x h _ _ (fun k hk => by have := List.mem_range.mp hk; omega) _ _
    (evalCpp_number env _ (hf c.a).1 (hf c.a).2)

theorem eval_sumTailE (fmt : ℝ → Decimal) (hf : CppFmt fmt) (env : Cpp.Env) (x : List ℝ)
    (h : env.get ['x'] = some (.v (x.map some))) (d : ℕ) (hd : d ≤ x.length) (l : List Coeff) (e : Expr) (a : ℝ)
    (he : Cpp.eval env e = some a) :
    Cpp.eval env (sumTailE fmt d e l) = some (a + (l.map (termVal fmt d x)).sum) := by
  induction l generalizing e a with
  | nil => simp [sumTailE, he]
  | cons c l ih =>
    rw [sumTailE, ih _ (a + termVal fmt d x c)]
    · simp [add_assoc]
    · simp only [Cpp.eval, he, eval_termE fmt hf env x h d hd c, Option.bind_some, Cpp.binOp]

theorem eval_cppSumE (fmt : ℝ → Decimal) (hf : CppFmt fmt) (env : Cpp.Env) (x : List ℝ)
    (h : env.get ['x'] = some (.v (x.map some))) (d : ℕ) (hd : d ≤ x.length) (l : List Coeff) (hl : l ≠ []) :
    Cpp.eval env (cppSumE fmt d l) = some ((l.map (termVal fmt d x)).sum) := by
  cases l with
  | nil => exact absurd rfl hl
  | cons c l =>
    rw [cppSumE, eval_sumTailE fmt hf env x h d hd l _ _ (eval_termE fmt hf env x h d hd c)]
    simp

/-! ### Polynomials -/

theorem listSum_range {α : Type} (l : List α) (F : α → ℝ) (G : ℕ → ℝ) (h : ∀ (i : ℕ) (c : α), l[i]? = some c → F c = G i) :
    (l.map F).sum = ∑ i ∈ Finset.range l.length, G i := by
  induction l generalizing G with
  | nil => simp
  | cons c l ih =>
    rw [List.map_cons, List.sum_cons, List.length_cons, Finset.sum_range_succ', ih (fun i => G (i + 1)) (fun i c' hc => h (i + 1) c' (by simpa using hc)),
      h 0 c rfl, add_comm]

theorem unitCoord_unit (d : ℕ) (x : List ℝ) (k : ℕ) (hk : k < d) :
    unitCoord (List.replicate d (-1)) (List.replicate d 1) x k = arr x k := by
  simp only [unitCoord, arr, List.getD_eq_getElem?_getD, List.getElem?_replicate, hk, if_true, Option.getD_some]
  ring

theorem sum_polynomial (fmt : ℝ → Decimal) (d : ℕ) (x : List ℝ) (l : List Coeff)
    (h : ∀ i c, l[i]? = some c → c.deg = (index2degree d i).getD []) :
    (l.map (termVal fmt d x)).sum =
      polynomial d (List.replicate d (-1)) (List.replicate d 1) ((l.map Coeff.a).map (printed fmt)) x := by
  unfold polynomial
  rw [listSum_range l (termVal fmt d x) (fun i => arr ((l.map Coeff.a).map (printed fmt)) i *
    basisFn d (List.replicate d (-1)) (List.replicate d 1) i x)]
  · simp
  intro i c hc
  unfold termVal basisFn monomial
  rw [h i c hc]
  congr 1
  · simp [arr, hc]
  · rw [Finset.prod_congr rfl (fun k hk => by rw [unitCoord_unit d x k (Finset.mem_range.mp hk)])]
    rw [Finset.prod_eq_multiset_prod]
    rfl

theorem polynomial_unitPoint (d : ℕ) (lo hi a z : List ℝ) :
    polynomial d (List.replicate d (-1)) (List.replicate d 1) a (unitPoint d lo hi z) = polynomial d lo hi a z := by
  unfold polynomial basisFn monomial
  apply Finset.sum_congr rfl
  intro i _
  congr 1
  apply Finset.prod_congr rfl
  intro k hk
  have hk := Finset.mem_range.mp hk
  rw [unitCoord_unit d _ k hk]
  simp [unitPoint, arr, hk]

/-! ### Running the program -/

/-- the variables at the beginning -/
def cppEnv (dimY : ℕ) (x : List ℝ) : Cpp.Env :=
  [(['r', 'e', 's'], .v (List.replicate dimY none)), (['x'], .v (x.map some))]

theorem run_cppFile (fmt : ℝ → Decimal) (hf : CppFmt fmt) (dimY : ℕ) (rs : List Rat1) (hd : ∀ r ∈ rs, 1 ≤ r.dimX)
    (hr : ∀ r ∈ rs, r.HasTerms) (x : List ℝ) :
    Cpp.run (cppFile dimY (rs.flatMap fun r => r.cppBody fmt ++ ['\n'])) x =
      Cpp.exec ['x'] (cppEnv dimY x) (rs.flatMap (bodyStmts fmt) ++ [.ret ['r', 'e', 's']]) := by
  unfold Cpp.run
  rw [parse_cppFile fmt (fun x => (hf x).1) dimY rs hd hr, Option.bind_some, if_pos (show (cppDef fmt dimY rs).name = "brdf".toList from rfl)]
  simp only [cppDef, Cpp.exec]
  rw [if_neg (by simp), natVal_showNat]
  rfl

theorem get_of_ne (env : Cpp.Env) (y z : Str) (v : Cpp.Val) (h : z ≠ y) : Cpp.Env.get ((z, v) :: env) y = env.get y := by
  unfold Cpp.Env.get
  rw [List.find?_cons_of_neg (by simpa using h)]

theorem get_self (env : Cpp.Env) (y : Str) (v : Cpp.Val) : Cpp.Env.get ((y, v) :: env) y = some v := by
  unfold Cpp.Env.get
  rw [List.find?_cons_of_pos (by simp)]
  rfl

/-- one channel -/
theorem exec_body (fmt : ℝ → Decimal) (hf : CppFmt fmt) (dimY : ℕ) (hy : 0 < dimY) (r : Rat1) (hs : r.Standard) (hr : r.HasTerms)
    (x : List ℝ) (hx : r.dimX ≤ x.length)
    (hq : polynomial r.dimX (List.replicate r.dimX (-1)) (List.replicate r.dimX 1) (r.getQ.map (printed fmt)) x ≠ 0)
    (rest : List Cpp.Stmt) :
    ∃ P Q : ℝ, Cpp.exec ['x'] (cppEnv dimY x) (bodyStmts fmt r ++ rest) =
      Cpp.exec ['x'] ((['r', 'e', 's'], .v ((List.replicate dimY none).set 0 (some (
        polynomial r.dimX (List.replicate r.dimX (-1)) (List.replicate r.dimX 1) (r.getP.map (printed fmt)) x /
        polynomial r.dimX (List.replicate r.dimX (-1)) (List.replicate r.dimX 1) (r.getQ.map (printed fmt)) x)))) ::
        (['d', 'e', 'n'], .d Q) :: (['n', 'u', 'm'], .d P) :: cppEnv dimY x) rest := by
  set P := polynomial r.dimX (List.replicate r.dimX (-1)) (List.replicate r.dimX 1) (r.getP.map (printed fmt)) x with hP
  set Q := polynomial r.dimX (List.replicate r.dimX (-1)) (List.replicate r.dimX 1) (r.getQ.map (printed fmt)) x with hQ
  refine ⟨P, Q, ?_⟩
  have hx0 : (cppEnv dimY x).get ['x'] = some (.v (x.map some)) := by
    unfold cppEnv; rw [get_of_ne _ _ _ _ (by decide), get_self]
  have e1 : Cpp.eval (cppEnv dimY x) (cppSumE fmt r.dimX r.p) = some P := by
    rw [eval_cppSumE fmt hf _ x hx0 _ hx _ hr.1, sum_polynomial fmt _ x _ hs.2.1]; rfl
  have e2 : Cpp.eval ((['n', 'u', 'm'], .d P) :: cppEnv dimY x) (cppSumE fmt r.dimX r.q) = some Q := by
    rw [eval_cppSumE fmt hf _ x (by rw [get_of_ne _ _ _ _ (by decide), hx0]) _ hx _ hr.2, sum_polynomial fmt _ x _ hs.2.2]; rfl
  have e3 : Cpp.eval ((['d', 'e', 'n'], .d Q) :: (['n', 'u', 'm'], .d P) :: cppEnv dimY x) quotE = some (P / Q) := by
    simp only [quotE, Cpp.eval, get_self, get_of_ne _ ['n', 'u', 'm'] ['d', 'e', 'n'] _ (by decide), Option.bind_some, Cpp.binOp,
      if_neg hq]
  have g : Cpp.Env.get ((['d', 'e', 'n'], .d Q) :: (['n', 'u', 'm'], .d P) :: cppEnv dimY x) ['r', 'e', 's'] =
      some (.v (List.replicate dimY none)) := by
    rw [get_of_ne _ _ _ _ (by decide), get_of_ne _ _ _ _ (by decide)]
    unfold cppEnv
    rw [get_self]
  have n0 : Cpp.natVal ['0'] = some 0 := by
    have := natVal_showNat 0
    rw [showNat] at this
    exact this
  have m1 : (['n', 'u', 'm'] : Str) ∉ (cppEnv dimY x).map (·.1) := by
    show _ ∉ [(['r', 'e', 's'] : Str), ['x']]; decide
  have m2 : (['d', 'e', 'n'] : Str) ∉ (((['n', 'u', 'm'], Cpp.Val.d P) :: cppEnv dimY x : Cpp.Env)).map (·.1) := by
    show _ ∉ [(['n', 'u', 'm'] : Str), ['r', 'e', 's'], ['x']]; decide
  simp only [bodyStmts, List.cons_append, List.nil_append]
  rw [Cpp.exec, if_neg m1, e1, Option.bind_some, Cpp.exec, if_neg m2, e2, Option.bind_some, Cpp.exec, if_neg (by decide), g, n0]
  simp only [List.length_replicate, if_pos hy, e3, Option.bind_some]

/-! ### The exported file -/

/-- the allocated channels -/
def RatFn.channels (f : RatFn) : List Rat1 := (List.range f.dimY).filterMap fun k => (f.rs[k]?).join

theorem exportCpp_channels (fmt : ℝ → Decimal) (f : RatFn) :
    f.exportCpp fmt = cppFile f.dimY (f.channels.flatMap fun r => r.cppBody fmt ++ ['\n']) := by
  unfold RatFn.exportCpp RatFn.cppCall RatFn.channels
  congr 1
  induction List.range f.dimY with
  | nil => rfl
  | cons k l ih =>
    rw [List.flatMap_cons, ih]
    cases h : (f.rs[k]?).join with
    | none => simp [h]
    | some r => simp [h]

/-- one channel is allocated: its quotient is the element 0 of the result, and the other elements are not
    initialised -/
theorem run_one_channel (fmt : ℝ → Decimal) (hf : CppFmt fmt) (f : RatFn) (r : Rat1) (hc : f.channels = [r]) (hs : r.Standard)
    (hr : r.HasTerms) (x : List ℝ) (hx : r.dimX ≤ x.length)
    (hq : polynomial r.dimX (List.replicate r.dimX (-1)) (List.replicate r.dimX 1) (r.getQ.map (printed fmt)) x ≠ 0) :
    Cpp.run (f.exportCpp fmt) x = some ((List.replicate f.dimY none).set 0 (some (
        polynomial r.dimX (List.replicate r.dimX (-1)) (List.replicate r.dimX 1) (r.getP.map (printed fmt)) x /
        polynomial r.dimX (List.replicate r.dimX (-1)) (List.replicate r.dimX 1) (r.getQ.map (printed fmt)) x))) := by
  have hy : 0 < f.dimY := by
    by_contra h
    have : f.dimY = 0 := by omega
    unfold RatFn.channels at hc
    rw [this] at hc
    simp at hc
  rw [exportCpp_channels, hc, run_cppFile fmt hf _ [r] (by simpa using hs.1) (by simpa using hr)]
  have e : [r].flatMap (bodyStmts fmt) = bodyStmts fmt r := by simp
  obtain ⟨P, Q, h⟩ := exec_body fmt hf f.dimY hy r hs hr x hx hq [.ret ['r', 'e', 's']]
  rw [e, h, Cpp.exec, get_self]

theorem asPrinted_standard (fmt : ℝ → Decimal) (r : Rat1) (h : r.Standard) : (r.asPrinted fmt).Standard := by
  refine ⟨h.1, fun i c hc => ?_, fun i c hc => ?_⟩
  · simp only [Rat1.asPrinted, List.getElem?_map, Option.map_eq_some_iff] at hc
    obtain ⟨c', h1, rfl⟩ := hc
    exact h.2.1 i c' h1
  · simp only [Rat1.asPrinted, List.getElem?_map, Option.map_eq_some_iff] at hc
    obtain ⟨c', h1, rfl⟩ := hc
    exact h.2.2 i c' h1

theorem asPrinted_value (fmt : ℝ → Decimal) (r : Rat1) (h : r.Standard) (z : List ℝ) :
    (r.asPrinted fmt).value z = some (polynomial r.dimX r.lo r.hi (r.getP.map (printed fmt)) z /
      polynomial r.dimX r.lo r.hi (r.getQ.map (printed fmt)) z) := by
  rw [rational_value _ (asPrinted_standard fmt r h)]
  have h1 : (r.asPrinted fmt).getP = r.getP.map (printed fmt) := by simp [Rat1.asPrinted, Rat1.getP, Function.comp_def]
  have h2 : (r.asPrinted fmt).getQ = r.getQ.map (printed fmt) := by simp [Rat1.asPrinted, Rat1.getQ, Function.comp_def]
  rw [h1, h2]
  rfl

/-- **C79.** A rational function with one channel, exported as C++, is a program; at the point of `[-1, 1]^d` that
    corresponds to `z` in the domain, it computes what the function (with the coefficients that are written) computes
    at `z`, wherever its denominator is not zero. -/
theorem cpp_export_value (fmt : ℝ → Decimal) (hf : CppFmt fmt) (f : RatFn) (r : Rat1) (hy : f.dimY = 1) (hc : f.rs = [some r])
    (hs : r.Standard) (hr : r.HasTerms) (z : List ℝ)
    (hq : polynomial r.dimX r.lo r.hi (r.getQ.map (printed fmt)) z ≠ 0) :
    Cpp.run (f.exportCpp fmt) (unitPoint r.dimX r.lo r.hi z) = some [(r.asPrinted fmt).value z] := by
  have hch : f.channels = [r] := by
    unfold RatFn.channels
    rw [hy, hc]
    rfl
  rw [run_one_channel fmt hf f r hch hs hr _ (by simp [unitPoint]) (by rw [polynomial_unitPoint]; exact hq),
    polynomial_unitPoint, polynomial_unitPoint, asPrinted_value fmt r hs, hy]
  rfl

/-- **C79.** If the domain is `[-1, 1]^d`, the program computes the function at every point where its denominator is not
    zero. -/
theorem cpp_export_exact (fmt : ℝ → Decimal) (hf : CppFmt fmt) (f : RatFn) (r : Rat1) (hy : f.dimY = 1) (hc : f.rs = [some r])
    (hs : r.Standard) (hr : r.HasTerms) (hlo : ∀ k < r.dimX, arr r.lo k = -1) (hhi : ∀ k < r.dimX, arr r.hi k = 1)
    (z : List ℝ) (hz : z.length = r.dimX) (hq : polynomial r.dimX r.lo r.hi (r.getQ.map (printed fmt)) z ≠ 0) :
    Cpp.run (f.exportCpp fmt) z = some [(r.asPrinted fmt).value z] := by
  have e : unitPoint r.dimX r.lo r.hi z = z := by
    apply List.ext_getElem (by simp [unitPoint, hz])
    intro k h1 h2
    have hk : k < r.dimX := by simpa [unitPoint] using h1
    have ha : arr z k = z[k] := by simp [arr, h2]
    simp only [unitPoint, List.getElem_map, List.getElem_range, unitCoord, hlo k hk, hhi k hk, ha]
    ring
  have := cpp_export_value fmt hf f r hy hc hs hr z hq
  rwa [e] at this

/-- **C79.** At a point where the denominator is zero the program divides by zero. -/
theorem cpp_export_pole (fmt : ℝ → Decimal) (hf : CppFmt fmt) (f : RatFn) (r : Rat1) (hy : f.dimY = 1) (hc : f.rs = [some r])
    (hs : r.Standard) (hr : r.HasTerms) (z : List ℝ)
    (hq : polynomial r.dimX r.lo r.hi (r.getQ.map (printed fmt)) z = 0) :
    Cpp.run (f.exportCpp fmt) (unitPoint r.dimX r.lo r.hi z) = none := by
  have hch : f.channels = [r] := by
    unfold RatFn.channels
    rw [hy, hc]
    rfl
  rw [exportCpp_channels, hch, run_cppFile fmt hf _ [r] (by simpa using hs.1) (by simpa using hr)]
  set x := unitPoint r.dimX r.lo r.hi z with hxd
  have hx : r.dimX ≤ x.length := by simp [hxd, unitPoint]
  set P := polynomial r.dimX (List.replicate r.dimX (-1)) (List.replicate r.dimX 1) (r.getP.map (printed fmt)) x with hP
  have hx0 : (cppEnv f.dimY x).get ['x'] = some (.v (x.map some)) := by
    unfold cppEnv; rw [get_of_ne _ _ _ _ (by decide), get_self]
  have e1 : Cpp.eval (cppEnv f.dimY x) (cppSumE fmt r.dimX r.p) = some P := by
    rw [eval_cppSumE fmt hf _ x hx0 _ hx _ hr.1, sum_polynomial fmt _ x _ hs.2.1]; rfl
  have e2 : Cpp.eval ((['n', 'u', 'm'], .d P) :: cppEnv f.dimY x) (cppSumE fmt r.dimX r.q) = some 0 := by
    rw [eval_cppSumE fmt hf _ x (by rw [get_of_ne _ _ _ _ (by decide), hx0]) _ hx _ hr.2, sum_polynomial fmt _ x _ hs.2.2,
      hxd, polynomial_unitPoint]
    exact congrArg some hq
  have e3 : Cpp.eval ((['d', 'e', 'n'], .d 0) :: (['n', 'u', 'm'], .d P) :: cppEnv f.dimY x) quotE = none := by
    simp only [quotE, Cpp.eval, get_self, get_of_ne _ ['n', 'u', 'm'] ['d', 'e', 'n'] _ (by decide), Option.bind_some, Cpp.binOp,
      if_true]
  have m1 : (['n', 'u', 'm'] : Str) ∉ (cppEnv f.dimY x).map (·.1) := by
    show _ ∉ [(['r', 'e', 's'] : Str), ['x']]; decide
  have m2 : (['d', 'e', 'n'] : Str) ∉ (((['n', 'u', 'm'], Cpp.Val.d P) :: cppEnv f.dimY x : Cpp.Env)).map (·.1) := by
    show _ ∉ [(['n', 'u', 'm'] : Str), ['r', 'e', 's'], ['x']]; decide
  have e : [r].flatMap (bodyStmts fmt) = bodyStmts fmt r := by simp
  rw [e]
  simp only [bodyStmts, List.cons_append, List.nil_append]
  rw [Cpp.exec, if_neg m1, e1, Option.bind_some, Cpp.exec, if_neg m2, e2, Option.bind_some, Cpp.exec, if_neg (by decide)]
  split
  · rw [e3]; simp
  · rfl

end
end Alta
