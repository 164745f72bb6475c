import Verif.Model.NonlinearFit
import Verif.Model.Bootstrap
import Verif.Spec.FunctionFile
/-
Model of `fit_data` of the nonlinear fitters: what is given to the external solver, and what is done with
its answer.

Modelled: /repo/sources/plugins/nonlinear_fitter_eigen/fitter.cpp 324-388,
nonlinear_fitter_ceres/fitter.cpp 120-226, nonlinear_fitter_nlopt/fitter.cpp 147-306,
nonlinear_fitter_ipopt/fitter.cpp 42-96, 218-229, 244-324.

Simplifications: the solvers are arbitrary programs (`CallingSolver`) that call the functions of the fitter, one
call at a time; a solver that never stops is left out.  An array of parameters in the memory of a solver is
a function of the index of which the fitter reads the first `nbParameters()` entries.  The messages and
the `setMin`, `setMax` of the function (its domain, which the nonlinear functions do not use) are left out.
`none` is the end of the program: a failed conversion, an assertion, or a `bootstrap` that does not return.
-/
namespace Alta
noncomputable section

/-- An external solver that calls the program: it stops with a result, or makes a call and goes on
    with the answer. -/
inductive CallingSolver (Q A R : Type) : Type where
  | stop (r : R)
  | call (q : Q) (next : A → CallingSolver Q A R)

/-- The run of a solver: the result, the calls and their answers, the state of the program. -/
def CallingSolver.run {Q A R σ : Type} (eval : Q → σ → Option (A × σ)) : CallingSolver Q A R → σ → Option (R × List (Q × A) × σ)
  | .stop r, s => some (r, [], s)
  | .call q next, s => match eval q s with
    | none => none
    | some (a, s1) => match (next a).run eval s1 with
      | none => none
      | some (r, tr, s2) => some (r, (q, a) :: tr, s2)

/-- `vec _p(n); for(i<n) { _p[i] = x[i]; }` -/
def firstOf (n : ℕ) (x : ℕ → ℝ) : List ℝ := (List.range n).map x

/-- `for(i<n) { p[i] = x[i]; }` on a vector `p`. -/
def overwrite (p : List ℝ) (n : ℕ) (x : ℕ → ℝ) : List ℝ :=
  (List.range p.length).map fun i => if i < n then x i else arr p i

/-! ### Eigen -/

/-- The calls of Eigen's LevenbergMarquardt: the residuals or the Jacobian for the parameters `x`, with the
    content of the result before the call. -/
inductive EigenQuery : Type where
  | residuals (x : ℕ → ℝ) (y : ℕ → ℝ)
  | jacobian (x : ℕ → ℝ) (J : ℕ × ℕ → ℝ)

/-- The answers to these calls: the code and the vector, or the matrix. -/
inductive EigenAnswer : Type where
  | residuals (code : ℤ) (y : ℕ → ℝ)
  | jacobian (J : ℕ × ℕ → ℝ)

/-- `LevenbergMarquardtSpace::Status` -/
inductive LMStatus : Type where
  | improperInputParameters
  | userAsked
  /-- the other ways to stop -/
  | other (k : ℕ)

/-- A call of the functor by the solver, and the function after it.
    /repo/sources/plugins/nonlinear_fitter_eigen/fitter.cpp 46-159. -/
def eigenCall (d : Data) (cosine : Bool) : EigenQuery → FT LobeObj → Option (EigenAnswer × FT LobeObj)
  | .residuals x y, f =>
    (eigenEval f.toFn d cosine (firstOf f.nb x) y).map fun r =>
      (.residuals r.1 r.2.2, if r.1 < 0 then f else f.set (firstOf f.nb x))
  | .jacobian x J, f =>
    (eigenDf f.toFn d cosine (firstOf f.nb x) J).map fun r => (.jacobian r.2, f.set (firstOf f.nb x))

/-- What Eigen's solver is given: the number of parameters, the number of residuals and the start. -/
abbrev EigenSolver := ℕ → ℕ → (ℕ → ℝ) → CallingSolver EigenQuery EigenAnswer (LMStatus × (ℕ → ℝ))

/-- `nonlinear_fitter_eigen::fit_data`.
    /repo/sources/plugins/nonlinear_fitter_eigen/fitter.cpp 324-388, 36-39. -/
def eigenFit (files : Str → Option Str) (solver : EigenSolver) (d : Data) (args : SMap) (f : FT LobeObj) :
    Option (Bool × FT LobeObj) :=
  match f.bootstrap files d args with
  | none => none
  | some f0 =>
    if f0.nb = 0 then some (true, f0)
    else
      match (solver f0.nb (d.dimY * d.rows.length) (arr (f0.toFn.get.take f0.nb))).run
          (eigenCall d (args.isDefined "fit-with-cosine".toList)) f0 with
      | none => none
      | some ((.improperInputParameters, _), _, f1) => some (false, f1)
      | some ((.userAsked, _), _, f1) => some (false, f1)
      | some ((.other _, x), _, f1) => some (true, f1.set (overwrite f0.toFn.get f1.nb x))

/-! ### Ceres -/

/-- A call of Ceres: the residual block (one per sample), the parameters, with the derivatives or not. -/
structure CeresQuery : Type where
  block : ℕ
  x : ℕ → ℝ
  grad : Bool

/-- `Evaluate` of a residual block, and the function after it; `none` is the return value `false`.
    /repo/sources/plugins/nonlinear_fitter_ceres/fitter.cpp 43-101. -/
def ceresCall (samples : List (List ℝ)) (logFit : Bool) (q : CeresQuery) (f : FT LobeObj) :
    Option (Option (List ℝ × List ℝ) × FT LobeObj) :=
  match samples[q.block]? with
  | none => none
  | some xi => (ceresEvaluate f.toFn logFit xi (firstOf f.nb q.x) q.grad).map fun
      | none => (none, f)
      | some r => (some (r.2.1, r.2.2), f.set (firstOf f.nb q.x))

/-- What Ceres is given: the size of the parameter block, the number of residual blocks, the start. -/
abbrev CeresSolver := ℕ → ℕ → (ℕ → ℝ) → CallingSolver CeresQuery (Option (List ℝ × List ℝ)) (Bool × (ℕ → ℝ))

/-- `nonlinear_fitter_ceres::fit_data`.  The result of the solver is `summary.IsSolutionUsable()` and the
    final content of the parameter block.
    /repo/sources/plugins/nonlinear_fitter_ceres/fitter.cpp 120-183. -/
def ceresFit (files : Str → Option Str) (solver : CeresSolver) (d : Data) (args : SMap) (f : FT LobeObj) :
    Option (Bool × FT LobeObj) :=
  if f.nb = 0 then some (true, f)
  else match f.bootstrap files d args with
    | none => none
    | some f0 => match d.rows.mapM (ceresSample f0.toFn d) with
      | none => none
      | some samples =>
        match (solver f0.nb samples.length (arr f0.toFn.get)).run
            (ceresCall samples (args.isDefined "log-fit".toList)) f0 with
        | none => none
        | some ((_, x), _, f1) => some (true, f1.set (overwrite f0.toFn.get f0.nb x))

/-! ### NLopt -/

/-- The algorithms of NLopt used by the fitter. -/
inductive NloptAlgorithm : Type where
  | LN_COBYLA | LN_BOBYQA | LN_NEWUOA_BOUND | LN_PRAXIS | LN_NELDERMEAD | LN_SBPLX | GN_CRS2_LM | GD_STOGO
  | GN_ISRES | LD_MMA | LD_SLSQP
  deriving DecidableEq

/-- The algorithm for the option `nlopt-optimizer`.
    /repo/sources/plugins/nonlinear_fitter_nlopt/fitter.cpp 179-227. -/
def nloptAlgorithm (name : Str) : NloptAlgorithm :=
  if name = "local-COBYLA".toList then .LN_COBYLA
  else if name = "local-BOBYQA".toList then .LN_BOBYQA
  else if name = "local-NEWUOA".toList then .LN_NEWUOA_BOUND
  else if name = "local-PRAXIS".toList then .LN_PRAXIS
  else if name = "local-Nelder-Mead".toList then .LN_NELDERMEAD
  else if name = "local-spblx".toList then .LN_SBPLX
  else if name = "global-crs".toList then .GN_CRS2_LM
  else if name = "global-stogo".toList then .GD_STOGO
  else if name = "global-isres".toList then .GN_ISRES
  else if name = "local-mma".toList then .LD_MMA
  else if name = "local-sqp".toList then .LD_SLSQP
  else .LD_SLSQP

/-- The stopping criteria given to NLopt; `none` when the default value of the library is kept. -/
structure NloptCriteria : Type where
  maxeval : Option ℤ
  xtolRel : ℚ
  ftolAbs : Option ℚ
  ftolRel : Option ℚ

/-- `args.get_double` after `is_defined`: `none` is the exception of a text that is not a number. -/
def optionDouble (args : SMap) (k : Str) (dflt : ℚ) : Option (Option ℚ) :=
  if args.isDefined k then (args.getDouble k dflt).map some else some none

/-- /repo/sources/plugins/nonlinear_fitter_nlopt/fitter.cpp 244-274 -/
def nloptCriteria (args : SMap) : Option NloptCriteria :=
  match optionDouble args "nlop-relative-function-tolerance".toList (1 / 10 ^ 4),
      optionDouble args "nlop-abs-function-tolerance".toList (1 / 10 ^ 6) with
  | some rel, some abs => some {
      maxeval := if args.isDefined "nlop-max-num-iterations".toList then
          some (args.getInt "nlop-max-num-iterations".toList 10) else none
      xtolRel := rel.getD (1 / 10 ^ 4)
      ftolAbs := abs
      ftolRel := none }
  | _, _ => none

/-- A call of NLopt: the parameters, with the gradient or not. -/
structure NloptQuery : Type where
  x : ℕ → ℝ
  grad : Bool

/-- A call of the objective, and the function after it.
    /repo/sources/plugins/nonlinear_fitter_nlopt/fitter.cpp 93-138. -/
def nloptCall (d : Data) (q : NloptQuery) (f : FT LobeObj) : Option ((ℝ × Option (ℕ → ℝ)) × FT LobeObj) :=
  (nloptF f.toFn d (firstOf f.nb q.x) q.grad).map fun r => (r.2, f.set (firstOf f.nb q.x))

/-- What NLopt is given: the algorithm and the number of parameters (`none`: `nlopt_create` returns `NULL`),
    then the bounds, the criteria and the start (`none`: an error of `nlopt_set_min_objective`). -/
abbrev NloptSolver := NloptAlgorithm → ℕ → Option ((ℕ → ℝ) → (ℕ → ℝ) → NloptCriteria → (ℕ → ℝ) →
  Option (CallingSolver NloptQuery (ℝ × Option (ℕ → ℝ)) (ℤ × (ℕ → ℝ))))

/-- `nonlinear_fitter_nlopt::fit_data`.
    /repo/sources/plugins/nonlinear_fitter_nlopt/fitter.cpp 147-306. -/
def nloptFit (files : Str → Option Str) (solver : NloptSolver) (d : Data) (args : SMap) (f : FT LobeObj) :
    Option (Bool × FT LobeObj) :=
  match f.bootstrap files d args with
  | none => none
  | some f0 =>
    if f0.nb = 0 then some (true, f0)
    else match solver (nloptAlgorithm (args.get "nlopt-optimizer".toList)) f0.nb with
      | none => some (false, f0)
      | some opt => match nloptCriteria args with
        | none => none
        | some criteria => match opt (arr f0.toFn.lo) (arr f0.toFn.hi) criteria (arr f0.toFn.get) with
          | none => some (false, f0)
          | some s => match s.run (nloptCall d) f0 with
            | none => none
            | some ((res, x), _, f1) =>
              if res > 0 then some (true, f1.set (overwrite f0.toFn.get f0.nb x)) else some (false, f1)

/-! ### Ipopt -/

/-- The calls of Ipopt: the objective or its gradient. -/
inductive IpoptQuery : Type where
  | objective (x : ℕ → ℝ)
  | gradient (x : ℕ → ℝ)

/-- The answers to these calls. -/
inductive IpoptAnswer : Type where
  | objective (y : ℝ)
  | gradient (g : ℕ → ℝ)

/-- `ApplicationReturnStatus` -/
inductive IpoptStatus : Type where
  | solveSucceeded
  | maximumIterationsExceeded
  | other (k : ℕ)

/-- The options given to Ipopt. -/
structure IpoptOptions : Type where
  maxIter : ℤ
  linearSolver : Str

/-- /repo/sources/plugins/nonlinear_fitter_ipopt/fitter.cpp 292-294 -/
def ipoptOptions (args : SMap) : IpoptOptions where
  maxIter := args.getInt "ipopt-max-iter".toList 10
  linearSolver := args.getString "ipopt-solver".toList "mumps".toList

/-- A call of `altaNLP`, and the function after it.
    /repo/sources/plugins/nonlinear_fitter_ipopt/fitter.cpp 99-192. -/
def ipoptCall (d : Data) : IpoptQuery → FT LobeObj → Option (IpoptAnswer × FT LobeObj)
  | .objective x, f => (ipoptEvalF f.toFn d (firstOf f.nb x)).map fun r => (.objective r.2, f.set (firstOf f.nb x))
  | .gradient x, f => (ipoptEvalGradF f.toFn d (firstOf f.nb x)).map fun r => (.gradient r.2, f.set (firstOf f.nb x))

/-- What Ipopt is given: the number of parameters, the bounds, the options, the start; `none` is a failure
    of `Initialize`.  The result is the status and the point of `finalize_solution`, when it is called. -/
abbrev IpoptSolver := ℕ → (ℕ → ℝ) → (ℕ → ℝ) → IpoptOptions → (ℕ → ℝ) →
  Option (CallingSolver IpoptQuery IpoptAnswer (IpoptStatus × Option (ℕ → ℝ)))

/-- `finalize_solution`.  /repo/sources/plugins/nonlinear_fitter_ipopt/fitter.cpp 218-229. -/
def finalizeSolution (x : Option (ℕ → ℝ)) (f : FT LobeObj) : FT LobeObj :=
  match x with
  | none => f
  | some x => f.set (firstOf f.nb x)

/-- `nonlinear_fitter_ipopt::fit_data`.  Simplification: the bounds and the start are asked for once, before
    the other calls.  /repo/sources/plugins/nonlinear_fitter_ipopt/fitter.cpp 244-324, 60-96. -/
def ipoptFit (files : Str → Option Str) (solver : IpoptSolver) (d : Data) (args : SMap) (f : FT LobeObj) :
    Option (Bool × FT LobeObj) :=
  match f.bootstrap files d args with
  | none => none
  | some f0 =>
    if f0.nb = 0 then some (true, f0)
    else match solver f0.nb (arr f0.toFn.lo) (arr f0.toFn.hi) (ipoptOptions args) (arr f0.toFn.get) with
      | none => some (false, f0)
      | some s => match s.run (ipoptCall d) f0 with
        | none => none
        | some ((.solveSucceeded, x), _, f1) => some (true, finalizeSolution x f1)
        | some ((.maximumIterationsExceeded, x), _, f1) => some (true, finalizeSolution x f1)
        | some ((.other _, x), _, f1) => some (false, finalizeSolution x f1)

/-! ### Any function -/

/-- A function given to a fitter: a nonlinear function, or another one (a rational function, ...), for which
    the conversion to `nonlinear_function` fails: the fit fails and the function is not changed.
    /repo/sources/plugins/nonlinear_fitter_eigen/fitter.cpp 332-336, nonlinear_fitter_ceres/fitter.cpp 128-133,
    nonlinear_fitter_nlopt/fitter.cpp 155-160, nonlinear_fitter_ipopt/fitter.cpp 252-257. -/
def fitAny {α : Type} (fit : FT LobeObj → Option (Bool × FT LobeObj)) :
    FT LobeObj ⊕ α → Option (Bool × (FT LobeObj ⊕ α))
  | .inl f => (fit f).map fun r => (r.1, .inl r.2)
  | .inr g => some (false, .inr g)

/-! ### Options of Ceres -/

/-- `ceres::Solver::Options`, the fields used by the fitter; `none` when the default of the library is kept. -/
structure CeresOptions : Type where
  maxIterations : Option ℤ
  choleskyFactorization : Bool
  progress : Bool
  functionTolerance : Option ℚ
  gradientTolerance : Option ℚ
  parameterTolerance : Option ℚ

/-- `if(args.is_defined(k)) { options.function_tolerance = args.get_double(k); }` -/
def setFunctionTolerance (args : SMap) (k : Str) (dflt : ℚ) (o : CeresOptions) : Option CeresOptions :=
  if args.isDefined k then (args.getDouble k dflt).map fun v => { o with functionTolerance := some v } else some o

/-- `nonlinear_fitter_ceres::set_parameters`, on a new fitter; `none` is the exception of a text that is not
    a number.  /repo/sources/plugins/nonlinear_fitter_ceres/fitter.cpp 185-226. -/
def ceresOptions (args : SMap) : Option CeresOptions :=
  let o : CeresOptions := {
    maxIterations := if args.isDefined "ceres-max-num-iterations".toList then
        some (args.getInt "ceres-max-num-iterations".toList 50) else none
    choleskyFactorization := args.get "ceres-factorization".toList = "normal-cholesky".toList
    progress := args.isDefined "ceres-debug".toList
    functionTolerance := none
    gradientTolerance := none
    parameterTolerance := none }
  (setFunctionTolerance args "ceres-function-tolerance".toList (1 / 10 ^ 6) o).bind fun o =>
    (setFunctionTolerance args "ceres-gradient-tolerance".toList (1 / 10 ^ 10) o).bind fun o =>
      setFunctionTolerance args "ceres-parameter-tolerance".toList (1 / 10 ^ 8) o

end
end Alta
