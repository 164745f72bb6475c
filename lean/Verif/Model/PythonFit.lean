import Verif.Model.Data2BrdfRational
import Verif.Model.NonlinearFitRun
/-
Model of the fitter objects of the Python binding: a script makes a fitter once and calls `fit_data` as many times as it
wants, with options or without.

Modelled: /repo/sources/python/alta.cpp 194-209 and 328-331; the members of the fitters and their `set_parameters`
(/repo/sources/plugins/rational_fitters/eigen.cpp 44-102, leastsquare.cpp 44-101, quadprog.cpp 54-157;
/repo/sources/plugins/nonlinear_fitter_ceres/fitter.cpp 113-226; the other nonlinear fitters keep nothing).

Simplifications: those of the fitters; the sizes are not negative; the options of quadprog that only tell the solver how
to work (`scheduling-*`, `export-qp`, `add-ls-energy`) are given to the solver as one record; `_boundary`, which nothing
reads, is left out.
-/
namespace Alta
noncomputable section

/-- A class of fitters, for data of type `D` and functions of type `F`: what an object keeps, `set_parameters` (`false`
    when it throws: what was assigned before stays), and `fit_data`: the result, the function and the object after it. -/
structure FitterCls (D F : Type) : Type 1 where
  {σ : Type}
  setParameters : SMap → σ → σ × Bool
  fit : D → F → SMap → σ → Option ((Bool × F) × σ)

/-- `fit_data_with_args`; no result when `set_parameters` throws an exception.
    /repo/sources/python/alta.cpp 204-209. -/
def FitterCls.fitWith {D F : Type} (c : FitterCls D F) (s : c.σ) (d : D) (f : F) (args : SMap) :
    Option (Option (Bool × F) × c.σ) :=
  if (c.setParameters args s).2 then
    (c.fit d f args (c.setParameters args s).1).map fun r => (some r.1, r.2)
  else some (none, (c.setParameters args s).1)

/-- `fit_data_without_args`: `set_parameters` is not called.  /repo/sources/python/alta.cpp 197-202. -/
def FitterCls.fitWithout {D F : Type} (c : FitterCls D F) (s : c.σ) (d : D) (f : F) : Option (Option (Bool × F) × c.σ) :=
  (c.fit d f [] s).map fun r => (some r.1, r.2)

/-- A call of `fit_data` by a script, with options or without; `f` is the function as it is at the time of the call. -/
structure FitCall (D F : Type) where
  data : D
  function : F
  options : Option SMap

/-- A call of `fit_data`.  /repo/sources/python/alta.cpp 328-331. -/
def FitterCls.call {D F : Type} (c : FitterCls D F) (s : c.σ) (k : FitCall D F) : Option (Option (Bool × F) × c.σ) :=
  match k.options with
  | some args => c.fitWith s k.data k.function args
  | none => c.fitWithout s k.data k.function

/-- The fitter after some calls; `none` when one of them does not end or reads outside of its arrays. -/
def FitterCls.after {D F : Type} (c : FitterCls D F) (s : c.σ) : List (FitCall D F) → Option c.σ
  | [] => some s
  | k :: ks => (c.call s k).bind fun r => c.after r.2 ks

/-! ### Fitters of rational functions -/

/-- `_np` and `_nq` of `rational_fitter_eigen`; the constructor leaves them as they are.
    /repo/sources/plugins/rational_fitters/eigen.cpp 44-50. -/
structure EigenSizes where
  np : ℕ
  nq : ℕ

/-- /repo/sources/plugins/rational_fitters/eigen.cpp 55-102 -/
def eigenCls (solve : EigenSystem) (junk : ℝ) : FitterCls Segments RatFn where
  σ := EigenSizes
  setParameters args _ := (⟨sizeOption args "np".toList 10, sizeOption args "nq".toList 10⟩, true)
  fit d f _ s := (eigenRationalFit solve junk d s.np s.nq f).map fun r => (r, s)

/-- The members of `rational_fitter_leastsquare`.  /repo/sources/plugins/rational_fitters/leastsquare.cpp 44-45. -/
structure LeastSizes where
  np : ℕ
  nq : ℕ
  maxIter : ℕ

/-- What the constructor sets.  /repo/sources/plugins/rational_fitters/leastsquare.cpp 49. -/
def newLeast : LeastSizes := ⟨10, 10, 1⟩

/-- `fit_data` reads the sizes again.  /repo/sources/plugins/rational_fitters/leastsquare.cpp 56-101. -/
def leastCls (solve : LeastSquares) (junk : ℝ) : FitterCls Segments RatFn where
  σ := LeastSizes
  setParameters args _ := (⟨(args.getInt "np".toList 10).toNat, (args.getInt "nq".toList 10).toNat,
    (args.getInt "max-iter".toList 1).toNat⟩, true)
  fit d f args s :=
    let s' : LeastSizes := if d.store.kind ≠ .asymmetrical then s
      else { s with np := (args.getInt "np".toList s.np).toNat, nq := (args.getInt "nq".toList s.nq).toNat }
    (leastSquareFit solve junk d s'.np s'.nq s'.maxIter f).map fun r => (r, s')

/-- The options of quadprog that tell the solver how to work.
    /repo/sources/plugins/rational_fitters/quadprog.cpp 64-69. -/
structure Scheduling where
  mode : Str
  chunk : ℤ
  grow : ℚ
  exportQp : Bool
  lsEnergy : Bool

/-- /repo/sources/plugins/rational_fitters/quadprog.cpp 150-156 -/
def schedulingOf (args : SMap) : Scheduling where
  mode := args.getString "scheduling-mode".toList "SlidingWindows".toList
  chunk := args.getInt "scheduling-chunk-size".toList (-1)
  grow := args.getFloat "scheduling-grow-factor".toList (-1)
  exportQp := args.isDefined "export-qp".toList
  lsEnergy := args.isDefined "add-ls-energy".toList

/-- The members of `rational_fitter_quadprog`; the constructor leaves them as they are.
    /repo/sources/plugins/rational_fitters/quadprog.cpp 54-75. -/
structure QuadprogMembers where
  maxNp : ℕ
  maxNq : ℕ
  minNp : ℕ
  minNq : ℕ
  delta : ℝ
  scheduling : Scheduling

/-- /repo/sources/plugins/rational_fitters/quadprog.cpp 138-157 -/
def quadprogMembers (args : SMap) : QuadprogMembers :=
  let np := sizeOption args "np".toList 10
  let nq := sizeOption args "nq".toList 10
  let minNp := sizeOption args "min-np".toList np
  let minNq := sizeOption args "min-nq".toList nq
  { maxNp := max np minNp, maxNq := max nq minNq, minNp := minNp, minNq := minNq
    delta := ((args.getFloat "delta".toList 1 : ℚ) : ℝ), scheduling := schedulingOf args }

/-- /repo/sources/plugins/rational_fitters/quadprog.cpp 80-157 -/
def quadprogCls (solve : Scheduling → Solver) (junk : ℝ) : FitterCls Segments RatFn where
  σ := QuadprogMembers
  setParameters args _ := (quadprogMembers args, true)
  fit d f _ s :=
    (if d.store.kind ≠ .asymmetrical then some (false, f)
     else fitSizes (solve s.scheduling) junk s.delta d.store s.maxNp s.maxNq s.minNp s.minNq
        { f with lo := d.min, hi := d.max }).map fun r => (r, s)

/-! ### Fitters of nonlinear functions -/

/-- A fitter whose `set_parameters` does nothing and whose `fit_data` reads the options: the nonlinear fitters with
    Eigen, NLopt and Ipopt, and `rational_fitter_quadprog_parallel`.
    /repo/sources/plugins/nonlinear_fitter_eigen/fitter.cpp 317-392, nonlinear_fitter_nlopt/fitter.cpp 140-310,
    nonlinear_fitter_ipopt/fitter.cpp 237-328, rational_fitters/quadprog_parallel.cpp 82-260. -/
def statelessCls {D F : Type} (fit : D → SMap → F → Option (Bool × F)) : FitterCls D F where
  σ := Unit
  setParameters _ s := (s, true)
  fit d f args s := (fit d args f).map fun r => (r, s)

/-- `if(args.is_defined(k)) { options.function_tolerance = args.get_double(k); }`, on a fitter that was already used; the
    Boolean is false after an exception, and then nothing more is done.
    /repo/sources/plugins/nonlinear_fitter_ceres/fitter.cpp 207-223. -/
def resetFunctionTolerance (args : SMap) (k : Str) (dflt : ℚ) (o : CeresOptions × Bool) : CeresOptions × Bool :=
  if o.2 ∧ args.isDefined k then
    match args.getDouble k dflt with
    | none => (o.1, false)
    | some v => ({ o.1 with functionTolerance := some v }, true)
  else o

/-- `set_parameters` on a fitter that was already used.
    /repo/sources/plugins/nonlinear_fitter_ceres/fitter.cpp 185-226. -/
def ceresSet (args : SMap) (o : CeresOptions) : CeresOptions × Bool :=
  let o1 : CeresOptions := { o with
    maxIterations := if args.isDefined "ceres-max-num-iterations".toList then
        some (args.getInt "ceres-max-num-iterations".toList 50) else o.maxIterations
    choleskyFactorization := args.get "ceres-factorization".toList = "normal-cholesky".toList
    progress := if args.isDefined "ceres-debug".toList then true else o.progress }
  resetFunctionTolerance args "ceres-parameter-tolerance".toList (1 / 10 ^ 8)
    (resetFunctionTolerance args "ceres-gradient-tolerance".toList (1 / 10 ^ 10)
      (resetFunctionTolerance args "ceres-function-tolerance".toList (1 / 10 ^ 6) (o1, true)))

/-- The options of a new fitter: those of the library.  /repo/sources/plugins/nonlinear_fitter_ceres/fitter.cpp 113-115. -/
def newCeres : CeresOptions × Bool := (⟨none, false, false, none, none, none⟩, false)

/-- `nonlinear_fitter_ceres`; the solver is given the options, and a Boolean that is false as long as `set_parameters` was
    not called: the factorization is then the one of the library.
    /repo/sources/plugins/nonlinear_fitter_ceres/fitter.cpp 120-226. -/
def ceresCls (files : Str → Option Str) (solver : CeresOptions → Bool → CeresSolver) : FitterCls Data (FT LobeObj) where
  σ := CeresOptions × Bool
  setParameters args s := (((ceresSet args s.1).1, true), (ceresSet args s.1).2)
  fit d f args s := (ceresFit files (solver s.1 s.2) d args f).map fun r => (r, s)

end
end Alta
