import Verif.Model.NonlinearFitRun
/-
What the options of the nonlinear fitters must do: an option that is given has an effect, and only those that
are listed.
-/
namespace Alta
noncomputable section

/-- The two command lines give the same values to these options. -/
def SameOptions (keys : List Str) (a b : SMap) : Prop := ∀ k ∈ keys, a.find k = b.find k

/-- The options that the starting point of a fit depends on. -/
def startOptions : List Str :=
  ["bootstrap".toList, "cos-fit".toList, "sg-type".toList, "param".toList, "lobes".toList, "retro".toList]

/-- The stopping criteria and algorithm of a fit with NLopt. -/
def nloptOptionNames : List Str :=
  ["nlopt-optimizer".toList, "nlop-max-num-iterations".toList, "nlop-relative-function-tolerance".toList,
    "nlop-abs-function-tolerance".toList]

/-- The options of Ipopt. -/
def ipoptOptionNames : List Str := ["ipopt-max-iter".toList, "ipopt-solver".toList]

/-- The options of Ceres. -/
def ceresOptionNames : List Str :=
  ["ceres-max-num-iterations".toList, "ceres-factorization".toList, "ceres-debug".toList,
    "ceres-function-tolerance".toList, "ceres-gradient-tolerance".toList, "ceres-parameter-tolerance".toList]

/-- The optimizers of NLopt and their names. -/
def nloptNames : List (Str × NloptAlgorithm) :=
  [("local-COBYLA".toList, .LN_COBYLA), ("local-BOBYQA".toList, .LN_BOBYQA), ("local-NEWUOA".toList, .LN_NEWUOA_BOUND),
    ("local-PRAXIS".toList, .LN_PRAXIS), ("local-Nelder-Mead".toList, .LN_NELDERMEAD), ("local-spblx".toList, .LN_SBPLX),
    ("global-crs".toList, .GN_CRS2_LM), ("global-stogo".toList, .GD_STOGO), ("global-isres".toList, .GN_ISRES),
    ("local-mma".toList, .LD_MMA), ("local-sqp".toList, .LD_SLSQP)]

/-- The option has the value of the number `q`. -/
def NumberIs (args : SMap) (k : Str) (q : ℚ) : Prop := ∃ t r, args.find k = some t ∧ strtod t = some (q, r)

end
end Alta
