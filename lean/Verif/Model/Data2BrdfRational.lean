import Verif.Model.Data2Brdf
import Verif.Model.Brdf2Brdf
import Verif.Model.RationalFit
/-
Model of the command `data2brdf` with a fitter of rational functions.

Modelled: /repo/sources/softs/data2brdf/main.cpp 124-176; `set_parameters` of the fitters
(/repo/sources/plugins/rational_fitters/eigen.cpp 98-102, leastsquare.cpp 75-77 and 97-102, quadprog.cpp 138-157).

Simplifications: those of the parts (`Model/RationalFit`, `Model/Quadprog`, `Model/Distance`, `Model/Brdf2Brdf`); the
sizes are not negative; the data are a `vertical_segment`; the options of the scheduling and of the energy of the
quadratic programs are part of the solver.
-/
namespace Alta
noncomputable section

/-- A rational function to be compared with data. -/
def RatFn.evaluable (p : Par) (f : RatFn) : Evaluable := ⟨p, f.value⟩

/-- `int n = args.get_float(k, d)`: the decimals are dropped. -/
def sizeOption (args : SMap) (k : Str) (d : ℕ) : ℕ := (args.getFloat k d).floor.toNat

/-- `rational_fitter_eigen`.  /repo/sources/plugins/rational_fitters/eigen.cpp 55-102. -/
def eigenFitter (solve : EigenSystem) (junk : ℝ) (d : Segments) (args : SMap) (f : RatFn) : Option (Bool × RatFn) :=
  eigenRationalFit solve junk d (sizeOption args "np".toList 10) (sizeOption args "nq".toList 10) f

/-- `rational_fitter_leastsquare`.  /repo/sources/plugins/rational_fitters/leastsquare.cpp 56-102. -/
def leastFitter (solve : LeastSquares) (junk : ℝ) (d : Segments) (args : SMap) (f : RatFn) : Option (Bool × RatFn) :=
  leastSquareFit solve junk d (args.getInt "np".toList 10).toNat (args.getInt "nq".toList 10).toNat
    (args.getInt "max-iter".toList 1).toNat f

/-- `rational_fitter_quadprog`.  /repo/sources/plugins/rational_fitters/quadprog.cpp 80-157. -/
def quadprogFitter (solve : Solver) (junk : ℝ) (d : Segments) (args : SMap) (f : RatFn) : Option (Bool × RatFn) :=
  let np := sizeOption args "np".toList 10
  let nq := sizeOption args "nq".toList 10
  quadprogFit solve junk ((args.getFloat "delta".toList 1 : ℚ) : ℝ) d np nq
    (some (sizeOption args "min-np".toList np)) (some (sizeOption args "min-nq".toList nq)) f

/-- What `data2brdf` prints and writes when the fit succeeds. -/
structure FittedRational where
  function : RatFn
  l2 : ℝ
  linf : ℝ
  /-- the arguments, with the two distances -/
  args : SMap
  /-- the content of the file -/
  file : Str

/-- `main` of `data2brdf` with a fitter of rational functions: the exit code, and what was written.  Any other function
    is refused by the fitter; the new function has the parametrization of the data, so that `check_compatibility` does
    nothing.  `fmt6` prints the distances, `fmt10` the coefficients.
    /repo/sources/softs/data2brdf/main.cpp 124-176. -/
def data2brdfRational (dir : Str) (env : Option Str) (fs : Str → Option (Symbols (Provider LobeObj)))
    (fit : Segments → SMap → RatFn → Option (Bool × RatFn)) (fmt6 fmt10 fmt : ℝ → Decimal)
    (other : AnyFn → SMap → Option Str) (args : SMap) (d : Segments) : Option (ℕ × Option FittedRational) :=
  let data := d.store.toData
  (getFunction dir env fs LobeObj.par args data.par).bind fun m =>
    match m with
    | .null => some (1, none)
    | .linear l =>
      if data.rows = [] then some (1, none)
      else (checkCompatibility args data (.leaf l)).map fun _ => (1, none)
    | .nonlinear f =>
      if data.rows = [] then some (1, none)
      else (checkCompatibility args data f).map fun _ => (1, none)
    | .rational =>
      if data.rows = [] then some (1, none)
      else (fit d args (newRational data.par)).bind fun o =>
        if o.1 = true then
          (l2Distance (o.2.evaluable data.par) data).bind fun l2 =>
            (linfDistance (o.2.evaluable data.par) data).bind fun linf =>
              let args' := (args.update kL2 (fmt6 l2).text).update kLinf (fmt6 linf.1).text
              ((AnyFn.rational data.par o.2).save fmt10 fmt other args').map fun file =>
                (0, some { function := o.2, l2 := l2, linf := linf.1, args := args', file := file })
        else some (1, none)

end
end Alta
