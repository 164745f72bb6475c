import Verif.Model.Function
import Verif.Model.Segment
import Mathlib.Analysis.SpecialFunctions.Log.Basic
/-
Model of the nonlinear fitters: what they compute for the external solvers, and what they do with the
answer.

Modelled: /repo/sources/plugins/nonlinear_fitter_eigen/fitter.cpp 34-167, 324-388,
nonlinear_fitter_ceres/fitter.cpp 32-183, 185-226, nonlinear_fitter_nlopt/fitter.cpp 48-138, 147-306,
nonlinear_fitter_ipopt/fitter.cpp 35-235, 244-324.

Simplifications: `double` is ℝ (a value that is not a number does not exist); the solvers (Eigen's
LevenbergMarquardt, Ceres, NLopt, Ipopt) are arbitrary programs that call the functions of the fitter;
`none` is the end of the program: a failed conversion, an assertion of Eigen on sizes or indices.  The
functor `CompoundFunctor` of the Eigen fitter is never used and is left out.
-/
namespace Alta
noncomputable section

/-- `_x[dimX + i]` for `i < n`; an index too large is an assertion of Eigen. -/
def readValues (row : List ℝ) (dimX n : ℕ) : Option (List ℝ) :=
  if dimX + n ≤ row.length then some ((List.range n).map fun i => arr row (dimX + i)) else none

/-- `a - b` of two Eigen vectors. -/
def vecSub (a b : List ℝ) : Option (List ℝ) :=
  if a.length = b.length then some (List.zipWith (· - ·) a b) else none

/-- `parametersJacobian(x)` of which the entries `i*nbParameters() + j` are read; an index too large is
    an assertion of Eigen. -/
def readJacobian (f : Fn) (x : List ℝ) : Option (List ℝ) :=
  (f.jac x).bind fun j => if f.par.dimY * f.nb ≤ j.length then some j else none

open Classical in
/-- Some parameter is outside of its bounds.
    /repo/sources/plugins/nonlinear_fitter_eigen/fitter.cpp 54-62, nonlinear_fitter_ceres/fitter.cpp 47-55. -/
def outOfBounds (f : Fn) (x : List ℝ) : Bool :=
  (List.range f.nb).any fun i => decide (arr x i < arr f.lo i ∨ arr x i > arr f.hi i)

/-! ### Eigen -/

/-- The cosine factor.  /repo/sources/plugins/nonlinear_fitter_eigen/fitter.cpp 85-93, 134-142. -/
def eigenCos (d : Data) (cosine : Bool) (row : List ℝ) : Option ℝ :=
  if cosine then (convertInput (arr row) d.input .CARTESIAN).map fun c => arr c 5 else some 1

/-- The vector `_y` of a sample.  /repo/sources/plugins/nonlinear_fitter_eigen/fitter.cpp 74-100. -/
def eigenResidual (f : Fn) (d : Data) (cosine : Bool) (row : List ℝ) : Option (List ℝ) :=
  (convertInput (arr row) d.input f.par.input).bind fun x =>
    (eigenCos d cosine row).bind fun c =>
      (readValues row d.dimX f.par.dimY).bind fun di =>
        (f.value x).bind fun v => vecSub di (v.map (c * ·))

/-- An iteration over the samples of `operator()`.
    /repo/sources/plugins/nonlinear_fitter_eigen/fitter.cpp 72-104. -/
def eigenEvalRow (f : Fn) (d : Data) (cosine : Bool) (y : ℕ → ℝ) (s : ℕ) : Option (ℕ → ℝ) :=
  (d.rows[s]?).bind fun row => (eigenResidual f d cosine row).map fun r =>
    (List.range f.par.dimY).foldl (fun y i => Function.update y (i * d.rows.length + s) (arr r i)) y

/-- `EigenFunctor::operator()`: the return code, the function and the vector `y` after the call.
    /repo/sources/plugins/nonlinear_fitter_eigen/fitter.cpp 46-110. -/
def eigenEval (f : Fn) (d : Data) (cosine : Bool) (x : List ℝ) (y : ℕ → ℝ) : Option (ℤ × Fn × (ℕ → ℝ)) :=
  if outOfBounds f x then some (-1, f, y)
  else
    ((List.range d.rows.length).foldlM (eigenEvalRow (f.set x) d cosine) y).map fun y => (0, f.set x, y)

/-- The columns of a row of the matrix are filled.
    /repo/sources/plugins/nonlinear_fitter_eigen/fitter.cpp 148-156. -/
def eigenFill (dimY nb size s : ℕ) (c : ℝ) (jac : List ℝ) (J : ℕ × ℕ → ℝ) : ℕ × ℕ → ℝ :=
  (List.range nb).foldl (fun J j => (List.range dimY).foldl (fun J i =>
    Function.update J (i * size + s, j) (- c * arr jac (i * nb + j))) J) J

/-- An iteration over the samples of `df`.
    /repo/sources/plugins/nonlinear_fitter_eigen/fitter.cpp 120-157. -/
def eigenDfRow (f : Fn) (d : Data) (cosine : Bool) (J : ℕ × ℕ → ℝ) (s : ℕ) : Option (ℕ × ℕ → ℝ) :=
  (d.rows[s]?).bind fun row =>
    (convertInput (arr row) d.input f.par.input).bind fun x =>
      (eigenCos d cosine row).bind fun c =>
        (readJacobian f x).map fun jac => eigenFill f.par.dimY f.nb d.rows.length s c jac J

/-- `EigenFunctor::df`: the function and the matrix after the call.
    /repo/sources/plugins/nonlinear_fitter_eigen/fitter.cpp 112-159. -/
def eigenDf (f : Fn) (d : Data) (cosine : Bool) (x : List ℝ) (J : ℕ × ℕ → ℝ) : Option (Fn × (ℕ × ℕ → ℝ)) :=
  ((List.range d.rows.length).foldlM (eigenDfRow (f.set x) d cosine) J).map fun J => (f.set x, J)

/-! ### Ceres -/

/-- The vector `xf` of a sample.  /repo/sources/plugins/nonlinear_fitter_ceres/fitter.cpp 157-166.
    Simplification: `convert` writes `dimX` coordinates. -/
def ceresSample (f : Fn) (d : Data) (row : List ℝ) : Option (List ℝ) :=
  (convertInput (arr row) d.input f.par.input).bind fun x =>
    (readValues row d.dimX f.par.dimY).map fun v => (List.range f.par.dimX).map (arr x) ++ v

/-- The residuals.  /repo/sources/plugins/nonlinear_fitter_ceres/fitter.cpp 62-73. -/
def ceresResidual (logFit : Bool) (di yi : List ℝ) (i : ℕ) : ℝ :=
  if logFit then Real.log (1 + arr di i) - Real.log (1 + arr yi i) else arr di i - arr yi i

/-- The entries of the derivative.  /repo/sources/plugins/nonlinear_fitter_ceres/fitter.cpp 85-101. -/
def ceresDerivative (logFit : Bool) (nb : ℕ) (di jac : List ℝ) (i j : ℕ) : ℝ :=
  - (if logFit then arr jac (i * nb + j) / (1 + arr di i) else arr jac (i * nb + j))

/-- `CeresFunctor::Evaluate`; `grad` is `dy != NULL`.  `some none` is the return value `false`; otherwise
    the function, the residuals and the derivative (row by row) after the call.
    /repo/sources/plugins/nonlinear_fitter_ceres/fitter.cpp 43-101. -/
def ceresEvaluate (f : Fn) (logFit : Bool) (xi : List ℝ) (x : List ℝ) (grad : Bool) :
    Option (Option (Fn × List ℝ × List ℝ)) :=
  if outOfBounds f x then some none
  else
    (readValues xi f.par.dimX f.par.dimY).bind fun di =>
      ((f.set x).value xi).bind fun yi =>
        (vecSub di yi).bind fun _ =>
          (if grad then (readJacobian (f.set x) xi).map fun jac =>
              (List.range f.par.dimY).flatMap fun i => (List.range f.nb).map fun j =>
                ceresDerivative logFit f.nb di jac i j
            else some []).map fun dy =>
              some (f.set x, (List.range f.par.dimY).map (ceresResidual logFit di yi), dy)

/-! ### NLopt -/

/-- A sample of the objective.  /repo/sources/plugins/nonlinear_fitter_nlopt/fitter.cpp 107-130. -/
def nloptRow (f : Fn) (d : Data) (y : ℝ) (row : List ℝ) : Option ℝ :=
  (readValues row d.dimX d.dimY).bind fun di =>
    (convertInput (arr row) d.input f.par.input).bind fun x =>
      (f.value x).bind fun v => (vecSub v di).map fun e =>
        (List.range f.par.dimY).foldl (fun y i => y + arr e i ^ 2) y

/-- A sample of the gradient.  /repo/sources/plugins/nonlinear_fitter_nlopt/fitter.cpp 56-90. -/
def nloptGradRow (f : Fn) (d : Data) (g : ℕ → ℝ) (row : List ℝ) : Option (ℕ → ℝ) :=
  (readValues row d.dimX d.dimY).bind fun di =>
    (convertInput (arr row) d.input f.par.input).bind fun x =>
      (readJacobian f x).bind fun jac => (f.value x).bind fun v => (vecSub v di).map fun e =>
        (List.range f.nb).foldl (fun g j => (List.range f.par.dimY).foldl (fun g i =>
          Function.update g j (g j + 2 * arr e i * arr jac (i * f.nb + j))) g) g

/-- `df`: `memset`, then the samples.  /repo/sources/plugins/nonlinear_fitter_nlopt/fitter.cpp 50-91. -/
def nloptDf (f : Fn) (d : Data) : Option (ℕ → ℝ) := d.rows.foldlM (nloptGradRow f d) fun _ => 0

/-- `f`: the function, the objective and, when `grad` (`dy != NULL`), its gradient.
    /repo/sources/plugins/nonlinear_fitter_nlopt/fitter.cpp 93-138. -/
def nloptF (f : Fn) (d : Data) (x : List ℝ) (grad : Bool) : Option (Fn × ℝ × Option (ℕ → ℝ)) :=
  (d.rows.foldlM (nloptRow (f.set x) d) 0).bind fun y =>
    if grad then (nloptDf (f.set x) d).map fun g => (f.set x, y, some g) else some (f.set x, y, none)

/-! ### Ipopt -/

/-- A sample of the objective, with the assertion on the output sizes.
    /repo/sources/plugins/nonlinear_fitter_ipopt/fitter.cpp 108-136. -/
def ipoptRow (f : Fn) (d : Data) (y : ℝ) (row : List ℝ) : Option ℝ :=
  if d.dimY ≠ f.par.dimY then none
  else
    (readValues row d.dimX f.par.dimY).bind fun di =>
      (convertInput (arr row) d.input f.par.input).bind fun x =>
        (f.value x).bind fun v => (vecSub di v).map fun e =>
          (List.range f.par.dimY).foldl (fun y i => y + arr e i ^ 2) y

/-- `altaNLP::eval_f`: the function and the objective.
    /repo/sources/plugins/nonlinear_fitter_ipopt/fitter.cpp 99-139. -/
def ipoptEvalF (f : Fn) (d : Data) (x : List ℝ) : Option (Fn × ℝ) :=
  (d.rows.foldlM (ipoptRow (f.set x) d) 0).map fun y => (f.set x, y)

/-- A sample of the gradient.  /repo/sources/plugins/nonlinear_fitter_ipopt/fitter.cpp 153-189. -/
def ipoptGradRow (f : Fn) (d : Data) (g : ℕ → ℝ) (row : List ℝ) : Option (ℕ → ℝ) :=
  (readValues row d.dimX f.par.dimY).bind fun di =>
    (convertInput (arr row) d.input f.par.input).bind fun x =>
      (f.value x).bind fun v => (vecSub v di).bind fun e => (readJacobian f x).map fun jac =>
        (List.range f.nb).foldl (fun g j => (List.range f.par.dimY).foldl (fun g i =>
          Function.update g j (g j + 2 * arr e i * arr jac (i * f.nb + j))) g) g

/-- `altaNLP::eval_grad_f`: the function and the gradient.
    /repo/sources/plugins/nonlinear_fitter_ipopt/fitter.cpp 141-192. -/
def ipoptEvalGradF (f : Fn) (d : Data) (x : List ℝ) : Option (Fn × (ℕ → ℝ)) :=
  (d.rows.foldlM (ipoptGradRow (f.set x) d) fun _ => 0).map fun g => (f.set x, g)

end
end Alta
