import Verif.Model.NonlinearFit
import Mathlib.Analysis.SpecialFunctions.Pow.Real
/-
Model of the distances of a function to a data set.
/repo/sources/core/function.cpp 166-278.

Simplifications: real numbers; the conversion of a coordinate into a vector of another size (a write out of the
vector, or a coordinate left uninitialised) is the end of the program (`none`); the two loops of `Linf_distance`
read the same values, which are computed once.
-/
namespace Alta
noncomputable section

/-- A function of the library: its parametrization and `value`. -/
structure Evaluable : Type where
  par : Par
  value : List ℝ → Option (List ℝ)

/-- The nonlinear functions. -/
def Fn.evaluable (f : Fn) : Evaluable := ⟨f.par, f.value⟩

/-- The abscissa of a sample for the function; it is copied when the function has no parametrization.
    /repo/sources/core/function.cpp 174-186. -/
def distancePoint (g : Evaluable) (d : Data) (row : List ℝ) : Option (List ℝ) :=
  if g.par.input = .UNKNOWN_INPUT then
    if g.par.dimX ≤ row.length then some (row.take g.par.dimX) else none
  else match convertInput (arr row) d.input g.par.input with
    | some x => if x.length = g.par.dimX then some x else none
    | none => none

/-- `y - value(x)` for a sample.  /repo/sources/core/function.cpp 173-190. -/
def sampleError (g : Evaluable) (d : Data) (row : List ℝ) : Option (List ℝ) :=
  (distancePoint g d row).bind fun x =>
    (readValues row d.dimX g.par.dimY).bind fun y =>
      (g.value x).bind fun v => vecSub y v

/-- `norm` of an Eigen vector. -/
def vecNorm (v : List ℝ) : ℝ := Real.sqrt (v.map (· ^ 2)).sum

/-- `L2_distance`; an empty data set is refused by an assertion.
    /repo/sources/core/function.cpp 167-196. -/
def l2Distance (g : Evaluable) (d : Data) : Option ℝ :=
  match d.rows.foldlM (fun (s : ℝ) row => (sampleError g d row).map fun e => s + vecNorm e ^ 2) 0 with
  | none => none
  | some s => if d.rows.length = 0 then none else some (Real.sqrt (s / d.rows.length))

/-- The loop on the channels.  /repo/sources/core/function.cpp 236-239. -/
def maxError (m : ℝ) (e : List ℝ) : ℝ := e.foldl (fun m x => max m |x|) m

/-- `Linf_distance`, with the mean and the variance that it prints.  The number of channels must be that of the
    data: else one of the two copies writes out of its vector.  In the variance `val[j]-y[j]` is the opposite of
    the error.  /repo/sources/core/function.cpp 199-278. -/
def linfDistance (g : Evaluable) (d : Data) : Option (ℝ × List ℝ × List ℝ) :=
  if d.rows.length ≠ 0 ∧ d.dimY ≠ g.par.dimY then none
  else match d.rows.mapM (sampleError g d) with
    | none => none
    | some es =>
      let mean : List ℝ := (List.range g.par.dimY).map fun j =>
        es.foldl (fun (m : ℝ) e => m + arr e j / (es.length : ℝ)) 0
      let var : List ℝ := (List.range g.par.dimY).map fun j =>
        es.foldl (fun (s : ℝ) e => s + (arr mean j - -(arr e j)) ^ 2 / (es.length : ℝ)) 0
      some (es.foldl maxError 0, mean, var)

end
end Alta
