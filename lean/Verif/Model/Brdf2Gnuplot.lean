import Verif.Model.Distance
/-
Model of the command `brdf2gnuplot`, from the loaded function and the loaded data.

Modelled: /repo/sources/softs/brdf2gnuplot/main.cpp 74-222.

Simplifications: those of `Verif.Model.Distance`; the numbers of a line are real numbers and not their text with ten
digits; the quotient by a value of the data that is zero is left to Lean (0) where the program prints `inf` or `nan`;
`none` is the end of the program.
-/
namespace Alta
noncomputable section

/-- What is plotted for the samples of a data set: `error`, `linear_error`, or nothing of these.
    /repo/sources/softs/brdf2gnuplot/main.cpp 104-115. -/
inductive PlotKind where
  | value | error | linear
  deriving DecidableEq

/-- The choice from the options that are defined.  /repo/sources/softs/brdf2gnuplot/main.cpp 104-115. -/
def plotKind (error linear : Bool) : PlotKind := if error then .error else if linear then .linear else .value

/-- `costerm`; `cos` is true when the option `cos-plot` is defined.
    /repo/sources/softs/brdf2gnuplot/main.cpp 77-78 and 136-143. -/
def cosTerm (g : Evaluable) (cos : Bool) (x : List ℝ) : Option ℝ :=
  if cos = true ∧ g.par.input ≠ .UNKNOWN_INPUT then
    (convertInput (arr x) g.par.input .CARTESIAN).map fun cart => arr cart 5 * arr cart 2
  else some 1

/-- The line of a sample.  A sample or a value that is too short is read out of its vector (`none`).
    /repo/sources/softs/brdf2gnuplot/main.cpp 119-173. -/
def plotLine (g : Evaluable) (d : Data) (kind : PlotKind) (cos : Bool) (i : ℕ) (v : List ℝ) : Option (List ℝ) :=
  (distancePoint g d v).bind fun x =>
    (cosTerm g cos x).bind fun costerm =>
      (g.value x).bind fun y =>
        let y2 := y.map (costerm * ·)
        if y2.length < d.dimY ∨ v.length < d.dimX + d.dimY then none
        else
          let head := if kind = .linear then [(i : ℝ)] else v.take d.dimX
          let col := fun u : ℕ => match kind with
            | .error => arr v (d.dimX + u) - arr y2 u
            | .linear => (arr v (d.dimX + u) - arr y2 u) / arr v (d.dimX + u)
            | .value => arr y2 u
          some (head ++ (List.range d.dimY).map col)

/-- The plot of a function for the samples of a data set: the two distances that are printed and the lines of the
    file.  /repo/sources/softs/brdf2gnuplot/main.cpp 81-177. -/
def dataPlot (g : Evaluable) (d : Data) (kind : PlotKind) (cos : Bool) : Option (ℝ × ℝ × List (List ℝ)) :=
  (l2Distance g d).bind fun l2 =>
    (linfDistance g d).bind fun linf =>
      (d.rows.zipIdx.mapM fun p => plotLine g d kind cos p.2 p.1).map fun lines => (l2, linf.1, lines)

/-- One line of the polar plot: the elevation with the sign `s` and the values.  There is no case for the functions
    without a parametrization: the conversion ends the program.
    /repo/sources/softs/brdf2gnuplot/main.cpp 193-203 and 209-219. -/
def polarLine (g : Evaluable) (inc : ℝ) (N : ℕ) (s az : ℝ) (i : ℕ) : Option (List ℝ) :=
  let tv := 1 / 2 * Real.pi * (i : ℝ) / (N : ℝ)
  (convertInput (arr [inc, Real.pi, tv, az]) .SPHERICAL_TL_PL_TV_PV g.par.input).bind fun x =>
    if x.length = g.par.dimX then
      (g.value x).bind fun y =>
        if y.length < g.par.dimY then none
        else some (s * tv :: (List.range g.par.dimY).map (arr y))
    else none

/-- The polar plot: `samples` (100 by default) and `inc-angle`; the integer division by 2 truncates, and a negative
    number has no turns of the loops.  /repo/sources/softs/brdf2gnuplot/main.cpp 184-220. -/
def polarPlot (g : Evaluable) (inc : ℝ) (samples : ℤ) : Option (List (List ℝ)) :=
  let N := (samples.tdiv 2).toNat
  ((List.range N).mapM (polarLine g inc N (-1) Real.pi)).bind fun retro =>
    ((List.range N).mapM (polarLine g inc N 1 0)).map fun forward => retro ++ forward

end
end Alta
