import Verif.Model.Distance
import Verif.Model.Metrics
import Verif.Model.Output
/-
Model of the command `fit2stat`.

Modelled: /repo/sources/softs/fit2stat/fit2stat.cpp 209-315 (conversion of the data), 318-342 (cosines),
345-422 (norms and weighted errors), 499-696 (what `main` prints and writes).

Simplifications: those of `Verif.Model.Metrics` and `Verif.Model.Segment`; the data and the function are
already loaded; the function is a parametrization and `value`; `none` is the end of the program: an
uncaught exception (NOT_IMPLEMENTED), an assertion of Eigen, a write outside of a vector.
-/
namespace Alta
noncomputable section

/-- One iteration of the conversion of the outputs, on `new_data_y` and `converted_data`.
    /repo/sources/softs/fit2stat/fit2stat.cpp 241-253. -/
def statOutputRow (d : Data) (p : Par) (s : (ℕ → ℝ) × Segments) (i : ℕ) : Option ((ℕ → ℝ) × Segments) :=
  (d.rows[i]?).bind fun row =>
    (convertOutput (arr (row.drop (row.length - d.dimY))) d.dimY p.dimY s.1).bind fun y =>
      (s.2.set i (row.take d.dimX ++ (List.range p.dimY).map y)).map fun c => (y, c)

/-- One iteration of the conversion of the inputs.  A conversion shorter than `new_data_x` leaves zeros.
    /repo/sources/softs/fit2stat/fit2stat.cpp 282-294. -/
def statInputRow (d : Data) (p : Par) (c : Segments) (i : ℕ) : Option Segments :=
  (d.rows[i]?).bind fun row =>
    (convertInput (arr (row.take d.dimX)) d.input p.input).bind fun x =>
      if x.length ≤ p.dimX ∧ d.dimY = p.dimY then
        c.set i ((List.range p.dimX).map (arr x) ++ row.drop (row.length - d.dimY))
      else none

/-- `convertDataToFunctionParam`.  /repo/sources/softs/fit2stat/fit2stat.cpp 210-315. -/
def statData (d : Data) (p : Par) : Option Data :=
  let out := Segments.zeroed p.dimX p.dimY p.input p.output d.rows.length
  if d.input = p.input then
    if d.output = p.output then some d
    else ((List.range d.rows.length).foldlM (statOutputRow d p) (fun _ => 0, out)).map fun s => s.2.store.toData
  else if d.output = p.output then
    ((List.range d.rows.length).foldlM (statInputRow d p) out).map fun c => c.store.toData
  else none

/-- `demultiplexData`: the matrices of the abscissae and of the values.
    /repo/sources/softs/fit2stat/fit2stat.cpp 345-364. -/
def demultiplex (d : Data) : Mat × Mat :=
  (d.rows.map fun row => row.take d.dimX, d.rows.map fun row => row.drop (row.length - d.dimY))

/-- `evaluateFunctionAtData`.  /repo/sources/softs/fit2stat/fit2stat.cpp 366-376. -/
def evaluateAt (g : Evaluable) (xs : Mat) : Option Mat :=
  xs.mapM fun x => (g.value x).bind fun v => if v.length = g.par.dimY then some v else none

/-- `computeCosineFactorsFromData`: (light, view).
    /repo/sources/softs/fit2stat/fit2stat.cpp 320-342. -/
def cosineFactors (d : Data) : Option (List ℝ × List ℝ) :=
  if d.input = .CARTESIAN then
    if d.rows ≠ [] ∧ d.dimX < 6 then none
    else some (d.rows.map fun row => arr (row.take d.dimX) 2, d.rows.map fun row => arr (row.take d.dimX) 5)
  else none

/-- `fastWeightedErrors`, for `cols` columns: mse and rmse.
    /repo/sources/softs/fit2stat/fit2stat.cpp 402-422. -/
def weightedErrors (cols : ℕ) (A B : Mat) (w : List ℝ) : List ℝ × List ℝ :=
  let mse := (List.range cols).map fun c =>
    ((List.zipWith (fun e k => (e * k) ^ 2) (diffCol A B c) w).sum : ℝ) / (A.length : ℝ)
  (mse, mse.map fun x => √ x)

/-- The matrices that are compared.  /repo/sources/softs/fit2stat/fit2stat.cpp 501-539. -/
def statMatrices (g : Evaluable) (d : Data) : Option (Data × Mat × Mat) :=
  (statData d g.par).bind fun c =>
    (evaluateAt g (demultiplex c).1).bind fun fy =>
      if c.dimY = g.par.dimY then some (c, (demultiplex c).2, fy) else none

/-- The metrics printed first.  /repo/sources/softs/fit2stat/fit2stat.cpp 541-558. -/
def fit2statNorms (g : Evaluable) (d : Data) : Option Metrics :=
  (statMatrices g d).map fun m => fastNorms g.par.dimY m.2.1 m.2.2

/-- What a complete run prints and writes. -/
structure FitStats where
  norms : Metrics
  /-- printed: weighted by the cosine of the light (mse, rmse) -/
  light : List ℝ × List ℝ
  /-- printed: weighted by both cosines (mse, rmse) -/
  both : List ℝ × List ℝ
  /-- in the file: `MSE * cos(theta_light)` and `RMSE * cos(theta_light)` -/
  fileLight : List ℝ × List ℝ
  /-- in the file: `MSE * cos(theta_light) * cos(theta_view)` and its square root -/
  fileBoth : List ℝ × List ℝ
  l2 : ℝ
  linf : ℝ

/-- `main` of `fit2stat`, from the loaded data and function.  The metrics of the file are those that are
    printed, but for the last two.  /repo/sources/softs/fit2stat/fit2stat.cpp 501-696. -/
def fit2stat (g : Evaluable) (d : Data) : Option FitStats :=
  (statMatrices g d).bind fun m =>
    (cosineFactors m.1).bind fun w =>
      let light := weightedErrors g.par.dimY m.2.1 m.2.2 w.1
      let both := weightedErrors g.par.dimY m.2.1 m.2.2 (List.zipWith (· * ·) w.1 w.2)
      (l2Distance g d).bind fun l2 =>
        (linfDistance g d).map fun linf =>
          { norms := fastNorms g.par.dimY m.2.1 m.2.2, light := light, both := both
            fileLight := light, fileBoth := light, l2 := l2, linf := linf.1 }

end
end Alta
