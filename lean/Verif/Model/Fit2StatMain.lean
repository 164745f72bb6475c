import Verif.Model.Fit2Stat
import Verif.Model.Brdf2DataMain
/-
Model of the program `fit2stat`, from its options to the file that it writes.

Modelled: /repo/sources/softs/fit2stat/fit2stat.cpp 428-699.

Simplifications: those of `Model/Fit2Stat`, `Model/Data2Stats` (text of a vector) and `Model/Brdf2Brdf` (`loadAny`).  The exit
code is `none` when the program is ended by an exception or an assertion.  A file of data that ends its loading abnormally
gives `none`: an exception would be caught, with the exit code 1, an assertion would not.
-/
namespace Alta
noncomputable section

/-- The content of the file of `--output`, for a function `p`.
    /repo/sources/softs/fit2stat/fit2stat.cpp 650-664. -/
def fit2statFile (fmt : ℝ → Decimal) (args : SMap) (p : Par) (m : Metrics) (light : List ℝ × List ℝ) : Str :=
  "#FIT2STATS EXPORT. DIMENSIONS ARE THE ONE FROM THE BRDF FUNCTION\n".toList ++
  "#CMD ".toList ++ args.getCmd ++ "\n".toList ++
  "#DIM ".toList ++ showNat p.dimX ++ " ".toList ++ showNat p.dimY ++ "\n".toList ++
  "\n".toList ++
  "L1 :".toList ++ vecText fmt m.L1 ++ "\n".toList ++
  "L2 :".toList ++ vecText fmt m.L2 ++ "\n".toList ++
  "L3 :".toList ++ vecText fmt m.L3 ++ "\n".toList ++
  "LINF :".toList ++ vecText fmt m.LInf ++ "\n".toList ++
  "MSE :".toList ++ vecText fmt m.mse ++ "\n".toList ++
  "RMSE :".toList ++ vecText fmt m.rmse ++ "\n".toList ++
  "MSE * cos(theta_light) :".toList ++ vecText fmt light.1 ++ "\n".toList ++
  "RMSE * cos(theta_light) :".toList ++ vecText fmt light.2 ++ "\n".toList ++
  "MSE * cos(theta_light) * cos(theta_view) :".toList ++ vecText fmt light.1 ++ "\n".toList ++
  "RMSE * cos(theta_light) cos(theta_view)  :".toList ++ vecText fmt light.2 ++ "\n".toList ++
  "\n".toList

/-- The end of `main`, once the data and the function are there: the exit code and the content of the file.  The distances
    come after the file.  /repo/sources/softs/fit2stat/fit2stat.cpp 499-698. -/
def fit2statWrite (fmt : ℝ → Decimal) (writable : Str → Bool) (args : SMap) (g : Evaluable) (d : Data) :
    Option ℕ × Option Str :=
  match statMatrices g d with
  | none => (none, none)
  | some m =>
    match cosineFactors m.1 with
    | none => (none, none)
    | some w =>
      let norms := fastNorms g.par.dimY m.2.1 m.2.2
      let light := weightedErrors g.par.dimY m.2.1 m.2.2 w.1
      if args.isDefined "output".toList = true ∧ args.get "output".toList ≠ [] ∧
          writable (args.get "output".toList) = false then (some 1, none)
      else
        let file := if args.isDefined "output".toList = true ∧ args.get "output".toList ≠ [] then
          some (fit2statFile fmt args g.par norms light) else none
        match l2Distance g d, linfDistance g d with
        | some _, some _ => (some 0, file)
        | _, _ => (none, file)

/-- `main`: the exit code, and the content of the file of `--output` when it is written.
    /repo/sources/softs/fit2stat/fit2stat.cpp 428-699. -/
def fit2statMain (val : Dbl → ℝ) (junk : ℝ) (fmt : ℝ → Decimal) (dir : Str) (env : Option Str)
    (ff : Str → Option (Symbols (Provider LobeObj))) (files : Str → Option Str) (writable : Str → Bool) (args : SMap) :
    Option ℕ × Option Str :=
  if args.isDefined "help".toList = true ∨ args.isDefined "h".toList = true then (some 0, none)
  else if args.isDefined "brdf".toList = false then (some 1, none)
  else if args.isDefined "input".toList = false then (some 1, none)
  else
    match files (args.get "input".toList) with
    | none => (some 1, none)
    | some content =>
      match loadDataStream val dir env (fun _ => none) "vertical_segment".toList content
          (args.update "filename".toList (args.get "input".toList)) with
      | none => (none, none)
      | some none => (none, none)
      | some (some d) =>
        match (files (args.get "brdf".toList)).map (loadAny junk dir env ff) with
        | none => (some 1, none)
        | some none => (none, none)
        | some (some none) => (some 1, none)
        | some (some (some f)) =>
          fit2statWrite fmt writable args f.evaluable ⟨d.par.dimX, d.par.dimY, d.par.input, d.par.output, d.rows⟩

end
end Alta
