import Verif.Model.NonlinearFitRun
import Verif.Model.Distance
import Verif.Spec.FunctionFile
/-
Model of the command `data2brdf`, from its arguments and the loaded data, with a nonlinear fitter.

Modelled: /repo/sources/softs/data2brdf/main.cpp 124-176, /repo/sources/core/plugins_manager.cpp 559-613
(`check_compatibility`), /repo/sources/core/data.h 139-170 (`data_params`).

Simplifications: those of the parts (`Model/FunctionTree`, `Model/NonlinearFitRun`, `Model/Distance`,
`Model/FunctionFile`); the fitter is a function of the data, the arguments and the function; `none` is the end of the
program (abort, uncaught exception, access out of a vector); the messages and the times are left out.
-/
namespace Alta
noncomputable section

/-- `d->parametrization()` -/
def Data.par (d : Data) : Par := ⟨d.dimX, d.dimY, d.input, d.output⟩

/-- An object with another parametrization: `setParametrization`.  /repo/sources/core/function.h 124-126. -/
def LobeObj.setPar (p : Par) : LobeObj → LobeObj
  | .blinn s => .blinn { s with par := p }
  | .retroblinn s => .retroblinn { s with par := p }
  | .beckmann s => .beckmann { s with par := p }
  | .retrobeckmann s => .retrobeckmann { s with par := p }
  | .ward s => .ward { s with par := p }
  | .abc s => .abc { s with par := p }
  | .diffuse s => .diffuse { s with par := p }
  | .sg s => .sg { s with par := p }
  | .isoLafortune s => .isoLafortune { s with par := p }
  | .lafortune s => .lafortune { s with par := p }
  | .schlickFresnel s => .schlickFresnel { s with par := p }
  | .normalizedSchlick s => .normalizedSchlick { s with par := p }
  | .retroSchlick s => .retroSchlick { s with par := p }
  | .schlickMasking s => .schlickMasking { s with par := p }
  | .smith s => .smith { s with par := p }
  | .walterSmith s => .walterSmith { s with par := p }
  | .sgd s => .sgd { s with par := p }

/-- `setParametrization` is not virtual: the parts of a sum or a product keep theirs.
    /repo/sources/core/function.h 124-126. -/
def FT.setPar (p : Par) : FT LobeObj → FT LobeObj
  | .leaf l => .leaf (l.setPar p)
  | .compound _ fs => .compound p fs
  | .product _ f g a b => .product p f g a b

/-- the option `change-param` -/
def kChangeParam : Str := "change-param".toList

/-- What the constructor of `data_params` gives for data with `n` samples: its vector is empty, and it saves itself,
    which reads all of the samples (`none` if there is one).  /repo/sources/core/data.h 139-165. -/
def dataParams (d : Data) (i : Input) : Option Data :=
  if d.rows.length = 0 then some { dimX := (inputDim i).toNat, dimY := d.dimY, input := i, output := d.output, rows := [] }
  else none

/-- `check_compatibility`: the function and the data that are fitted.
    /repo/sources/core/plugins_manager.cpp 559-603. -/
def checkCompatibility (args : SMap) (d : Data) (f : FT LobeObj) : Option (FT LobeObj × Data) :=
  let fi := (f.par LobeObj.par).input
  let changed : Option (FT LobeObj × Data) :=
    if d.input = .UNKNOWN_INPUT ∧ fi = .UNKNOWN_INPUT then some (f, d)
    else if fi = .UNKNOWN_INPUT then some (f.setPar { f.par LobeObj.par with input := d.input }, d)
    else if d.input ≠ fi ∧ args.isDefined kChangeParam = true then (dataParams d fi).map fun d' => (f, d')
    else some (f, d)
  changed.bind fun r => if (r.1.par LobeObj.par).dimY = r.2.dimY then some r else none

/-- What `data2brdf` prints and writes when the fit succeeds. -/
structure FittedFile where
  function : FT LobeObj
  l2 : ℝ
  linf : ℝ
  /-- the arguments, with the two distances -/
  args : SMap
  /-- the content of the file -/
  file : Str

/-- the names of the distances in the arguments -/
def kL2 : Str := "L2".toList
/-- the names of the distances in the arguments -/
def kLinf : Str := "Linf".toList

/-- `main` of `data2brdf`: the exit code, and what was written.  `fmt6` is the printing of the distances, `fmt` that of
    the coefficients.  A function that is not a `nonlinear_function` is refused by the fitter (`fitAny`); it keeps the
    parametrization of the data, or that of its plugin.
    /repo/sources/softs/data2brdf/main.cpp 124-176. -/
def data2brdf (dir : Str) (env : Option Str) (fs : Str → Option (Symbols (Provider LobeObj)))
    (fit : Data → SMap → FT LobeObj → Option (Bool × FT LobeObj)) (fmt6 fmt : ℝ → Decimal) (args : SMap) (d : Data) :
    Option (ℕ × Option FittedFile) :=
  (getFunction dir env fs LobeObj.par args d.par).bind fun m =>
    match m with
    | .null => some (1, none)
    | .rational => some (1, none)
    | .linear l =>
      if d.rows = [] then some (1, none)
      else (checkCompatibility args d (.leaf l)).map fun _ => (1, none)
    | .nonlinear f =>
      if d.rows = [] then some (1, none)
      else (checkCompatibility args d f).bind fun r =>
        (fit r.2 args r.1).bind fun o =>
          if o.1 = true then
            (l2Distance o.2.toFn.evaluable r.2).bind fun l2 =>
              (linfDistance o.2.toFn.evaluable r.2).bind fun linf =>
                let args' := (args.update kL2 (fmt6 l2).text).update kLinf (fmt6 linf.1).text
                (saveFunction fmt args' o.2).map fun file =>
                  (0, some { function := o.2, l2 := l2, linf := linf.1, args := args', file := file })
          else some (1, none)

end
end Alta
