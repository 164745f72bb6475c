import Verif.Model.FunctionFile
import Verif.Model.ShaderExport
import Verif.Model.Rational
/-
Model of the program brdf2brdf: a function is loaded and saved in another format.

Modelled: /repo/sources/softs/brdf2brdf/main.cpp 35-70; `plugins_manager::load_function`
(/repo/sources/core/plugins_manager.cpp 179-231) for the nonlinear functions and the rational
functions of the core library; `function::save` (/repo/sources/core/function.cpp 50-147).

Simplifications: the texts of the exports C++ and matlab, and of the shader of a rational function,
are the parameter `other`; the option `export-append` is not used; the output file can be opened;
`load` of a rational function is the one of `Model/Rational` (a missing number is a failure).
-/
namespace Alta
noncomputable section

/-- What `load_function` returns. -/
inductive AnyFn where
  | nonlinear (f : FT LobeObj)
  | rational (p : Par) (f : RatFn)

/-- `new rational_function(params)`: no channel is allocated, the bounds are empty.
    /repo/sources/core/rational_function.cpp 533-538. -/
def newRational (p : Par) : RatFn := ⟨p.dimX, p.dimY, 0, 0, [], [], List.replicate p.dimY none⟩

/-- `plugins_manager::load_function` on the content of a file: `some none` is NULL, `none` the end of
    the program, an indeterminate result, or a function of a plugin that is neither nonlinear nor a
    rational function of the core.
    /repo/sources/core/plugins_manager.cpp 189-231. -/
def loadAny (junk : ℝ) (dir : Str) (env : Option Str) (fs : Str → Option (Symbols (Provider LobeObj)))
    (file : Str) : Option (Option AnyFn) :=
  let l := getLine file
  if l.1 ≠ "#ALTA FUNC HEADER".toList then some none
  else
    let h := parseHeader l.2
    match h.1.getPairInt "DIM".toList with
    | none => none
    | some dim =>
      let p : Par := ⟨dim.1.toNat, dim.2.toNat,
        parseInput (String.ofList (h.1.getString "PARAM_IN".toList "UNKNOWN_INPUT".toList)),
        parseOutput (String.ofList (h.1.getString "PARAM_OUT".toList "UNKNOWN_OUTPUT".toList))⟩
      match createArguments (h.1.get "CMD".toList) with
      | none => none
      | some args =>
        match getFunction dir env fs LobeObj.par args p with
        | some (.nonlinear f) =>
          let r := f.load (some h.2)
          some (if r.1 then some (.nonlinear r.2.1) else none)
        | some .rational => some (((newRational p).load junk h.2).map (AnyFn.rational p))
        | _ => none

/-- `parametrization()` -/
def AnyFn.par : AnyFn → Par
  | .nonlinear f => f.par LobeObj.par
  | .rational p _ => p

/-- The texts of `save_body` and `save_call` for the ALTA format, then an empty line; `none` when the program is
    ended (a lobe of the class sgd).
    /repo/sources/core/function.cpp 81-82, 107-108, 120; /repo/sources/core/rational_function.cpp 680-704. -/
def AnyFn.altaText (fmt : ℝ → Decimal) : AnyFn → Option Str
  | .nonlinear f => if f.saves then some (f.saveBody ++ f.saveCall fmt ++ ['\n']) else none
  | .rational _ f => some (f.saveCall fmt ++ ['\n'])

/-- the option `export` -/
def kExport : Str := "export".toList

/-- `function::save(filename, args)`: the content of the file; `none` when the program is ended.  `fmt10`
    is how numbers are printed with 10 digits (ALTA format), `fmt` with the default precision.  The header
    is written only if `export` is not defined.
    /repo/sources/core/function.cpp 50-126, 131-147. -/
def AnyFn.save (fmt10 fmt : ℝ → Decimal) (other : AnyFn → SMap → Option Str) (f : AnyFn) (args : SMap) : Option Str :=
  if args.isDefined kExport = false then
    (f.altaText fmt10).map fun t => saveHeader args.getCmd f.par ++ t
  else if args.get kExport = "alta".toList then f.altaText fmt10
  else
    match f with
    | .nonlinear t =>
      if args.get kExport = "shader".toList then exportShader fmt t
      else if args.get kExport = "explorer".toList then exportExplorer fmt t
      else other f args
    | .rational _ _ => other f args

/-- The program: its exit code and the content of the file `--output`, if it is written; `none` when it is
    ended by a null pointer (or an exception in the files).  `files` is the content of the files.
    /repo/sources/softs/brdf2brdf/main.cpp 35-70. -/
def brdf2brdf (junk : ℝ) (fmt10 fmt : ℝ → Decimal) (other : AnyFn → SMap → Option Str) (dir : Str) (env : Option Str)
    (fs : Str → Option (Symbols (Provider LobeObj))) (files : Str → Option Str) (args : SMap) :
    Option (ℕ × Option Str) :=
  if args.isDefined "help".toList then some (0, none)
  else if args.isDefined "input".toList = false then some (1, none)
  else if args.isDefined "output".toList = false then some (1, none)
  else
    match (files (args.get "input".toList)).map (loadAny junk dir env fs) with
    | some (some (some f)) => (f.save fmt10 fmt other args).map fun t => (0, some t)
    | _ => none

end
end Alta
