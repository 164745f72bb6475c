import Verif.Model.Brdf2Data
import Verif.Model.Data2BrdfRational
import Verif.Model.Data2DataMain
/-
Model of the program `brdf2data`, from its options to the file that it writes.

Modelled: /repo/sources/softs/brdf2data/main.cpp 36-131, /repo/sources/core/plugins_manager.cpp 178-231 (`load_function`),
449-531 (`get_data`, `load_data`), /repo/sources/core/data.cpp 18-29 (`save`).

Simplifications: those of `Model/Data2DataMain` (an object of a plugin is an array of samples with the text of its file; an
exception of the stream inside of `load_data`, after the opening of the file, is the end of the program) and of
`Model/Brdf2Brdf` (`loadAny`); a turn of the loop that ends the program is `none`.
-/
namespace Alta
noncomputable section

/-- The function, as it is compared with data or exported: its parametrization and `value`. -/
def AnyFn.evaluable : AnyFn → Evaluable
  | .nonlinear f => f.toFn.evaluable
  | .rational p f => f.evaluable p

/-- One turn of the loop, on the samples of an object (see `exportRow` for the array of a `vertical_segment`).
    /repo/sources/softs/brdf2data/main.cpp 100-120. -/
def exportSample (g : Evaluable) (diff : Bool) (d : Data) (x : List ℝ) : Option (List ℝ) :=
  (distancePoint g d x).bind fun temp =>
    (g.value temp).bind fun y =>
      if y.length = d.dimY then
        let tail := x.drop (x.length - d.dimY)
        some (x.take (x.length - d.dimY) ++ if diff then List.zipWith (· - ·) tail y else y)
      else none

/-- An object of the class `vertical_segment`, saved as a text.
    /repo/sources/core/data.cpp 18-29. -/
def OutPlugin.default (fmt : ℝ → Decimal) (d : Data) : OutPlugin :=
  ⟨⟨d.dimX, d.dimY, d.input, d.output⟩, d.rows, fun rows => saveText fmt ⟨d.dimX, d.dimY, d.input, d.output, rows⟩⟩

/-- `plugins_manager::load_data` for the template; the inner `none` is a null pointer.
    /repo/sources/core/plugins_manager.cpp 476-504. -/
def loadTemplate (val : Dbl → ℝ) (fmt : ℝ → Decimal) (dir : Str) (env : Option Str)
    (fs : Str → Option (Symbols (Str → SMap → Option OutPlugin))) (type : Str) (content : Str) (args : SMap) :
    Option (Option OutPlugin) :=
  if type = [] ∨ type = "vertical_segment".toList then
    (loadDataStream val dir env (fun _ => none) type content args).map fun o =>
      o.map fun d => OutPlugin.default fmt d.toData
  else
    match openLibrary dir env fs type "load_data".toList with
    | some (some load) => (load content args).map some
    | some none => some none
    | none => none

/-- `plugins_manager::get_data` for an object without samples; the inner `none` is a null pointer.
    /repo/sources/core/plugins_manager.cpp 449-474, /repo/sources/core/params.h 438-444. -/
def newTemplate (fmt : ℝ → Decimal) (dir : Str) (env : Option Str) (gs : Str → Option (Symbols (ℕ → Par → SMap → OutPlugin)))
    (type : Str) (args : SMap) : Option (Option OutPlugin) :=
  if type = [] ∨ type = "vertical_segment".toList then
    some (some (OutPlugin.default fmt ⟨0, 0, .UNKNOWN_INPUT, .UNKNOWN_OUTPUT, []⟩))
  else
    match openLibrary dir env gs type "provide_data".toList with
    | some (some provide) => some (some (provide 0 ⟨0, 0, .UNKNOWN_INPUT, .UNKNOWN_OUTPUT⟩ args))
    | some none => some none
    | none => none

/-- The samples of an object. -/
def OutPlugin.toData (o : OutPlugin) : Data := ⟨o.par.dimX, o.par.dimY, o.par.input, o.par.output, o.rows⟩

/-- The end of `main`, once the template is there.
    /repo/sources/softs/brdf2data/main.cpp 82-130. -/
def brdf2dataWrite (junk : ℝ) (dir : Str) (env : Option Str) (ff : Str → Option (Symbols (Provider LobeObj)))
    (files : Str → Option Str) (writable : Str → Bool) (args : SMap) (o : Option OutPlugin) : Option (ℕ × Option Str) :=
  match (files (args.get "input".toList)).map (loadAny junk dir env ff) with
  | none => some (1, none)
  | some none => none
  | some (some none) => some (1, none)
  | some (some (some f)) =>
    match o with
    | none => some (0, none)
    | some o =>
      (o.rows.mapM (exportSample f.evaluable (args.isDefined "export-diff".toList) o.toData)).bind fun rows =>
        if writable (args.get "output".toList) then some (0, some (o.text rows)) else none

/-- `main`: the exit code, and the content of the file of `--output` when it is written.
    /repo/sources/softs/brdf2data/main.cpp 36-131. -/
def brdf2dataMain (val : Dbl → ℝ) (junk : ℝ) (fmt : ℝ → Decimal) (dir : Str) (env : Option Str)
    (ff : Str → Option (Symbols (Provider LobeObj))) (fs : Str → Option (Symbols (Str → SMap → Option OutPlugin)))
    (gs : Str → Option (Symbols (ℕ → Par → SMap → OutPlugin))) (files : Str → Option Str) (writable : Str → Bool)
    (args : SMap) : Option (ℕ × Option Str) :=
  if args.isDefined "help".toList then some (0, none)
  else if args.isDefined "input".toList = false then some (1, none)
  else if args.isDefined "output".toList = false then some (1, none)
  else if args.isDefined "data".toList = false ∧ args.isDefined "data-file".toList = false then some (1, none)
  else if args.isDefined "data-file".toList then
    match files (args.get "data-file".toList) with
    | none => some (1, none)
    | some content =>
      (loadTemplate val fmt dir env fs (args.get "data".toList) content
        (args.update "filename".toList (args.get "data-file".toList))).bind
          (brdf2dataWrite junk dir env ff files writable args)
  else
    (newTemplate fmt dir env gs (args.get "data".toList) args).bind (brdf2dataWrite junk dir env ff files writable args)

end
end Alta
