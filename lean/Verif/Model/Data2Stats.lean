import Verif.Model.Metrics
import Verif.Model.Function
import Verif.Model.Merl
import Verif.Model.Plugins
import Verif.Model.TextSave
/-
Model of the command `data2stats` and of the Python function of the same name.

Modelled: /repo/sources/softs/data2stats/data2stats.cpp 470-588 (`main`), /repo/sources/core/plugins_manager.cpp 476-531
(`load_data`), /repo/sources/core/common.cpp 40-50 (text of a vector), /repo/sources/python/alta.cpp 294-308.

Not modelled: the rest of data2stats.cpp (36-449), which `main` does not call; the text on the standard output.

Simplifications: those of `Model/Metrics`, `Model/TextLoad` and `Model/Storage`; the 64 bits of a number of a binary file
give the real number `val`; `fmt` is how a number is printed; a reference has at least one channel.  `none` is the end
of the program by an exception or an assertion.
-/
namespace Alta
noncomputable section

/-- A `data` object: its parametrization, the samples `get(i)` and `value`, where `none` ends the program. -/
structure DataObj where
  par : Par
  rows : List (List ℝ)
  value : List ℝ → Option (List ℝ)

/-- What is read of the reference. -/
def DataObj.ref (d : DataObj) : RefData := ⟨d.par.dimX, d.par.dimY, d.par.input, d.rows⟩

/-- What is read of the tested data.  A value that ends the program is given as an empty row, that `setRow` refuses
    since the reference has a channel. -/
def DataObj.inp (d : DataObj) : InpData := ⟨d.par.input, fun x => (d.value x).getD []⟩

/-- An object of the class `vertical_segment`: `value` throws.
    /repo/sources/core/vertical_segment.h 106-110. -/
def DataObj.ofData (d : Data) : DataObj := ⟨⟨d.dimX, d.dimY, d.input, d.output⟩, d.rows, fun _ => none⟩

/-- The numbers of a data set that was stored in binary form. -/
def Store.reals (val : Dbl → ℝ) (s : Store Dbl) : Store ℝ :=
  { dimX := s.dimX, dimY := s.dimY, input := s.input, output := s.output, size := s.size, raw := s.raw.map val,
    kind := s.kind }

/-- An object of the class `MERL`.  /repo/sources/plugins/data_io/merl.cpp 86-106, 131-188. -/
def merlObj (brdf : List ℝ) : DataObj :=
  ⟨⟨3, 3, .RUSIN_TH_TD_PD, .RGB_COLOR⟩, (List.range merlSize).map fun i => (merlGet brdf i).getD [], merlValue brdf⟩

/-- `load_data` of the plugin of the MERL files.  /repo/sources/plugins/data_io/merl.cpp 451-462. -/
def merlLoader (val : Dbl → ℝ) (file : Str) (_args : SMap) : Option DataObj :=
  (merlLoad file).map fun t => merlObj (t.map val)

/-- `load_data` on a stream; the inner `none` is a null pointer.  /repo/sources/core/plugins_manager.cpp 476-504. -/
def loadDataStream (val : Dbl → ℝ) (dir : Str) (env : Option Str)
    (fs : Str → Option (Symbols (Str → SMap → Option DataObj))) (type : Str) (input : Str) (args : SMap) :
    Option (Option DataObj) :=
  if type = [] ∨ type = "vertical_segment".toList then
    let (h, rest) := parseHeader input
    if h.get "FORMAT".toList = "binary".toList then
      (loadBinary rest h).map fun s => some (.ofData (s.reals val).toData)
    else (loadText rest h args).map fun s => some (.ofData s.store.toData)
  else
    match openLibrary dir env fs type "load_data".toList with
    | some (some load) => (load input args).map some
    | some none => some none
    | none => none

/-- `load_data` of a file, with the default arguments: `filename` is added.  The exception of a file that cannot be
    opened is caught by `main`, as a null pointer it gives the exit code 1.
    /repo/sources/core/plugins_manager.cpp 507-529, plugins_manager.h 68-70. -/
def loadDataFile (val : Dbl → ℝ) (dir : Str) (env : Option Str)
    (fs : Str → Option (Symbols (Str → SMap → Option DataObj))) (files : Str → Option Str) (name type : Str) :
    Option (Option DataObj) :=
  match files name with
  | none => some none
  | some content => loadDataStream val dir env fs type content (SMap.update [] "filename".toList name)

/-- The metrics of the command, of which the Python function returns the dictionary: `errors::compute` without mask.
    /repo/sources/softs/data2stats/data2stats.cpp 539-548, /repo/sources/python/alta.cpp 296-308. -/
def data2statsMetrics (input ref : DataObj) : Option Metrics :=
  computeMetrics input.inp ref.ref none

/-- `out << v` for a vector.  /repo/sources/core/common.cpp 40-50. -/
def vecText (fmt : ℝ → Decimal) (v : List ℝ) : Str :=
  '[' :: ((List.range v.length).flatMap fun i =>
    (fmt (arr v i)).text ++ if i ≠ v.length - 1 then ", ".toList else []) ++ [']']

/-- The content of the file of `--output`.
    /repo/sources/softs/data2stats/data2stats.cpp 564-578. -/
def statsFile (fmt : ℝ → Decimal) (args : SMap) (p : Par) (m : Metrics) : Str :=
  "#FIT2STATS EXPORT\n".toList ++
  "#CMD ".toList ++ args.getCmd ++ "\n".toList ++
  "#DIM ".toList ++ showNat p.dimX ++ " ".toList ++ showNat p.dimY ++ "\n".toList ++
  "\n".toList ++
  "L1 :".toList ++ vecText fmt m.L1 ++ "\n".toList ++
  "L2 :".toList ++ vecText fmt m.L2 ++ "\n".toList ++
  "L3 :".toList ++ vecText fmt m.L3 ++ "\n".toList ++
  "LINF :".toList ++ vecText fmt m.LInf ++ "\n".toList ++
  "MSE :".toList ++ vecText fmt m.mse ++ "\n".toList ++
  "RMSE :".toList ++ vecText fmt m.rmse ++ "\n".toList ++
  "\n".toList

/-- `main`: the exit code and the content of the file of `--output`, if it is written; `writable` tells if a file can
    be opened.  /repo/sources/softs/data2stats/data2stats.cpp 470-588. -/
def data2stats (val : Dbl → ℝ) (fmt : ℝ → Decimal) (dir : Str) (env : Option Str)
    (fs : Str → Option (Symbols (Str → SMap → Option DataObj))) (files : Str → Option Str) (writable : Str → Bool)
    (args : SMap) : Option (ℕ × Option Str) :=
  if args.isDefined "help".toList ∨ args.isDefined "h".toList then some (0, none)
  else if args.isDefined "ref".toList = false then some (1, none)
  else if args.isDefined "input".toList = false then some (1, none)
  else
    match loadDataFile val dir env fs files (args.get "input".toList) (args.get "in-data".toList) with
    | none => none
    | some none => some (1, none)
    | some (some input) =>
      match loadDataFile val dir env fs files (args.get "ref".toList) (args.get "ref-data".toList) with
      | none => none
      | some none => some (1, none)
      | some (some ref) =>
        (data2statsMetrics input ref).map fun m =>
          if args.isDefined "output".toList = false ∨ args.get "output".toList = [] then (0, none)
          else if writable (args.get "output".toList) then (0, some (statsFile fmt args ref.par m))
          else (1, none)

end
end Alta
