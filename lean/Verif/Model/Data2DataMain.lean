import Verif.Model.Data2Data
import Verif.Model.Data2Stats
/-
Model of the program `data2data`, from its options to the file that it writes.

Modelled: /repo/sources/softs/data2data/main.cpp 112-414 (the conversions are those of `Model/Data2Data`),
/repo/sources/core/plugins_manager.cpp 449-531 (`get_data`, `load_data`), /repo/sources/core/data.cpp 18-29 (`save`).

Simplifications: those of `Model/Data2Data` and `Model/Data2Stats`; `fmt` is how a number is printed, `bits` the 64 bits of
a number; an object made by a plugin for the output is an array of samples, `set` replaces one of them and `text` is the
content of the file that its `save` writes.  `none` is the end of the program by an exception, a null pointer or an
assertion; an exception of the stream inside of `load_data` (a file that is too short) is also `none`, although the
program ends with the exit code 1.
-/
namespace Alta
noncomputable section

/-- The object that the function `provide_data` of a plugin makes for the output.
    /repo/sources/core/plugins_manager.cpp 461-468. -/
structure OutPlugin where
  par : Par
  rows : List (List ℝ)
  text : List (List ℝ) → Str

/-- What the program reads of an object, as samples. -/
def DataObj.toData (d : DataObj) : Data := ⟨d.par.dimX, d.par.dimY, d.par.input, d.par.output, d.rows⟩

/-- The bits of the numbers of a data set. -/
def Store.bitsOf (bits : ℝ → Dbl) (s : Store ℝ) : Store Dbl :=
  { dimX := s.dimX, dimY := s.dimY, input := s.input, output := s.output, size := s.size, raw := s.raw.map bits,
    kind := s.kind }

open Classical in
/-- One iteration of `convert_with_interpolation` (see `convertPoint`): `value` may end the program.
    /repo/sources/softs/data2data/main.cpp 237-269. -/
def interpolatePoint (din : DataObj) (out : Par) (x : List ℝ) : Option (List ℝ) :=
  (convertInput (arr x) out.input .CARTESIAN).bind fun cart =>
    (if 0 ≤ arr cart 2 ∧ 0 ≤ arr cart 5 then
      (convertInput (arr cart) .CARTESIAN din.par.input).bind din.value
    else some (List.replicate din.par.dimY 0)).bind fun y =>
      (convertOutput (arr y) din.par.dimY out.dimY (fun k => arr x (out.dimX + k))).map fun o =>
        (List.range x.length).map fun k => if k < out.dimX then arr x k else o (k - out.dimX)

open Classical in
/-- One iteration of `convert_vertical_segment` for an object of a plugin (option `--splat`): a sample that is out of the
    array ends the program.  /repo/sources/softs/data2data/main.cpp 162-202. -/
def splatRow (din : Data) (allValues : Bool) (out : Par) (s : (ℕ → ℝ) × List (List ℝ)) (i : ℕ) :
    Option ((ℕ → ℝ) × List (List ℝ)) :=
  (din.rows[i]?).bind fun x =>
    (convertInput (arr x) din.input out.input).bind fun t =>
      let temp : ℕ → ℝ := fun k => if k < t.length then arr t k else s.1 k
      (isAboveHemisphere temp out.input).bind fun above =>
        if ¬ above ∧ allValues = false then some (temp, s.2)
        else
          (convertOutput (fun k => arr x (din.dimX + k)) din.dimY out.dimY (fun k => temp (out.dimX + k))).bind fun o =>
            let temp' : ℕ → ℝ := fun k => if k < out.dimX then temp k else o (k - out.dimX)
            if i < s.2.length then some (temp', s.2.set i ((List.range (out.dimX + out.dimY)).map temp')) else none

/-- The samples of an object of a plugin after `convert`; `evs` are the accesses of the threads.
    /repo/sources/softs/data2data/main.cpp 279-287. -/
def convertPlugin (junk : ℕ → ℝ) (evs : List RowEvent) (din : DataObj) (out : OutPlugin) (args : SMap) :
    Option (List (List ℝ)) :=
  if args.isDefined "splat".toList then
    ((List.range din.rows.length).foldlM (splatRow din.toData (args.isDefined "all-values".toList) out.par)
      (junk, out.rows)).map Prod.snd
  else convertInterleaved (interpolatePoint din out.par) out.rows evs

/-- What is written, once the input is loaded.  `gs` are the plugins, `none` inside is an output that was not made.
    /repo/sources/softs/data2data/main.cpp 366-413, /repo/sources/core/data.cpp 18-29. -/
def data2dataWrite (bits : ℝ → Dbl) (fmt : ℝ → Decimal) (dir : Str) (env : Option Str)
    (gs : Str → Option (Symbols (ℕ → Par → SMap → OutPlugin))) (writable : Str → Bool) (junk : ℕ → ℝ)
    (evs : List RowEvent) (args : SMap) (din : DataObj) : Option (ℕ × Option Str) :=
  let out := args.get "out-data".toList
  let cls := if out = "alta-binary".toList then "vertical_segment".toList else out
  match computeParameters din.toData (parseInput (String.ofList (args.get "param".toList))) with
  | none => some (1, none)
  | some p =>
    if cls = [] ∨ cls = "vertical_segment".toList then
      (convertVerticalSegment junk din.toData (args.isDefined "all-values".toList)
        (Segments.zeroed p.1 p.2.1 p.2.2.1 p.2.2.2 din.rows.length)).bind fun d =>
          if out = "alta-binary".toList then
            if writable (args.get "output".toList) then
              (saveBinary (d.store.bitsOf bits).toAny).map fun t => (0, some t)
            else some (1, none)
          else if writable (args.get "output".toList) then some (0, some (saveText fmt d.store.toData))
          else none
    else
      match openLibrary dir env gs cls "provide_data".toList with
      | none => none
      | some none => some (1, none)
      | some (some provide) =>
        let o := provide din.rows.length ⟨p.1, p.2.1, p.2.2.1, p.2.2.2⟩ args
        (convertPlugin junk evs din o args).bind fun rows =>
          if writable (args.get "output".toList) then some (0, some (o.text rows)) else none

/-- `main`: the exit code, and the content of the file of `--output` when it is written.
    /repo/sources/softs/data2data/main.cpp 290-414, /repo/sources/core/plugins_manager.cpp 507-531. -/
def data2dataMain (val : Dbl → ℝ) (bits : ℝ → Dbl) (fmt : ℝ → Decimal) (dir : Str) (env : Option Str)
    (fs : Str → Option (Symbols (Str → SMap → Option DataObj)))
    (gs : Str → Option (Symbols (ℕ → Par → SMap → OutPlugin))) (files : Str → Option Str) (writable : Str → Bool)
    (junk : ℕ → ℝ) (evs : List RowEvent) (args : SMap) : Option (ℕ × Option Str) :=
  if args.isDefined "help".toList then some (0, none)
  else if args.isDefined "help-params".toList then some (0, none)
  else if args.isDefined "input".toList = false then some (1, none)
  else if args.isDefined "output".toList = false then some (1, none)
  else
    match files (args.get "input".toList) with
    | none => some (1, none)
    | some content =>
      match loadDataStream val dir env fs (args.get "in-data".toList) content
          (args.update "filename".toList (args.get "input".toList)) with
      | none => none
      | some none => none
      | some (some din) => data2dataWrite bits fmt dir env gs writable junk evs args din

end
end Alta
