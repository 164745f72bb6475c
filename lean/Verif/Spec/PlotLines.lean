import Verif.Spec.Samplewise
import Verif.Model.Brdf2GnuplotMain
/-
C98: what `brdf2gnuplot` writes for files of data that are joined, sorted or cut.
-/
namespace Alta
noncomputable section

/-- A run of `brdf2gnuplot` with the options `args` reads the function `g` and the data `t`, and writes the content `t'`: for
    some state of the disk. -/
def PlotsTo (val : Dbl → ℝ) (junk : ℝ) (fmt : ℝ → Decimal) (dir : Str) (env : Option Str)
    (ff : Str → Option (Symbols (Provider LobeObj))) (fs : Str → Option (Symbols (Str → SMap → Option DataObj)))
    (args : SMap) (g t t' : Str) : Prop :=
  ∃ (files : Str → Option Str) (writable : Str → Bool), files (args.get "data-file".toList) = some t ∧
    files (args.get "input".toList) = some g ∧
      brdf2gnuplotMain val junk fmt dir env ff fs files writable args = some (0, some t')

/-- The relative differences are asked for: their lines are numbered. -/
def Numbered (args : SMap) : Prop := args.isDefined "error".toList = false ∧ args.isDefined "linear_error".toList = true

open Classical in
/-- The file with these lines; when they are numbered, the number of each line and a tabulation come before it. -/
def plotFile (args : SMap) (lines : List Str) : Str :=
  textOfLines (if Numbered args then lines.zipIdx.map fun p => showNat p.2 ++ '\t' :: p.1 else lines)

/-- None of the lines holds an end of line. -/
def SingleLines (lines : List Str) : Prop := ∀ l ∈ lines, '\n' ∉ l

end
end Alta
