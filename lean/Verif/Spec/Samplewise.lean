import Verif.Spec.Joined
import Verif.Spec.Generations
import Verif.Model.Brdf2DataMain
/-
C95: what the tools write for files of data that are joined, sorted or cut.
-/
namespace Alta
noncomputable section

/-- A run of `brdf2data` with the options `args` reads the function `g` and the template `t`, and writes the content `t'`: for
    some state of the disk and some uninitialized memory. -/
def ExportsTo (val : Dbl → ℝ) (fmt : ℝ → Decimal) (dir : Str) (env : Option Str)
    (ff : Str → Option (Symbols (Provider LobeObj))) (fs : Str → Option (Symbols (Str → SMap → Option OutPlugin)))
    (gs : Str → Option (Symbols (ℕ → Par → SMap → OutPlugin))) (junk : ℝ) (args : SMap) (g t t' : Str) : Prop :=
  ∃ (files : Str → Option Str) (writable : Str → Bool), files (args.get "data-file".toList) = some t ∧
    files (args.get "input".toList) = some g ∧
      brdf2dataMain val junk fmt dir env ff fs gs files writable args = some (0, some t')

/-- The file is the header and then the lines of the samples. -/
def IsFile (file header : Str) (lines : List Str) : Prop :=
  file = header ++ textOfLines lines ∧ (parseHeader file).2 = textOfLines lines

/-- Files with the same header; the last one has the lines of the first and then those of the second. -/
def FilesJoined (f g j : Str) : Prop :=
  ∃ header ls ms, IsFile f header ls ∧ IsFile g header ms ∧ IsFile j header (ls ++ ms)

/-- Files with the same header, and with the same lines in another order. -/
def FilesReordered (f g : Str) : Prop := ∃ header ls ms, IsFile f header ls ∧ IsFile g header ms ∧ ls.Perm ms

/-- Files with the same header; the second one is the first one with lines removed. -/
def FileCut (f g : Str) : Prop := ∃ header ls ms, IsFile f header ls ∧ IsFile g header ms ∧ ms.Sublist ls

end
end Alta
