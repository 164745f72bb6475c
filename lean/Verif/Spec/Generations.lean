import Verif.Model.Data2DataMain
import Verif.Model.Brdf2Brdf
/-
C93: files that are made from one another by the tools of ALTA, in any number of runs.
-/
namespace Alta
noncomputable section

/-- A run of `data2data` with the options `args` reads the content `t` and writes the content `t'`: for some state of the disk,
    some uninitialized memory and some schedule of the threads. -/
def ConvertsTo (val : Dbl → ℝ) (bits : ℝ → Dbl) (fmt : ℝ → Decimal) (dir : Str) (env : Option Str)
    (fs : Str → Option (Symbols (Str → SMap → Option DataObj)))
    (gs : Str → Option (Symbols (ℕ → Par → SMap → OutPlugin))) (args : SMap) (t t' : Str) : Prop :=
  ∃ (files : Str → Option Str) (writable : Str → Bool) (junk : ℕ → ℝ) (evs : List RowEvent),
    files (args.get "input".toList) = some t ∧
      data2dataMain val bits fmt dir env fs gs files writable junk evs args = some (0, some t')

/-- A run of `brdf2brdf` with the options `args` reads the content `t` and writes the content `t'`: for some state of the
    disk and some uninitialized memory. -/
def ReexportsTo (fmt10 fmt : ℝ → Decimal) (other : AnyFn → SMap → Option Str) (dir : Str) (env : Option Str)
    (fs : Str → Option (Symbols (Provider LobeObj))) (args : SMap) (t t' : Str) : Prop :=
  ∃ (junk : ℝ) (files : Str → Option Str), files (args.get "input".toList) = some t ∧
    brdf2brdf junk fmt10 fmt other dir env fs files args = some (0, some t')

/-- A number that was printed, once it is read, is printed in the same way. -/
def PrintsStably (fmt : ℝ → Decimal) : Prop := ∀ v, fmt ((fmt v).value : ℝ) = fmt v

end
end Alta
