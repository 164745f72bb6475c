import Verif.Model.Distance
/-
Model of the command `brdf2data`, from the loaded function and the loaded data.

Modelled: /repo/sources/softs/brdf2data/main.cpp 93-120, for the default data object (`vertical_segment`).

Simplifications: those of `Verif.Model.Distance` and `Verif.Model.Segment`; the plugins that replace the data object
are left out; `none` is the end of the program.
-/
namespace Alta
noncomputable section

/-- One turn of the loop: the values of the sample are replaced by those of the function, or by the difference.
    /repo/sources/softs/brdf2data/main.cpp 98-120. -/
def exportRow (g : Evaluable) (diff : Bool) (s : Segments) (i : ℕ) : Option Segments :=
  (s.store.get i).bind fun x =>
    (distancePoint g s.store.toData x).bind fun temp =>
      (g.value temp).bind fun y =>
        if y.length = s.store.dimY then
          let tail := x.drop (x.length - s.store.dimY)
          s.set i (x.take (x.length - s.store.dimY) ++ if diff then List.zipWith (· - ·) tail y else y)
        else none

/-- The loop; `diff` is `export-diff`.  /repo/sources/softs/brdf2data/main.cpp 95-120. -/
def brdf2data (g : Evaluable) (diff : Bool) (s : Segments) : Option Segments :=
  (List.range s.store.size).foldlM (exportRow g diff) s

end
end Alta
