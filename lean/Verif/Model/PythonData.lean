import Verif.Model.Data2Data
import Verif.Model.Brdf2Data
/-
Model of the functions on data of the Python binding: `alta.data2data` and `alta.brdf2data`.

Modelled: /repo/sources/python/alta.cpp 216-292, for data objects of class `vertical_segment` (the
input of `data2data` can be any data object: what its `get` returns).

Simplifications: those of `Verif.Model.Segment`, `Verif.Model.Data2Data` and `Verif.Model.Distance`; the array
`content` is a function from positions to values, a write after its end is the end of the program
(`none`); messages are left out.
-/
namespace Alta
noncomputable section

/-- the array after `params::convert` wrote the coordinates `l` from position `pos` -/
def writeFrom (c : ℕ → ℝ) (pos : ℕ) (l : List ℝ) : ℕ → ℝ :=
  fun k => if pos ≤ k ∧ k < pos + l.length then arr l (k - pos) else c k

/-- `sample_size`.  /repo/sources/python/alta.cpp 223-225. -/
def sampleSize (target : Par) : ℕ := target.dimX + 3 * target.dimY

/-- One turn of the loop of `data2data`.  /repo/sources/python/alta.cpp 229-250. -/
def pyConvertRow (din : Data) (target : Par) (c : ℕ → ℝ) (i : ℕ) : Option (ℕ → ℝ) :=
  (din.rows[i]?).bind fun x =>
    (convertInput (arr x) din.input target.input).bind fun t =>
      if i * sampleSize target + t.length ≤ din.rows.length * sampleSize target then
        let c1 := writeFrom c (i * sampleSize target) t
        (convertOutput (fun k => arr x (din.dimX + k)) din.dimY target.dimY
          (fun k => c1 (i * sampleSize target + target.dimX + k))).map fun o =>
            let c2 : ℕ → ℝ := fun k =>
              if k < i * sampleSize target + target.dimX then c1 k else o (k - (i * sampleSize target + target.dimX))
            fun k =>
              if i * sampleSize target + target.dimX + target.dimY ≤ k ∧
                  k < i * sampleSize target + target.dimX + target.dimY + 2 * target.dimY then 0
              else c2 k
      else none

/-- `data2data`; `junk` is the content of the array `content` when it is allocated.
    /repo/sources/python/alta.cpp 216-256. -/
def pyData2data (junk : ℕ → ℝ) (din : Data) (target : Par) : Option Segments :=
  ((List.range din.rows.length).foldlM (pyConvertRow din target) junk).map fun c =>
    Segments.make
      { dimX := target.dimX, dimY := target.dimY, input := target.input, output := target.output,
        size := din.rows.length,
        raw := (List.range (din.rows.length * sampleSize target)).map c, kind := .asymmetrical }

/-- One turn of the loop of `brdf2data`; a function with fewer channels than the data is read out of
    its values.  /repo/sources/python/alta.cpp 271-291. -/
def pyEvaluateRow (g : Evaluable) (s : Segments) (i : ℕ) : Option Segments :=
  (s.store.get i).bind fun x =>
    (distancePoint g s.store.toData x).bind fun temp =>
      (g.value temp).bind fun y =>
        if s.store.dimY ≤ y.length then
          s.set i ((List.range x.length).map fun k =>
            if s.store.dimX ≤ k ∧ k < s.store.dimX + s.store.dimY then arr y (k - s.store.dimX) else arr x k)
        else none

/-- `brdf2data`: the data object is changed.  /repo/sources/python/alta.cpp 264-292. -/
def pyBrdf2data (g : Evaluable) (s : Segments) : Option Segments :=
  if s.store.size = 0 then some s else (List.range s.store.size).foldlM (pyEvaluateRow g) s

end
end Alta
