import Verif.Model.Geometry
/-
Model of the RBF interpolant.

Modelled: /repo/sources/plugins/data_interpolants/rbf.cpp 143-171 and 213 (`value`, default
compilation).

Not modelled: the k-d tree; the neighbours and their squared distances are an argument, whatever they
are.  `get` and `save` of this class (they return an uninitialised vector and do nothing).

Simplification: `double` is ℝ.
-/
namespace Alta
noncomputable section

/-- the kernel of a squared distance.  /repo/sources/plugins/data_interpolants/rbf.cpp 163. -/
def rbfKernel (dist : ℝ) : ℝ := 1 / (1e-10 + dist)

/-- one turn of the loop: `res += kernel * y.tail(dimY)`, `cum_dist += kernel`.
    /repo/sources/plugins/data_interpolants/rbf.cpp 160-166. -/
def rbfStep (dimY : ℕ) (get : ℕ → List ℝ) (st : List ℝ × ℝ) (q : ℕ × ℝ) : List ℝ × ℝ :=
  let y := get q.1
  let kernel := rbfKernel q.2
  let tail := y.drop (y.length - dimY)
  ((List.range dimY).map fun c => arr st.1 c + kernel * arr tail c, st.2 + kernel)

open Classical in
/-- `value` for the neighbours `nb`: pairs of an index and a squared distance.
    /repo/sources/plugins/data_interpolants/rbf.cpp 143-171, 213. -/
def rbfValue (dimY : ℕ) (get : ℕ → List ℝ) (nb : List (ℕ × ℝ)) : List ℝ :=
  let st := nb.foldl (rbfStep dimY get) (List.replicate dimY 0, 0)
  if st.2 > 0 then st.1.map fun r => r / st.2 else st.1

end
end Alta
