import Verif.Model.PythonArgs
import Verif.Spec.CommandLine
/-
What a script in Python relies on about options and vectors.
-/
namespace Alta
noncomputable section

/-- The value of the last item whose key has the text `k`. -/
def lastItem (k : Str) (items : List (Str × Str)) : Option Str :=
  ((items.filter fun i => i.1 = k).getLast?).map (·.2)

/-- The expressions that a script makes vectors with. -/
inductive VecExpr where
  | list (l : List ℝ)
  | add (a b : VecExpr)
  | sub (a b : VecExpr)

/-- The vector of an expression: coordinate by coordinate. -/
def VecExpr.value : VecExpr → List ℝ
  | .list l => l
  | .add a b => List.zipWith (· + ·) a.value b.value
  | .sub a b => List.zipWith (· - ·) a.value b.value

end
end Alta
