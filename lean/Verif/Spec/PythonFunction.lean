import Verif.Model.PythonFunction
import Verif.Spec.Function
/-
What is expected of the function objects of the Python binding.
-/
namespace Alta
noncomputable section

mutual
/-- The plugin objects a function is made of, one entry for each use. -/
def PyFn.parts : PyFn → List ℕ
  | .leaf a => [a]
  | .compound _ fs => fs.parts
  | .product _ f g _ _ => f.parts ++ g.parts
/-- for the members of a compound -/
def PyFns.parts : PyFns → List ℕ
  | .nil => []
  | .cons _ f r => f.parts ++ r.parts
end

/-- the plugin objects object `i` of a script is made of -/
def PySession.parts (s : PySession) (i : ℕ) : List ℕ :=
  match s.obj i with
  | some o => o.parts
  | none => []

/-- No plugin object is used twice in object `i`. -/
def PySession.NoSharing (s : PySession) (i : ℕ) : Prop := (s.parts i).Nodup

/-- Objects `i` and `j` have no plugin object in common. -/
def PySession.Apart (s : PySession) (i j : ℕ) : Prop := (s.parts i).Disjoint (s.parts j)

/-- The functions that the plugins give to a script respect the contract of the interface. -/
def PyCmd.Lawful : PyCmd → Prop
  | .make f => f.WF
  | _ => True

/-- The script `cs` leads to the session `s`. -/
def Script (cs : List PyCmd) (s : PySession) : Prop :=
  (∀ c ∈ cs, c.Lawful) ∧ PySession.empty.run cs = some s

/-- `s'` comes after `s` in a script. -/
def Later (s s' : PySession) : Prop := ∃ more : List PyCmd, (∀ c ∈ more, c.Lawful) ∧ s.run more = some s'

/-- The function is the sum of two others, at all points: the number of parameters, the parameter
    vector and the values. -/
structure Fn.IsSum (F f g : Fn) : Prop where
  nb : F.nb = f.nb + g.nb
  params : F.params = f.params ++ g.params
  channels : F.par.dimY = f.par.dimY
  value : ∀ x xf xg u w, convertInput (arr x) F.par.input f.par.input = some xf → f.value xf = some u →
    convertInput (arr x) F.par.input g.par.input = some xg → g.value xg = some w →
    u.length = f.par.dimY → w.length = f.par.dimY →
    ∃ v, F.value x = some v ∧ v.length = f.par.dimY ∧ ∀ y, arr v y = arr u y + arr w y

/-- The function is the product of two others, at all points. -/
structure Fn.IsProduct (F f g : Fn) : Prop where
  nb : F.nb = f.nb + g.nb
  params : F.params = f.params ++ g.params
  channels : F.par.dimY = f.par.dimY
  value : ∀ x xf xg u w, convertInput (arr x) F.par.input f.par.input = some xf → f.value xf = some u →
    convertInput (arr x) F.par.input g.par.input = some xg → g.value xg = some w →
    u.length = f.par.dimY → w.length = f.par.dimY →
    ∃ v, F.value x = some v ∧ v.length = f.par.dimY ∧ ∀ y, y < f.par.dimY → arr v y = arr u y * arr w y

end
end Alta
