import Verif.Model.Function
import Mathlib.Analysis.Calculus.Deriv.Basic
/-
What a user expects of a nonlinear function object, stated on its interface only
(`parametrization`, `nbParameters`, `parameters`, `setParameters`, `value`,
`parametersJacobian`).
-/
namespace Alta
noncomputable section

/-- The contract of a plugin class.  The vector `parameters()` may be longer than
    `nbParameters()` (it is for `nonlinear_function_diffuse`); only the first
    `nbParameters()` entries count. -/
structure Cls.Lawful {σ : Type} (c : Cls σ) : Prop where
  par_set : ∀ s p, c.par (c.set s p) = c.par s
  nb_set : ∀ s p, c.nb (c.set s p) = c.nb s
  nb_le : ∀ s, c.nb s ≤ (c.get s).length
  get_set : ∀ s p, p.length = c.nb s → (c.get (c.set s p)).take (c.nb s) = p
  set_get : ∀ s, c.set s ((c.get s).take (c.nb s)) = s
  set_set : ∀ s p q, p.length = c.nb s → q.length = c.nb s → c.set (c.set s p) q = c.set s q
  value_length : ∀ s x v, c.value s x = some v → v.length = (c.par s).dimY
  /-- whether a value is defined does not depend on the parameters -/
  value_def : ∀ s p x, (c.value (c.set s p) x).isSome = (c.value s x).isSome

/-- The parameter vector of the objects of a class: `parameters()` has `nbParameters()` entries,
    `setParameters(v)` then `parameters()` gives `v`, and `setParameters(parameters())` changes
    nothing. -/
structure Cls.ParametersRoundTrip {σ : Type} (c : Cls σ) : Prop where
  size : ∀ s, (c.get s).length = c.nb s
  read_back : ∀ s v, v.length = c.nb s → c.get (c.set s v) = v
  unchanged : ∀ s, c.set s (c.get s) = s

/-- The parameter vector of a function: the first `nbParameters()` entries of `parameters()`. -/
def Fn.params (f : Fn) : List ℝ := f.get.take f.nb

mutual
/-- A composition of plugin objects that respect the contract, all with the same number
    of output channels. -/
def Fn.WF : Fn → Prop
  | .leaf c _ => c.Lawful
  | .compound p fs => fs.WF p.dimY
  | .product p f g _ _ => f.WF ∧ g.WF ∧ f.par.dimY = p.dimY ∧ g.par.dimY = p.dimY
/-- all members of a list have `d` output channels -/
def Fns.WF : Fns → ℕ → Prop
  | .nil, _ => True
  | .cons _ f rest, d => (f.WF ∧ f.par.dimY = d) ∧ rest.WF d
end

mutual
/-- The point `x`, in the parametrization of the function, can be expressed in the
    parametrization of each of its parts, and the plugin objects have a value there. -/
def Fn.DefAt : Fn → List ℝ → Prop
  | .leaf c s, x => (c.value s x).isSome
  | .compound p fs, x => fs.DefAt p.input x
  | .product p f g _ _, x =>
    (∃ xf, convertInput (arr x) p.input f.par.input = some xf ∧ f.DefAt xf) ∧
    (∃ xg, convertInput (arr x) p.input g.par.input = some xg ∧ g.DefAt xg)
/-- for each member of a list -/
def Fns.DefAt : Fns → Input → List ℝ → Prop
  | .nil, _, _ => True
  | .cons _ f rest, input, x =>
    (∃ xf, convertInput (arr x) input f.par.input = some xf ∧ f.DefAt xf) ∧ rest.DefAt input x
end

/-- Output `y` of the function at `x`. -/
def Fn.valueAt (f : Fn) (x : List ℝ) (y : ℕ) : ℝ := arr ((f.value x).getD []) y

/-- `parametersJacobian(x)` is defined, has one entry per output and parameter (nothing is asked
    of its size for a function without parameter: the diffuse lobe returns a vector of size one),
    and its entry `y * nbParameters() + i` is the
    derivative of output `y` with respect to entry `i` of the parameter vector. -/
def Fn.IsJacobianAt (f : Fn) (x : List ℝ) : Prop :=
  ∃ j, f.jac x = some j ∧ (0 < f.nb → j.length = f.par.dimY * f.nb) ∧
    ∀ y < f.par.dimY, ∀ i < f.nb,
      HasDerivAt (fun t => (f.set (f.params.set i t)).valueAt x y)
        (arr j (y * f.nb + i)) (arr f.params i)

mutual
/-- Each plugin object in the composition computes its own Jacobian at `x` correctly. -/
def Fn.LeafJacobians : Fn → List ℝ → Prop
  | .leaf c s, x => (Fn.leaf c s).IsJacobianAt x
  | .compound p fs, x => fs.LeafJacobians p.input x
  | .product p f g _ _, x =>
    (∀ xf, convertInput (arr x) p.input f.par.input = some xf → f.LeafJacobians xf) ∧
    (∀ xg, convertInput (arr x) p.input g.par.input = some xg → g.LeafJacobians xg)
/-- for each member of a list -/
def Fns.LeafJacobians : Fns → Input → List ℝ → Prop
  | .nil, _, _ => True
  | .cons _ f rest, input, x =>
    (∀ xf, convertInput (arr x) input f.par.input = some xf → f.LeafJacobians xf) ∧
      rest.LeafJacobians input x
end

/-- The value of a part at the point `x` of the composition. -/
def Fn.partValue (input : Input) (x : List ℝ) (f : Fn) (y : ℕ) : ℝ :=
  arr (((convertInput (arr x) input f.par.input).bind f.value).getD []) y

end
end Alta
