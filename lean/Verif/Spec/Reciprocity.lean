import Verif.Spec.Geometry
import Verif.Spec.Function
import Verif.Model.FunctionFile
import Verif.Props.GeomLossy
/-
Reciprocity of a reflectance function, stated on pairs of directions: a pair of directions is
expressed in the parametrization of the function (`params::convert`), and the function is evaluated
there.
-/
namespace Alta
noncomputable section

/-- Two directions above the surface. -/
structure Cart.Above (c : Cart) : Prop where
  unit : c.IsUnit
  view : 0 ≤ c.v.z
  light : 0 ≤ c.l.z

/-- The value of a function for a pair of directions. -/
def Fn.reflect (f : Fn) (c : Cart) : Option (List ℝ) :=
  (convertInput (arr c.toList) .CARTESIAN f.par.input).bind f.value

/-- Helmholtz reciprocity for one pair of directions: exchanging the view and the light changes
    nothing. -/
def Fn.ReciprocalAt (f : Fn) (c : Cart) : Prop := f.reflect c.swap = f.reflect c

/-- Helmholtz reciprocity. -/
def Fn.Reciprocal (f : Fn) : Prop := ∀ c : Cart, c.Above → f.ReciprocalAt c

/-- The classes of plugin objects that are reciprocal when they are evaluated on the coordinates of
    the two directions.  Not among them: the lobes that read one coordinate (Blinn, retro Blinn and
    ABC), the Smith term, the moment version of the spherical Gaussian, and the retro-reflecting
    Beckmann lobe with its default cosine.  The retro Schlick term is, unless both directions are
    within 1e-10 of the surface. -/
def ReciprocalOnDirections (c : Cart) : LobeObj → Prop
  | .blinn _ | .retroblinn _ | .abc _ | .smith _ => False
  | .sg s => s.type ≠ .Moment
  | .retrobeckmann s => s.useBack = true
  | .retroSchlick _ => 1e-10 < c.v.z + c.l.z
  | _ => True

/-- What makes a plugin object reciprocal: its parametrization is symmetric in the two directions
    (C11), or its class is reciprocal on the directions themselves. -/
def LobeObj.MeantReciprocal (c : Cart) (o : LobeObj) : Prop :=
  SymmetricInput o.par.input ∨ (o.par.input = .CARTESIAN ∧ ReciprocalOnDirections c o)

mutual
/-- Each function of a composition is evaluated on the pair of directions, or on the coordinates
    given to the composition (the constructors `compound_function` and `product_function` ensure it for parts with a
    registered parametrization). -/
def Fn.SharedInput : Fn → Prop
  | .leaf _ _ => True
  | .compound p fs => fs.SharedInput p.input
  | .product p f g _ _ =>
    (f.SharedInput ∧ (p.input = .CARTESIAN ∨ (f.par.input = p.input ∧ p.input.Named))) ∧
    (g.SharedInput ∧ (p.input = .CARTESIAN ∨ (g.par.input = p.input ∧ p.input.Named)))
/-- for each member of a list -/
def Fns.SharedInput : Fns → Input → Prop
  | .nil, _ => True
  | .cons _ f rest, i => (f.SharedInput ∧ (i = .CARTESIAN ∨ (f.par.input = i ∧ i.Named))) ∧ rest.SharedInput i
end

mutual
/-- Each plugin object of a composition has the property `P`. -/
def FT.AllObjects (P : LobeObj → Prop) : FT LobeObj → Prop
  | .leaf l => P l
  | .compound _ fs => fs.AllObjects P
  | .product _ f g _ _ => f.AllObjects P ∧ g.AllObjects P
/-- for each member of a list -/
def FTs.AllObjects (P : LobeObj → Prop) : FTs LobeObj → Prop
  | .nil => True
  | .cons _ f rest => f.AllObjects P ∧ rest.AllObjects P
end

end
end Alta
