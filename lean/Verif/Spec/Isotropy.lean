import Verif.Spec.Reciprocity
import Verif.Props.GeomRotation
/-
Isotropy of a reflectance function, stated on pairs of directions.
-/
namespace Alta
noncomputable section

/-- Turning the two directions together about the normal, by the angle `t`, changes nothing. -/
def Fn.IsotropicAt (f : Fn) (c : Cart) (t : ℝ) : Prop := f.reflect (c.rotZ t) = f.reflect c

/-- The coordinates are those of isotropic materials: they do not change when the two directions turn together (C12). -/
def IsotropicInput (c : Cart) (p : Input) : Prop := NoAzimuth p ∨ (AzimuthReduced p ∧ AzimuthsExist p c)

/-- The objects that are meant isotropic when they are evaluated on the two directions themselves.  Not among them: the lobes
    that read one coordinate (Blinn, retro Blinn, ABC), the Ward and Lafortune lobes with different coefficients along the
    two axes, the moment version of the spherical Gaussian and the retro-reflecting Beckmann lobe with its default cosine. -/
def IsotropicOnDirections : LobeObj → Prop
  | .blinn _ | .retroblinn _ | .abc _ => False
  | .sg s => s.type ≠ .Moment
  | .retrobeckmann s => s.useBack = true
  | .ward s => ∀ i < s.par.dimY, s.ax i = s.ay i
  | .lafortune s => ∀ n < s.n, ∀ i < s.par.dimY, s.C ((n * s.par.dimY + i) * 3 + 0) = s.C ((n * s.par.dimY + i) * 3 + 1)
  | _ => True

/-- What makes a plugin object isotropic. -/
def LobeObj.MeantIsotropic (c : Cart) (o : LobeObj) : Prop :=
  IsotropicInput c o.par.input ∨ (o.par.input = .CARTESIAN ∧ IsotropicOnDirections o)

end
end Alta
