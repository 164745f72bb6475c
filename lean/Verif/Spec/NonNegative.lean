import Verif.Spec.Reciprocity
import Verif.Spec.NonlinearFit
/-
Non-negativity of a reflectance function.
-/
namespace Alta
noncomputable section

/-- The function is not negative, in any channel, for one pair of directions. -/
def Fn.NonNegativeAt (f : Fn) (c : Cart) : Prop := ∀ v, f.reflect c = some v → ∀ y ∈ v, 0 ≤ y

/-- The parameters of a plugin object are within the bounds that it reports. -/
def LobeObj.InBounds (o : LobeObj) : Prop := WithinBounds o.toFn o.toFn.params

/-- What is asked of a plugin object, besides the bounds: no division by a zero parameter; where the
    bounds or the parameters do not cover a factor, the sign of that factor; for the terms that read
    the directions, that they are given directions.  Nothing helps the shifted gamma lobe, which has
    no bounds. -/
def NonNegativeFactors : LobeObj → Prop
  | .blinn s | .retroblinn s => ∀ i < s.par.dimY, 0 ≤ s.ks i
  | .diffuse s => ∀ i < s.par.dimY, 0 ≤ s.kd i
  | .lafortune s => ∀ i < s.par.dimY, 0 ≤ s.kd i
  | .beckmann s => ∀ i < s.par.dimY, s.a i ≠ 0
  | .retrobeckmann s => ∀ i < s.par.dimY, s.a i ≠ 0
  | .ward s => ∀ i < s.par.dimY, s.ax i ≠ 0 ∧ s.ay i ≠ 0
  | .smith s | .schlickMasking s => s.par.input = .CARTESIAN ∧ ∀ i < s.par.dimY, s.R i ≠ 0
  | .retroSchlick s | .walterSmith s => s.par.input = .CARTESIAN
  | .sgd _ => False
  | _ => True

mutual
/-- No part of a composition is fixed. -/
def FT.NothingFixed : FT LobeObj → Prop
  | .leaf _ => True
  | .compound _ fs => fs.NothingFixed
  | .product _ f g a b => (a = false ∧ f.NothingFixed) ∧ b = false ∧ g.NothingFixed
/-- for each member of a list -/
def FTs.NothingFixed : FTs LobeObj → Prop
  | .nil => True
  | .cons args f rest => (args.isDefined "fixed".toList = false ∧ f.NothingFixed) ∧ rest.NothingFixed
end

end
end Alta
