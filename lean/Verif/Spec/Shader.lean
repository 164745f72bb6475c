import Verif.Spec.Glsl
import Verif.Spec.FunctionFile
import Verif.Spec.Reciprocity
/-
What an exported shader must compute: the value of the function that was exported.
-/
namespace Alta
noncomputable section
open Real

/-- The colour given by the values of a function: one channel is a shade of grey. -/
def asColour : List ℝ → Option V3
  | [a] => some ⟨a, a, a⟩
  | [a, b, c] => some ⟨a, b, c⟩
  | _ => none

/-- The plugin object whose value the shader has: the coefficients are the numbers written in the
    shader, and
    - the coefficient `ks` of the class retroblinn is not used by the shader;
    - the diffuse part `kd` of the class lafortune is not exported;
    - π is written like the other numbers in the function of the class ward. -/
def LobeObj.exported (fmt : ℝ → Decimal) : LobeObj → LobeObj
  | .retroblinn s => .retroblinn { s with ks := fun _ => 1, N := fun i => printed fmt (s.N i) }
  | .lafortune s => .lafortune { s with
      C := fun i => printed fmt (s.C i), N := fun i => printed fmt (s.N i), kd := fun _ => 0 }
  | .ward s => .ward { s with
      ks := fun i => printed fmt (s.ks i) * (π / printed fmt π)
      ax := fun i => printed fmt (s.ax i), ay := fun i => printed fmt (s.ay i) }
  | o => o.rounded fmt

mutual
/-- The function with all its plugin objects replaced. -/
def FT.mapObjects (g : LobeObj → LobeObj) : FT LobeObj → FT LobeObj
  | .leaf l => .leaf (g l)
  | .compound p fs => .compound p (fs.mapObjects g)
  | .product p f h a b => .product p (f.mapObjects g) (h.mapObjects g) a b
/-- the members of a compound -/
def FTs.mapObjects (g : LobeObj → LobeObj) : FTs LobeObj → FTs LobeObj
  | .nil => .nil
  | .cons a f rest => .cons a (f.mapObjects g) (rest.mapObjects g)
end

mutual
/-- The plugin objects of a function, in order. -/
def FT.objects : FT LobeObj → List LobeObj
  | .leaf l => [l]
  | .compound _ fs => fs.objects
  | .product _ f g _ _ => f.objects ++ g.objects
/-- the members of a compound -/
def FTs.objects : FTs LobeObj → List LobeObj
  | .nil => []
  | .cons _ f rest => f.objects ++ rest.objects
end

/-- The class of an object whose shader has a function; the class diffuse has none. -/
def LobeObj.shaderClass : LobeObj → Option ℕ
  | .blinn _ => some 0
  | .retroblinn _ => some 1
  | .beckmann _ => some 2
  | .retrobeckmann _ => some 3
  | .ward _ => some 4
  | .abc _ => some 5
  | .diffuse _ => none
  | .sg _ => some 6
  | .isoLafortune _ => some 7
  | .lafortune _ => some 8
  | .schlickFresnel _ => some 9
  | .normalizedSchlick _ => some 10
  | .retroSchlick _ => some 11
  | .schlickMasking _ => some 12
  | .smith _ => some 13
  | .walterSmith _ => some 14
  | .sgd _ => some 15

/-- The objects whose shader has their value for a pair of directions: grey or colour, a
    parametrization for which the value is the one of the formula of the shader, and coefficients
    (as they are written) for which the shader divides by no zero.  Not the classes beckmann,
    retrobeckmann, abc, schlick masking, smith, walter smith and sgd, nor the types Retro and Moment
    of the spherical Gaussian. -/
def LobeObj.Exportable (fmt : ℝ → Decimal) (c : Cart) (o : LobeObj) : Prop :=
  (o.par.dimY = 1 ∨ o.par.dimY = 3) ∧
  match o with
  | .blinn s => s.par.input = .COS_TH
  | .retroblinn s => s.par.input = .COS_TK
  | .diffuse _ => True
  | .ward s => s.par.input = .CARTESIAN ∧ ∀ i < s.par.dimY, printed fmt (s.ax i) ≠ 0 ∧ printed fmt (s.ay i) ≠ 0
  | .sg s => s.par.input = .CARTESIAN ∧ (s.type = .Mirror ∨ s.type = .Half ∨ s.type = .Back)
  | .isoLafortune s => s.par.input = .CARTESIAN ∧ 0 < s.n ∧ ∀ i < s.n * s.par.dimY, 0 < printed fmt (s.N i)
  | .lafortune s => s.par.input = .CARTESIAN ∧ 0 < s.n ∧ ∀ i < s.n * s.par.dimY, 0 < printed fmt (s.N i)
  | .schlickFresnel s => s.par.input = .CARTESIAN
  | .normalizedSchlick s => s.par.input = .CARTESIAN ∧ ∀ i < s.par.dimY, printed fmt (s.R i) ≠ 0
  | .retroSchlick s => s.par.input = .CARTESIAN ∧ 1e-10 < c.v.z + c.l.z
  | _ => False

/-- A factor of a product: a plugin object with one lobe, or a product of factors. -/
def FT.Factor : FT LobeObj → Prop
  | .leaf (.lafortune s) => s.n = 1
  | .leaf (.isoLafortune s) => s.n = 1
  | .leaf _ => True
  | .product _ f g _ _ => f.Factor ∧ g.Factor
  | .compound _ _ => False

/-- A term of a sum: a plugin object, or a product of factors. -/
def FT.Term : FT LobeObj → Prop
  | .leaf _ => True
  | .product _ f g _ _ => f.Factor ∧ g.Factor
  | .compound _ _ => False

/-- The members of a compound are terms. -/
def FTs.Terms : FTs LobeObj → Prop
  | .nil => True
  | .cons _ f rest => f.Term ∧ rest.Terms

/-- Two directions strictly above the surface. -/
structure Cart.Over (c : Cart) : Prop where
  unit : c.IsUnit
  view : 0 < c.v.z
  light : 0 < c.l.z

/-- How the numbers are written: digits before the point, and π as a positive number. -/
structure ShaderFmt (fmt : ℝ → Decimal) : Prop where
  digits : ∀ x, (fmt x).ip ≠ []
  sign : (fmt π).neg = false
  pi : printed fmt π ≠ 0

/-- The frame of the surface. -/
def frameN : V3 := ⟨0, 0, 1⟩
/-- first tangent -/
def frameX : V3 := ⟨1, 0, 0⟩
/-- second tangent -/
def frameY : V3 := ⟨0, 1, 0⟩

end
end Alta
