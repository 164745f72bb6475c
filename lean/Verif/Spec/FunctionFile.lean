import Verif.Model.FunctionFile
import Verif.Spec.Function
import Verif.Props.RationalFile
import Verif.Props.ParamNames
/-
What reading back a file of a nonlinear function must give: the same function, each coefficient
being the number that was printed.
-/
namespace Alta
noncomputable section

/-- The object, each coefficient being replaced by the number printed for it. -/
def LobeObj.rounded (fmt : ℝ → Decimal) : LobeObj → LobeObj
  | .blinn s => .blinn { s with ks := fun i => printed fmt (s.ks i), N := fun i => printed fmt (s.N i) }
  | .retroblinn s => .retroblinn { s with ks := fun i => printed fmt (s.ks i), N := fun i => printed fmt (s.N i) }
  | .beckmann s => .beckmann { s with ks := fun i => printed fmt (s.ks i), a := fun i => printed fmt (s.a i) }
  | .retrobeckmann s =>
    .retrobeckmann { s with ks := fun i => printed fmt (s.ks i), a := fun i => printed fmt (s.a i) }
  | .ward s => .ward { s with
      ks := fun i => printed fmt (s.ks i), ax := fun i => printed fmt (s.ax i), ay := fun i => printed fmt (s.ay i) }
  | .abc s => .abc { s with
      a := fun i => printed fmt (s.a i), b := fun i => printed fmt (s.b i), c := fun i => printed fmt (s.c i) }
  | .diffuse s => .diffuse { s with kd := fun i => printed fmt (s.kd i) }
  | .sg s => .sg { s with
      ks := fun i => printed fmt (s.ks i), n := fun i => printed fmt (s.n i), a := printed fmt s.a }
  | .isoLafortune s => .isoLafortune { s with C := fun i => printed fmt (s.C i), N := fun i => printed fmt (s.N i) }
  | .lafortune s => .lafortune { s with C := fun i => printed fmt (s.C i), N := fun i => printed fmt (s.N i) }
  | .schlickFresnel s => .schlickFresnel { s with R := fun i => printed fmt (s.R i) }
  | .normalizedSchlick s => .normalizedSchlick { s with R := fun i => printed fmt (s.R i) }
  | .retroSchlick s => .retroSchlick { s with R := fun i => printed fmt (s.R i) }
  | .schlickMasking s => .schlickMasking { s with R := fun i => printed fmt (s.R i) }
  | .smith s => .smith { s with R := fun i => printed fmt (s.R i) }
  | .walterSmith s => .walterSmith { s with R := fun i => printed fmt (s.R i) }
  | .sgd s => .sgd { s with v := fun k i => printed fmt (s.v k i) }

/-- The object `l0`, in which a file is read, is of the class of the object `l` that was saved, with
    the same parametrization and the attributes that the files do not have.  Not for the classes
    retrobeckmann and sgd, nor for several lobes of the class lafortune. -/
def LobeObj.CanRead : LobeObj → LobeObj → Prop
  | .blinn s0, .blinn s => s0.par = s.par
  | .retroblinn s0, .retroblinn s => s0.par = s.par
  | .beckmann s0, .beckmann s => s0.par = s.par
  | .ward s0, .ward s => s0.par = s.par
  | .abc s0, .abc s => { s0.par with input := s.par.input } = s.par ∧ s.par.input.Named
  | .diffuse s0, .diffuse s => s0.par = s.par
  | .sg s0, .sg s => s0.par = s.par ∧ s0.type = s.type
  | .isoLafortune s0, .isoLafortune s => s0.par = s.par
  | .lafortune s0, .lafortune s => s0.par = s.par ∧ s0.kd = s.kd ∧ s.n = 1
  | .schlickFresnel s0, .schlickFresnel s => s0.par = s.par
  | .normalizedSchlick s0, .normalizedSchlick s => s0.par = s.par
  | .retroSchlick s0, .retroSchlick s => s0.par = s.par
  | .schlickMasking s0, .schlickMasking s => s0.par = s.par
  | .smith s0, .smith s => s0.par = s.par
  | .walterSmith s0, .walterSmith s => s0.par = s.par
  | _, _ => False

mutual
/-- The function with all its coefficients replaced by the numbers printed. -/
def FT.rounded (fmt : ℝ → Decimal) : FT LobeObj → FT LobeObj
  | .leaf l => .leaf (l.rounded fmt)
  | .compound p fs => .compound p (fs.rounded fmt)
  | .product p f g a b => .product p (f.rounded fmt) (g.rounded fmt) a b
/-- the members of a compound -/
def FTs.rounded (fmt : ℝ → Decimal) : FTs LobeObj → FTs LobeObj
  | .nil => .nil
  | .cons a f rest => .cons a (f.rounded fmt) (rest.rounded fmt)
end

mutual
/-- The two functions are built in the same way, of objects that can read each other's files; a
    compound has a member. -/
def FT.CanRead : FT LobeObj → FT LobeObj → Prop
  | .leaf l0, .leaf l => l0.CanRead l
  | .compound p0 fs0, .compound p fs => p0 = p ∧ fs ≠ .nil ∧ fs0.CanRead fs
  | .product p0 f0 g0 a0 b0, .product p f g a b =>
    p0 = p ∧ a0 = a ∧ b0 = b ∧ f0.CanRead f ∧ g0.CanRead g
  | _, _ => False
/-- the members of a compound -/
def FTs.CanRead : FTs LobeObj → FTs LobeObj → Prop
  | .nil, .nil => True
  | .cons a0 f0 r0, .cons a f r =>
    a0.isDefined "fixed".toList = a.isDefined "fixed".toList ∧ f0.CanRead f ∧ r0.CanRead r
  | _, _ => False
end

mutual
/-- The function as an object with `value`, `parameters`, ... (`Model/Function`): a member is fixed
    when its arguments have the option `fixed`. -/
def FT.toFn : FT LobeObj → Fn
  | .leaf l => l.toFn
  | .compound p fs => .compound p fs.toFns
  | .product p f g a b => .product p f.toFn g.toFn a b
/-- the members of a compound -/
def FTs.toFns : FTs LobeObj → Fns
  | .nil => .nil
  | .cons a f rest => .cons (a.isDefined "fixed".toList) f.toFn rest.toFns
end

/-- A parametrization with another output. -/
def Par.withOutput (p : Par) (o : Output) : Par := { p with output := o }

/-- The object with another output parametrization. -/
def LobeObj.withOutput (o : Output) : LobeObj → LobeObj
  | .blinn s => .blinn { s with par := s.par.withOutput o }
  | .retroblinn s => .retroblinn { s with par := s.par.withOutput o }
  | .beckmann s => .beckmann { s with par := s.par.withOutput o }
  | .retrobeckmann s => .retrobeckmann { s with par := s.par.withOutput o }
  | .ward s => .ward { s with par := s.par.withOutput o }
  | .abc s => .abc { s with par := s.par.withOutput o }
  | .diffuse s => .diffuse { s with par := s.par.withOutput o }
  | .sg s => .sg { s with par := s.par.withOutput o }
  | .isoLafortune s => .isoLafortune { s with par := s.par.withOutput o }
  | .lafortune s => .lafortune { s with par := s.par.withOutput o }
  | .schlickFresnel s => .schlickFresnel { s with par := s.par.withOutput o }
  | .normalizedSchlick s => .normalizedSchlick { s with par := s.par.withOutput o }
  | .retroSchlick s => .retroSchlick { s with par := s.par.withOutput o }
  | .schlickMasking s => .schlickMasking { s with par := s.par.withOutput o }
  | .smith s => .smith { s with par := s.par.withOutput o }
  | .walterSmith s => .walterSmith { s with par := s.par.withOutput o }
  | .sgd s => .sgd { s with par := s.par.withOutput o }

mutual
/-- The function with another output parametrization: the files do not have it. -/
def FT.withOutput (o : Output) : FT LobeObj → FT LobeObj
  | .leaf l => .leaf (l.withOutput o)
  | .compound p fs => .compound (p.withOutput o) (fs.withOutput o)
  | .product p f g a b => .product (p.withOutput o) (f.withOutput o) (g.withOutput o) a b
/-- the members of a compound -/
def FTs.withOutput (o : Output) : FTs LobeObj → FTs LobeObj
  | .nil => .nil
  | .cons a f rest => .cons a (f.withOutput o) (rest.withOutput o)
end

/-- Two function objects that a user cannot tell apart: same parametrization, same parameters, same
    value everywhere. -/
def Fn.Same (f g : Fn) : Prop :=
  f.par = g.par ∧ f.nb = g.nb ∧ f.params = g.params ∧ ∀ x, f.value x = g.value x

end
end Alta
