import Verif.Model.Data2Brdf
import Verif.Spec.Bootstrap
/-
What the file of a fit must have.
-/
namespace Alta
noncomputable section

/-- The numbers that are not negative are printed with a digit before the point, and without a sign. -/
def PrintsNonneg (fmt : ℝ → Decimal) : Prop := ∀ x, 0 ≤ x → (fmt x).neg = false ∧ (fmt x).ip ≠ []

/-- The attributes of an object `l` that its file does not have are those of the new object `l0`.  Not for the classes
    retrobeckmann and sgd (C56). -/
def LobeObj.WrittenWhole : LobeObj → LobeObj → Prop
  | _, .abc s => s.par.input.Named
  | .sg s0, .sg s => s0.type = s.type
  | .lafortune s0, .lafortune s => s0.kd = s.kd ∧ s.n = 1
  | _, .retrobeckmann _ => False
  | _, .sgd _ => False
  | _, _ => True

mutual
/-- The same for all the objects of a function; a sum has a member. -/
def FT.WrittenWhole : FT LobeObj → FT LobeObj → Prop
  | .leaf l0, .leaf l => l0.WrittenWhole l
  | .compound _ fs0, .compound _ fs => fs ≠ .nil ∧ fs0.WrittenWhole fs
  | .product _ f0 g0 _ _, .product _ f g _ _ => f0.WrittenWhole f ∧ g0.WrittenWhole g
  | _, _ => False
/-- the members of a sum -/
def FTs.WrittenWhole : FTs LobeObj → FTs LobeObj → Prop
  | .nil, .nil => True
  | .cons _ f0 r0, .cons _ f r => f0.WrittenWhole f ∧ r0.WrittenWhole r
  | _, _ => False
end

/-- A fitter that changes only the coefficients (C60). -/
def KeepsFunctions (fit : Data → SMap → FT LobeObj → Option (Bool × FT LobeObj)) : Prop :=
  ∀ d args f ok f', f.toFn.WF → fit d args f = some (ok, f') → f.Kept f'

/-- The four nonlinear fitters. -/
inductive NonlinearFitter (files : Str → Option Str) : (Data → SMap → FT LobeObj → Option (Bool × FT LobeObj)) → Prop
  | eigen (s : EigenSolver) : NonlinearFitter files (eigenFit files s)
  | ceres (s : CeresSolver) : NonlinearFitter files (ceresFit files s)
  | nlopt (s : NloptSolver) : NonlinearFitter files (nloptFit files s)
  | ipopt (s : IpoptSolver) : NonlinearFitter files (ipoptFit files s)

end
end Alta
