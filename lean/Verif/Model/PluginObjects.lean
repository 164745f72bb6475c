import Verif.Model.FunctionFile
/-
Model of the constructors of the plugins (`provide_function`).

Simplification: attributes that a constructor does not initialise are unspecified.  The constructor of
the class lafortune (nonlinear_function_lafortune/function.cpp 31-46) resizes vectors with an
uninitialised number of lobes; that of normalized_schlick (function.cpp 29-32) does not give its vector a
size.  Both are given here the meaning they would have with vectors of the right size.
-/
namespace Alta
noncomputable section

/-- `parameters::set_input`.  /repo/sources/core/params.h 490-493. -/
def Par.setInput (p : Par) (nX : ℕ) (i : Input) : Par := { p with dimX := nX, input := i }

/-- The classes of the plugins. -/
inductive PluginClass where
  | blinn | retroblinn | beckmann | retrobeckmann | ward | abc | diffuse | sg | isoLafortune | lafortune
  | schlickFresnel | normalizedSchlick | retroSchlick | schlickMasking | smith | walterSmith | sgd
  deriving DecidableEq

/-- The parametrization that a constructor gives to its object.
    /repo/sources/plugins/nonlinear_function_blinn/function.cpp 29-30; without `set_input`:
    nonlinear_function_retroblinn/function.cpp 29-30, nonlinear_function_abc/function.h 51-52,
    nonlinear_function_lafortune/function.cpp 31-32, nonlinear_fresnel_schlick/function.cpp 29-30; the
    others call `params.set_input(6, params::CARTESIAN)`: nonlinear_function_beckmann/function.cpp 31,
    retrobeckmann 31, ward 31, diffuse 30, spherical_gaussian 31, isotropic_lafortune 30, sgd 30,
    nonlinear_fresnel_normalized_schlick 30, nonlinear_fresnel_retroschlick 30,
    nonlinear_shadowing_schlick 31, nonlinear_shadowing_smith 32, nonlinear_shadowing_walter_smith 22. -/
def PluginClass.par (c : PluginClass) (p : Par) : Par :=
  match c with
  | .blinn => p.setInput 1 .COS_TH
  | .retroblinn | .abc | .lafortune | .schlickFresnel => p
  | _ => p.setInput 6 .CARTESIAN

/-- The object `l` is what `provide_function(p)` of the class `c` may return: the coefficients are not
    initialised, but for those of diffuse, `_a` and `_type` of the spherical gaussian, `_n` of the
    isotropic lafortune, `_use_back_param` of retrobeckmann, `_kd` of lafortune.
    /repo/sources/plugins/nonlinear_function_diffuse/function.cpp 29-33,
    nonlinear_function_spherical_gaussian/function.cpp 30-37,
    nonlinear_function_isotropic_lafortune/function.cpp 29-36,
    nonlinear_function_retrobeckmann/function.cpp 30-37, nonlinear_function_lafortune/function.cpp 31-46;
    the others as cited for `PluginClass.par`. -/
def Constructs (c : PluginClass) (p : Par) (l : LobeObj) : Prop :=
  l.par = c.par p ∧
  match c, l with
  | .blinn, .blinn _ => True
  | .retroblinn, .retroblinn _ => True
  | .beckmann, .beckmann _ => True
  | .retrobeckmann, .retrobeckmann s => s.useBack = true
  | .ward, .ward _ => True
  | .abc, .abc _ => True
  | .diffuse, .diffuse s => s.kd = fun _ => 0
  | .sg, .sg s => s.a = 1 ∧ s.type = .Mirror
  | .isoLafortune, .isoLafortune s => s.n = 1
  | .lafortune, .lafortune s => s.kd = fun _ => 0
  | .schlickFresnel, .schlickFresnel _ => True
  | .normalizedSchlick, .normalizedSchlick _ => True
  | .retroSchlick, .retroSchlick _ => True
  | .schlickMasking, .schlickMasking _ => True
  | .smith, .smith _ => True
  | .walterSmith, .walterSmith _ => True
  | .sgd, .sgd _ => True
  | _, _ => False

/-- A library of a plugin of the class `c`. -/
def Provider.Of (pr : Provider LobeObj) (c : PluginClass) : Prop :=
  pr.nonlinear = true ∧ ∀ p, Constructs c p (pr.make p)

end
end Alta
