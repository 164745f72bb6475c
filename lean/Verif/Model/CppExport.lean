import Verif.Model.Rational
import Verif.Model.ShaderExport
/-
Model of the export as C++: `function::save` with the option `export` set to `C++`, `c++` or `cpp`.

Modelled: /repo/sources/core/function.cpp 50-126 (the header is not written, since the option is defined),
149-156; /repo/sources/core/rational_function.cpp 87-175 (C++ only), 680-704; the classes of nonlinear functions
write their `save_call` as for a shader, and nothing before (their `save_body` tests `export`).

Simplifications: how a double is written is the parameter `fmt`; `std::endl` is an end of line; `none` is the end
of the program (`NOT_IMPLEMENTED` throws).
-/
namespace Alta
noncomputable section

/-- One term: `out << c.a; for k < dimX: out << "*pow(x[" << k << "], " << c.deg[k] << ")"`.
    /repo/sources/core/rational_function.cpp 150-154, 162-166. -/
def cppTerm (fmt : ℝ → Decimal) (d : ℕ) (c : Coeff) : Str :=
  (fmt c.a).text ++ (List.range d).flatMap fun k =>
    "*pow(x[".toList ++ showNat k ++ "], ".toList ++ showNat (c.deg.getD k 0) ++ ")".toList

/-- The terms, separated by `" + "`.  /repo/sources/core/rational_function.cpp 148-156, 160-168. -/
def cppSum (fmt : ℝ → Decimal) (d : ℕ) (l : List Coeff) : Str := plusList (l.map (cppTerm fmt d))

/-- `rational_function_1d::save_body`, C++ format.
    /repo/sources/core/rational_function.cpp 145-171. -/
def Rat1.cppBody (fmt : ℝ → Decimal) (r : Rat1) : Str :=
  "\tdouble num = ".toList ++ cppSum fmt r.dimX r.p ++ ";\n".toList ++
  "\tdouble den = ".toList ++ cppSum fmt r.dimX r.q ++ ";\n".toList ++
  "\tres[0] = num / den;\n".toList

/-- `rational_function::save_call`, C++ format: the allocated channels.
    /repo/sources/core/rational_function.cpp 680-704. -/
def RatFn.cppCall (fmt : ℝ → Decimal) (f : RatFn) : Str :=
  (List.range f.dimY).flatMap fun k =>
    match (f.rs[k]?).join with
    | some r => r.cppBody fmt ++ ['\n']
    | none => []

/-- What `function::save` writes around `save_call`.
    /repo/sources/core/function.cpp 84-92, 109-113, 120. -/
def cppFile (dimY : ℕ) (call : Str) : Str :=
  "#include <Eigen/Core>\ntypedef Eigen::VectorXd vec;\n\nvec brdf(const vec& x)\n{\n\tvec res(".toList ++ showNat dimY ++
  ");\n".toList ++ call ++ "\treturn res;\n}\n\n".toList

/-- `function::save` of a rational function with the option `export` set to `C++`, `c++` or `cpp`.  The Chebychev
    and Legendre functions inherit it.  /repo/sources/core/function.cpp 50-126. -/
def RatFn.exportCpp (fmt : ℝ → Decimal) (f : RatFn) : Str := cppFile f.dimY (f.cppCall fmt)

/-- `function::save` of a rational function with the option `export` set to `shader`: `save_body` of an allocated
    channel throws.  /repo/sources/core/rational_function.cpp 172-175, 692-703, function.cpp 100-126. -/
def RatFn.exportShader (f : RatFn) : Option Str :=
  if (List.range f.dimY).any fun k => ((f.rs[k]?).join).isSome then none
  else some ("vec3 BRDF(vec3 L, vec3 V, vec3 N, vec3 X, vec3 Y)\n{\n\tvec3 res = ".toList ++ "\treturn res;\n}\n\n".toList)

/-- `function::save` of a nonlinear function of one class with the option `export` set to `C++`: `save_call` does as for
    a shader, and `save_body` writes nothing (except the class lafortune, which does not test the format).
    /repo/sources/core/function.cpp 81-120, /repo/sources/plugins/nonlinear_function_blinn/function.cpp 204-241,
    nonlinear_function_lafortune/function.cpp 494-502. -/
def LobeObj.exportCpp (fmt : ℝ → Decimal) (o : LobeObj) : Str := o.saveBody ++ cppFile o.par.dimY (o.shaderCall fmt)

end
end Alta
