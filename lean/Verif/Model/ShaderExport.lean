import Verif.Model.FunctionFile
/-
Model of the export of nonlinear functions as shaders: `function::save` with the option `export` set
to `shader` or `explorer`.

Modelled: /repo/sources/core/function.cpp 50-126, 131-147 (the header is not written), 774-813,
906-949, and the `save_body` and `save_call` of the plugins
/repo/sources/plugins/nonlinear_function_*, nonlinear_fresnel_*, nonlinear_shadowing_* (without
retroyoo).

Simplifications: how a double is written is the parameter `fmt` (six digits: the precision is changed
for the ALTA format only); `std::endl` is an end of line; `none` is the end of the program (the
`assert(0)` of the class smith).
-/
namespace Alta
noncomputable section
open Real

/-- `out << line << std::endl` for each line -/
def endLines (l : List Str) : Str := l.flatMap fun s => s ++ ['\n']

/-- Numbers separated by `", "`: the loop
    `for i < dimY: out << v[i]; if(i < dimY-1) { out << ", "; }`. -/
def numberList (fmt : ℝ → Decimal) : List ℝ → Str
  | [] => []
  | [x] => (fmt x).text
  | x :: rest => (fmt x).text ++ ", ".toList ++ numberList fmt rest

/-- `out << "vec3(" << v[0] << ", " << ... << ")"` for the channels -/
def vec3Text (fmt : ℝ → Decimal) (n : ℕ) (v : ℕ → ℝ) : Str :=
  "vec3(".toList ++ numberList fmt ((List.range n).map v) ++ ")".toList

/-- The vectors passed to a function of the shader, separated by `", "`. -/
def vectorList (fmt : ℝ → Decimal) (n : ℕ) : List (ℕ → ℝ) → Str
  | [] => []
  | v :: rest => ", ".toList ++ vec3Text fmt n v ++ vectorList fmt n rest

/-- `name(L, V, N, X, Y, vec3(...), ...)` -/
def callText (fmt : ℝ → Decimal) (name : Str) (n : ℕ) (vs : List (ℕ → ℝ)) : Str :=
  name ++ "(L, V, N, X, Y".toList ++ vectorList fmt n vs ++ ")".toList

/-- Texts separated by `" + "`: the lobes of the Lafortune classes. -/
def plusList : List Str → Str
  | [] => []
  | [x] => x
  | x :: rest => x ++ " + ".toList ++ plusList rest

/-- `save_call` when the export is not the ALTA format.
    /repo/sources/plugins/nonlinear_function_blinn/function.cpp 204-221,
    nonlinear_function_retroblinn 190-207, nonlinear_function_beckmann 261-277,
    nonlinear_function_retrobeckmann 268-284, nonlinear_function_ward 239-263,
    nonlinear_function_abc 254-277, nonlinear_function_diffuse 106-114,
    nonlinear_function_spherical_gaussian 332-349, nonlinear_function_isotropic_lafortune 429-458,
    nonlinear_function_lafortune 455-491, nonlinear_fresnel_schlick 89-98,
    nonlinear_fresnel_normalized_schlick 86-95, nonlinear_fresnel_retroschlick 173-182,
    nonlinear_shadowing_schlick 90-99 (the opening parenthesis of `vec3` is missing),
    nonlinear_shadowing_smith 91-100, nonlinear_shadowing_walter_smith 106-120; the one of sgd
    throws (see `LobeObj.shaderBody`). -/
def LobeObj.shaderCall (fmt : ℝ → Decimal) : LobeObj → Str
  | .blinn s => callText fmt "blinn".toList s.par.dimY [s.ks, s.N]
  | .retroblinn s => callText fmt "retroblinn".toList s.par.dimY [s.ks, s.N]
  | .beckmann s => callText fmt "beckmann".toList s.par.dimY [s.ks, s.a]
  | .retrobeckmann s => callText fmt "retrobeckmann".toList s.par.dimY [s.ks, s.a]
  | .ward s => callText fmt "ward".toList s.par.dimY [s.ks, s.ax, s.ay]
  | .abc s => callText fmt "abc".toList s.par.dimY [s.a, s.b, s.c]
  | .diffuse s => vec3Text fmt s.par.dimY s.kd
  | .sg s => callText fmt "spherical_gaussian".toList s.par.dimY [s.ks, s.n]
  | .isoLafortune s => plusList ((List.range s.n).map fun n =>
      callText fmt "lafortune".toList s.par.dimY
        [fun i => s.C ((n * s.par.dimY + i) * 2 + 0), fun i => s.C ((n * s.par.dimY + i) * 2 + 1),
         fun i => s.N (n * s.par.dimY + i)])
  | .lafortune s => plusList ((List.range s.n).map fun n =>
      callText fmt "lafortune".toList s.par.dimY
        [fun i => s.C ((n * s.par.dimY + i) * 3 + 0), fun i => s.C ((n * s.par.dimY + i) * 3 + 1),
         fun i => s.C ((n * s.par.dimY + i) * 3 + 2), fun i => s.N (n * s.par.dimY + i)])
  | .schlickFresnel s => callText fmt "schlick_fresnel".toList s.par.dimY [s.R]
  | .normalizedSchlick s => callText fmt "normalized_schlick_fresnel".toList s.par.dimY [s.R]
  | .retroSchlick s => callText fmt "retro_schlick_fresnel".toList s.par.dimY [s.R]
  | .schlickMasking s => "masking_schlick(L, V, N, X, Y, vec3".toList ++
      numberList fmt ((List.range s.par.dimY).map s.R) ++ "))".toList
  | .smith s => callText fmt "shadowing_smith".toList s.par.dimY [s.R]
  | .walterSmith s => "walter_smith(L, V, N, X, Y, ".toList ++
      "vec3(".toList ++ numberList fmt ((List.range s.par.dimY).map s.R) ++ ") ) ".toList
  | .sgd _ => []

/-- /repo/sources/plugins/nonlinear_function_blinn/function.cpp 232-238 -/
def blinnBody : List Str :=
  ["vec3 blinn(vec3 L, vec3 V, vec3 N, vec3 X, vec3 Y, vec3 ks, vec3 Nl)".toList,
   "{".toList,
   "\tvec3 H = normalize(L + V);".toList,
   "\tvec3 ext_dot = vec3(dot(H,N));".toList,
   "\treturn ks * pow(max(ext_dot, vec3(0,0,0)), Nl);".toList,
   "}".toList, []]

/-- /repo/sources/plugins/nonlinear_function_retroblinn/function.cpp 218-225 -/
def retroblinnBody : List Str :=
  ["vec3 retroblinn(vec3 L, vec3 V, vec3 N, vec3 X, vec3 Y, vec3 ks, vec3 Nl)".toList,
   "{".toList,
   "\tvec3 Vp = 2.0f*N*(dot(N,V)) - V;".toList,
   "\tvec3 K  = normalize(L + Vp);".toList,
   "\tvec3 ext_dot = vec3(dot(K,N));".toList,
   "\treturn pow(max(ext_dot, vec3(0,0,0)), Nl);".toList,
   "}".toList, []]

/-- The lines of `g_beckmann` for the component `c`. -/
def gBeckmannLines (c : Str) : List Str :=
  ["\tif(c.".toList ++ c ++ " < 1.6f) {".toList,
   "\t\tr.".toList ++ c ++ " = (3.535*c.".toList ++ c ++ " + 2.181*c.".toList ++ c ++ "*c.".toList ++ c ++
     ") / (1 + 2.276*c.".toList ++ c ++ " + 2.577*c.".toList ++ c ++ "*c.".toList ++ c ++ ");".toList,
   "\t} else {".toList,
   "\t\tr.".toList ++ c ++ " = 1.0f;".toList,
   "\t}".toList]

/-- /repo/sources/plugins/nonlinear_function_beckmann/function.cpp 288-309 -/
def gBeckmannBody : List Str :=
  ["vec3 g_beckmann(vec3 M, vec3 N, vec3 a)".toList,
   "{".toList,
   "\tfloat d = dot(M,N);".toList,
   "\tvec3 c = d / (a * sqrt(1.0f-d));".toList,
   "\tvec3 r;".toList] ++ gBeckmannLines ['x'] ++ gBeckmannLines ['y'] ++ gBeckmannLines ['z'] ++
  ["\treturn r;".toList, "}".toList]

/-- /repo/sources/plugins/nonlinear_function_beckmann/function.cpp 287-322 -/
def beckmannBody (fmt : ℝ → Decimal) : List Str :=
  gBeckmannBody ++ [[],
   "vec3 beckmann(vec3 L, vec3 V, vec3 N, vec3 X, vec3 Y, vec3 ks, vec3 a)".toList,
   "{".toList,
   "\tvec3  H   = normalize(L + V);".toList,
   "\tfloat hn  = dot(H,N);".toList,
   "\tfloat ln  = dot(L,N);".toList,
   "\tfloat vn  = dot(V,N);".toList,
   "\t".toList,
   "\treturn ks / (4 * ".toList ++ (fmt π).text ++
     " * a*a * ln*vn) * exp((hn*hn - 1.0) / (a*a*hn*hn)) * g_beckmann(L,N,a) * g_beckmann(V,N,a);".toList,
   "}".toList]

/-- /repo/sources/plugins/nonlinear_function_retrobeckmann/function.cpp 293-302 -/
def retrobeckmannBody (fmt : ℝ → Decimal) : List Str :=
  ["vec3 retrobeckmann(vec3 L, vec3 V, vec3 N, vec3 X, vec3 Y, vec3 ks, vec3 a)".toList,
   "{".toList,
   "\tvec3  R   = 2*dot(V,N)*N - V;".toList,
   "\tvec3  B   = normalize(L + R);".toList,
   "\tfloat bn  = dot(B,N);".toList,
   "\tfloat ln  = dot(L,N);".toList,
   "\tfloat vn  = dot(V,N);".toList,
   "\t".toList,
   "\treturn ks / (4 * ".toList ++ (fmt π).text ++
     " * a*a * ln*vn) * exp((bn*bn - 1.0) / (a*a*bn*bn));".toList,
   "}".toList]

/-- /repo/sources/plugins/nonlinear_function_ward/function.cpp 273-287 -/
def wardBody (fmt : ℝ → Decimal) : List Str :=
  ["vec3 ward(vec3 L, vec3 V, vec3 N, vec3 X, vec3 Y, vec3 ks, vec3 ax, vec3 ay)".toList,
   "{".toList,
   "\tvec3  H   = normalize(L + V);".toList,
   "\tvec3  hax = dot(H,X) / ax;".toList,
   "\tvec3  hay = dot(H,Y) / ay;".toList,
   "\tfloat hn  = dot(H,N);".toList,
   "\tfloat ln  = dot(L,N);".toList,
   "\tfloat vn  = dot(V,N);".toList,
   "\t".toList,
   "\tif(ln*vn > 0) {".toList,
   "\t\treturn (ks / (4 * ".toList ++ (fmt π).text ++
     " * ax*ay * sqrt(ln*vn))) * exp(-(hax*hax + hay*hay)/(hn*hn));".toList,
   "\t} else {".toList,
   "\t\t return vec3(0);".toList,
   "\t}".toList,
   "}".toList]

/-- /repo/sources/plugins/nonlinear_function_abc/function.cpp 287-293 -/
def abcBody : List Str :=
  ["vec3 abc(vec3 L, vec3 V, vec3 N, vec3 X, vec3 Y, vec3 a, vec3 b, vec3 c)".toList,
   "{".toList,
   "\tvec3  H   = normalize(L + V);".toList,
   "\tfloat hn  = dot(H,N);".toList,
   "\t".toList,
   "\treturn a / pow(vec3(1.0f) + b*hn, c);".toList,
   "}".toList]

/-- The lines that depend on the type.
    /repo/sources/plugins/nonlinear_function_spherical_gaussian/function.cpp 362-390. -/
def sgLines (fmt : ℝ → Decimal) (a : ℝ) : SgType → List Str
  | .Half =>
    ["\tvec3 H = normalize(L + V);".toList,
     "\tvec3 ext_dot = vec3(dot(H,N));".toList]
  | .Moment =>
    ["\tfloat t = ".toList ++ (fmt a).text ++ "*acos(dot(V, N));".toList,
     "\tfloat p = atan(dot(V, Y), dot(V, X)) + ".toList ++ (fmt π).text ++ ";".toList,
     "\tvec3 R = cos(p)*sin(t)*X + sin(p)*sin(t)*Y + cos(t)*N;".toList,
     "\tvec3 ext_dot = vec3(dot(L,R));".toList]
  | .Back =>
    ["\tvec3 Vp = 2.0f*N*(dot(N,V)) - V;".toList,
     "\tvec3 K  = normalize(L + Vp);".toList,
     "\tvec3 ext_dot = vec3(dot(K,N));".toList]
  | .Retro =>
    ["\tvec3 ext_dot = vec3(dot(L,V));".toList]
  | .Mirror =>
    ["\tvec3 R = 2*dot(V,N)*N - V;".toList,
     "\tvec3 ext_dot = vec3(dot(L,R));".toList]

/-- /repo/sources/plugins/nonlinear_function_spherical_gaussian/function.cpp 359-393 -/
def sgBody (fmt : ℝ → Decimal) (a : ℝ) (t : SgType) : List Str :=
  ["vec3 spherical_gaussian(vec3 L, vec3 V, vec3 N, vec3 X, vec3 Y, vec3 ks, vec3 Nl)".toList,
   "{".toList] ++ sgLines fmt a t ++
  ["\treturn ks * exp(Nl * (ext_dot - vec3(1)));".toList,
   "}".toList]

/-- /repo/sources/plugins/nonlinear_function_isotropic_lafortune/function.cpp 467-472 -/
def isoLafortuneBody : List Str :=
  ["vec3 lafortune(vec3 L, vec3 V, vec3 N, vec3 X, vec3 Y, vec3 Cx, vec3 Cz, vec3 Nl)".toList,
   "{".toList,
   "\tvec3 ext_dot = Cx * (dot(L,X)*dot(V,X) + dot(L,Y)*dot(V,Y)) + Cz * dot(L,N)*dot(V,N);".toList,
   "\treturn pow(max(ext_dot, vec3(0,0,0)), Nl);".toList,
   "}".toList, []]

/-- /repo/sources/plugins/nonlinear_fresnel_schlick/function.cpp 107-113 -/
def schlickBody : List Str :=
  [[], "vec3 schlick_fresnel(vec3 L, vec3 V, vec3 N, vec3 X, vec3 Y, vec3 R)".toList,
   "{".toList,
   "\tvec3 H = normalize(L + V);".toList,
   "\treturn R + (vec3(1.0) - R) * pow(1.0f - clamp(dot(H,V), 0.0f, 1.0f), 5);".toList,
   "}".toList, []]

/-- /repo/sources/plugins/nonlinear_fresnel_normalized_schlick/function.cpp 104-110 -/
def normalizedSchlickBody : List Str :=
  [[], "vec3 normalized_schlick_fresnel(vec3 L, vec3 V, vec3 N, vec3 X, vec3 Y, vec3 R)".toList,
   "{".toList,
   "\tvec3 H = normalize(L + V);".toList,
   "\treturn vec3(1.0f) + (vec3(1.0f)/R - vec3(1.0f)) * pow(1.0f - clamp(dot(H,V), 0.0f, 1.0f), 5);".toList,
   "}".toList, []]

/-- /repo/sources/plugins/nonlinear_fresnel_retroschlick/function.cpp 191-198 -/
def retroSchlickBody : List Str :=
  [[], "vec3 retro_schlick_fresnel(vec3 L, vec3 V, vec3 N, vec3 X, vec3 Y, vec3 R0)".toList,
   "{".toList,
   "\tvec3 R = 2.0f*dot(V,N)*N - V;".toList,
   "\tvec3 K = normalize(L + R);".toList,
   "\treturn vec3(R0 + (vec3(1.0f) - R0) * pow(1.0f - clamp(dot(K,R), 0.0f, 1.0f), 5.0f));".toList,
   "}".toList, []]

/-- /repo/sources/plugins/nonlinear_shadowing_schlick/function.cpp 108-119 -/
def schlickMaskingBody : List Str :=
  [[], "vec3 masking_schlick(vec3 L, vec3 V, vec3 N, vec3 X, vec3 Y, vec3 K)".toList,
   "{".toList,
   "\tconst float dotLN = dot(L, N);".toList,
   "\tconst float dotVN = dot(L, N);".toList,
   [],
   "\tconst vec3 GL = dotLN / (dotLN + K * (dotLN - 1.0));".toList,
   "\tconst vec3 GV = dotVN / (dotVN + K * (dotVN - 1.0));".toList,
   [],
   "\treturn vec3(GL*GV);".toList,
   "}".toList, []]

/-- /repo/sources/plugins/nonlinear_shadowing_walter_smith/function.cpp 131-170 -/
def walterSmithBody : List Str :=
  ["float shadow_approx_rational(float a )".toList,
   "{".toList,
   "\t if( a >= 1.6 ) ".toList,
   "\t {".toList,
   "\t\t return 1.0; ".toList,
   "\t } else { ".toList,
   "\t\t ".toList,
   "\t\t float num   = (3.535 + 2.181*a)*a;".toList,
   "\t\t float denom = (2.267 + 2.577*a)*a + 1.0;".toList,
   "\t\t return num/denom;".toList,
   "\t }}".toList, [],
   "vec3 walter_smith(vec3 L, vec3 V, vec3 N, vec3 X, vec3 Y, vec3 alpha )".toList,
   "{".toList,
   "\t vec3 H = normalize(L + V);".toList,
   "\t float NdotL  = max( dot(N,L), 0.0 );".toList,
   "\t float NdotV  = max( dot(N,V), 0.0 );".toList,
   "\t float VdotH = max( dot(V,H), 0.0 );".toList,
   "\t float LdotH = max( dot(L,H), 0.0 );".toList,
   "\t float chi_v =  step( 0.0, VdotH / NdotV ) ; ".toList,
   "\t if( chi_v <= 0.0 ) { return vec3(0.0, 0.0, 0.0); }".toList,
   "\t float chi_l =  step( 0.0, LdotH / NdotL ) ; ".toList,
   "\t if( chi_l <= 0.0 ) { return vec3(0.0, 0.0, 0.0); }".toList, [],
   "\t float tan_theta_v = tan( acos( NdotV ) ); ".toList, [],
   "\t vec3 geom_term_view(0.0); ".toList,
   "\t geom_term_view[0] = shadow_approx_rational( 1.0 / (alpha[0]*tan_theta_v)) ;".toList,
   "\t geom_term_view[1] = shadow_approx_rational( 1.0 / (alpha[1]*tan_theta_v)) ;".toList,
   "\t geom_term_view[2] = shadow_approx_rational( 1.0 / (alpha[2]*tan_theta_v)) ;".toList, [],
   "\t float tan_theta_l = tan( acos( NdotL ) ); ".toList,
   "\t vec3 geom_term_light(0.0); ".toList,
   "\t geom_term_light[0] = shadow_approx_rational( 1.0 / (alpha[0]*tan_theta_l)) ;".toList,
   "\t geom_term_light[1] = shadow_approx_rational( 1.0 / (alpha[1]*tan_theta_l)) ;".toList,
   "\t geom_term_light[2] = shadow_approx_rational( 1.0 / (alpha[2]*tan_theta_l)) ;".toList,
   "\t return geom_term_view * geom_term_light;".toList,
   "}".toList]

/-- `save_body` for a shader; `none` for the class smith, which ends in `assert(0)`
    (/repo/sources/plugins/nonlinear_shadowing_smith/function.cpp 103-110), and for sgd, which throws
    (/repo/sources/plugins/nonlinear_function_sgd/function.h 43-46).  The class diffuse has no `save_body`.
    Lafortune:
    /repo/sources/plugins/nonlinear_function_lafortune/function.cpp 494-502. -/
def LobeObj.shaderBody (fmt : ℝ → Decimal) : LobeObj → Option (List Str)
  | .blinn _ => some blinnBody
  | .retroblinn _ => some retroblinnBody
  | .beckmann _ => some (beckmannBody fmt)
  | .retrobeckmann _ => some (retrobeckmannBody fmt)
  | .ward _ => some (wardBody fmt)
  | .abc _ => some abcBody
  | .diffuse _ => some []
  | .sg s => some (sgBody fmt s.a s.type)
  | .isoLafortune _ => some isoLafortuneBody
  | .lafortune _ => some lafortuneBody
  | .schlickFresnel _ => some schlickBody
  | .normalizedSchlick _ => some normalizedSchlickBody
  | .retroSchlick _ => some retroSchlickBody
  | .schlickMasking _ => some schlickMaskingBody
  | .smith _ => none
  | .walterSmith _ => some walterSmithBody
  | .sgd _ => none

mutual
/-- `save_body`.  /repo/sources/core/function.cpp 774-783 and 906-915. -/
def FT.shaderBody (fmt : ℝ → Decimal) : FT LobeObj → Option Str
  | .leaf l => (l.shaderBody fmt).map endLines
  | .compound _ fs => fs.shaderBody fmt
  | .product _ f g _ _ => (f.shaderBody fmt).bind fun a => (g.shaderBody fmt).map fun b => a ++ ['\n'] ++ b ++ ['\n']
/-- the members of a compound -/
def FTs.shaderBody (fmt : ℝ → Decimal) : FTs LobeObj → Option Str
  | .nil => some []
  | .cons _ f rest => (f.shaderBody fmt).bind fun a => (rest.shaderBody fmt).map fun b => a ++ ['\n'] ++ b
end

mutual
/-- `save_call`.  /repo/sources/core/function.cpp 785-813 and 917-949. -/
def FT.shaderCall (fmt : ℝ → Decimal) : FT LobeObj → Str
  | .leaf l => l.shaderCall fmt
  | .compound _ .nil => []
  | .compound _ (.cons _ f rest) => f.shaderCall fmt ++ ";\n".toList ++ rest.shaderCall fmt
  | .product _ f g _ _ =>
    "(".toList ++ f.shaderCall fmt ++ " * ".toList ++ g.shaderCall fmt ++ ")\n".toList
/-- the members of a compound after the first one -/
def FTs.shaderCall (fmt : ℝ → Decimal) : FTs LobeObj → Str
  | .nil => []
  | .cons _ f rest => "\tres += ".toList ++ f.shaderCall fmt ++ ";\n".toList ++ rest.shaderCall fmt
end

/-- `function::save` with the option `export` set to `shader`.
    /repo/sources/core/function.cpp 50-126. -/
def exportShader (fmt : ℝ → Decimal) (f : FT LobeObj) : Option Str :=
  (f.shaderBody fmt).map fun body =>
    body ++ "vec3 BRDF(vec3 L, vec3 V, vec3 N, vec3 X, vec3 Y)\n{\n\tvec3 res = ".toList ++
    f.shaderCall fmt ++ "\treturn res;\n}\n\n".toList

/-- `function::save` with the option `export` set to `explorer`.
    /repo/sources/core/function.cpp 71-76, 122-125. -/
def exportExplorer (fmt : ℝ → Decimal) (f : FT LobeObj) : Option Str :=
  (exportShader fmt f).map fun s =>
    "analytic\n\n::begin shader\n".toList ++ s ++ "::end shader\n".toList

end
end Alta
