import Verif.Proofs.ShaderLex
/-
The words of the functions written in the exported shaders.
-/
namespace Alta
open Glsl Real

theorem endLines_append (a b : List Str) : endLines (a ++ b) = endLines a ++ endLines b := by
  simp [endLines]

theorem endLines_cons (a : Str) (b : List Str) : endLines (a :: b) = a ++ ['\n'] ++ endLines b := rfl

theorem blinn_lex : lexRun ⟨[], []⟩ (endLines blinnBody) = ⟨blinnToks, []⟩ := by decide +kernel
theorem retroblinn_lex : lexRun ⟨[], []⟩ (endLines retroblinnBody) = ⟨retroblinnToks, []⟩ := by decide +kernel
theorem lafortune_lex : lexRun ⟨[], []⟩ (endLines lafortuneBody) = ⟨lafortuneToks, []⟩ := by decide +kernel
theorem isoLafortune_lex : lexRun ⟨[], []⟩ (endLines isoLafortuneBody) = ⟨isoLafortuneToks, []⟩ := by decide +kernel
theorem schlick_lex : lexRun ⟨[], []⟩ (endLines schlickBody) = ⟨schlickToks, []⟩ := by decide +kernel
theorem normalizedSchlick_lex : lexRun ⟨[], []⟩ (endLines normalizedSchlickBody) = ⟨normalizedSchlickToks, []⟩ := by
  decide +kernel
theorem retroSchlick_lex : lexRun ⟨[], []⟩ (endLines retroSchlickBody) = ⟨retroSchlickToks, []⟩ := by decide +kernel
theorem abc_lex : lexRun ⟨[], []⟩ (endLines abcBody) = ⟨abcToks, []⟩ := by decide +kernel

/-- the words of the function of a spherical Gaussian, `u` and `w` being the numbers it has -/
def sgToks (u w : Str) : SgType → List Token
  | .Half => sgHalfToks
  | .Back => sgBackToks
  | .Retro => sgRetroToks
  | .Mirror => sgMirrorToks
  | .Moment => sgMomentToks u w

/-- the function of a spherical Gaussian -/
def sgDef (u w : Str) : SgType → FunDef
  | .Half => sgHalfDef
  | .Back => sgBackDef
  | .Retro => sgRetroDef
  | .Mirror => sgMirrorDef
  | .Moment => sgMomentDef u w

theorem sg_parse (u w : Str) (t : SgType) (m : ℕ) (rest : List Token) :
    pFun (m + 40) (sgToks u w t ++ rest) = some (sgDef u w t, rest) := by
  cases t
  · exact sgMirror_parse m rest
  · exact sgHalf_parse m rest
  · exact sgRetro_parse m rest
  · exact sgBack_parse m rest
  · exact sgMoment_parse u w m rest

noncomputable section

theorem sg_lex (fmt : ℝ → Decimal) (a : ℝ) (t : SgType) (ht : t ≠ .Moment) (u w : Str) :
    lexRun ⟨[], []⟩ (endLines (sgBody fmt a t)) = ⟨sgToks u w t, []⟩ := by
  cases t
  · show lexRun ⟨[], []⟩ (endLines (["vec3 spherical_gaussian(vec3 L, vec3 V, vec3 N, vec3 X, vec3 Y, vec3 ks, vec3 Nl)".toList,
     "{".toList, "\tvec3 R = 2*dot(V,N)*N - V;".toList, "\tvec3 ext_dot = vec3(dot(L,R));".toList,
     "\treturn ks * exp(Nl * (ext_dot - vec3(1)));".toList, "}".toList])) = ⟨sgMirrorToks, []⟩
    decide +kernel
  · show lexRun ⟨[], []⟩ (endLines (["vec3 spherical_gaussian(vec3 L, vec3 V, vec3 N, vec3 X, vec3 Y, vec3 ks, vec3 Nl)".toList,
     "{".toList, "\tvec3 H = normalize(L + V);".toList, "\tvec3 ext_dot = vec3(dot(H,N));".toList,
     "\treturn ks * exp(Nl * (ext_dot - vec3(1)));".toList, "}".toList])) = ⟨sgHalfToks, []⟩
    decide +kernel
  · show lexRun ⟨[], []⟩ (endLines (["vec3 spherical_gaussian(vec3 L, vec3 V, vec3 N, vec3 X, vec3 Y, vec3 ks, vec3 Nl)".toList,
     "{".toList, "\tvec3 ext_dot = vec3(dot(L,V));".toList,
     "\treturn ks * exp(Nl * (ext_dot - vec3(1)));".toList, "}".toList])) = ⟨sgRetroToks, []⟩
    decide +kernel
  · show lexRun ⟨[], []⟩ (endLines (["vec3 spherical_gaussian(vec3 L, vec3 V, vec3 N, vec3 X, vec3 Y, vec3 ks, vec3 Nl)".toList,
     "{".toList, "\tvec3 Vp = 2.0f*N*(dot(N,V)) - V;".toList, "\tvec3 K  = normalize(L + Vp);".toList,
     "\tvec3 ext_dot = vec3(dot(K,N));".toList,
     "\treturn ks * exp(Nl * (ext_dot - vec3(1)));".toList, "}".toList])) = ⟨sgBackToks, []⟩
    decide +kernel
  · exact absurd rfl ht

/-- a positive number, and a space after it -/
theorem lexRun_space (D : List Token) (d : Decimal) (h : d.ip ≠ []) (hd : d.neg = false) :
    lexRun ⟨D, []⟩ (d.text ++ [' ']) = ⟨D ++ [.num d.unsigned], []⟩ := by
  rw [d.text_unsigned, hd, lexRun_append]
  simp only [Bool.false_eq_true, if_false, List.nil_append]
  rw [lexRun_unsigned D d h]
  have : lexRun ⟨D, d.unsigned⟩ [' '] = ⟨D ++ flush d.unsigned, []⟩ := by
    show lexStep _ _ = _
    unfold lexStep
    rw [if_neg (by
      have h1 : isLetter ' ' = false := by decide
      have h2 : isDigit ' ' = false := by decide
      simp [h1, h2])]
    have h3 : isSpace ' ' = true := by decide
    simp [h3]
  rw [this, flush_unsigned d h]

/-- The lines of `wardBody` before and after the number. -/
def wardBefore : Str :=
  endLines ["vec3 ward(vec3 L, vec3 V, vec3 N, vec3 X, vec3 Y, vec3 ks, vec3 ax, vec3 ay)".toList,
   "{".toList, "\tvec3  H   = normalize(L + V);".toList, "\tvec3  hax = dot(H,X) / ax;".toList,
   "\tvec3  hay = dot(H,Y) / ay;".toList, "\tfloat hn  = dot(H,N);".toList, "\tfloat ln  = dot(L,N);".toList,
   "\tfloat vn  = dot(V,N);".toList, "\t".toList, "\tif(ln*vn > 0) {".toList] ++ "\t\treturn (ks / (4 * ".toList
/-- after -/
def wardAfter : Str :=
  "* ax*ay * sqrt(ln*vn))) * exp(-(hax*hax + hay*hay)/(hn*hn));".toList ++ ['\n'] ++
  endLines ["\t} else {".toList, "\t\t return vec3(0);".toList, "\t}".toList, "}".toList]

theorem wardBody_split (fmt : ℝ → Decimal) :
    endLines (wardBody fmt) = wardBefore ++ (((fmt π).text ++ [' ']) ++ wardAfter) := by
  have e : wardBody fmt = ["vec3 ward(vec3 L, vec3 V, vec3 N, vec3 X, vec3 Y, vec3 ks, vec3 ax, vec3 ay)".toList,
   "{".toList, "\tvec3  H   = normalize(L + V);".toList, "\tvec3  hax = dot(H,X) / ax;".toList,
   "\tvec3  hay = dot(H,Y) / ay;".toList, "\tfloat hn  = dot(H,N);".toList, "\tfloat ln  = dot(L,N);".toList,
   "\tfloat vn  = dot(V,N);".toList, "\t".toList, "\tif(ln*vn > 0) {".toList] ++
   ["\t\treturn (ks / (4 * ".toList ++ (fmt π).text ++
     " * ax*ay * sqrt(ln*vn))) * exp(-(hax*hax + hay*hay)/(hn*hn));".toList] ++
   ["\t} else {".toList, "\t\t return vec3(0);".toList, "\t}".toList, "}".toList] := rfl
  have s : " * ax*ay * sqrt(ln*vn))) * exp(-(hax*hax + hay*hay)/(hn*hn));".toList =
      [' '] ++ "* ax*ay * sqrt(ln*vn))) * exp(-(hax*hax + hay*hay)/(hn*hn));".toList := by decide +kernel
  rw [e, endLines_append, endLines_append, s]
  unfold wardBefore wardAfter
  generalize (fmt π).text = t
  generalize "\t\treturn (ks / (4 * ".toList = a
  generalize "* ax*ay * sqrt(ln*vn))) * exp(-(hax*hax + hay*hay)/(hn*hn));".toList = b
  generalize endLines _ = x
  rw [endLines_cons]
  generalize endLines ["\t} else {".toList, "\t\t return vec3(0);".toList, "\t}".toList, "}".toList] = y
  simp [endLines]

set_option maxRecDepth 4096 in
/-- the words of `wardBody` before the number -/
def wardToksBefore : List Token := (wardToks []).take 108
set_option maxRecDepth 4096 in
/-- after -/
def wardToksAfter : List Token := (wardToks []).drop 109

set_option maxRecDepth 4096 in
theorem wardToks_split (w : Str) : wardToks w = wardToksBefore ++ ([.num w] ++ wardToksAfter) := rfl

theorem ward_lex (fmt : ℝ → Decimal) (h : (fmt π).ip ≠ []) (hd : (fmt π).neg = false) :
    lexRun ⟨[], []⟩ (endLines (wardBody fmt)) = ⟨wardToks (fmt π).unsigned, []⟩ := by
  have h1 : lexRun ⟨[], []⟩ wardBefore = ⟨wardToksBefore, []⟩ := by decide +kernel
  have h2 : lexRun ⟨[], []⟩ wardAfter = ⟨wardToksAfter, []⟩ := by decide +kernel
  rw [wardBody_split, lexRun_append, h1, lexRun_append, lexRun_space _ _ h hd, lexRun_of _ _ _ _ _ h2, wardToks_split,
    List.append_assoc]

end
end Alta
