import Verif.Model.FunctionTree
import Verif.Model.Rational
import Verif.Model.Lobes
import Verif.Model.ParamNames
/-
Model of the text files of nonlinear functions.

Modelled, for an ALTA export (option `export` absent): `save_call` and `load` of the plugins
/repo/sources/plugins/nonlinear_function_*, nonlinear_fresnel_*, nonlinear_shadowing_* (without
retroyoo, whose `value` reads an uninitialised vector), of `compound_function` and
`product_function`, `function::save`, `save_header` (/repo/sources/core/function.cpp 50-147,
287-349, 520-537, 774-813, 879-949), and `plugins_manager::load_function`
(/repo/sources/core/plugins_manager.cpp 179-231).

Simplifications: how a double is written is the parameter `fmt`; numbers are exact; messages are
left out; a negative number of lobes (which ends the program) is read as a missing number.
-/
namespace Alta
noncomputable section

/-! ### The stream -/

/-- What is left of a stream; `none` when its `failbit` is set: all further reads fail, and
    `seekg` does nothing. -/
abbrev Stream := Option Str

/-- State of the stream after the loop that looks for the next `#`:
    `while(in.peek() != '#') { in.getline(line, 256); if(!in.good()) return false; }`. -/
inductive Skip where
  /-- the next character is a `#` -/
  | found (s : Str)
  /-- end of file after a line that has no end of line: only `eofbit`, the position can be restored -/
  | ended
  /-- `failbit`: end of file, or a line too long for the buffer -/
  | failed

/-- The loop that looks for the next `#`.  /repo/sources/core/function.cpp 290-299 (the same in
    each plugin). -/
def skipLines (s : Str) : Skip :=
  match s with
  | '#' :: r => .found ('#' :: r)
  | [] => .failed
  | c :: r =>
    if 255 < ((c :: r).takeWhile (· ≠ '\n')).length then .failed
    else match _hrest : (c :: r).dropWhile (· ≠ '\n') with
      | [] => .ended
      | _ :: rest => skipLines rest
termination_by s.length
decreasing_by
  have h1 := (List.dropWhile_suffix (fun x => decide (x ≠ '\n')) (l := c :: r)).length_le
  rw [_hrest] at h1
  simp only [List.length_cons] at h1 ⊢
  omega

/-- `in >> token`, a word that is compared with `w`: whether it is `w`, and the stream.  At the end
    of the file the read fails. -/
def readToken (w : Str) : Stream → Bool × Stream
  | none => (false, none)
  | some s =>
    let t := readWord s
    if t.1 = [] then (false, none) else (decide (t.1 = w), some t.2)

/-- The lines before the numbers: next `#`, the words `#FUNC` and the name.  Whether the block has
    this name, and the stream.  /repo/sources/core/function.cpp 289-319 (the same in each plugin). -/
def readHead (name : Str) : Stream → Bool × Stream
  | none => (false, none)
  | some s =>
    match skipLines s with
    | .failed => (false, none)
    | .ended => (false, some [])
    | .found s0 =>
      let r := readToken "#FUNC".toList (some s0)
      if r.1 then readToken name r.2 else r

/-- `in >> token >> v`: the new value of `v` (unchanged if nothing follows the word, 0 if what follows is not a number)
    and the stream. -/
def readField (old : ℝ) : Stream → ℝ × Stream
  | none => (old, none)
  | some s =>
    let t := readWord s
    if t.1 = [] then (old, none)
    else match strtod t.2 with
      | none => (if t.2.all isSpace then old else 0, none)
      | some (v, r) => ((v : ℝ), some r)

/-- Numbers read one after the other in variables that hold `olds`. -/
def readFields : List ℝ → Stream → List ℝ × Stream
  | [], st => ([], st)
  | v :: vs, st =>
    let a := readField v st
    let b := readFields vs a.2
    (a.1 :: b.1, b.2)

/-- `in >> token >> n` for an `int`: unchanged if nothing follows the word, 0 if what follows is not a number. -/
def readCount (old : ℕ) : Stream → ℕ × Stream
  | none => (old, none)
  | some s =>
    let t := readWord s
    if t.1 = [] then (old, none)
    else match readNat t.2 with
      | none => (if t.2.all isSpace then old else 0, none)
      | some (n, r) => (n, some r)

/-! ### Plugin objects -/

/-- An object of one of the plugins. -/
inductive LobeObj : Type where
  | blinn (s : BlinnS)
  | retroblinn (s : BlinnS)
  | beckmann (s : BeckmannS)
  | retrobeckmann (s : RetroBeckmannS)
  | ward (s : WardS)
  | abc (s : AbcS)
  | diffuse (s : DiffuseS)
  | sg (s : SgS)
  | isoLafortune (s : IsoLafortuneS)
  | lafortune (s : LafortuneS)
  | schlickFresnel (s : OneS)
  | normalizedSchlick (s : OneS)
  | retroSchlick (s : OneS)
  | schlickMasking (s : OneS)
  | smith (s : OneS)
  | walterSmith (s : OneS)
  | sgd (s : SgdS)

/-- The object as a function (`Model/Function`). -/
def LobeObj.toFn : LobeObj → Fn
  | .blinn s => .leaf blinnCls s
  | .retroblinn s => .leaf retroblinnCls s
  | .beckmann s => .leaf beckmannCls s
  | .retrobeckmann s => .leaf retrobeckmannCls s
  | .ward s => .leaf wardCls s
  | .abc s => .leaf abcCls s
  | .diffuse s => .leaf diffuseCls s
  | .sg s => .leaf sgCls s
  | .isoLafortune s => .leaf isoLafortuneCls s
  | .lafortune s => .leaf lafortuneCls s
  | .schlickFresnel s => .leaf schlickFresnelCls s
  | .normalizedSchlick s => .leaf normalizedSchlickCls s
  | .retroSchlick s => .leaf retroSchlickCls s
  | .schlickMasking s => .leaf schlickMaskingCls s
  | .smith s => .leaf smithCls s
  | .walterSmith s => .leaf walterSmithCls s
  | .sgd s => .leaf sgdCls s

/-- `parametrization()` -/
def LobeObj.par (l : LobeObj) : Par := l.toFn.par

/-- `out << key << v << std::endl` -/
def line (fmt : ℝ → Decimal) (key : Str) (v : ℝ) : Str := key ++ (fmt v).text ++ ['\n']

/-- `out << "#FUNC " << name << std::endl` -/
def funcLine (name : Str) : Str := "#FUNC ".toList ++ name ++ ['\n']

/-- A loop over the channels, then an empty line. -/
def channelLines (n : ℕ) (f : ℕ → Str) : Str := (List.range n).flatMap f ++ ['\n']

/-- `save_call`, ALTA format.
    /repo/sources/plugins/nonlinear_function_blinn/function.cpp 187-203,
    nonlinear_function_retroblinn 173-189, nonlinear_function_beckmann 245-260,
    nonlinear_function_retrobeckmann 249-267, nonlinear_function_ward 222-238,
    nonlinear_function_abc 235-253, nonlinear_function_diffuse 93-105,
    nonlinear_function_spherical_gaussian 310-331, nonlinear_function_isotropic_lafortune 405-428,
    nonlinear_function_lafortune 429-454, nonlinear_fresnel_schlick 76-88,
    nonlinear_fresnel_normalized_schlick 73-85, nonlinear_fresnel_retroschlick 160-172,
    nonlinear_shadowing_schlick 77-89, nonlinear_shadowing_smith 78-90,
    nonlinear_shadowing_walter_smith 90-105; the one of sgd throws (see `LobeObj.saves`). -/
def LobeObj.saveCall (fmt : ℝ → Decimal) : LobeObj → Str
  | .blinn s => funcLine "nonlinear_function_blinn".toList ++ channelLines s.par.dimY fun i =>
      line fmt "Ks ".toList (s.ks i) ++ line fmt "N  ".toList (s.N i)
  | .retroblinn s => funcLine "nonlinear_function_retroblinn".toList ++ channelLines s.par.dimY fun i =>
      line fmt "Ks ".toList (s.ks i) ++ line fmt "N  ".toList (s.N i)
  | .beckmann s => funcLine "nonlinear_function_beckmann".toList ++ channelLines s.par.dimY fun i =>
      line fmt "Ks ".toList (s.ks i) ++ line fmt "a  ".toList (s.a i)
  | .retrobeckmann s => funcLine "nonlinear_function_retrobeckmann".toList ++
      "#TYPE ".toList ++ (if s.useBack then "BACK".toList else "RETRO".toList) ++ ['\n'] ++
      channelLines s.par.dimY fun i => line fmt "Ks ".toList (s.ks i) ++ line fmt "a  ".toList (s.a i)
  | .ward s => funcLine "nonlinear_function_ward".toList ++ channelLines s.par.dimY fun i =>
      line fmt "Ks ".toList (s.ks i) ++ line fmt "ax ".toList (s.ax i) ++ line fmt "ay ".toList (s.ay i)
  | .abc s => funcLine "nonlinear_function_abc".toList ++
      "#PARAM ".toList ++ (inputName s.par.input).toList ++ ['\n'] ++
      channelLines s.par.dimY fun i =>
        line fmt "a  ".toList (s.a i) ++ line fmt "b  ".toList (s.b i) ++ line fmt "c  ".toList (s.c i)
  | .diffuse s => funcLine "nonlinear_function_diffuse".toList ++ channelLines s.par.dimY fun i =>
      line fmt "kd ".toList (s.kd i)
  | .sg s => funcLine "nonlinear_function_spherical_gaussian".toList ++
      ((List.range s.par.dimY).flatMap fun i =>
        line fmt "Ks ".toList (s.ks i) ++ line fmt "N  ".toList (s.n i)) ++
      (if s.type = .Moment then "a  ".toList ++ (fmt s.a).text else []) ++ ['\n']
  | .isoLafortune s => funcLine "nonlinear_function_lafortune".toList ++
      "#NB_LOBES ".toList ++ showNat s.n ++ ['\n'] ++
      (List.range s.n).flatMap fun n => channelLines s.par.dimY fun i =>
        line fmt "Cxy ".toList (s.C ((n * s.par.dimY + i) * 2 + 0)) ++
        line fmt "Cz  ".toList (s.C ((n * s.par.dimY + i) * 2 + 1)) ++
        line fmt "N   ".toList (s.N (n * s.par.dimY + i))
  | .lafortune s => funcLine "nonlinear_function_lafortune".toList ++
      "#NB_LOBES ".toList ++ showNat s.n ++ ['\n'] ++
      (List.range s.n).flatMap fun n => channelLines s.par.dimY fun i =>
        line fmt "Cx ".toList (s.C ((n * s.par.dimY + i) * 3 + 0)) ++
        line fmt "Cx ".toList (s.C ((n * s.par.dimY + i) * 3 + 1)) ++
        line fmt "Cz ".toList (s.C ((n * s.par.dimY + i) * 3 + 2)) ++
        line fmt "N  ".toList (s.N (n * s.par.dimY + i))
  | .schlickFresnel s => funcLine "nonlinear_fresnel_schlick".toList ++
      channelLines s.par.dimY fun i => line fmt "R ".toList (s.R i)
  | .normalizedSchlick s => funcLine "nonlinear_fresnel_normalized_schlick".toList ++
      channelLines s.par.dimY fun i => line fmt "R ".toList (s.R i)
  | .retroSchlick s => funcLine "nonlinear_fresnel_retro_schlick".toList ++
      channelLines s.par.dimY fun i => line fmt "R ".toList (s.R i)
  | .schlickMasking s => funcLine "nonlinear_masking_schlick".toList ++
      channelLines s.par.dimY fun i => line fmt "K ".toList (s.R i)
  | .smith s => funcLine "nonlinear_fresnel_smith".toList ++
      channelLines s.par.dimY fun i => line fmt "R ".toList (s.R i)
  | .walterSmith s => funcLine "nonlinear_shadowing_walter_smith".toList ++
      channelLines s.par.dimY fun i => line fmt "alpha ".toList (s.R i)
  | .sgd _ => []

/-- The shader code that the plugin lafortune writes whatever the export is.
    /repo/sources/plugins/nonlinear_function_lafortune/function.cpp 494-502. -/
def lafortuneBody : List Str :=
  ["vec3 lafortune(vec3 L, vec3 V, vec3 N, vec3 X, vec3 Y, vec3 Cx, vec3 Cy, vec3 Cz, vec3 Nl)".toList,
   "{".toList,
   "\tvec3 ext_dot = Cx * dot(L,X)*dot(V,X) + Cy * dot(L,Y)*dot(V,Y) + Cz * dot(L,N)*dot(V,N);".toList,
   "\treturn pow(max(ext_dot, vec3(0,0,0)), Nl);".toList, "}".toList, []]

/-- `save_body`, ALTA format: empty, but for the plugin lafortune.  The `save_body` of the other
    plugins write only if `export` is `shader` or `explorer`. -/
def LobeObj.saveBody : LobeObj → Str
  | .lafortune _ => lafortuneBody.flatMap fun l => l ++ ['\n']
  | _ => []

/-- The numbers that `load` reads after the head of a block, for a class whose attributes are in the
    variables `olds` (in the order of the file): the numbers and the stream, or only the stream when
    the head is that of another block. -/
def readBlock {σ : Type} (name : Str) (olds : List ℝ) (store : List ℝ → σ) (s : σ) (st : Stream) :
    Bool × σ × Stream :=
  let h := readHead name st
  if h.1 then
    let r := readFields olds h.2
    (true, store r.1, r.2)
  else (false, s, h.2)

/-- The classes with one coefficient per channel. -/
def OneS.load (name : Str) (s : OneS) (st : Stream) : Bool × OneS × Stream :=
  readBlock name ((List.range s.par.dimY).map s.R)
    (fun v => { s with R := readInto s.par.dimY v (fun i => i) s.R }) s st

/-- /repo/sources/plugins/nonlinear_function_retrobeckmann/function.cpp 187-246 -/
def RetroBeckmannS.load (s : RetroBeckmannS) (st : Stream) : Bool × RetroBeckmannS × Stream :=
  let h := readHead "nonlinear_function_retrobeckmann".toList st
  if h.1 then
    let t := readToken "#TYPE".toList h.2
    if t.1 then
      let k := readToken "RETRO".toList t.2
      let r := readFields (blocks s.par.dimY fun i => [s.ks i, s.a i]) k.2
      (true, { s with useBack := k.1
                      ks := readInto s.par.dimY r.1 (fun i => i * 2 + 0) s.ks
                      a := readInto s.par.dimY r.1 (fun i => i * 2 + 1) s.a }, r.2)
    else (false, s, t.2)
  else (false, s, h.2)

/-- A word that is read: `token` keeps the word read before (`prev`) if there is none. -/
def readAny (prev : Str) : Stream → Str × Stream
  | none => (prev, none)
  | some s =>
    let t := readWord s
    if t.1 = [] then (prev, none) else (t.1, some t.2)

/-- /repo/sources/plugins/nonlinear_function_abc/function.cpp 176-232 -/
def AbcS.load (s : AbcS) (st : Stream) : Bool × AbcS × Stream :=
  let h := readHead "nonlinear_function_abc".toList st
  if h.1 then
    let t := readToken "#PARAM".toList h.2
    if t.1 then
      let k := readAny "#PARAM".toList t.2
      let r := readFields (blocks s.par.dimY fun i => [s.a i, s.b i, s.c i]) k.2
      (true, { s with par := { s.par with input := parseInput (String.ofList k.1) }
                      a := readInto s.par.dimY r.1 (fun i => i * 3 + 0) s.a
                      b := readInto s.par.dimY r.1 (fun i => i * 3 + 1) s.b
                      c := readInto s.par.dimY r.1 (fun i => i * 3 + 2) s.c }, r.2)
    else (false, s, t.2)
  else (false, s, h.2)

/-- The word `#NB_LOBES` is checked, then the number of lobes, which resizes the vectors (the new
    entries are not initialised: the model keeps the old functions), then the lobes.
    /repo/sources/plugins/nonlinear_function_isotropic_lafortune/function.cpp 345-402, 137-144. -/
def IsoLafortuneS.load (s : IsoLafortuneS) (st : Stream) : Bool × IsoLafortuneS × Stream :=
  let h := readHead "nonlinear_function_lafortune".toList st
  if h.1 then
    let t := readToken "#NB_LOBES".toList h.2
    if t.1 then
      let c := match t.2 with
        | none => (0, none)
        | some u => match readNat u with
          | none => (0, none)
          | some (n, r) => (n, some r)
      let s1 : IsoLafortuneS := { s with n := c.1 }
      let r := readFields (isoLafortuneCls.get s1) c.2
      (true, { s1 with C := isoLafC (c.1 * s.par.dimY) r.1 s.C
                       N := readInto (c.1 * s.par.dimY) r.1 (fun k => k * 3 + 2) s.N }, r.2)
    else (false, s, t.2)
  else (false, s, h.2)

/-- The exponents are all stored in the first entries, `_N[i]`: the last lobe stays.
    /repo/sources/plugins/nonlinear_function_lafortune/function.cpp 374-427, 144-155. -/
def LafortuneS.load (s : LafortuneS) (st : Stream) : Bool × LafortuneS × Stream :=
  let h := readHead "nonlinear_function_lafortune".toList st
  if h.1 then
    let c := readCount 0 h.2
    let s1 : LafortuneS := { s with n := c.1 }
    let r := readFields (lafortuneCls.get s1) c.2
    (true, { s1 with C := lafC (c.1 * s.par.dimY) r.1 s.C
                     N := fun i => if c.1 ≠ 0 ∧ i < s.par.dimY then
                        arr r.1 (((c.1 - 1) * s.par.dimY + i) * 4 + 3) else s.N i }, r.2)
  else (false, s, h.2)

/-- The attributes of `shifted_gamma_function` in the order of its file: `rho_d`, `rho_s`, `alpha`,
    `p`, `F_0`, `F_1`, `K_ap`, `sh_lambda`, `sh_c`, `sh_k`, `sh_theta0`. -/
def sgdFileOrder : List ℕ := [8, 9, 10, 4, 5, 6, 7, 3, 0, 2, 1]

/-- /repo/sources/plugins/nonlinear_function_sgd/function.cpp 192-291 -/
def SgdS.load (s : SgdS) (st : Stream) : Bool × SgdS × Stream :=
  readBlock "nonlinear_function_sgd".toList
    (sgdFileOrder.flatMap fun k => (List.range s.par.dimY).map fun i => s.v k i)
    (fun r => ⟨s.par, fun k i => if k < 11 ∧ i < s.par.dimY then
      arr r (i + sgdFileOrder.idxOf k * s.par.dimY) else s.v k i⟩) s st

/-- A component of the result of a `load`. -/
def wrap {σ : Type} (f : σ → LobeObj) (r : Bool × σ × Stream) : Bool × LobeObj × Stream :=
  (r.1, f r.2.1, r.2.2)

/-- `load`: its result, the object and the stream after.
    /repo/sources/plugins/nonlinear_function_blinn/function.cpp 63-111,
    nonlinear_function_retroblinn 61-99, nonlinear_function_beckmann 202-242,
    nonlinear_function_ward 180-219, nonlinear_function_diffuse 54-91,
    nonlinear_function_spherical_gaussian 261-307, nonlinear_fresnel_schlick 36-74,
    nonlinear_fresnel_normalized_schlick 35-71, nonlinear_fresnel_retroschlick 123-158,
    nonlinear_shadowing_schlick 37-75, nonlinear_shadowing_smith 38-76,
    nonlinear_shadowing_walter_smith 35-87; the others above. -/
def LobeObj.load : LobeObj → Stream → Bool × LobeObj × Stream
  | .blinn s, st => wrap .blinn (readBlock "nonlinear_function_blinn".toList
      (blocks s.par.dimY fun i => [s.ks i, s.N i])
      (fun v => { s with ks := readInto s.par.dimY v (fun i => i * 2 + 0) s.ks
                         N := readInto s.par.dimY v (fun i => i * 2 + 1) s.N }) s st)
  | .retroblinn s, st => wrap .retroblinn (readBlock "nonlinear_function_retroblinn".toList
      (blocks s.par.dimY fun i => [s.ks i, s.N i])
      (fun v => { s with ks := readInto s.par.dimY v (fun i => i * 2 + 0) s.ks
                         N := readInto s.par.dimY v (fun i => i * 2 + 1) s.N }) s st)
  | .beckmann s, st => wrap .beckmann (readBlock "nonlinear_function_beckmann".toList
      (blocks s.par.dimY fun i => [s.ks i, s.a i])
      (fun v => { s with ks := readInto s.par.dimY v (fun i => i * 2 + 0) s.ks
                         a := readInto s.par.dimY v (fun i => i * 2 + 1) s.a }) s st)
  | .retrobeckmann s, st => wrap .retrobeckmann (s.load st)
  | .ward s, st => wrap .ward (readBlock "nonlinear_function_ward".toList
      (blocks s.par.dimY fun i => [s.ks i, s.ax i, s.ay i])
      (fun v => { s with ks := readInto s.par.dimY v (fun i => i * 3 + 0) s.ks
                         ax := readInto s.par.dimY v (fun i => i * 3 + 1) s.ax
                         ay := readInto s.par.dimY v (fun i => i * 3 + 2) s.ay }) s st)
  | .abc s, st => wrap .abc (s.load st)
  | .diffuse s, st => wrap .diffuse (readBlock "nonlinear_function_diffuse".toList
      ((List.range s.par.dimY).map s.kd)
      (fun v => { s with kd := readInto s.par.dimY v (fun i => i) s.kd }) s st)
  | .sg s, st => wrap .sg (readBlock "nonlinear_function_spherical_gaussian".toList
      ((blocks s.par.dimY fun i => [s.ks i, s.n i]) ++ (if s.type = .Moment then [s.a] else []))
      (fun v => { s with ks := readInto s.par.dimY v (fun i => i * 2 + 0) s.ks
                         n := readInto s.par.dimY v (fun i => i * 2 + 1) s.n
                         a := if s.type = .Moment then arr v (2 * s.par.dimY) else s.a }) s st)
  | .isoLafortune s, st => wrap .isoLafortune (s.load st)
  | .lafortune s, st => wrap .lafortune (s.load st)
  | .schlickFresnel s, st => wrap .schlickFresnel (s.load "nonlinear_fresnel_schlick".toList st)
  | .normalizedSchlick s, st =>
      wrap .normalizedSchlick (s.load "nonlinear_fresnel_normalized_schlick".toList st)
  | .retroSchlick s, st => wrap .retroSchlick (s.load "nonlinear_fresnel_retro_schlick".toList st)
  | .schlickMasking s, st => wrap .schlickMasking (s.load "nonlinear_masking_schlick".toList st)
  | .smith s, st => wrap .smith (s.load "nonlinear_fresnel_smith".toList st)
  | .walterSmith s, st => wrap .walterSmith (s.load "nonlinear_shadowing_walter_smith".toList st)
  | .sgd s, st => wrap .sgd (s.load st)

/-! ### Trees -/

/-- `in.seekg(pos)` after a load that returned false: nothing happens when `failbit` is set. -/
def seekBack (pos : Stream) : Stream → Stream
  | none => none
  | some _ => pos

mutual
/-- `save_call`.  /repo/sources/core/function.cpp 785-813 and 917-949, ALTA format. -/
def FT.saveCall (fmt : ℝ → Decimal) : FT LobeObj → Str
  | .leaf l => l.saveCall fmt
  | .compound _ fs => fs.saveCall fmt
  | .product _ f g _ _ => f.saveCall fmt ++ g.saveCall fmt
/-- the members of a compound -/
def FTs.saveCall (fmt : ℝ → Decimal) : FTs LobeObj → Str
  | .nil => []
  | .cons _ f rest => f.saveCall fmt ++ rest.saveCall fmt
end

mutual
/-- `save_body`.  /repo/sources/core/function.cpp 774-783 and 906-915. -/
def FT.saveBody : FT LobeObj → Str
  | .leaf l => l.saveBody
  | .compound _ fs => fs.saveBody
  | .product _ f g _ _ => f.saveBody ++ ['\n'] ++ g.saveBody ++ ['\n']
/-- the members of a compound -/
def FTs.saveBody : FTs LobeObj → Str
  | .nil => []
  | .cons _ f rest => f.saveBody ++ ['\n'] ++ rest.saveBody
end

mutual
/-- `load`.  /repo/sources/core/function.cpp 520-537 and 879-904. -/
def FT.load : FT LobeObj → Stream → Bool × FT LobeObj × Stream
  | .leaf l, st =>
    let r := l.load st
    (r.1, .leaf r.2.1, r.2.2)
  | .compound p fs, st =>
    let r := fs.load st
    (decide (0 < r.1), .compound p r.2.1, r.2.2)
  | .product p f g fixF fixG, st =>
    let r1 := f.load st
    let st1 := if r1.1 then r1.2.2 else seekBack st r1.2.2
    let r2 := g.load st1
    (r1.1 || r2.1, .product p r1.2.1 r2.2.1 fixF fixG, if r2.1 then r2.2.2 else seekBack st1 r2.2.2)
/-- the members of a compound, with the number of those loaded -/
def FTs.load : FTs LobeObj → Stream → ℕ × FTs LobeObj × Stream
  | .nil, st => (0, .nil, st)
  | .cons a f rest, st =>
    let r1 := f.load st
    let st1 := if r1.1 then r1.2.2 else seekBack st r1.2.2
    let r2 := rest.load st1
    ((if r1.1 then r2.1 + 1 else r2.1), .cons a r1.2.1 r2.2.1, r2.2.2)
end

/-! ### Files -/

/-- `save_header`, without the option `export-append`.  /repo/sources/core/function.cpp 131-147. -/
def saveHeader (cmd : Str) (p : Par) : Str :=
  "#ALTA FUNC HEADER\n".toList ++ "#CMD ".toList ++ cmd ++ ['\n'] ++
  "#DIM ".toList ++ showNat p.dimX ++ [' '] ++ showNat p.dimY ++ ['\n'] ++
  "#PARAM_IN  ".toList ++ (inputName p.input).toList ++ ['\n'] ++
  "#ALTA HEADER END\n".toList ++ ['\n']

/-- `save`, `save_body` and `save_call` of the class sgd are not implemented: they throw, outside of
    any handler, which ends the program.
    /repo/sources/plugins/nonlinear_function_sgd/function.h 38-46, function.cpp 293-297,
    /repo/sources/core/common.h 118-127. -/
def LobeObj.saves : LobeObj → Bool
  | .sgd _ => false
  | _ => true

mutual
/-- No part of the function ends the program when it is saved. -/
def FT.saves : FT LobeObj → Bool
  | .leaf l => l.saves
  | .compound _ fs => fs.saves
  | .product _ f g _ _ => f.saves && g.saves
/-- the members of a compound -/
def FTs.saves : FTs LobeObj → Bool
  | .nil => true
  | .cons _ f rest => f.saves && rest.saves
end

/-- The text written by `function::save` without the options `export` and `export-append`; `args` are the
    arguments passed to it.  /repo/sources/core/function.cpp 50-126. -/
def savedText (fmt : ℝ → Decimal) (args : SMap) (f : FT LobeObj) : Str :=
  saveHeader args.getCmd (f.par LobeObj.par) ++ f.saveBody ++ f.saveCall fmt ++ ['\n']

/-- `function::save`: the content of the file; `none` when the program is ended.
    /repo/sources/core/function.cpp 50-126. -/
def saveFunction (fmt : ℝ → Decimal) (args : SMap) (f : FT LobeObj) : Option Str :=
  if f.saves then some (savedText fmt args f) else none

/-- `plugins_manager::load_function` on the content of a file that could be opened: `some none` is
    `NULL`; `none` is the end of the program (as in `getFunction`; `get_function` returned a null
    pointer), a header without two dimensions (the values are then indeterminate), or a function
    that is not a nonlinear function (its `load` is modelled in `Model/Rational`).
    /repo/sources/core/plugins_manager.cpp 179-231. -/
def loadFunction (dir : Str) (env : Option Str) (fs : Str → Option (Symbols (Provider LobeObj)))
    (file : Str) : Option (Option (FT LobeObj)) :=
  let l := getLine file
  if l.1 ≠ "#ALTA FUNC HEADER".toList then some none
  else
    let h := parseHeader l.2
    match h.1.getPairInt "DIM".toList with
    | none => none
    | some dim =>
      let p : Par := ⟨dim.1.toNat, dim.2.toNat,
        parseInput (String.ofList (h.1.getString "PARAM_IN".toList "UNKNOWN_INPUT".toList)),
        parseOutput (String.ofList (h.1.getString "PARAM_OUT".toList "UNKNOWN_OUTPUT".toList))⟩
      match createArguments (h.1.get "CMD".toList) with
      | none => none
      | some args =>
        match getFunction dir env fs LobeObj.par args p with
        | some (.nonlinear f) =>
          let r := f.load (some h.2)
          some (if r.1 then some r.2.1 else none)
        | _ => none

end
end Alta
