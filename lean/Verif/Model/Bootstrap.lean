import Verif.Model.FunctionFile
import Verif.Model.Segment
/-
Model of `bootstrap`: the starting point of a nonlinear fit.

Modelled: /repo/sources/core/function.cpp 24-48 (`function::bootstrap`), 351-377
(`nonlinear_function::bootstrap`), 539-644 (`compound_function::bootstrap`), 951-1012
(`product_function::bootstrap`), and the `bootstrap` of the plugins.

Simplifications: `double` is ℝ; messages are left out; the file system gives the content of a file
that can be opened.  `none` means that the call does not return: `throw` without an exception
(`NOT_IMPLEMENTED`), an assertion of Eigen on an index, or an endless loop.
-/
namespace Alta
noncomputable section

/-- the option `bootstrap` -/
def kBoot : Str := ['b', 'o', 'o', 't', 's', 't', 'r', 'a', 'p']

/-- `setParameters`; the classes are those of `LobeObj.toFn`. -/
def LobeObj.set (p : List ℝ) : LobeObj → LobeObj
  | .blinn s => .blinn (blinnCls.set s p)
  | .retroblinn s => .retroblinn (retroblinnCls.set s p)
  | .beckmann s => .beckmann (beckmannCls.set s p)
  | .retrobeckmann s => .retrobeckmann (retrobeckmannCls.set s p)
  | .ward s => .ward (wardCls.set s p)
  | .abc s => .abc (abcCls.set s p)
  | .diffuse s => .diffuse (diffuseCls.set s p)
  | .sg s => .sg (sgCls.set s p)
  | .isoLafortune s => .isoLafortune (isoLafortuneCls.set s p)
  | .lafortune s => .lafortune (lafortuneCls.set s p)
  | .schlickFresnel s => .schlickFresnel (schlickFresnelCls.set s p)
  | .normalizedSchlick s => .normalizedSchlick (normalizedSchlickCls.set s p)
  | .retroSchlick s => .retroSchlick (retroSchlickCls.set s p)
  | .schlickMasking s => .schlickMasking (schlickMaskingCls.set s p)
  | .smith s => .smith (smithCls.set s p)
  | .walterSmith s => .walterSmith (walterSmithCls.set s p)
  | .sgd s => .sgd (sgdCls.set s p)

/-- a member of a compound is fixed when its arguments have the option `fixed`.
    /repo/sources/core/function.cpp 492-504. -/
def isFixed (args : SMap) : Bool := args.isDefined "fixed".toList

mutual
/-- `nbParameters`.  /repo/sources/core/function.cpp 664-674, 1028-1037. -/
def FT.nb : FT LobeObj → ℕ
  | .leaf l => l.toFn.nb
  | .compound _ fs => fs.nb
  | .product _ f g fixF fixG => (if !fixF then f.nb else 0) + (if !fixG then g.nb else 0)
/-- the loop of `compound_function::nbParameters` -/
def FTs.nb : FTs LobeObj → ℕ
  | .nil => 0
  | .cons a f rest => (if !isFixed a then f.nb else 0) + rest.nb
end

mutual
/-- `setParameters`.  /repo/sources/core/function.cpp 752-772, 1075-1106. -/
def FT.set : FT LobeObj → List ℝ → FT LobeObj
  | .leaf l, p => .leaf (l.set p)
  | .compound q fs, p => .compound q (fs.set p)
  | .product q f g fixF fixG, p =>
    let n := if !fixF then f.nb else 0
    .product q (if !fixF then f.set (p.take f.nb) else f)
      (if !fixG then g.set ((p.drop n).take g.nb) else g) fixF fixG
/-- the loop of `compound_function::setParameters`, on the parameters not used yet -/
def FTs.set : FTs LobeObj → List ℝ → FTs LobeObj
  | .nil, _ => .nil
  | .cons a f rest, p =>
    if f.nb > 0 && !isFixed a then .cons a (f.set (p.take f.nb)) (rest.set (p.drop f.nb))
    else .cons a f (rest.set p)
end

/-! ### Plugins -/

/-- `args.get_vec("bootstrap", n)`; the default value is 0.
    /repo/sources/core/args.h 234-275. -/
def bootVec (args : SMap) (n : ℕ) : List ℝ := (args.getVec kBoot n 0).map fun q : ℚ => (q : ℝ)

/-- `function::bootstrap`: the file is read from its first line.
    /repo/sources/core/function.cpp 24-48. -/
def LobeObj.baseBootstrap (files : Str → Option Str) (args : SMap) (l : LobeObj) : Option LobeObj :=
  if args.isDefined kBoot && !(args.get kBoot).isEmpty then
    match files (args.get kBoot) with
    | some text => some (l.load (some text)).2.1
    | none => none
  else some l

/-- `nonlinear_function::bootstrap`.  /repo/sources/core/function.cpp 351-377. -/
def LobeObj.nlBootstrap (files : Str → Option Str) (args : SMap) (l : LobeObj) : Option LobeObj :=
  if args.isVec kBoot then some (l.set (bootVec args l.toFn.nb))
  else l.baseBootstrap files args

/-- The first `n` entries of an array are set. -/
def fillTo (n : ℕ) (v : ℝ) (old : ℕ → ℝ) : ℕ → ℝ := fun i => if i < n then v else old i

/-- `_kd[j] = std::min(v[j], _kd[j])` for `j < n`. -/
def minInto (n : ℕ) (v : ℕ → ℝ) (kd : ℕ → ℝ) : ℕ → ℝ := fun j => if j < n then min (v j) (kd j) else kd j

/-- The product of the cosines of the two directions, a negative one counting as zero.
    /repo/sources/plugins/nonlinear_function_diffuse/function.cpp 206-211. -/
def bothCosines (cart : List ℝ) : ℝ :=
  (if arr cart 2 > 0 then arr cart 2 else 0) * (if arr cart 5 > 0 then arr cart 5 else 0)

/-- A sample of the search of the minimum for a cosine weighted data set.
    /repo/sources/plugins/nonlinear_function_diffuse/function.cpp 203-220. -/
def diffuseCosRow (d : Data) (kd : ℕ → ℝ) (row : List ℝ) : Option (ℕ → ℝ) :=
  (convertInput (arr row) d.input .CARTESIAN).map fun cart =>
    if bothCosines cart > 0 then minInto d.dimY (fun j => arr row (d.dimX + j) / bothCosines cart) kd else kd

/-- `diffuse_function::bootstrap`.  The loop of the cosine weighted case starts at the second sample.
    /repo/sources/plugins/nonlinear_function_diffuse/function.cpp 182-242. -/
def DiffuseS.bootstrap (d : Data) (args : SMap) (s : DiffuseS) : Option DiffuseS :=
  if args.isDefined kBoot then none
  else if s.par.dimY < d.dimY then none
  else if isCosineWeighted d.output || args.isDefined "cos-fit".toList then
    ((d.rows.drop 1).foldlM (diffuseCosRow d) (fillTo d.dimY maxDouble s.kd)).map fun kd => { s with kd := kd }
  else
    some { s with kd := d.rows.foldl (fun kd row => minInto d.dimY (fun j => arr row (d.dimX + j)) kd)
                          (fillTo d.dimY maxDouble s.kd) }

/-- The text of the option `sg-type`.
    /repo/sources/plugins/nonlinear_function_spherical_gaussian/function.cpp 233-257. -/
def sgTypeOf (t : Str) : Option SgType :=
  if t = "mirror".toList then some .Mirror
  else if t = "half".toList then some .Half
  else if t = "back".toList then some .Back
  else if t = "retro".toList then some .Retro
  else if t = "moment".toList then some .Moment
  else none

/-- /repo/sources/plugins/nonlinear_function_spherical_gaussian/function.cpp 224-258 -/
def SgS.bootstrap (args : SMap) (s : SgS) : SgS :=
  let s1 : SgS := { s with ks := fillTo s.par.dimY 1 s.ks, n := fillTo s.par.dimY 1 s.n }
  if args.isDefined "sg-type".toList then
    match sgTypeOf (args.getString "sg-type".toList "half".toList) with
    | some .Moment => { s1 with type := .Moment, a := 1 }
    | some t => { s1 with type := t }
    | none => s1
  else s1

/-- The input of the option `param`.
    /repo/sources/plugins/nonlinear_function_abc/function.cpp 155-169. -/
def abcInput (args : SMap) : Input :=
  if args.isDefined "param".toList then parseInput (String.ofList (args.get "param".toList)) else .COS_TH

/-- `_parameters.dimX()` and `dimY()` are kept.
    /repo/sources/plugins/nonlinear_function_abc/function.cpp 146-173. -/
def AbcS.bootstrap (args : SMap) (s : AbcS) : AbcS :=
  { s with a := fillTo s.par.dimY 1 s.a
           b := fillTo s.par.dimY 1 s.b
           c := fillTo s.par.dimY 1 s.c
           par := { s.par with input := abcInput args } }

/-- `Cxy` of a lobe.  /repo/sources/plugins/nonlinear_function_isotropic_lafortune/function.cpp 270-291. -/
def isoCxy (spread : Bool) (n : ℕ) : ℝ :=
  if spread then (if n % 3 = 0 then -1 else if n % 3 = 1 then 1 else 0) else -1

/-- The option `lobes`, 1 by default; a negative number ends the program (`resize`).
    /repo/sources/plugins/nonlinear_function_isotropic_lafortune/function.cpp 249, 137-144,
    nonlinear_function_lafortune/function.cpp 313, 144-155. -/
def askedLobes (args : SMap) : Option ℕ :=
  let n := args.getInt "lobes".toList 1
  if n < 0 then none else some n.toNat

/-- Entries `(n*dimY + i)*2 + 0` and `+ 1` of `_C` for the lobes `n` and the channels `i`.
    /repo/sources/plugins/nonlinear_function_isotropic_lafortune/function.cpp 246-310. -/
def IsoLafortuneS.bootstrap (args : SMap) (s : IsoLafortuneS) : Option IsoLafortuneS :=
  (askedLobes args).map fun n =>
    { s with n := n
             C := fun k => if k < n * s.par.dimY * 2 then
                (if k % 2 = 0 then isoCxy (args.isDefined kBoot) (k / 2 / s.par.dimY) else 1) else s.C k
             N := fillTo (n * s.par.dimY) n s.N }

/-- Entries `(n*nY + i)*3 + c` of `_C` for the lobes `n` and the channels `i`.
    /repo/sources/plugins/nonlinear_function_lafortune/function.cpp 308-338. -/
def LafortuneS.bootstrap (d : Data) (args : SMap) (s : LafortuneS) : Option LafortuneS :=
  match askedLobes args, d.rows with
  | some n, x0 :: rows =>
    if s.par.dimY < d.dimY then none
    else
      some { s with n := n
                    kd := rows.foldl (fun kd row => minInto d.dimY (fun j => arr row (d.dimX + j)) kd)
                      (fun i => if i < d.dimY then arr x0 (d.dimX + i) else s.kd i)
                    C := fun k => if k < n * s.par.dimY * 3 then
                        (let theta := 0.5 * Real.pi * (k / 3 / s.par.dimY : ℕ) / n
                         if k % 3 = 2 then Real.cos theta else - Real.sin theta)
                      else s.C k
                    N := fillTo (n * s.par.dimY) n s.N }
  | _, _ => none

/-- `R[i] = v` for each channel. -/
def OneS.fill (v : ℝ) (s : OneS) : OneS := { s with R := fillTo s.par.dimY v s.R }

/-- `bootstrap` of the plugins.
    /repo/sources/plugins/nonlinear_function_blinn/function.cpp 178-185,
    nonlinear_function_retroblinn 164-171, nonlinear_function_beckmann 179-199,
    nonlinear_function_retrobeckmann 168-184, nonlinear_function_ward 163-177,
    nonlinear_fresnel_schlick 204-207, nonlinear_fresnel_normalized_schlick 204-212,
    nonlinear_fresnel_retroschlick 117-120, nonlinear_shadowing_schlick 200-204,
    nonlinear_shadowing_smith 249-252, nonlinear_shadowing_walter_smith 305-313; the class sgd has none;
    the others above. -/
def LobeObj.bootstrap (files : Str → Option Str) (d : Data) (args : SMap) : LobeObj → Option LobeObj
  | .blinn s => some (.blinn { s with ks := fillTo s.par.dimY 1 s.ks, N := fillTo s.par.dimY 10 s.N })
  | .retroblinn s => some (.retroblinn { s with ks := fillTo s.par.dimY 1 s.ks, N := fillTo s.par.dimY 1 s.N })
  | .beckmann s =>
    if args.isDefined kBoot then LobeObj.nlBootstrap files args (.beckmann s)
    else some (.beckmann { s with ks := fillTo s.par.dimY 1 s.ks, a := fillTo s.par.dimY 1 s.a })
  | .retrobeckmann s =>
    some (.retrobeckmann { s with ks := fillTo s.par.dimY 1 s.ks, a := fillTo s.par.dimY 1 s.a,
                                  useBack := !args.isDefined "retro".toList })
  | .ward s => some (.ward { s with ks := fillTo s.par.dimY 1 s.ks, ax := fillTo s.par.dimY 1 s.ax,
                                    ay := fillTo s.par.dimY 1 s.ay })
  | .abc s => some (.abc (s.bootstrap args))
  | .diffuse s => (s.bootstrap d args).map .diffuse
  | .sg s => some (.sg (s.bootstrap args))
  | .isoLafortune s => (s.bootstrap args).map .isoLafortune
  | .lafortune s => (s.bootstrap d args).map .lafortune
  | .schlickFresnel s => some (.schlickFresnel (s.fill 0.5))
  | .normalizedSchlick s => some (.normalizedSchlick (s.fill 0.5))
  | .retroSchlick s => some (.retroSchlick (s.fill 0.5))
  | .schlickMasking s => some (.schlickMasking (s.fill 0))
  | .smith s => some (.smith (s.fill 1))
  | .walterSmith s => some (.walterSmith (s.fill 1))
  | .sgd s => LobeObj.nlBootstrap files args (.sgd s)

/-! ### Sums and products -/

/-- `do { std::getline(file, line); } while(line != "#ALTA HEADER END");`: the stream after the loop,
    which has its `failbit` set by `tellg` when the line is the end of the file; `none` when the line is
    not in the file: the loop does not end.  /repo/sources/core/function.cpp 570-577, 970-977. -/
def skipHeader (s : Str) : Option Stream :=
  if (getLine s).1 = "#ALTA HEADER END".toList then
    some (if s.dropWhile (· ≠ '\n') = [] then none else some (getLine s).2)
  else match _h : s.dropWhile (· ≠ '\n') with
    | [] => none
    | _ :: rest => skipHeader rest
termination_by s.length
decreasing_by
  have h1 := (List.dropWhile_suffix (fun x => decide (x ≠ '\n')) (l := s)).length_le
  rw [_h] at h1
  simp only [List.length_cons] at h1
  omega

/-- The stream for the next part, after a `load`: put back where it was if the part was not loaded. -/
def afterLoad (pos : Stream) (r : Bool × FT LobeObj × Stream) : Stream :=
  if r.1 then r.2.2 else seekBack pos r.2.2

mutual
/-- `bootstrap` of a function with the arguments `args`.
    /repo/sources/core/function.cpp 539-644, 951-1012.
    Simplification: `load` of the first function of a product may move the stream that the second one
    reads: when the second one cannot be loaded the position is not used any more. -/
def FT.bootstrap (files : Str → Option Str) (d : Data) (args : SMap) : FT LobeObj → Option (FT LobeObj)
  | .leaf l => (l.bootstrap files d args).map .leaf
  | .compound p fs =>
    if args.isDefined kBoot then
      if args.isVec kBoot then (fs.bootVector files d (bootVec args fs.nb)).map (.compound p)
      else match files (args.get kBoot) with
        | none => some (.compound p fs)
        | some text => match skipHeader text with
          | none => none
          | some st => (fs.bootFile files d args st).map (.compound p)
    else (fs.bootEach files d).map (.compound p)
  | .product p f g fixF fixG =>
    if args.isDefined kBoot then
      if args.isVec kBoot then
        some ((FT.product p f g fixF fixG).set (bootVec args (FT.product p f g fixF fixG).nb))
      else match files (args.get kBoot) with
        | none => some (.product p f g fixF fixG)
        | some text => match skipHeader text with
          | none => none
          | some st =>
            match if (f.load st).1 then some (f.load st).2.1 else f.bootstrap files d args with
            | none => none
            | some f1 =>
              let st1 := afterLoad st (f.load st)
              (if (g.load st1).1 then some (g.load st1).2.1 else g.bootstrap files d args).map
                fun g1 => .product p f1 g1 fixF fixG
    else match f.bootstrap files d args with
      | none => none
      | some f1 => (g.bootstrap files d args).map fun g1 => .product p f1 g1 fixF fixG
/-- Each member with its own arguments.  /repo/sources/core/function.cpp 637-642. -/
def FTs.bootEach (files : Str → Option Str) (d : Data) : FTs LobeObj → Option (FTs LobeObj)
  | .nil => some .nil
  | .cons a f rest => match f.bootstrap files d a with
    | none => none
    | some f1 => (rest.bootEach files d).map (.cons a f1)
/-- `setParameters(p)`, then the members without parameter with their own arguments.  The two loops are
    made at once: the first one does not change a member without parameter.
    /repo/sources/core/function.cpp 553-562. -/
def FTs.bootVector (files : Str → Option Str) (d : Data) : FTs LobeObj → List ℝ → Option (FTs LobeObj)
  | .nil, _ => some .nil
  | .cons a f rest, p =>
    if f.nb > 0 && !isFixed a then
      (rest.bootVector files d (p.drop f.nb)).map (.cons a (f.set (p.take f.nb)))
    else match if f.nb = 0 then f.bootstrap files d a else some f with
      | none => none
      | some f1 => (rest.bootVector files d p).map (.cons a f1)
/-- The members are read in order; one that cannot be read is put to its own starting point: with its own
    arguments, or those of the compound for the two parts of a product.
    /repo/sources/core/function.cpp 583-627. -/
def FTs.bootFile (files : Str → Option Str) (d : Data) (args : SMap) : FTs LobeObj → Stream → Option (FTs LobeObj)
  | .nil, _ => some .nil
  | .cons a (.product p f g fixF fixG) rest, st =>
    match if (f.load st).1 then some (f.load st).2.1 else f.bootstrap files d args with
    | none => none
    | some f1 =>
      let st1 := afterLoad st (f.load st)
      match if (g.load st1).1 then some (g.load st1).2.1 else g.bootstrap files d args with
      | none => none
      | some g1 =>
        (rest.bootFile files d args (afterLoad st1 (g.load st1))).map (.cons a (.product p f1 g1 fixF fixG))
  | .cons a f rest, st =>
    match if (f.load st).1 then some (f.load st).2.1 else f.bootstrap files d a with
    | none => none
    | some f1 => (rest.bootFile files d args (afterLoad st (f.load st))).map (.cons a f1)
end

end
end Alta
