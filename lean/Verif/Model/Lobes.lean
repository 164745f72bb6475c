import Verif.Model.Function
import Mathlib.Analysis.SpecialFunctions.Pow.Real
import Mathlib.Analysis.SpecialFunctions.Log.Basic
import Mathlib.MeasureTheory.Integral.IntervalIntegral.Basic
/-
Model of the nonlinear function plugins
(/repo/sources/plugins/nonlinear_function_*, nonlinear_fresnel_*, nonlinear_shadowing_*).

Simplifications, valid for the whole file:
* `double` and `float` are ℝ; `pow(x, n)` with a literal integer exponent is the integer power,
  otherwise the real power (which agrees with C for a positive base, the only case the theorems
  rely on).
* the vectors `_ks`, `_N`, ... are functions of the index; a loop over the channels writes the
  entries below `dimY` only.
* a vector that is filled block after block (`res[i*2+0] = ..; res[i*2+1] = ..`) is the
  concatenation of its blocks (`blocks`).
* `#ifdef FIT_DIFFUSE`, `ADAPT_TO_PARAM`, `WITH_DIFFUSE`, `WALTER_SMITH_EXACT`: not defined in
  the repository, the `#else` branches are modelled.
* `getParametersMin`/`Max` are those of the plugin, or those of the base class (minus and plus
  the largest double; here `-maxDouble` and `maxDouble`) when the plugin does not define them.
-/
namespace Alta
noncomputable section
open Real

/-- `std::numeric_limits<double>::max()` -/
def maxDouble : ℝ := (2 - 2 ^ (-52 : ℤ)) * 2 ^ 1023

/-- A vector filled by the blocks `f 0`, `f 1`, ..., `f (n-1)`. -/
def blocks (n : ℕ) (f : ℕ → List ℝ) : List ℝ := (List.range n).flatMap f

/-- A vector of parameters read into one attribute: entry `i` is `p (idx i)`, the entries from
    `n` on are not written. -/
def readInto (n : ℕ) (p : List ℝ) (idx : ℕ → ℕ) (old : ℕ → ℝ) : ℕ → ℝ :=
  fun i => if i < n then arr p (idx i) else old i

/-- Default `getParametersMin`.  /repo/sources/core/function.cpp 388-396. -/
def defaultMin (n : ℕ) : List ℝ := List.replicate n (-maxDouble)

/-- Default `getParametersMax`.  /repo/sources/core/function.cpp 378-386. -/
def defaultMax (n : ℕ) : List ℝ := List.replicate n maxDouble

/-- The half vector of a configuration in Cartesian coordinates,
    `params::convert(&x[0], params::CARTESIAN, params::RUSIN_VH, h)`. -/
def vhOf (x : List ℝ) : Option (List ℝ) := convertInput (arr x) .CARTESIAN .RUSIN_VH

/-! ### Blinn -/

/-- State of `blinn_function`.  /repo/sources/plugins/nonlinear_function_blinn/function.h. -/
@[ext] structure BlinnS where
  par : Par
  ks : ℕ → ℝ
  N : ℕ → ℝ

/-- `blinn_function`.  /repo/sources/plugins/nonlinear_function_blinn/function.cpp 42-57 (value),
    107-110, 113-123, 126-133, 137-169 (Jacobian). -/
def blinnCls : Cls BlinnS where
  par s := s.par
  nb s := 2 * s.par.dimY
  get s := blocks s.par.dimY fun i => [s.ks i, s.N i]
  set s p := { s with
    ks := readInto s.par.dimY p (fun i => i * 2 + 0) s.ks
    N := readInto s.par.dimY p (fun i => i * 2 + 1) s.N }
  lo s := defaultMin (2 * s.par.dimY)
  hi s := defaultMax (2 * s.par.dimY)
  value s x := some ((List.range s.par.dimY).map fun i =>
    if arr x 0 > 0 then s.ks i * arr x 0 ^ s.N i else 0)
  jac s x := some (blocks s.par.dimY fun i => blocks s.par.dimY fun j =>
    if i = j then
      if arr x 0 ≤ 0 then [0, 0]
      else [arr x 0 ^ s.N j, s.ks j * log (arr x 0) * arr x 0 ^ s.N j]
    else [0, 0])

/-- Constructor of `blinn_function`; the attributes are not initialised.
    /repo/sources/plugins/nonlinear_function_blinn/function.cpp 29-35. -/
def mkBlinn (p : Par) (ks N : ℕ → ℝ) : BlinnS := ⟨{ p with dimX := 1, input := .COS_TH }, ks, N⟩

/-- `retroblinn_function`, with the same attributes as `blinn_function`.
    /repo/sources/plugins/nonlinear_function_retroblinn/function.cpp 42-58, 102-161. -/
def retroblinnCls : Cls BlinnS where
  par s := s.par
  nb s := 2 * s.par.dimY
  get s := blocks s.par.dimY fun i => [s.ks i, s.N i]
  set s p := { s with
    ks := readInto s.par.dimY p (fun i => i * 2 + 0) s.ks
    N := readInto s.par.dimY p (fun i => i * 2 + 1) s.N }
  lo s := defaultMin (2 * s.par.dimY)
  hi s := defaultMax (2 * s.par.dimY)
  value s x := some ((List.range s.par.dimY).map fun i =>
    if arr x 0 ≥ 0 then s.ks i * arr x 0 ^ s.N i else 0)
  jac s x := some (blocks s.par.dimY fun i => blocks s.par.dimY fun j =>
    if i = j then
      [arr x 0 ^ s.N j, if arr x 0 ≤ 0 then 0 else s.ks j * log (arr x 0) * arr x 0 ^ s.N j]
    else [0, 0])

/-! ### Beckmann -/

/-- State of `beckmann_function`. -/
@[ext] structure BeckmannS where
  par : Par
  ks : ℕ → ℝ
  a : ℕ → ℝ

/-- The value of one channel, `d` being the cosine `h[2]` (or `dot`).
    /repo/sources/plugins/nonlinear_function_beckmann/function.cpp 80-87. -/
def beckmannLobe (ks a d : ℝ) : ℝ :=
  ks / (4 * π * (a * a) * (d * d) * (d * d)) * exp ((d * d - 1) / ((a * a) * (d * d)))

/-- The two derivatives written for one channel.
    /repo/sources/plugins/nonlinear_function_beckmann/function.cpp 156-166. -/
def beckmannDeriv (ks a d : ℝ) : List ℝ :=
  let a2 := a * a
  let dh2 := d * d
  let expo := exp ((dh2 - 1) / (a2 * dh2))
  let fac := 4 * π * a2 * dh2 * dh2
  [expo / fac,
   -ks * (expo / 4) * ((2 * a * d) / (π * a2 * a2 * dh2)) * (1 + (dh2 - 1) * d / (a2 * dh2 * d))]

/-- `beckmann_function`.
    /repo/sources/plugins/nonlinear_function_beckmann/function.cpp 70-177. -/
def beckmannCls : Cls BeckmannS where
  par s := s.par
  nb s := 2 * s.par.dimY
  get s := blocks s.par.dimY fun i => [s.ks i, s.a i]
  set s p := { s with
    ks := readInto s.par.dimY p (fun i => i * 2 + 0) s.ks
    a := readInto s.par.dimY p (fun i => i * 2 + 1) s.a }
  lo s := blocks s.par.dimY fun _ => [0, 0]
  hi s := defaultMax (2 * s.par.dimY)
  value s x := (vhOf x).map fun h => (List.range s.par.dimY).map fun i =>
    if arr h 2 > 0 ∧ arr x 2 * arr x 5 > 0 then beckmannLobe (s.ks i) (s.a i) (arr h 2) else 0
  jac s x := (vhOf x).map fun h => blocks s.par.dimY fun i => blocks s.par.dimY fun j =>
    if i = j ∧ arr h 2 > 0 ∧ arr x 2 * arr x 5 > 0 then beckmannDeriv (s.ks i) (s.a i) (arr h 2)
    else [0, 0]

/-- State of the class `beckmann_function` of the plugin retrobeckmann. -/
@[ext] structure RetroBeckmannS where
  par : Par
  ks : ℕ → ℝ
  a : ℕ → ℝ
  useBack : Bool

/-- The cosine used by the plugin retrobeckmann.
    /repo/sources/plugins/nonlinear_function_retrobeckmann/function.cpp 47-57, 126-136. -/
def retroDot (useBack : Bool) (x : List ℝ) : Option ℝ :=
  if useBack then (convertInput (arr x) .CARTESIAN .SCHLICK_VK).map fun h => arr h 2
  else some (max (arr x 0 * arr x 3 + arr x 2 * arr x 4 + arr x 2 * arr x 5) 0)

/-- The class `beckmann_function` of the plugin retrobeckmann.
    /repo/sources/plugins/nonlinear_function_retrobeckmann/function.cpp 45-166. -/
def retrobeckmannCls : Cls RetroBeckmannS where
  par s := s.par
  nb s := 2 * s.par.dimY
  get s := blocks s.par.dimY fun i => [s.ks i, s.a i]
  set s p := { s with
    ks := readInto s.par.dimY p (fun i => i * 2 + 0) s.ks
    a := readInto s.par.dimY p (fun i => i * 2 + 1) s.a }
  lo s := blocks s.par.dimY fun _ => [0, 0]
  hi s := defaultMax (2 * s.par.dimY)
  value s x := (retroDot s.useBack x).map fun d => (List.range s.par.dimY).map fun i =>
    if d > 0 then beckmannLobe (s.ks i) (s.a i) d else 0
  jac s x := (retroDot s.useBack x).map fun d => blocks s.par.dimY fun i => blocks s.par.dimY fun j =>
    if i = j ∧ d > 0 then beckmannDeriv (s.ks i) (s.a i) d else [0, 0]

/-! ### Ward -/

/-- State of `ward_function`; the flag `isotropic` has no effect on the modelled methods. -/
@[ext] structure WardS where
  par : Par
  ks : ℕ → ℝ
  ax : ℕ → ℝ
  ay : ℕ → ℝ

/-- The value of one channel.  `c` is `x[2]*x[5]`.
    /repo/sources/plugins/nonlinear_function_ward/function.cpp 54-64. -/
def wardLobe (ks ax ay : ℝ) (h : List ℝ) (c : ℝ) : ℝ :=
  let hx := arr h 0 / ax
  let hy := arr h 1 / ay
  let e := (hx * hx + hy * hy) / (arr h 2 * arr h 2)
  (ks / (4 * π * ax * ay * √c)) * exp (-e)

/-- The three derivatives written for one channel.
    /repo/sources/plugins/nonlinear_function_ward/function.cpp 134-149. -/
def wardDeriv (ks ax ay : ℝ) (h : List ℝ) (c : ℝ) : List ℝ :=
  let hx := arr h 0 / ax
  let hy := arr h 1 / ay
  let gauss := exp (-(hx * hx + hy * hy) / (arr h 2 * arr h 2))
  let fact := 1 / (4 * π * ax * ay * √c)
  [fact * gauss,
   ks * fact * (1 / ax) * (((2 * arr h 0 * hx) / arr h 2) * gauss - 1),
   ks * fact * (1 / ay) * (((2 * arr h 1 * hy) / arr h 2) * gauss - 1)]

/-- `ward_function`.  /repo/sources/plugins/nonlinear_function_ward/function.cpp 45-161. -/
def wardCls : Cls WardS where
  par s := s.par
  nb s := 3 * s.par.dimY
  get s := blocks s.par.dimY fun i => [s.ks i, s.ax i, s.ay i]
  set s p := { s with
    ks := readInto s.par.dimY p (fun i => i * 3 + 0) s.ks
    ax := readInto s.par.dimY p (fun i => i * 3 + 1) s.ax
    ay := readInto s.par.dimY p (fun i => i * 3 + 2) s.ay }
  lo s := blocks s.par.dimY fun _ => [0, 0, 0]
  hi s := defaultMax (3 * s.par.dimY)
  value s x := (vhOf x).map fun h => (List.range s.par.dimY).map fun i =>
    if arr x 2 * arr x 5 > 0 then wardLobe (s.ks i) (s.ax i) (s.ay i) h (arr x 2 * arr x 5) else 0
  jac s x := (vhOf x).map fun h => blocks s.par.dimY fun i => blocks s.par.dimY fun j =>
    if i = j ∧ arr x 2 * arr x 5 > 0 then
      wardDeriv (s.ks i) (s.ax i) (s.ay i) h (arr x 2 * arr x 5)
    else [0, 0, 0]

/-! ### ABC -/

/-- State of `abc_function`. -/
@[ext] structure AbcS where
  par : Par
  a : ℕ → ℝ
  b : ℕ → ℝ
  c : ℕ → ℝ

/-- `abc_function`.  /repo/sources/plugins/nonlinear_function_abc/function.cpp 35-144. -/
def abcCls : Cls AbcS where
  par s := s.par
  nb s := 3 * s.par.dimY
  get s := blocks s.par.dimY fun i => [s.a i, s.b i, s.c i]
  set s p := { s with
    a := readInto s.par.dimY p (fun i => i * 3 + 0) s.a
    b := readInto s.par.dimY p (fun i => i * 3 + 1) s.b
    c := readInto s.par.dimY p (fun i => i * 3 + 2) s.c }
  lo s := blocks s.par.dimY fun _ => [0, 0, 0]
  hi s := defaultMax (3 * s.par.dimY)
  value s x :=
    let hn := 1 - arr x 0
    some ((List.range s.par.dimY).map fun i =>
      if hn ≥ 0 ∧ hn ≤ 1 then s.a i / (1 + s.b i * hn) ^ s.c i else 0)
  jac s x := some (blocks s.par.dimY fun i => blocks s.par.dimY fun j =>
    if i = j then
      let hn := 1 - arr x 0
      let f := 1 + s.b i * hn
      let fact := 1 / f ^ s.c i
      let fact2 := fact * fact
      [fact, -s.a i * hn * s.c i * f ^ (s.c i - 1) * fact2, if f > 0 then -s.a i * log f * fact else 0]
    else [0, 0, 0])

/-! ### Diffuse -/

/-- State of `diffuse_function`; `junk` is the content of the vector of size one that
    `parameters` and `parametersJacobian` return without writing it. -/
@[ext] structure DiffuseS where
  par : Par
  kd : ℕ → ℝ
  junk : ℝ

/-- `diffuse_function`.
    /repo/sources/plugins/nonlinear_function_diffuse/function.cpp 42-51, 119-179. -/
def diffuseCls : Cls DiffuseS where
  par s := s.par
  nb _ := 0
  get s := [s.junk]
  set s _ := s
  lo _ := []
  hi _ := []
  value s _ := some ((List.range s.par.dimY).map fun i => s.kd i)
  jac s _ := some [s.junk]

/-! ### Spherical Gaussian -/

/-- `spherical_gaussian_function::type`.
    /repo/sources/plugins/nonlinear_function_spherical_gaussian/function.h. -/
inductive SgType where
  | Mirror | Half | Retro | Back | Moment
  deriving DecidableEq

/-- State of `spherical_gaussian_function`. -/
@[ext] structure SgS where
  par : Par
  ks : ℕ → ℝ
  n : ℕ → ℝ
  a : ℝ
  type : SgType

/-- `compute_dot` for the angle `f phi` instead of `phi` in the light (first) direction.
    /repo/sources/plugins/nonlinear_function_spherical_gaussian/function.cpp 70-77, 81-87, 209-215. -/
def sgTurn (f : ℝ → ℝ) (x : List ℝ) : Option ℝ :=
  match convertInput (arr x) .CARTESIAN .SPHERICAL_TL_PL_TV_PV with
  | none => none
  | some sp =>
    (convertInput (arr [arr sp 0, f (arr sp 1), arr sp 2, arr sp 3]) .SPHERICAL_TL_PL_TV_PV .CARTESIAN).map
      fun c => arr c 0 * arr c 3 + arr c 1 * arr c 4 + arr c 2 * arr c 5

/-- `compute_dot`.
    /repo/sources/plugins/nonlinear_function_spherical_gaussian/function.cpp 57-91. -/
def sgDot (t : SgType) (a : ℝ) (x : List ℝ) : Option ℝ :=
  match t with
  | .Half => (convertInput (arr x) .CARTESIAN .COS_TH).map fun o => arr o 0
  | .Back => (convertInput (arr x) .CARTESIAN .COS_TK).map fun o => arr o 0
  | .Moment => sgTurn (fun p => p * a + π) x
  | _ => sgTurn (fun p => p + π) x

/-- `spherical_gaussian_function`.
    /repo/sources/plugins/nonlinear_function_spherical_gaussian/function.cpp 44-55, 94-222. -/
def sgCls : Cls SgS where
  par s := s.par
  nb s := if s.type = .Moment then 2 * s.par.dimY + 1 else 2 * s.par.dimY
  get s := (blocks s.par.dimY fun i => [s.ks i, s.n i]) ++ (if s.type = .Moment then [s.a] else [])
  set s p := { s with
    a := if s.type = .Moment then arr p (2 * s.par.dimY) else s.a
    ks := readInto s.par.dimY p (fun i => i * 2 + 0) s.ks
    n := readInto s.par.dimY p (fun i => i * 2 + 1) s.n }
  lo s := (blocks s.par.dimY fun _ => [0, 0]) ++ (if s.type = .Moment then [0] else [])
  hi s := defaultMax (if s.type = .Moment then 2 * s.par.dimY + 1 else 2 * s.par.dimY)
  value s x := (sgDot s.type s.a x).map fun d => (List.range s.par.dimY).map fun i =>
    s.ks i * exp (s.n i * (d - 1))
  jac s x :=
    match sgDot s.type s.a x with
    | none => none
    | some d =>
      let row := fun i => blocks s.par.dimY fun j =>
        if i = j then [exp (s.n j * (d - 1)), s.ks j * (d - 1) * exp (s.n j * (d - 1))] else [0, 0]
      if s.type = .Moment then
        (sgTurn (fun p => p + 0.5 * π) x).map fun d2 =>
          blocks s.par.dimY fun i => row i ++ [s.ks i * s.n i * exp (s.n i * (d - 1)) * s.a * d2]
      else some (blocks s.par.dimY row)

/-! ### Lafortune -/

/-- State of `isotropic_lafortune_function`. -/
@[ext] structure IsoLafortuneS where
  par : Par
  n : ℕ
  C : ℕ → ℝ
  N : ℕ → ℝ

/-- The exponents and coefficients of a lobe are read in the loops over the lobes `n` and the
    channels `i`: entry `k` of `_C` is `p[(n*dimY + i)*3 + c]` with `k = (n*dimY + i)*2 + c`. -/
def isoLafC (M : ℕ) (p : List ℝ) (old : ℕ → ℝ) : ℕ → ℝ :=
  fun k => if k < M * 2 then arr p (k / 2 * 3 + k % 2) else old k

/-- `isotropic_lafortune_function`.
    /repo/sources/plugins/nonlinear_function_isotropic_lafortune/function.cpp 49-91, 147-244 and
    function.h 106-111.  The comparisons with the signaling NaN and infinity (81-87) only print. -/
def isoLafortuneCls : Cls IsoLafortuneS where
  par s := s.par
  nb s := 3 * s.n * s.par.dimY
  get s := blocks s.n fun n => blocks s.par.dimY fun i =>
    [s.C ((n * s.par.dimY + i) * 2 + 0), s.C ((n * s.par.dimY + i) * 2 + 1), s.N (n * s.par.dimY + i)]
  set s p := { s with
    C := isoLafC (s.n * s.par.dimY) p s.C
    N := readInto (s.n * s.par.dimY) p (fun k => k * 3 + 2) s.N }
  lo s := blocks s.n fun _ => blocks s.par.dimY fun _ => [-maxDouble, -maxDouble, 0]
  hi s := defaultMax (3 * s.n * s.par.dimY)
  value s x :=
    let dxy := arr x 0 * arr x 3 + arr x 1 * arr x 4
    let dz := arr x 2 * arr x 5
    some ((List.range s.par.dimY).map fun i =>
      (List.range s.n).foldl (fun res n =>
        let k := n * s.par.dimY + i
        let d := s.C (k * 2 + 0) * dxy + s.C (k * 2 + 1) * dz
        if d > 0 then res + d ^ s.N k else res) 0)
  jac s x :=
    let dxy := arr x 0 * arr x 3 + arr x 1 * arr x 4
    let dz := arr x 2 * arr x 5
    some (blocks s.par.dimY fun i => blocks s.n fun n => blocks s.par.dimY fun j =>
      let k := n * s.par.dimY + j
      let d := s.C (k * 2 + 0) * dxy + s.C (k * 2 + 1) * dz
      if i = j ∧ d > 0 then
        [dxy * s.N k * d ^ (s.N k - 1), dz * s.N k * d ^ (s.N k - 1),
         if d ≤ 0 then 0 else log d * d ^ s.N k]
      else [0, 0, 0])

/-- State of `lafortune_function`.  The flag `_isotropic` is never set in the repository; the
    model has it false.  /repo/sources/plugins/nonlinear_function_lafortune/function.h 124-135. -/
@[ext] structure LafortuneS where
  par : Par
  n : ℕ
  C : ℕ → ℝ
  N : ℕ → ℝ
  kd : ℕ → ℝ

/-- entry `k = (n*nY + i)*3 + c` of `_C` is `p[(n*nY + i)*4 + c]` -/
def lafC (M : ℕ) (p : List ℝ) (old : ℕ → ℝ) : ℕ → ℝ :=
  fun k => if k < M * 3 then arr p (k / 3 * 4 + k % 3) else old k

/-- `lafortune_function`.  /repo/sources/plugins/nonlinear_function_lafortune/function.cpp 53-94,
    158-306 and function.h 105-121. -/
def lafortuneCls : Cls LafortuneS where
  par s := s.par
  nb s := 4 * s.n * s.par.dimY
  get s := blocks s.n fun n => blocks s.par.dimY fun i =>
    [s.C ((n * s.par.dimY + i) * 3 + 0), s.C ((n * s.par.dimY + i) * 3 + 1),
     s.C ((n * s.par.dimY + i) * 3 + 2), s.N (n * s.par.dimY + i)]
  set s p := { s with
    C := lafC (s.n * s.par.dimY) p s.C
    N := readInto (s.n * s.par.dimY) p (fun k => k * 4 + 3) s.N }
  lo s := defaultMin (4 * s.n * s.par.dimY)
  hi s := defaultMax (4 * s.n * s.par.dimY)
  value s x :=
    let dx := arr x 0 * arr x 3
    let dy := arr x 1 * arr x 4
    let dz := arr x 2 * arr x 5
    some ((List.range s.par.dimY).map fun i =>
      (List.range s.n).foldl (fun res n =>
        let k := n * s.par.dimY + i
        let d := s.C (k * 3 + 0) * dx + s.C (k * 3 + 1) * dy + s.C (k * 3 + 2) * dz
        if d > 0 then res + d ^ s.N k else res) (s.kd i))
  jac s x :=
    let dx := arr x 0 * arr x 3
    let dy := arr x 1 * arr x 4
    let dz := arr x 2 * arr x 5
    some (blocks s.par.dimY fun i => blocks s.n fun n => blocks s.par.dimY fun j =>
      let k := n * s.par.dimY + j
      let d := s.C (k * 3 + 0) * dx + s.C (k * 3 + 1) * dy + s.C (k * 3 + 2) * dz
      if i = j ∧ d > 0 then
        [dx * s.N k * d ^ (s.N k - 1), dy * s.N k * d ^ (s.N k - 1), dz * s.N k * d ^ (s.N k - 1),
         if d ≤ 0 then 0 else log d * d ^ s.N k]
      else [0, 0, 0, 0])

/-! ### Fresnel terms -/

/-- State of the Fresnel and shadowing classes with one coefficient per channel. -/
@[ext] structure OneS where
  par : Par
  R : ℕ → ℝ

/-- `dotVH`.  /repo/sources/plugins/nonlinear_fresnel_schlick/function.cpp 120-126. -/
def dotVH (input : Input) (x : List ℝ) : Option ℝ :=
  match convertInput (arr x) input .RUSIN_VH with
  | none => none
  | some xp => (convertInput (arr x) input .CARTESIAN).map fun cart =>
      arr xp 0 * arr cart 0 + arr xp 1 * arr cart 1 + arr xp 2 * arr cart 2

/-- A Jacobian with one parameter per channel: `jac[j*nY + i]` is `D i` when `i = j`, else 0. -/
def diagonal (n : ℕ) (D : ℕ → ℝ) : List ℝ :=
  blocks n fun j => (List.range n).map fun i => if i = j then D i else 0

/-- `schlick_fresnel`.  /repo/sources/plugins/nonlinear_fresnel_schlick/function.cpp 118-201. -/
def schlickFresnelCls : Cls OneS where
  par s := s.par
  nb s := s.par.dimY
  get s := (List.range s.par.dimY).map s.R
  set s p := { s with R := readInto s.par.dimY p (fun i => i) s.R }
  lo s := (List.range s.par.dimY).map fun _ => 0
  hi s := (List.range s.par.dimY).map fun _ => 1
  value s x := (dotVH s.par.input x).map fun d => (List.range s.par.dimY).map fun i =>
    s.R i + (1 - s.R i) * (1 - clampR d 0 1) ^ 5
  jac s x := (dotVH s.par.input x).map fun d =>
    diagonal s.par.dimY fun _ => 1 - (1 - clampR d 0 1) ^ 5

/-- `schlick`, the normalised Schlick factor; `R` is not resized by the constructor (the
    model has it large enough).
    /repo/sources/plugins/nonlinear_fresnel_normalized_schlick/function.cpp 115-201. -/
def normalizedSchlickCls : Cls OneS where
  par s := s.par
  nb s := s.par.dimY
  get s := (List.range s.par.dimY).map s.R
  set s p := { s with R := readInto s.par.dimY p (fun i => i) s.R }
  lo s := (List.range s.par.dimY).map fun _ => 1e-10
  hi s := (List.range s.par.dimY).map fun _ => 1
  value s x := (dotVH s.par.input x).map fun d => (List.range s.par.dimY).map fun i =>
    1 + (1 / s.R i - 1) * (1 - clampR d 0 1) ^ 5
  jac s x := (dotVH s.par.input x).map fun d =>
    diagonal s.par.dimY fun i => -(1 / s.R i) * (1 - clampR d 0 1) ^ 5

/-- `dotRK`.  /repo/sources/plugins/nonlinear_fresnel_retroschlick/function.cpp 37-43. -/
def dotRK (input : Input) (x : List ℝ) : Option ℝ :=
  match convertInput (arr x) input .SCHLICK_VK with
  | none => none
  | some xp => (convertInput (arr x) input .CARTESIAN).map fun cart =>
      arr xp 2 * arr cart 2 - (arr xp 0 * arr cart 0 + arr xp 1 * arr cart 1)

/-- `retro_schlick`.  /repo/sources/plugins/nonlinear_fresnel_retroschlick/function.cpp 35-115. -/
def retroSchlickCls : Cls OneS where
  par s := s.par
  nb s := s.par.dimY
  get s := (List.range s.par.dimY).map s.R
  set s p := { s with R := readInto s.par.dimY p (fun i => i) s.R }
  lo s := List.replicate s.par.dimY 0
  hi s := (List.range s.par.dimY).map fun _ => 1
  value s x := (dotRK s.par.input x).map fun d => (List.range s.par.dimY).map fun i =>
    s.R i + (1 - s.R i) * (1 - d) ^ 5
  jac s x := (dotRK s.par.input x).map fun d =>
    blocks s.par.dimY fun i => (List.range s.par.dimY).map fun j => if i = j then 1 - (1 - d) ^ 5 else 0

/-! ### Shadowing terms -/

/-- `schlick_masking`.  /repo/sources/plugins/nonlinear_shadowing_schlick/function.cpp 124-197. -/
def schlickMaskingCls : Cls OneS where
  par s := s.par
  nb s := s.par.dimY
  get s := (List.range s.par.dimY).map s.R
  set s p := { s with R := readInto s.par.dimY p (fun i => i) s.R }
  lo s := (List.range s.par.dimY).map fun _ => 0
  hi s := defaultMax s.par.dimY
  value s x := some ((List.range s.par.dimY).map fun i =>
    let u := arr x 5
    let v := arr x 2
    let Gu := u / (u + s.R i * (1 - u))
    let Gv := v / (v + s.R i * (1 - v))
    Gu * Gv)
  jac s x := some (diagonal s.par.dimY fun i =>
    let u := arr x 5
    let v := arr x 2
    let Gu := u / (u + s.R i * (1 - u))
    let Gv := v / (v + s.R i * (1 - v))
    let dGu := -u * (1 - u) / (u + s.R i * (1 - u)) ^ 2
    let dGv := -v * (1 - v) / (v + s.R i * (1 - v)) ^ 2
    Gu * dGv + Gv * dGu)

/-- The error function of the C library. -/
def erf (x : ℝ) : ℝ := 2 / √π * ∫ t in (0:ℝ)..x, exp (-t ^ 2)

/-- `A` for `r = mu / w[i]`.
    /repo/sources/plugins/nonlinear_shadowing_smith/function.cpp 165-171. -/
def smithA (r : ℝ) : ℝ :=
  0.398942280401439 * exp (-0.5 * (r * r)) / r - 0.5 * (1 - erf (0.70710678118655 * r))

/-- One channel of `smith::value` for a light with third coordinate `z` and sine `q`.  The two tests
    are the infinities of C: for a light along the normal `mu` and `r` are infinite, `A` is 0 and the
    result 1; for a light in the tangent plane `r` is 0, `A` infinite and the result 0.
    /repo/sources/plugins/nonlinear_shadowing_smith/function.cpp 163-174. -/
def smithTerm (z q w : ℝ) : ℝ :=
  if q = 0 then 1 else if z = 0 then 0 else 1 / (1 + smithA (z / q / w))

/-- `smith`.  /repo/sources/plugins/nonlinear_shadowing_smith/function.cpp 146-246. -/
def smithCls : Cls OneS where
  par s := s.par
  nb s := s.par.dimY
  get s := (List.range s.par.dimY).map s.R
  set s p := { s with R := readInto s.par.dimY p (fun i => i) s.R }
  lo s := (List.range s.par.dimY).map fun _ => 0
  hi s := defaultMax s.par.dimY
  value s x := some ((List.range s.par.dimY).map fun i =>
    if arr x 2 = 1 then 1
    else smithTerm (arr x 5) (√(arr x 3 * arr x 3 + arr x 4 * arr x 4)) (s.R i))
  jac s x :=
    let v : ℕ → ℝ := fun i =>
      if arr x 2 = 1 then 1
      else smithTerm (arr x 5) (√(arr x 3 * arr x 3 + arr x 4 * arr x 4)) (s.R i)
    some (diagonal s.par.dimY fun i =>
      if arr x 2 < 1 then
        let mu := arr x 5 / √(arr x 3 * arr x 3 + arr x 4 * arr x 4)
        let r := mu / s.R i
        (-1 / (1 + v i) ^ 2) * exp (-0.5 * r * r) * (r * r * r / s.R i - 2 * r / s.R i) / √(2 * π)
      else 0)

/-- `WalterSmith::shadowTerm`.
    /repo/sources/plugins/nonlinear_shadowing_walter_smith/function.cpp 315-333. -/
def shadowTerm (a : ℝ) : ℝ :=
  if a ≥ 1.6 then 1
  else ((3.535 + 2.181 * a) * a) / ((2.267 + 2.577 * a) * a + 1)

/-- The term of one direction, `t` being its tangent.  For a direction along the normal `t` is 0, `a`
    is infinite and the term is 1.
    /repo/sources/plugins/nonlinear_shadowing_walter_smith/function.cpp 202-209, 278-280, 291-292. -/
def walterTerm (alpha t : ℝ) : ℝ := if t = 0 then 1 else shadowTerm (1 / (alpha * t))

/-- `WalterSmith::partialDerivative`.
    /repo/sources/plugins/nonlinear_shadowing_walter_smith/function.hpp (`partialDerivative`). -/
def walterDerivative (alpha t1 : ℝ) : ℝ :=
  let t2 := alpha * t1
  let t6 := alpha * alpha * (t1 * t1)
  let t13 := 1000 * t6 + 2276 * t2 + 2577
  (-1) * t1 * (4362000 * t2 - 4145739 + 3535000 * t6) / (t13 * t13)

/-- `getVectorsFromCartesianParam` (half vector) and `partialShadowingTerm`: the test of the
    step functions.  /repo/sources/plugins/nonlinear_shadowing_walter_smith/function.hpp. -/
def walterVisible (x : List ℝ) : Prop :=
  let hx := arr x 0 + arr x 3
  let hy := arr x 1 + arr x 4
  let hz := arr x 2 + arr x 5
  let len := √(hx * hx + hy * hy + hz * hz)
  let h : V3 := if len < 1e-6 then ⟨0, 0, 1⟩ else ⟨hx / len, hy / len, hz / len⟩
  0 < (arr x 0 * h.x + arr x 1 * h.y + arr x 2 * h.z) / arr x 2 ∧
  0 < (arr x 3 * h.x + arr x 4 * h.y + arr x 5 * h.z) / arr x 5

open Classical in
/-- `WalterSmith`.
    /repo/sources/plugins/nonlinear_shadowing_walter_smith/function.cpp 178-302. -/
def walterSmithCls : Cls OneS where
  par s := s.par
  nb s := s.par.dimY
  get s := (List.range s.par.dimY).map s.R
  set s p := { s with R := readInto s.par.dimY p (fun i => i) s.R }
  lo s := (List.range s.par.dimY).map fun _ => 1e-6
  hi s := defaultMax s.par.dimY
  value s x := some ((List.range s.par.dimY).map fun i =>
    if walterVisible x then
      let tv := √(1 - arr x 2 * arr x 2) / arr x 2
      let tl := √(1 - arr x 5 * arr x 5) / arr x 5
      walterTerm (s.R i) tl * walterTerm (s.R i) tv
    else 0)
  jac s x := some (blocks s.par.dimY fun i => (List.range s.par.dimY).map fun j =>
    if walterVisible x ∧ i = j then
      let tv := √(1 - arr x 2 * arr x 2) / arr x 2
      let tl := √(1 - arr x 5 * arr x 5) / arr x 5
      walterDerivative (s.R i) tv * walterTerm (s.R i) tl +
        walterTerm (s.R i) tv * walterDerivative (s.R i) tl
    else 0)

/-! ### Shifted gamma -/

/-- State of `shifted_gamma_function`: attribute `k` of channel `i`, in the order of
    `parameters`: `sh_c`, `sh_theta0`, `sh_k`, `sh_lambda`, `p`, `F_0`, `F_1`, `K_ap`, `rho_d`,
    `rho_s`, `alpha`.  /repo/sources/plugins/nonlinear_function_sgd/function.h. -/
@[ext] structure SgdS where
  par : Par
  v : ℕ → ℕ → ℝ

/-- `one_pi`.  /repo/sources/plugins/nonlinear_function_sgd/function.cpp 20. -/
def onePi : ℝ := 0.31830988618

/-- The value of one channel.
    /repo/sources/plugins/nonlinear_function_sgd/function.cpp 56-85, 153-189. -/
def sgdChannel (q : ℕ → ℝ) (inLight nh nl nv vh : ℝ) : ℝ :=
  let cos2 := nh * nh
  let tan2 := (1 - cos2) / cos2
  let ax := q 10 + tan2 / q 10
  let D := exp (-ax) / ax ^ q 4 * (onePi / (cos2 * cos2)) * q 7
  let G1 := fun c => 1 + q 3 * (1 - exp (q 0 * max (arccos c - q 1) 0 ^ q 2))
  let F := q 5 - vh * q 6 + (1 - q 5) * (1 - vh) ^ 5
  onePi * inLight * (q 8 + q 9 * D * G1 nl * G1 nv * F)

/-- `shifted_gamma_function`.
    /repo/sources/plugins/nonlinear_function_sgd/function.cpp 56-150. -/
def sgdCls : Cls SgdS where
  par s := s.par
  nb s := 11 * s.par.dimY
  get s := blocks 11 fun k => (List.range s.par.dimY).map fun i => s.v k i
  set s p := { s with
    v := fun k i => if k < 11 ∧ i < s.par.dimY then arr p (i + k * s.par.dimY) else s.v k i }
  lo s := defaultMin (11 * s.par.dimY)
  hi s := defaultMax (11 * s.par.dimY)
  value s x :=
    let hx := arr x 0 + arr x 3
    let hy := arr x 1 + arr x 4
    let hz := arr x 2 + arr x 5
    let len := √(hx * hx + hy * hy + hz * hz)
    let vh := (arr x 3 * hx + arr x 4 * hy + arr x 5 * hz) / len
    let inLight : ℝ := if arr x 2 < 0 then 0 else 1
    some ((List.range s.par.dimY).map fun i =>
      sgdChannel (fun k => s.v k i) inLight (hz / len) (arr x 2) (arr x 5) vh)
  jac s _ := some (List.replicate (s.par.dimY * (11 * s.par.dimY)) 0)

end
end Alta
